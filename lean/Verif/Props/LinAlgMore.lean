import Verif.Lemmas.Cov
import Verif.Lemmas.Lists
import Verif.Lemmas.Example
import Verif.Props.VectorReduce
import Verif.Props.VectorMisc
import Verif.Props.LinAlgElementwise

/-!
# C29: covariance matrices; C55: reductions of `MLPPLinAlg`; C56: functions on lists of matrices
-/

namespace Verif
open Spec LinAlg
variable {R : Type} {m n : Nat}

/-! ## C29 -/

/-- The covariance matrix of the rows: entry `(i, j)` is the sample covariance of row `i` and row `j`. -/
noncomputable def covMatrix (A : Matrix (Fin m) (Fin n) ℝ) : Matrix (Fin m) (Fin m) ℝ :=
  Matrix.of fun i j => sampleCov (List.ofFn (A i)) (List.ofFn (A j))

/-- **C29** (part): for a square matrix, `cov()`, `MLPPLinAlg::covnm(A)` return, and `covo(out)` (for `out` another matrix) writes, the
covariance matrix of the rows. Missing: matrices that are not square, below. -/
theorem C29_cov_square_partial (h : Heap ℝ) (w : h.WF) (a o : Nat) (A : Matrix (Fin n) (Fin n) ℝ) (hA : IsMat h a A)
    (la : h.live (.m a)) (lo : h.live (.m o)) (hne : a ≠ o) :
    ReturnsMat (Mat.cov a) h (covMatrix A) ∧ ReturnsMat (covnm (some (.m a))) h (covMatrix A) ∧
    SetsMat (Mat.covo a (some o)) h o (covMatrix A) :=
  ⟨Mat.cov_spec w hA la le_rfl, LinAlg.covnm_spec w hA la le_rfl, Mat.covo_spec w hA la lo hne le_rfl⟩

/-- **C29** (part): for a matrix with fewer columns than rows, the result is the covariance matrix of the rows cut to as many columns
as the operand has: `m × n` instead of `m × m`. -/
theorem C29_cov_tall_partial (h : Heap ℝ) (w : h.WF) (a : Nat) (A : Matrix (Fin m) (Fin n) ℝ) (hmn : n ≤ m) (hA : IsMat h a A)
    (la : h.live (.m a)) :
    ReturnsMat (Mat.cov a) h (Matrix.of fun (i : Fin m) (j : Fin n) => covMatrix A i (Fin.castLE hmn j)) ∧
    ReturnsMat (covnm (some (.m a))) h (Matrix.of fun (i : Fin m) (j : Fin n) => covMatrix A i (Fin.castLE hmn j)) :=
  ⟨Mat.cov_spec w hA la hmn, LinAlg.covnm_spec w hA la hmn⟩

/-- **C29** is false of matrices that are not square: for the one row `[1, 5, 0]` the result is a `1 × 3` matrix, not the `1 × 1`
variance; here with integers, whose cells are all the variance of row 0, because rows 1 and 2 do not exist. -/
theorem C29_cov_wide_fails : (Mat.cov 0 (Heap.ofLists (0 : Int) [] [(3, 1, [1, 5, 0])])).bufOf (.m 1) = some [7, 7, 7] := by
  decide +kernel

/-- **C29**: the covariance matrix is symmetric. -/
theorem C29_covMatrix_symm (A : Matrix (Fin m) (Fin n) ℝ) : (covMatrix A).transpose = covMatrix A := by
  ext i j
  show sampleCov _ _ = sampleCov _ _
  unfold sampleCov
  rw [List.zipWith_comm]
  simp only [mul_comm, List.length_ofFn]

example : ∃ (h : Heap ℝ) (A : Matrix (Fin 2) (Fin 2) ℝ), h.WF ∧ h.live (.m 0) ∧ h.live (.m 1) ∧ IsMat h 0 A ∧ covMatrix A 0 1 = -1 := by
  refine ⟨Heap.ofLists 0 [] [(2, 2, [1, 3, 4, 3]), (1, 1, [0])], !![1, 3; 4, 3], Heap.ofLists_wf _ _ _ (by simp),
    by simp [Heap.ofLists, Heap.live, Loc.id], by simp [Heap.ofLists, Heap.live, Loc.id],
    ⟨rfl, by intro i j; fin_cases i <;> fin_cases j <;> rfl⟩, ?_⟩
  simp [covMatrix, sampleCov, mean, List.ofFn_succ]
  norm_num

/-! ## C55 -/

/-- **C55**: `dotnv(a, b)` of vectors of equal length is the sum of the products, `euclidean_distance(_squared)` the distance (squared),
`norm_sqv` the sum of the squares, `sum_elementsv` the sum; nothing changes. -/
theorem C55_sums (h : Heap ℝ) (w : h.WF) (a b : Nat) (hs : (h.buf (.v a)).length = (h.buf (.v b)).length) :
    dotnv (some (.v a)) (some (.v b)) h = .ok (sumProd (h.buf (.v a)) (h.buf (.v b)), h) ∧
    LinAlg.euclidean_distance_squared (some (.v a)) (some (.v b)) h = .ok (sumSqDiff (h.buf (.v a)) (h.buf (.v b)), h) ∧
    LinAlg.euclidean_distance (some (.v a)) (some (.v b)) h = .ok (Real.sqrt (sumSqDiff (h.buf (.v a)) (h.buf (.v b))), h) ∧
    norm_sqv (some (.v a)) h = .ok (sumProd (h.buf (.v a)) (h.buf (.v a)), h) ∧
    sum_elementsv (some (.v a)) h = .ok ((h.buf (.v a)).sum, h) := by
  obtain ⟨e1, e2, _, e4, e5, e6⟩ := C12_reductions_values h w a b hs
  refine ⟨?_, e4, e5, e2, e6⟩
  unfold dotnv
  rw [bind_ok (derefV_run a h), bind_ok (Vec.size_run w a), bind_ok (derefV_run b h)]
  unfold Vec.dot at e1
  dsimp only at e1
  rwa [bind_ok (Vec.size_run w a)] at e1

/-- **C55**: operands of different lengths give 0 and nothing changes; so do null operands, except of `dotnv` and `sum_elementsv`. -/
theorem C55_rejects (h : Heap ℝ) (w : h.WF) (a b : Nat) (hs : (h.buf (.v a)).length ≠ (h.buf (.v b)).length) (r : Ref) :
    dotnv (some (.v a)) (some (.v b)) h = .ok (0, h) ∧
    LinAlg.euclidean_distance_squared (some (.v a)) (some (.v b)) h = .ok (0, h) ∧
    LinAlg.euclidean_distance (some (.v a)) (some (.v b)) h = .ok (0, h) ∧
    LinAlg.euclidean_distance_squared none r h = .ok (0, h) ∧ LinAlg.euclidean_distance none r h = .ok (0, h) ∧
    LinAlg.euclidean_distance_squared (some (.v a)) none h = .ok (0, h) ∧ LinAlg.euclidean_distance (some (.v a)) none h = .ok (0, h) ∧
    norm_sqv none h = .ok (0, h) := by
  refine ⟨?_, ?_, ?_, rfl, rfl, rfl, rfl, rfl⟩
  · unfold dotnv
    rw [bind_ok (derefV_run a h), bind_ok (Vec.size_run w a), bind_ok (derefV_run b h), bind_ok (Vec.size_run w b),
      if_neg (show ¬ (h.vec a).length = (h.vec b).length from hs)]; rfl
  · unfold LinAlg.euclidean_distance_squared
    dsimp only [Ref.vec?]
    rw [bind_ok (Vec.size_run w a), bind_ok (Vec.size_run w b), if_neg (show ¬ (h.vec a).length = (h.vec b).length from hs)]; rfl
  · unfold LinAlg.euclidean_distance
    dsimp only [Ref.vec?]
    rw [bind_ok (Vec.size_run w a), bind_ok (Vec.size_run w b), if_neg (show ¬ (h.vec a).length = (h.vec b).length from hs)]; rfl

/-- **C55** is false of a null operand of `dotnv` or `sum_elementsv`: it is dereferenced. -/
theorem C55_null_fails (h : Heap ℝ) (b : Ref) : dotnv none b h = .ub ∧ sum_elementsv (none : Ref) h = .ub := ⟨rfl, rfl⟩

/-- **C55**: `maxvr` and `minvr` of a non-empty vector of finite elements are its largest and its smallest element. -/
theorem C55_extrema [LinearOrder R] [Neg R] [HasInf R] (h : Heap R) (w : h.WF) (a : Nat) (hne : h.buf (.v a) ≠ [])
    (hlo : ∀ x ∈ h.buf (.v a), -(HasInf.inf : R) < x) (hhi : ∀ x ∈ h.buf (.v a), x < (HasInf.inf : R)) :
    (∃ x ∈ h.buf (.v a), maxvr (some (.v a)) h = .ok (x, h) ∧ ∀ y ∈ h.buf (.v a), y ≤ x) ∧
    ∃ x ∈ h.buf (.v a), minvr (some (.v a)) h = .ok (x, h) ∧ ∀ y ∈ h.buf (.v a), x ≤ y := by
  obtain ⟨r, h', e, rfl, ⟨k, e1, e2, e3, _⟩, ⟨k', e1', e2', e3', _⟩⟩ := runs_iff.mp (C13_extrema h w a hne hlo hhi)
  rw [bind_ok (Vec.max_element_run w a), bind_ok (Vec.max_element_index_run w a), bind_ok (Vec.min_element_run w a),
    bind_ok (Vec.min_element_index_run w a)] at e
  injection e with e
  have er := congrArg Prod.fst e
  dsimp only at er
  subst er
  exact ⟨⟨_, List.mem_of_getElem? e2, Vec.max_element_run w a, e3⟩, ⟨_, List.mem_of_getElem? e2', Vec.min_element_run w a, e3'⟩⟩

example : (Heap.ofLists (0 : ℝ) [[1, 2], [4, 6], [1]] []).WF := Heap.ofLists_wf _ _ _ (by simp)

/-! ## C56 -/

/-- **C56**: the functions of one list of matrices return a list of new, pairwise different matrices, entry by entry the operation on
every cell. -/
theorem C56_lists1 [MathFns R] [Add R] [Mul R] (k p : R) :
    MapsList MathFns.sqrt (sqrtnvt (R := R)) ∧ MapsList (fun x => MathFns.pow x p) (fun A => exponentiatenvt A p) ∧
    MapsList (fun x => x * k) (scalar_multiplynvt k) ∧ MapsList (fun x => x + k) (scalar_addnvt k) :=
  ⟨mapL_maps (unM_lifts _), mapL_maps (unM_lifts _), mapL_maps (dupM_lifts _), mapL_maps (dupM_lifts _)⟩

/-- **C56**: the functions of two lists of equal length with entries of equal shapes. -/
theorem C56_lists2 [Add R] [Div R] [LT R] [DecidableLT R] :
    MapsList2 (fun x y : R => x + y) additionnvt ∧ MapsList2 (fun x y : R => x / y) division_element_wisenvnvt ∧
    MapsList2 (R := R) maxC maxnvt :=
  ⟨zipL_maps (binM_lifts _), zipL_maps (gridM_lifts _), zipL_maps C50_maxnm_partial⟩

/-- **C56**: `resizencvt` returns a list of new, pairwise different matrices with the extents of the entries (their contents are
unspecified), and changes no existing object. -/
theorem C56_resizencvt (h : Heap R) (w : h.WF) (zs : List Nat) (hl : ∀ z ∈ zs, h.live (.m z)) :
    Runs (resizencvt (zs.map fun z => some (.m z))) h fun r h' => ∃ os : List Nat, r = os.map (fun o => some (.m o)) ∧ os.Nodup ∧
      h'.WF ∧ Keeps h h' (fun _ => False) ∧ (∀ o ∈ os, ¬ h.live (.m o) ∧ h'.live (.m o)) ∧
      List.Forall₂ (fun z o => h'.size (.m o) = h.size (.m z)) zs os := by
  unfold resizencvt
  induction zs generalizing h with
  | nil => exact ⟨[], rfl, List.nodup_nil, w, Keeps.refl _ _, by simp, List.Forall₂.nil⟩
  | cons z zs ih =>
    have lz := hl z (by simp)
    have e := newMat_size (h := h) (l := .m z) lz fun (o : Loc) s => do resizeTo o s; pure (some o : Ref)
    refine Runs.bind (Runs.mono (Runs.congr e (Q := fun r h' => ∃ o, r = some (.m o) ∧ ¬ h.live (.m o) ∧ h'.live (.m o) ∧ h'.WF ∧
      Keeps h h' (fun _ => False) ∧ h'.size (.m o) = h.size (.m z))
      (Runs.newMat w (w.mat z) fun h1 w1 k1 f1 l1 s1 => ⟨h.next, rfl, f1, l1, w1, k1, s1⟩)) ?_)
    rintro _ h1 ⟨o, rfl, f1, l1, w1, k1, s1⟩
    refine Runs.bind (Runs.mono (ih h1 w1 fun z hz => k1.live (hl z (by simp [hz]))) ?_)
    rintro _ h2 ⟨os, rfl, nd, w2, k2, fr, fa⟩
    refine ⟨o :: os, rfl, List.nodup_cons.mpr ⟨fun ho => (fr o ho).1 l1, nd⟩, w2, k1.trans k2, ?_, List.Forall₂.cons ?_ ?_⟩
    · intro o' ho
      rcases List.mem_cons.mp ho with rfl | ho
      · exact ⟨f1, k2.live l1⟩
      · exact ⟨fun q => (fr o' ho).1 (k1.live q), (fr o' ho).2⟩
    · rw [(k2.2 _ l1 id).2, s1]
    · have hl' : ∀ z ∈ zs, h.live (.m z) := fun z hz => hl z (by simp [hz])
      clear ih nd fr hl e
      induction fa with
      | nil => exact List.Forall₂.nil
      | cons q _ ih => exact List.Forall₂.cons (by rw [q, (k1.2 _ (hl' _ (by simp)) id).2]) (ih fun z hz => hl' z (by simp [hz]))

/-- **C56** is false of `absnvt`: the absolute values are computed and dropped, and the argument's own matrices are returned. -/
theorem C56_absnvt_fails [LT R] [DecidableLT R] [Neg R] [Zero R] (h : Heap R) (w : h.WF) (zs : List Nat) (hl : ∀ z ∈ zs, h.live (.m z)) :
    Runs (absnvt (zs.map fun z => some (.m z))) h fun r h' => r = (zs.map fun z => some (.m z)) ∧ Keeps h h' (fun _ => False) := by
  unfold absnvt
  refine Runs.bind (Runs.mono (mapL_maps (unM_lifts absC) h w zs hl) ?_)
  rintro _ h' ⟨_, _, _, _, k, _⟩
  exact ⟨rfl, k⟩

/-- **C56** is false of a second list shorter than the first: the access past its end crashes. -/
theorem C56_short_list_fails [Add R] (a : Ref) (h : Heap R) : additionnvt [a] [] h = .crash := rfl

/-- The hypotheses of `MapsList2` are met by two lists of two matrices. -/
example : ∃ h : Heap ℝ, h.WF ∧ ∀ z ∈ [(0, 1), (2, 3)], h.live (.m z.1) ∧ h.live (.m z.2) ∧ h.size (.m z.1) = h.size (.m z.2) :=
  ⟨Heap.ofLists 0 [] [(1, 2, [1, 2]), (1, 2, [3, 4]), (1, 1, [5]), (1, 1, [6])], Heap.ofLists_wf _ _ _ (by simp), by
    intro z hz; fin_cases hz <;> exact ⟨by simp [Heap.ofLists, Heap.live, Loc.id], by simp [Heap.ofLists, Heap.live, Loc.id], rfl⟩⟩

end Verif
