import Verif.Lemmas.MatrixInv
import Verif.Lemmas.Example
import Verif.Real
import Mathlib.LinearAlgebra.Matrix.Notation
import Mathlib.Tactic.FinCases
import Mathlib.Tactic.LinearCombination
import Mathlib.Tactic.NormNum.Inv

/-!
# C21-C24, C26-C28: determinant, adjugate, inverse, solve, powers, identity, pseudo-inverse, rotations

Exact real arithmetic (`ℝ`), except where the statement holds for any element type.
-/

namespace Verif
open Spec
open Matrix (adjugate)
variable {R : Type} {m n : Nat}

theorem powNegOne_real : PowNegOne ℝ := fun _ => Real.rpow_natCast _ _

/-! ## C21 -/

/-- **C21**, for `n × n` matrices with `n ≥ 2`: `det()` is the determinant and no existing object is changed.
Missing: `n = 1` (and 0), see `C21_det_one_by_one_fails`. -/
theorem C21_det_partial (h : Heap ℝ) (w : h.WF) (a : Nat) (hn : 2 ≤ n) (A : Matrix (Fin n) (Fin n) ℝ) (hA : IsMat h a A)
    (la : h.live (.m a)) : ReturnsVal (Mat.det a) h A.det := det_spec powNegOne_real w hn hA la

/-- **C21** is false for every 1 × 1 matrix with a non-zero entry: `det()` returns 0. -/
theorem C21_det_one_by_one_fails (h : Heap ℝ) (w : h.WF) (a : Nat) (A : Matrix (Fin 1) (Fin 1) ℝ) (hA : IsMat h a A)
    (la : h.live (.m a)) : ReturnsVal (Mat.det a) h 0 := by
  obtain ⟨F, eF, cA⟩ := hA.cells w
  unfold Mat.det
  refine Runs.step (Mat.size_run a h) ?_
  rw [cA.1]
  unfold Mat.detb
  refine Runs.newMat w rfl fun h2 w2 k2 f2 l2 s2 => Runs.fill w2 s2 ?_
  have na : Loc.m a ≠ .m h.next := live_ne_fresh la rfl
  have hA1 := (cA.keep k2 la nofun).Gr (c' := 0 + 1) (r' := 0 + 1) (G := fun _ _ => (0 : ℝ)) na
  simp only [foldN, loop, pure_bind, Nat.reduceAdd, bind_pure]
  refine Runs.step (Mat.element_get_run hA1 (i := 0) (j := 0) (by omega) (by omega)) ?_
  unfold Mat.detb
  simp only [bind_assoc]
  have kk := k2.trans_new (Gr_updated h2 (.m h.next) (fun _ _ => (0 : ℝ)) s2).keeps (fun _ e hl' => f2 (e ▸ hl'))
  refine Runs.newMat (Gr_wf w2 _ s2) rfl fun h3 w3 k3 f3 l3 s3 => Runs.fill w3 s3 ?_
  simp only [pure_bind]
  refine ⟨by simp, Gr_wf w3 _ s3, ?_⟩
  exact (kk.trans k3).trans_new (Gr_updated h3 _ _ s3).keeps (fun _ e hl' => f3 (e ▸ kk.live hl'))

/-- The hypotheses of `C21_det_partial` are met by a 3 × 3 matrix. -/
example : ∃ (h : Heap ℝ) (A : Matrix (Fin 3) (Fin 3) ℝ), h.WF ∧ h.live (.m 0) ∧ IsMat h 0 A ∧ A.det = 6 :=
  ⟨Heap.ofLists 0 [] [(3, 3, [1, 0, 0, 0, 2, 0, 0, 0, 3])], !![1, 0, 0; 0, 2, 0; 0, 0, 3],
    Heap.ofLists_wf _ _ _ (by simp), Nat.lt_succ_self 0,
    ⟨rfl, by intro i j; fin_cases i <;> fin_cases j <;> rfl⟩, by simp [Matrix.det_fin_three]; norm_num⟩

/-! ## C22 -/

/-- **C22**, `adjoint()` and `adjointo(out)` give the adjugate of any square matrix (for `adjointo`, into another object). -/
theorem C22_adjoint (h : Heap ℝ) (w : h.WF) (a : Nat) (A : Matrix (Fin n) (Fin n) ℝ) (hA : IsMat h a A) (la : h.live (.m a)) :
    ReturnsMat (Mat.adjoint a) h (adjugate A) ∧
    ∀ t, h.live (.m t) → a ≠ t → SetsMat (Mat.adjointo a (some t)) h t (adjugate A) :=
  ⟨Mat.adjoint_spec powNegOne_real w hA la, fun _ lt hat => Mat.adjointo_spec powNegOne_real w hA la lt hat⟩

/-- **C22**, `inverse()`/`inverseo(out)` of an invertible `n × n` matrix, `n ≥ 2`: the result is a two-sided inverse.
Missing: `n = 1`, see `C22_inverse_one_by_one_fails`. The target of `inverseo` may be any object, also the matrix. -/
theorem C22_inverse_partial (h : Heap ℝ) (w : h.WF) (a : Nat) (hn : 2 ≤ n) (A : Matrix (Fin n) (Fin n) ℝ) (hA : IsMat h a A)
    (la : h.live (.m a)) (hd : A.det ≠ 0) : ∃ B : Matrix (Fin n) (Fin n) ℝ, A * B = 1 ∧ B * A = 1 ∧
      ReturnsMat (Mat.inverse a) h B ∧ ∀ t, SetsMat (Mat.inverseo a (some t)) h t B :=
  ⟨A⁻¹, Matrix.mul_nonsing_inv A (Ne.isUnit hd), Matrix.nonsing_inv_mul A (Ne.isUnit hd),
    Mat.inverse_spec powNegOne_real w hn hA la, fun _ => Mat.inverseo_spec powNegOne_real w hn hA la⟩

/-- **C22** is false of 1 × 1 matrices: `inverse()` of `[x]` is `[1/0]`, whatever `x` is (with reals, `1/0 = 0`; in floating
point, infinity). -/
theorem C22_inverse_one_by_one_fails (h : Heap ℝ) (w : h.WF) (a : Nat) (A : Matrix (Fin 1) (Fin 1) ℝ) (hA : IsMat h a A)
    (la : h.live (.m a)) : ReturnsMat (Mat.inverse a) h (fun (_ _ : Fin 1) => (1 / 0 : ℝ)) := by
  unfold Mat.inverse
  refine (Mat.adjoint_spec powNegOne_real w hA la).bind fun o h1 w1 k1 f1 l1 hA1 => ?_
  refine Runs.step (derefM_run o h1) ?_
  have hA' := hA.keep k1 la nofun
  have rd := C21_det_one_by_one_fails h1 w1 a A hA' (k1.live la)
  refine rd.bind fun h2 w2 k2 => ?_
  refine (k1.trans k2).returnsMat (Mat.scalar_multiplyn_spec w2 (hA1.keep k2 l1 nofun) (k2.live l1) (1 / 0)) ?_
  intro o' h3 f3 l3 w3 k3 hA3
  refine ⟨o', rfl, f3, l3, w3, k3, ?_⟩
  have : (fun (_ _ : Fin 1) => (1 / 0 : ℝ)) = (adjugate A).map (· * (1 / 0 : ℝ)) := by
    ext i j; simp
  rw [this]; exact hA3

/-! ## C23 -/

/-- **C23**, for `n ≥ 2`: `solve(b)` returns the unique solution of `A x = b`. Missing: `n = 1` (the inverse of a 1 × 1
matrix is wrong, `C22_inverse_one_by_one_fails`). -/
theorem C23_solve_partial (h : Heap ℝ) (w : h.WF) (a b : Nat) (hn : 2 ≤ n) (A : Matrix (Fin n) (Fin n) ℝ) (v : Fin n → ℝ)
    (hA : IsMat h a A) (hB : IsVec h b v) (la : h.live (.m a)) (lb : h.live (.v b)) (hd : A.det ≠ 0) :
    ∃ x, ReturnsVec (Mat.solve a (some b)) h x ∧ A.mulVec x = v ∧ ∀ y, A.mulVec y = v → y = x := by
  refine ⟨_, Mat.solve_spec powNegOne_real w hn hA hB la lb, ?_, ?_⟩
  · rw [Matrix.mulVec_mulVec, Matrix.mul_nonsing_inv A (Ne.isUnit hd), Matrix.one_mulVec]
  · rintro y rfl
    rw [Matrix.mulVec_mulVec, Matrix.nonsing_inv_mul A (Ne.isUnit hd), Matrix.one_mulVec]

example : ∃ (h : Heap ℝ) (A : Matrix (Fin 2) (Fin 2) ℝ) (v : Fin 2 → ℝ), h.WF ∧ h.live (.m 0) ∧ h.live (.v 0) ∧ IsMat h 0 A ∧
    IsVec h 0 v ∧ A.det ≠ 0 :=
  ⟨Heap.ofLists 0 [[5, 6]] [(2, 2, [1, 2, 3, 4])], !![1, 2; 3, 4], ![5, 6],
    Heap.ofLists_wf _ _ _ (by simp), Nat.succ_pos _, Nat.succ_pos _,
    ⟨rfl, by intro i j; fin_cases i <;> fin_cases j <;> rfl⟩, ⟨rfl, by intro i; fin_cases i <;> rfl⟩,
    by simp [Matrix.det_fin_two]; norm_num⟩

/-- **C23** is false of 1 × 1 systems: `solve(b)` of `[x]` is `[b · (1/0)]`, whatever `x` is. -/
theorem C23_one_by_one_fails (h : Heap ℝ) (w : h.WF) (a b : Nat) (A : Matrix (Fin 1) (Fin 1) ℝ) (v : Fin 1 → ℝ)
    (hA : IsMat h a A) (hB : IsVec h b v) (la : h.live (.m a)) (lb : h.live (.v b)) :
    ReturnsVec (Mat.solve a (some b)) h (fun _ : Fin 1 => (1 / 0 : ℝ) * v 0) := by
  unfold Mat.solve
  refine (C22_inverse_one_by_one_fails h w a A hA la).bind fun o h1 w1 k1 f1 l1 hA1 => ?_
  refine Runs.step (derefM_run o h1) ?_
  refine k1.returnsVec (Mat.mult_vec_spec w1 hA1 (hB.keep k1 lb nofun) l1 (k1.live lb))
    fun o' h3 f3 l3 w3 k3 hA3 => ⟨o', rfl, f3, l3, w3, k3, ?_⟩
  refine cast (congrArg _ (funext fun i => ?_)) hA3
  simp [Matrix.mulVec, dotProduct]

/-! ## C24 -/

/-- **C24**, non-negative exponents: `matrix_powern(k)` is the `k`-th power of any square matrix. -/
theorem C24_powern_nonneg (h : Heap ℝ) (w : h.WF) (a : Nat) (A : Matrix (Fin n) (Fin n) ℝ) (hA : IsMat h a A)
    (la : h.live (.m a)) (k : Nat) : ReturnsMat (Mat.matrix_powern a k) h (A ^ k) := by
  have := Mat.matrix_powern_spec powNegOne_real w hA la (k : Int) (by omega)
  rwa [zpow_natCast] at this

/-- **C24**, negative exponents, for invertible `n × n` matrices with `n ≥ 2`: the power of the inverse. Missing: `n = 1`. -/
theorem C24_powern_neg_partial (h : Heap ℝ) (w : h.WF) (a : Nat) (hn : 2 ≤ n) (A : Matrix (Fin n) (Fin n) ℝ) (hA : IsMat h a A)
    (la : h.live (.m a)) (hd : A.det ≠ 0) (k : Nat) :
    ∃ B, A * B = 1 ∧ ReturnsMat (Mat.matrix_powern a (-(k : Int))) h (B ^ k) := by
  refine ⟨A⁻¹, Matrix.mul_nonsing_inv A (Ne.isUnit hd), ?_⟩
  have := Mat.matrix_powern_spec powNegOne_real w hA la (-(k : Int)) (fun _ => hn)
  rwa [Matrix.zpow_neg_natCast, ← Matrix.inv_pow'] at this

/-- **C24** is false of 1 × 1 matrices and negative exponents: the result is a power of `[1/0]`, whatever the matrix is. -/
theorem C24_powern_neg_one_by_one_fails (h : Heap ℝ) (w : h.WF) (a : Nat) (A : Matrix (Fin 1) (Fin 1) ℝ) (hA : IsMat h a A)
    (la : h.live (.m a)) (k : Nat) (hk : 0 < k) :
    ReturnsMat (Mat.matrix_powern a (-(k : Int))) h ((Matrix.of fun (_ _ : Fin 1) => (1 / 0 : ℝ)) ^ k) := by
  unfold Mat.matrix_powern
  refine Runs.step (Mat.size_run a h) ?_
  rw [hA.1, if_neg (by omega)]
  refine (Mat.identity_mat_spec w 1).bind fun b h1 w1 k1 f1 l1 hB => ?_
  refine Runs.step (derefM_run b h1) ?_
  rw [if_pos (by omega)]
  refine (C22_inverse_one_by_one_fails h1 w1 a A (hA.keep k1 la nofun) (k1.live la)).bind fun i h2 w2 k2 f2 l2 hI => ?_
  refine Runs.step (derefM_run i h2) ?_
  have e : (-(k : Int)).natAbs = k := by simp
  rw [e]
  exact (Mat.powLoop_spec w2 hI (hB.keep k2 l1 nofun) l2 (k2.live l1) (fun e => f2 (e ▸ l1)) k).returns
    (k1.trans k2) f1 (k2.live l1)

/-! ## C26 -/

/-- **C26**, `identity_mat(d)` is the identity matrix, for any element type. -/
theorem C26_identity_mat [Zero R] [One R] (h : Heap R) (w : h.WF) (d : Nat) :
    ReturnsMat (Mat.identity_mat d) h (1 : Matrix (Fin d) (Fin d) R) := Mat.identity_mat_spec w d

/-- **C26**, the identity is neutral for `multn` on both sides. -/
theorem C26_identity_neutral [Semiring R] (h : Heap R) (w : h.WF) (a : Nat) (A : Matrix (Fin m) (Fin n) R) (hA : IsMat h a A)
    (la : h.live (.m a)) :
    ReturnsMat (do let i ← Mat.identity_mat m; let o ← derefM i; Mat.multn o (some a)) h A ∧
    ReturnsMat (do let i ← Mat.identity_mat n; let o ← derefM i; Mat.multn a (some o)) h A := by
  constructor
  · refine (Mat.identity_mat_spec w m).bind fun o h1 w1 k1 f1 l1 h1A => ?_
    refine Runs.step (derefM_run o h1) ?_
    refine k1.returnsMat (Mat.multn_spec w1 h1A (hA.keep k1 la nofun) l1 (k1.live la)) ?_
    intro o' h3 f3 l3 w3 k3 hA3
    rw [Matrix.one_mul] at hA3
    exact ⟨o', rfl, f3, l3, w3, k3, hA3⟩
  · refine (Mat.identity_mat_spec w n).bind fun o h1 w1 k1 f1 l1 h1A => ?_
    refine Runs.step (derefM_run o h1) ?_
    refine k1.returnsMat (Mat.multn_spec w1 (hA.keep k1 la nofun) h1A (k1.live la) l1) ?_
    intro o' h3 f3 l3 w3 k3 hA3
    rw [Matrix.mul_one] at hA3
    exact ⟨o', rfl, f3, l3, w3, k3, hA3⟩

/-- **C26**, `identity()`/`identityn()` keep the shape and put ones on the main diagonal, zeros elsewhere. -/
theorem C26_identity [Zero R] [One R] (h : Heap R) (w : h.WF) (a : Nat) (la : h.live (.m a)) (hs : h.size (.m a) = ⟨n, m, 1⟩) :
    SetsMat (Mat.identity a) h a (eyeRect R m n) ∧ ReturnsMat (Mat.identityn a) h (eyeRect R m n) :=
  ⟨Mat.identity_spec w hs, Mat.identityn_spec w la hs⟩

/-- **C26**, `matn_zero(rows, cols)`, `matn_one`, `matn_full` are constant matrices with that many rows and columns. -/
theorem C26_constant [Zero R] [One R] [IntCast R] (h : Heap R) (w : h.WF) (r c : Nat) (k : Int) :
    ReturnsMat (Mat.matn_zero r c) h (fun (_ : Fin r) (_ : Fin c) => (0 : R)) ∧
    ReturnsMat (Mat.matn_one r c) h (fun (_ : Fin r) (_ : Fin c) => (1 : R)) ∧
    ReturnsMat (Mat.matn_full r c k) h (fun (_ : Fin r) (_ : Fin c) => (k : R)) :=
  ⟨Mat.const_spec w r c 0, Mat.const_spec w r c 1, Mat.const_spec w r c (k : R)⟩

/-- **C26**, `trace()` is the sum of the diagonal. -/
theorem C26_trace [AddCommMonoid R] (h : Heap R) (w : h.WF) (a : Nat) (A : Matrix (Fin n) (Fin n) R) (hA : IsMat h a A) :
    ReturnsVal (Mat.trace a) h (∑ i, A i i) := Mat.trace_spec w hA

/-- **C26**, `diagonal_set`/`diagonal_setn` replace the diagonal as far as the vector reaches and keep the rest;
`diagonal_zeroed`/`diagonal_zeroedn` have zeros elsewhere. Any shape, any vector length. -/
theorem C26_diagonal [Zero R] {k : Nat} (h : Heap R) (w : h.WF) (a b : Nat) (A : Matrix (Fin m) (Fin n) R) (v : Fin k → R)
    (hA : IsMat h a A) (hB : IsVec h b v) (la : h.live (.m a)) (lb : h.live (.v b)) :
    SetsMat (Mat.diagonal_set a (some b)) h a (diagReplace A v) ∧
    ReturnsMat (Mat.diagonal_setn a (some b)) h (diagReplace A v) ∧
    SetsMat (Mat.diagonal_zeroed a (some b)) h a (diagReplace (0 : Matrix (Fin m) (Fin n) R) v) ∧
    ReturnsMat (Mat.diagonal_zeroedn a (some b)) h (diagReplace (0 : Matrix (Fin m) (Fin n) R) v) :=
  ⟨Mat.diagonal_set_spec w hA hB, Mat.diagonal_setn_spec w hA hB la lb, Mat.diagonal_zeroed_spec w hA.1 hB,
    Mat.diagonal_zeroedn_spec w la lb hA.1 hB⟩

/-- **C26.** Without a vector `diagonal_set` changes nothing and the copying forms return null and change nothing. -/
theorem C26_diagonal_null [Zero R] (h : Heap R) (a : Nat) :
    Mat.diagonal_set a none h = .ok ((), h) ∧ Mat.diagonal_setn a none h = .ok (none, h) ∧
    Mat.diagonal_zeroedn a none h = .ok (none, h) := ⟨rfl, rfl, rfl⟩

/-- For a square matrix and a vector of the same size, `diagReplace 0 v` is the diagonal matrix. -/
theorem C26_diagonal_square [Zero R] (v : Fin n → R) : diagReplace (0 : Matrix (Fin n) (Fin n) R) v = Matrix.diagonal v := by
  ext i j
  unfold diagReplace
  rw [Matrix.diagonal_apply]
  by_cases e : i = j
  · subst e; simp
  · rw [if_neg e, if_neg (fun h => e (Fin.ext h))]; rfl

/-- **C09 (matrices)** is false of `diagonal_zeroed(null)`: the matrix is zeroed although the call is rejected. -/
theorem C09_diagonal_zeroed_null_fails :
    (Mat.diagonal_zeroed 0 none (Heap.ofLists (0 : Int) [] [(2, 2, [1, 2, 3, 4])])).bufOf (.m 0) = some [0, 0, 0, 0] := by
  decide +kernel

example : (Mat.diagonal_set 0 (some 0) (Heap.ofLists (0 : Int) [[7, 8, 9]] [(3, 2, [1, 2, 3, 4, 5, 6])])).bufOf (.m 0) =
    some [7, 2, 3, 4, 8, 6] := by decide +kernel

/-! ## C27 -/

/-- **C27** is false of every matrix that is not square: `pinverse()` dereferences a null handle. -/
theorem C27_pinverse_nonsquare_fails (h : Heap ℝ) (a : Nat) (hs : (h.size (.m a)).x ≠ (h.size (.m a)).y) :
    Mat.pinverse a h = .ub := by
  unfold Mat.pinverse
  have : Mat.multn a (some a) h = .ok (none, h) := by
    unfold Mat.multn; dsimp only
    rw [bind_ok (Mat.size_run a h), bind_ok (Mat.size_run a h), if_neg hs]; rfl
  rw [bind_ok this]
  exact bind_ub rfl

/-- What `pinverse()` computes for an invertible square matrix (`n ≥ 2`): the inverse of the transpose. -/
theorem C27_pinverse_square (h : Heap ℝ) (w : h.WF) (a : Nat) (hn : 2 ≤ n) (A : Matrix (Fin n) (Fin n) ℝ) (hA : IsMat h a A)
    (la : h.live (.m a)) (hd : A.det ≠ 0) : ReturnsMat (Mat.pinverse a) h (A.transpose)⁻¹ := by
  unfold Mat.pinverse
  refine (Mat.multn_spec w hA hA la la).bind fun o1 h1 w1 k1 f1 l1 hA1 => ?_
  refine Runs.step (derefM_run o1 h1) ?_
  refine (Mat.transposen_spec w1 hA1 l1).bind fun o2 h2 w2 k2 f2 l2 hA2 => ?_
  refine Runs.step (derefM_run o2 h2) ?_
  refine (Mat.inverse_spec powNegOne_real w2 hn hA2 l2).bind fun o3 h3 w3 k3 f3 l3 hA3 => ?_
  refine Runs.step (derefM_run o3 h3) ?_
  have k13 := (k1.trans k2).trans k3
  refine (Mat.transposen_spec w3 (hA.keep k13 la nofun) (k13.live la)).bind fun o4 h4 w4 k4 f4 l4 hA4 => ?_
  refine Runs.step (derefM_run o4 h4) ?_
  refine (k13.trans k4).returnsMat (Mat.multn_spec w4 (hA3.keep k4 l3 nofun) hA4 (k4.live l3) l4) ?_
  intro o' h5 f5 l5 w5 k5 hA5
  refine ⟨o', rfl, f5, l5, w5, k5, ?_⟩
  have hu : IsUnit A.transpose.det := by rw [Matrix.det_transpose]; exact Ne.isUnit hd
  have : ((A * A).transpose)⁻¹ * A.transpose = (A.transpose)⁻¹ := by
    rw [Matrix.transpose_mul, Matrix.mul_inv_rev, Matrix.mul_assoc, Matrix.nonsing_inv_mul _ hu, Matrix.mul_one]
  rw [← this]; exact hA5

/-- **C27**, for symmetric invertible matrices (`n ≥ 2`): `pinverse()` is a left inverse. Missing: everything else; see
`C27_pinverse_square` (non-symmetric: wrong) and `C27_pinverse_nonsquare_fails`. -/
theorem C27_pinverse_symmetric_partial (h : Heap ℝ) (w : h.WF) (a : Nat) (hn : 2 ≤ n) (A : Matrix (Fin n) (Fin n) ℝ)
    (hA : IsMat h a A) (la : h.live (.m a)) (hd : A.det ≠ 0) (hs : A.transpose = A) :
    ∃ P, ReturnsMat (Mat.pinverse a) h P ∧ P * A = 1 := by
  refine ⟨_, C27_pinverse_square h w a hn A hA la hd, ?_⟩
  rw [hs]; exact Matrix.nonsing_inv_mul A (Ne.isUnit hd)

/-- **C27** is false of non-symmetric square matrices: for `[[1,1],[0,1]]`, wherever it is stored, the matrix returned is
not a left inverse. -/
theorem C27_pinverse_nonsymmetric_fails (h : Heap ℝ) (w : h.WF) (a : Nat)
    (hA : IsMat h a (!![1, 1; 0, 1] : Matrix (Fin 2) (Fin 2) ℝ)) (la : h.live (.m a)) :
    ∃ P, ReturnsMat (Mat.pinverse a) h P ∧ P * (!![1, 1; 0, 1] : Matrix (Fin 2) (Fin 2) ℝ) ≠ 1 := by
  refine ⟨_, C27_pinverse_square h w a (le_refl 2) _ hA la (by simp [Matrix.det_fin_two]), ?_⟩
  intro e
  have h2 : (!![1, 1; 0, 1] : Matrix (Fin 2) (Fin 2) ℝ).transpose *
      (((!![1, 1; 0, 1] : Matrix (Fin 2) (Fin 2) ℝ).transpose)⁻¹ * !![1, 1; 0, 1]) =
      (!![1, 1; 0, 1] : Matrix (Fin 2) (Fin 2) ℝ).transpose := by rw [e, mul_one]
  rw [← Matrix.mul_assoc, Matrix.mul_nonsing_inv _ (by simp [Matrix.det_fin_two]), one_mul] at h2
  have := congrFun (congrFun h2 0) 1
  simp at this

/-! ## C28 -/

/-- A proper rotation. -/
def IsRotation (A : Matrix (Fin n) (Fin n) ℝ) : Prop := A.transpose * A = 1 ∧ A.det = 1

theorem rotation_returns (h : Heap ℝ) (w : h.WF) (d : Nat) (xs : List ℝ) (hx : xs.length = d * d)
    (A : Matrix (Fin d) (Fin d) ℝ) (hA : ∀ i j : Fin d, xs[i.val * d + j.val]? = some (A i j)) :
    ReturnsMat (do
      let r ← newMat
      resizeTo r ⟨d, d, 1⟩
      storeList r xs
      pure (some r)) h A := by
  refine Runs.newMat w rfl fun h1 w1 k1 f1 l1 s1 => ?_
  refine Runs.step (storeList_run _ xs h1 (by rw [w1.len, s1, count_mat, hx])) ?_
  have u := updated_setBuf h1 (.m h.next) xs
  exact ⟨h.next, rfl, f1, l1, u.wf w1 (by rw [s1, count_mat, hx]) nofun (fun _ _ => by rw [s1]),
    k1.trans_new u.keeps (fun _ e hl' => f1 (e ▸ hl')), s1, fun i j => by rw [u.buf]; exact hA i j⟩

theorem rotation_matrix_0 (h : Heap ℝ) (w : h.WF) (θ : ℝ) : ReturnsMat (Mat.create_rotation_matrix θ 0) h
    !![1, 0, 0; 0, Real.cos θ, -Real.sin θ; 0, Real.sin θ, Real.cos θ] := by
  have := rotation_returns h w 3 [1, 0, 0, 0, Real.cos θ, -Real.sin θ, 0, Real.sin θ, Real.cos θ] rfl
    !![1, 0, 0; 0, Real.cos θ, -Real.sin θ; 0, Real.sin θ, Real.cos θ]
    (by intro i j; fin_cases i <;> fin_cases j <;> rfl)
  unfold Mat.create_rotation_matrix
  simpa [MathFns.cos, MathFns.sin] using this

theorem rotation_matrix_1 (h : Heap ℝ) (w : h.WF) (θ : ℝ) : ReturnsMat (Mat.create_rotation_matrix θ 1) h
    !![Real.cos θ, 0, Real.sin θ; 0, 1, 0; -Real.sin θ, 0, Real.cos θ] := by
  have := rotation_returns h w 3 [Real.cos θ, 0, Real.sin θ, 0, 1, 0, -Real.sin θ, 0, Real.cos θ] rfl
    !![Real.cos θ, 0, Real.sin θ; 0, 1, 0; -Real.sin θ, 0, Real.cos θ]
    (by intro i j; fin_cases i <;> fin_cases j <;> rfl)
  unfold Mat.create_rotation_matrix
  simpa [MathFns.cos, MathFns.sin] using this

/-- **C28**, axes 0 and 1: a rotation that fixes its axis, for every angle. Missing: axes -1 and 2, which are wrong
(`C28_axis_none_fails`, `C28_axis_z_fails`). -/
theorem C28_rotation_partial (h : Heap ℝ) (w : h.WF) (θ : ℝ) :
    (∃ A : Matrix (Fin 3) (Fin 3) ℝ, ReturnsMat (Mat.create_rotation_matrix θ 0) h A ∧ IsRotation A ∧
      A.mulVec ![1, 0, 0] = ![1, 0, 0]) ∧
    (∃ A : Matrix (Fin 3) (Fin 3) ℝ, ReturnsMat (Mat.create_rotation_matrix θ 1) h A ∧ IsRotation A ∧
      A.mulVec ![0, 1, 0] = ![0, 1, 0]) := by
  have t := Real.sin_sq_add_cos_sq θ
  refine ⟨⟨_, rotation_matrix_0 h w θ, ⟨?_, ?_⟩, ?_⟩, ⟨_, rotation_matrix_1 h w θ, ⟨?_, ?_⟩, ?_⟩⟩
  · ext i j
    fin_cases i <;> fin_cases j <;> simp [Matrix.mul_apply, Fin.sum_univ_three] <;>
      first | ring1 | linear_combination t
  · simp [Matrix.det_fin_three]; linear_combination t
  · ext i; fin_cases i <;> simp [Matrix.mulVec, dotProduct, Fin.sum_univ_three]
  · ext i j
    fin_cases i <;> fin_cases j <;> simp [Matrix.mul_apply, Fin.sum_univ_three] <;>
      first | ring1 | linear_combination t
  · simp [Matrix.det_fin_three]; linear_combination t
  · ext i; fin_cases i <;> simp [Matrix.mulVec, dotProduct, Fin.sum_univ_three]

/-- **C28**: rotating the rows of a matrix (`rotaten`, axes 0 and 1) preserves their squared lengths. -/
theorem C28_rotaten_preserves_length_partial (h : Heap ℝ) (w : h.WF) (θ : ℝ) (axis : Int) (hax : axis = 0 ∨ axis = 1) (a : Nat)
    (A : Matrix (Fin m) (Fin 3) ℝ) (hA : IsMat h a A) (la : h.live (.m a)) :
    ∃ B : Matrix (Fin m) (Fin 3) ℝ, ReturnsMat (Mat.rotaten a θ axis) h B ∧ ∀ i, ∑ j, B i j ^ 2 = ∑ j, A i j ^ 2 := by
  have t := Real.sin_sq_add_cos_sq θ
  have key : ∀ C : Matrix (Fin 3) (Fin 3) ℝ, ReturnsMat (Mat.create_rotation_matrix θ axis) h C →
      ReturnsMat (Mat.rotaten a θ axis) h (A * C) := by
    intro C hC
    unfold Mat.rotaten
    refine hC.bind fun o h1 w1 k1 f1 l1 h1A => ?_
    refine Runs.step (derefM_run o h1) ?_
    exact k1.returnsMat (Mat.multn_spec w1 (hA.keep k1 la nofun) h1A (k1.live la) l1)
      fun o' h3 f3 l3 w3 k3 hA3 => ⟨o', rfl, f3, l3, w3, k3, hA3⟩
  rcases hax with rfl | rfl
  · refine ⟨_, key _ (rotation_matrix_0 h w θ), fun i => ?_⟩
    simp only [Matrix.mul_apply, Fin.sum_univ_three]
    simp
    linear_combination (A i 1 ^ 2 + A i 2 ^ 2) * t
  · refine ⟨_, key _ (rotation_matrix_1 h w θ), fun i => ?_⟩
    simp only [Matrix.mul_apply, Fin.sum_univ_three]
    simp
    linear_combination (A i 0 ^ 2 + A i 2 ^ 2) * t

/-- **C28** is false of axis 2: whatever the angle, the matrix returned is singular. -/
theorem C28_axis_z_fails (h : Heap ℝ) (w : h.WF) (θ : ℝ) :
    ∃ A : Matrix (Fin 3) (Fin 3) ℝ, ReturnsMat (Mat.create_rotation_matrix θ 2) h A ∧ A.det = 0 := by
  refine ⟨!![Real.cos θ, -Real.sin θ, 0; Real.sin θ, Real.cos θ, 0; 1, 0, 0], ?_, by simp [Matrix.det_fin_three]⟩
  have := rotation_returns h w 3 [Real.cos θ, -Real.sin θ, 0, Real.sin θ, Real.cos θ, 0, 1, 0, 0] rfl
    !![Real.cos θ, -Real.sin θ, 0; Real.sin θ, Real.cos θ, 0; 1, 0, 0]
    (by intro i j; fin_cases i <;> fin_cases j <;> rfl)
  unfold Mat.create_rotation_matrix
  simpa [MathFns.cos, MathFns.sin] using this

/-- **C28** is false of axis -1 (the plane): for a quarter turn the matrix returned is singular. -/
theorem C28_axis_none_fails (h : Heap ℝ) (w : h.WF) :
    ∃ A : Matrix (Fin 2) (Fin 2) ℝ, ReturnsMat (Mat.create_rotation_matrix (Real.pi / 2) (-1)) h A ∧ A.det = 0 := by
  refine ⟨!![Real.cos (Real.pi / 2), -Real.sin (Real.pi / 2); Real.cos (Real.pi / 2), Real.cos (Real.pi / 2)], ?_,
    by simp [Matrix.det_fin_two]⟩
  have := rotation_returns h w 2 [Real.cos (Real.pi / 2), -Real.sin (Real.pi / 2), Real.cos (Real.pi / 2), Real.cos (Real.pi / 2)]
    rfl !![Real.cos (Real.pi / 2), -Real.sin (Real.pi / 2); Real.cos (Real.pi / 2), Real.cos (Real.pi / 2)]
    (by intro i j; fin_cases i <;> fin_cases j <;> rfl)
  unfold Mat.create_rotation_matrix
  simpa [MathFns.cos, MathFns.sin] using this

end Verif
