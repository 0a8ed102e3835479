import Verif.Lemmas.Reduce
import Verif.Lemmas.Example
import Verif.Real
import Mathlib.Analysis.InnerProductSpace.PiL2

/-!
# C12: dot product, norms and distances, over the real numbers
-/

namespace Verif

/-- The product sum of two lists. -/
def sumProd (a b : List ℝ) : ℝ := (List.zipWith (fun x y => x * y) a b).sum
/-- The sum of squared differences of two lists. -/
def sumSqDiff (a b : List ℝ) : ℝ := (List.zipWith (fun x y => (x - y) ^ 2) a b).sum

theorem foldl_add_eq {α : Type} (l : List α) (f : α → ℝ) (c : ℝ) :
    l.foldl (fun c p => c + f p) c = c + (l.map f).sum := by
  induction l generalizing c with
  | nil => simp
  | cons a l ih => simp only [List.foldl_cons, ih, List.map_cons, List.sum_cons]; ring

theorem foldl_zip_add {α β : Type} (a : List α) (b : List β) (f : α → β → ℝ) :
    (a.zip b).foldl (fun c p => c + f p.1 p.2) 0 = (List.zipWith f a b).sum := by
  rw [foldl_add_eq (a.zip b) (fun p => f p.1 p.2) 0, zero_add]
  congr 1
  rw [List.zip_eq_zipWith, List.map_zipWith]

/-- The point of Euclidean space with the given coordinates. -/
noncomputable def toE {n : Nat} (a : List ℝ) (_ : a.length = n) : EuclideanSpace ℝ (Fin n) :=
  WithLp.toLp 2 fun i => a.getD i 0

theorem sum_zipWith_fin {n : Nat} (a b : List ℝ) (ha : a.length = n) (hb : b.length = n) (f : ℝ → ℝ → ℝ) :
    (List.zipWith f a b).sum = ∑ i : Fin n, f (a.getD i 0) (b.getD i 0) := by
  induction n generalizing a b with
  | zero => simp [List.length_eq_zero_iff.mp ha]
  | succ n ih =>
    match a, b, ha, hb with
    | x :: a, y :: b, ha, hb =>
      rw [Fin.sum_univ_succ]
      simp only [List.zipWith_cons_cons, List.sum_cons]
      rw [ih a b (by simpa using ha) (by simpa using hb)]
      simp

theorem sumProd_eq_inner {n : Nat} (a b : List ℝ) (ha : a.length = n) (hb : b.length = n) :
    sumProd a b = inner ℝ (toE b hb) (toE a ha) := by
  rw [sumProd, sum_zipWith_fin a b ha hb, PiLp.inner_apply]
  simp [toE]

theorem norm_toE {n : Nat} (a : List ℝ) (ha : a.length = n) : ‖toE a ha‖ = Real.sqrt (sumProd a a) := by
  rw [EuclideanSpace.norm_eq, sumProd, sum_zipWith_fin a a ha ha]
  congr 1
  refine Finset.sum_congr rfl fun i _ => ?_
  simp [toE, ← sq]

theorem dist_toE {n : Nat} (a b : List ℝ) (ha : a.length = n) (hb : b.length = n) :
    dist (toE a ha) (toE b hb) = Real.sqrt (sumSqDiff a b) := by
  rw [EuclideanSpace.dist_eq, sumSqDiff, sum_zipWith_fin a b ha hb]
  congr 1
  refine Finset.sum_congr rfl fun i _ => ?_
  simp [toE, Real.dist_eq, sq_abs]

theorem toE_inj {n : Nat} (a b : List ℝ) (ha : a.length = n) (hb : b.length = n) (e : toE a ha = toE b hb) : a = b := by
  apply List.ext_getElem (by rw [ha, hb])
  intro i h1 h2
  have := congrFun (congrArg WithLp.ofLp e) ⟨i, by omega⟩
  simpa [toE, List.getD_eq_getElem?_getD, h1, h2] using this

/-- **C12** (what the reductions compute): `dot` is the sum of products, `norm_sq` the sum of squares, `norm_2` its
square root, `euclidean_distance_squared`/`euclidean_distance` the sum of squared differences and its square root,
`sum_elements` the sum; none of them changes anything. -/
theorem C12_reductions_values (h : Heap ℝ) (w : h.WF) (this b : Nat)
    (hs : (h.buf (.v this)).length = (h.buf (.v b)).length) :
    Vec.dot this (some b) h = .ok (sumProd (h.buf (.v this)) (h.buf (.v b)), h) ∧
    Vec.norm_sq this h = .ok (sumProd (h.buf (.v this)) (h.buf (.v this)), h) ∧
    Vec.norm_2 this h = .ok (Real.sqrt (sumProd (h.buf (.v this)) (h.buf (.v this))), h) ∧
    Vec.euclidean_distance_squared this (some b) h = .ok (sumSqDiff (h.buf (.v this)) (h.buf (.v b)), h) ∧
    Vec.euclidean_distance this (some b) h = .ok (Real.sqrt (sumSqDiff (h.buf (.v this)) (h.buf (.v b))), h) ∧
    Vec.sum_elements this h = .ok ((h.buf (.v this)).sum, h) := by
  have sq : ∀ l : List ℝ, l.foldl (fun c x => c + x * x) 0 = sumProd l l := fun l => by
    rw [foldl_add_eq l (fun x => x * x) 0, zero_add, sumProd, List.zipWith_self]
  have e2 : ((h.buf (.v this)).zip (h.buf (.v b))).foldl (fun c p => c + (p.1 - p.2) * (p.1 - p.2)) 0 =
      sumSqDiff (h.buf (.v this)) (h.buf (.v b)) := by
    rw [foldl_zip_add _ _ fun x y => (x - y) * (x - y), sumSqDiff]
    simp only [← _root_.sq]
  refine ⟨?_, ?_, ?_, ?_, ?_, ?_⟩
  · rw [Vec.dot_run w this b hs, foldl_zip_add _ _ fun x y => x * y]; rfl
  · rw [Vec.norm_sq_run w this, sq]
  · rw [Vec.norm_2_run w this, sq]; rfl
  · rw [Vec.euclidean_distance_squared_run w this b hs, e2]
  · rw [Vec.euclidean_distance_run w this b hs, e2]; rfl
  · rw [Vec.sum_elements_run w this, foldl_add_eq _ (fun x => x)]; simp

/-- **C12** (Cauchy-Schwarz): `|a.dot(b)| ≤ a.norm_2() * b.norm_2()`. -/
theorem C12_cauchy_schwarz (h : Heap ℝ) (w : h.WF) (a b : Nat) (hs : (h.buf (.v a)).length = (h.buf (.v b)).length) :
    Runs (do
      let d ← Vec.dot a (some b)
      let m ← Vec.norm_2 a
      let n ← Vec.norm_2 b
      pure (d, m, n)) h fun r h' => h' = h ∧ |r.1| ≤ r.2.1 * r.2.2 := by
  obtain ⟨e1, _, e3, _⟩ := C12_reductions_values h w a b hs
  obtain ⟨_, _, e3', _⟩ := C12_reductions_values h w b a hs.symm
  refine Runs.of_eq (a := (_, _, _)) (by rw [bind_ok e1, bind_ok e3, bind_ok e3']; rfl) ⟨rfl, ?_⟩
  dsimp only
  rw [sumProd_eq_inner _ _ rfl hs.symm, ← norm_toE _ rfl, ← norm_toE _ hs.symm, mul_comm]
  exact abs_real_inner_le_norm _ _

/-- **C12** (metric): `euclidean_distance` is non-negative, symmetric, zero exactly for equal contents, and satisfies
the triangle inequality. -/
theorem C12_distance_metric (h : Heap ℝ) (w : h.WF) (a b c : Nat)
    (hab : (h.buf (.v a)).length = (h.buf (.v b)).length) (hbc : (h.buf (.v b)).length = (h.buf (.v c)).length) :
    Runs (do
      let ab ← Vec.euclidean_distance a (some b)
      let ba ← Vec.euclidean_distance b (some a)
      let bc ← Vec.euclidean_distance b (some c)
      let ac ← Vec.euclidean_distance a (some c)
      pure (ab, ba, bc, ac)) h fun r h' => h' = h ∧
        0 ≤ r.1 ∧ r.1 = r.2.1 ∧ (r.1 = 0 ↔ h.buf (.v a) = h.buf (.v b)) ∧ r.2.2.2 ≤ r.1 + r.2.2.1 := by
  obtain ⟨_, _, _, _, e1, _⟩ := C12_reductions_values h w a b hab
  obtain ⟨_, _, _, _, e2, _⟩ := C12_reductions_values h w b a hab.symm
  obtain ⟨_, _, _, _, e3, _⟩ := C12_reductions_values h w b c hbc
  obtain ⟨_, _, _, _, e4, _⟩ := C12_reductions_values h w a c (hab.trans hbc)
  refine Runs.of_eq (a := (_, _, _, _)) (by rw [bind_ok e1, bind_ok e2, bind_ok e3, bind_ok e4]; rfl) ⟨rfl, ?_⟩
  dsimp only
  have ha := hab.trans hbc
  rw [← dist_toE _ _ ha hbc, ← dist_toE _ _ hbc ha, ← dist_toE _ _ hbc rfl, ← dist_toE _ _ ha rfl]
  refine ⟨dist_nonneg, dist_comm _ _, ?_, dist_triangle _ _ _⟩
  rw [dist_eq_zero]
  refine ⟨toE_inj _ _ ha hbc, fun e => ?_⟩
  unfold toE
  rw [e]

/-- The hypotheses are met by, e.g., three vectors of two elements each. -/
example : (Heap.ofLists (0 : ℝ) [[1, 2], [4, 6], [0, 0]] []).WF ∧
    sumProd [1, 2, 3] [4, 5, 6] = 32 ∧ sumSqDiff [1, 2] [4, 6] = 25 := by
  refine ⟨Heap.ofLists_wf _ _ _ (by simp), ?_, ?_⟩ <;> norm_num [sumProd, sumSqDiff]

end Verif
