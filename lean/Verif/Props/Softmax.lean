import Verif.Lemmas.Softmax
import Verif.Lemmas.Example
import Mathlib.Analysis.Calculus.Deriv.Basic
import Mathlib.Analysis.SpecialFunctions.ExpDeriv
import Mathlib.Analysis.Calculus.Deriv.Mul
import Mathlib.Analysis.Calculus.Deriv.Inv
import Mathlib.Analysis.Calculus.Deriv.Add

/-!
# C44: softmax (exact real arithmetic)
-/

namespace Verif
open Spec Activation
variable {m n : Nat} {h : Heap ℝ} {z : Nat}

/-! ## Facts about the specification -/

theorem softmax_pos (v : Fin n → ℝ) (i : Fin n) : 0 < softmax v i :=
  div_pos (Real.exp_pos _) (Finset.sum_pos (fun _ _ => Real.exp_pos _) ⟨i, Finset.mem_univ _⟩)

theorem softmax_sum (v : Fin (n + 1) → ℝ) : ∑ i, softmax v i = 1 := by
  unfold softmax
  rw [← Finset.sum_div]
  exact div_self (Finset.sum_pos (fun _ _ => Real.exp_pos _) ⟨0, Finset.mem_univ _⟩).ne'

theorem softmax_le_iff (v : Fin n → ℝ) (i j : Fin n) : softmax v i ≤ softmax v j ↔ v i ≤ v j := by
  unfold softmax
  rw [div_le_div_iff_of_pos_right (Finset.sum_pos (fun _ _ => Real.exp_pos _) ⟨i, Finset.mem_univ _⟩), Real.exp_le_exp]

/-- The partial derivatives of softmax. -/
theorem softmax_partial (v : Fin n → ℝ) (i j : Fin n) :
    HasDerivAt (fun t => softmax (Function.update v j t) i) (softmax v i * ((if i = j then 1 else 0) - softmax v j)) (v j) := by
  have hpos : 0 < ∑ k, Real.exp (v k) := Finset.sum_pos (fun _ _ => Real.exp_pos _) ⟨i, Finset.mem_univ _⟩
  have hk : ∀ k : Fin n, HasDerivAt (fun t => Real.exp (Function.update v j t k)) (if k = j then Real.exp (v j) else 0) (v j) := by
    intro k
    by_cases e : k = j
    · subst e; simpa using Real.hasDerivAt_exp (v k)
    · simpa [e] using hasDerivAt_const (v j) (Real.exp (v k))
  have hs : HasDerivAt (fun t => ∑ k, Real.exp (Function.update v j t k)) (Real.exp (v j)) (v j) := by
    have := HasDerivAt.fun_sum (u := Finset.univ) fun k _ => hk k
    simpa using this
  have hv : Function.update v j (v j) = v := Function.update_eq_self j v
  have := (hk i).div hs (by rw [hv]; exact hpos.ne')
  refine HasDerivAt.congr_deriv this ?_
  rw [hv]
  unfold softmax
  by_cases e : i = j
  · subst e; simp; field_simp
  · simp [e]; field_simp

/-! ## The functions -/

/-- **C44.** `softmax_normv(z)` is a new vector with elements `exp(z_i) / Σ exp(z_j)`. -/
theorem C44_softmax (w : h.WF) {v : Fin n → ℝ} (hv : IsVec h z v) (lz : h.live (.v z)) :
    ReturnsVec (softmax_normv (some (.v z))) h (softmax v) := softmax_normv_spec w hv lz

/-- **C44.** For a non-empty vector, the result of `softmax_normv` has positive entries that sum to `1`, ordered as the
arguments are. -/
theorem C44_softmax_probability (w : h.WF) {v : Fin (n + 1) → ℝ} (hv : IsVec h z v) (lz : h.live (.v z)) :
    ∃ p : Fin (n + 1) → ℝ, ReturnsVec (softmax_normv (some (.v z))) h p ∧ (∀ i, 0 < p i) ∧ ∑ i, p i = 1 ∧
      ∀ i j, p i ≤ p j ↔ v i ≤ v j :=
  ⟨_, softmax_normv_spec w hv lz, softmax_pos v, softmax_sum v, softmax_le_iff v⟩

/-- **C44.** Adding a constant to every element does not change the result. -/
theorem C44_softmax_shift (w : h.WF) {z' : Nat} {v : Fin n → ℝ} (c : ℝ) (hv : IsVec h z v) (lz : h.live (.v z))
    (hv' : IsVec h z' (fun i => v i + c)) (lz' : h.live (.v z')) :
    ∃ p : Fin n → ℝ, ReturnsVec (softmax_normv (some (.v z))) h p ∧ ReturnsVec (softmax_normv (some (.v z'))) h p :=
  ⟨_, softmax_normv_spec w hv lz, softmax_shift v c ▸ softmax_normv_spec w hv' lz'⟩

/-- **C44.** `softmax_normm` is softmax of each row. -/
theorem C44_softmax_rows (w : h.WF) {A : Matrix (Fin m) (Fin n) ℝ} (hA : IsMat h z A) (lz : h.live (.m z)) :
    ReturnsMat (softmax_normm (some (.m z))) h (Matrix.of fun i => softmax (A i)) := softmax_normm_spec w hA lz

/-- **C44** (part). `adj_softmax_normv` equals softmax when all elements are in the range of `int`. -/
theorem C44_adj_softmax_partial (w : h.WF) {v : Fin n → ℝ} (hv : IsVec h z v) (lz : h.live (.v z))
    (q : ∀ i, -2147483649 < v i ∧ v i < 2147483648) :
    ReturnsVec (adj_softmax_normv (some (.v z))) h (softmax v) := adj_softmax_normv_spec w hv lz q

/-- **C44** (part). `adj_softmax_normm` is softmax of each row, in that range. -/
theorem C44_adj_softmax_rows_partial (w : h.WF) {A : Matrix (Fin m) (Fin n) ℝ} (hA : IsMat h z A) (lz : h.live (.m z))
    (q : ∀ i j, -2147483649 < A i j ∧ A i j < 2147483648) :
    ReturnsMat (adj_softmax_normm (some (.m z))) h (Matrix.of fun i => softmax (A i)) := adj_softmax_normm_spec w hA lz q

/-- Outside it, `adj_softmax_normv` is undefined: it converts each element to `int`. -/
theorem C44_adj_softmax_fails (w : h.WF) {v : Fin n → ℝ} (hv : IsVec h z v) {i : Fin n} (hi : 2147483648 ≤ v i) :
    adj_softmax_normv (some (.v z)) h = .ub :=
  adj_softmax_normv_ub w hv ⟨i, fun q => absurd q.2 (not_lt.mpr hi)⟩

/-- **C44** (part). `adj_softmax_derivv`, the "derivative", is softmax again (for elements below 2^30 in magnitude). -/
theorem C44_adj_softmax_deriv_partial (w : h.WF) {v : Fin n → ℝ} (hv : IsVec h z v) (lz : h.live (.v z))
    (q : ∀ i, |v i| < 1073741824) : ReturnsVec (adj_softmax_derivv (some (.v z))) h (softmax v) :=
  adj_softmax_derivv_spec w hv lz q

/-- **C44.** `softmax_deriv_normv(z)` is the Jacobian matrix of softmax at `z`: entry `(i, j)` is the derivative of
`softmax_i` with respect to `z_j`. -/
theorem C44_jacobian (w : h.WF) {v : Fin n → ℝ} (hv : IsVec h z v) (lz : h.live (.v z)) :
    ∃ J : Matrix (Fin n) (Fin n) ℝ, ReturnsMat (softmax_deriv_normv (some (.v z))) h J ∧
      ∀ i j, HasDerivAt (fun t => softmax (Function.update v j t) i) (J i j) (v j) :=
  ⟨_, softmax_deriv_normv_spec w hv lz, softmax_partial v⟩

/-- `softmax_deriv_derivv` does the same as `softmax_deriv_normv`. -/
theorem C44_jacobian_deriv (w : h.WF) {v : Fin n → ℝ} (hv : IsVec h z v) (lz : h.live (.v z)) :
    ∃ J : Matrix (Fin n) (Fin n) ℝ, ReturnsMat (softmax_deriv_derivv (some (.v z))) h J ∧
      ∀ i j, HasDerivAt (fun t => softmax (Function.update v j t) i) (J i j) (v j) :=
  C44_jacobian w hv lz

/-- `softmax_derivv`, the derivative selected by the dispatch functions, returns softmax itself. -/
theorem C44_softmax_deriv_fails (w : h.WF) {v : Fin n → ℝ} (hv : IsVec h z v) (lz : h.live (.v z)) :
    ReturnsVec (softmax_derivv (some (.v z))) h (softmax v) := softmax_normv_spec w hv lz

/-- `softmax_derivm` of a matrix with at least one row never returns: it calls itself with the same argument. -/
theorem C44_softmax_derivm_fails (fuel : Nat) (w : h.WF) {A : Matrix (Fin (m + 1)) (Fin n) ℝ} (hA : IsMat h z A)
    (lz : h.live (.m z)) : softmax_derivm fuel (some (.m z)) h = .ub := softmax_derivm_ub fuel w hA lz

/-! ## Non-vacuity -/

noncomputable example : ∃ (h : Heap ℝ), h.WF ∧ IsVec h 0 ![(1 : ℝ), 2, -3] ∧ h.live (.v 0) :=
  ⟨Heap.ofLists 0 [[1, 2, -3]] [], Heap.ofLists_wf _ _ _ (by simp), ⟨rfl, fun i => by fin_cases i <;> rfl⟩, by simp [Heap.ofLists, Heap.live, Loc.id]⟩

end Verif
