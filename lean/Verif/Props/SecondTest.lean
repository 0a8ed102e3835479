import Verif.Model.SecondTest
import Verif.Props.Eigen
import Verif.Props.NumApprox

/-! # C81: the second derivative test in three or more variables -/

namespace Verif
open Spec Eigen NumAnalysis
variable {n : Nat}

/-- **C81** is false in three or more variables: for the function `k + Σ aᵢ (uᵢ - vᵢ)²` at its critical point `v`, minima and maxima are
recognised, but the other two answers are interchanged: the answer is "saddle" when some `aᵢ` is 0 (for a constant function, say), and
"test was inconclusive" when the function takes smaller and larger values around `v` and no `aᵢ` is 0, a proper saddle point. -/
theorem C81_many_variables_fails (hn : 3 ≤ n) (fuel : Nat) (hfuel : 1 ≤ fuel) (h : Heap ℝ) (w : h.WF) (f : List ℝ → ℝ) (o : Nat) (v : Fin n → ℝ)
    (hv : IsVec h o v) (lv : h.live (.v o)) (a : Fin n → ℝ) (k : ℝ) (hf : ∀ u : Fin n → ℝ, f (List.ofFn u) = k + ∑ i, a i * (u i - v i) ^ 2) :
    Runs (second_partial_derivative_test (eigenBranch fuel) f (some (.v o))) h fun r h' => h'.WF ∧ Keeps h h' (fun _ => False) ∧
      (r = "min" ↔ ∀ u, u ≠ v → f (List.ofFn v) < f (List.ofFn u)) ∧
      (r = "max" ↔ ∀ u, u ≠ v → f (List.ofFn u) < f (List.ofFn v)) ∧
      (r = "saddle" ↔ ∃ i, a i = 0) ∧
      (r = "test was inconclusive" ↔ (∀ i, a i ≠ 0) ∧ (∃ u : Fin n → ℝ, f (List.ofFn u) < f (List.ofFn v)) ∧
        ∃ u : Fin n → ℝ, f (List.ofFn v) < f (List.ofFn u)) := by
  have hf' : ∀ u : Fin n → ℝ, f (List.ofFn u) = (k + ∑ i, a i * v i ^ 2) + (fun i => -2 * a i * v i) ⬝ᵥ u + u ⬝ᵥ (Matrix.diagonal a).mulVec u := by
    intro u
    rw [hf]
    simp only [dotProduct, Matrix.mulVec_diagonal]
    rw [add_assoc, add_assoc, ← Finset.sum_add_distrib, ← Finset.sum_add_distrib]
    congr 1
    exact Finset.sum_congr rfl fun i _ => by ring
  have hH : Matrix.of (fd2 (asFun n f) v) = Matrix.diagonal fun i => 2 * a i := by
    rw [fd2_quadratic f v _ _ _ hf', Matrix.diagonal_transpose, Matrix.diagonal_add]
    congr 1; funext i; ring
  obtain ⟨fuel, rfl⟩ : ∃ j, fuel = j + 1 := ⟨fuel - 1, by omega⟩
  have hn2 : 2 ≤ n := by omega
  have dg : IsDiagonal (Matrix.diagonal fun i => 2 * a i) := fun i j e => Matrix.diagonal_apply_ne _ e
  have ej := jac_diag dg hn2 fuel 1
  unfold second_partial_derivative_test
  refine (hessian_run w f hv lv).bind fun m h1 w1 k1 f1 l1 a1 => ?_
  rw [hH] at a1
  refine Runs.step (derefM_run m h1) (Runs.step (Mat.size_run m h1) ?_)
  rw [a1.1]
  dsimp only
  rw [if_neg (by omega)]
  -- the function in terms of `a`
  have fv : f (List.ofFn v) = k := by rw [hf]; simp
  have single : ∀ i (t : ℝ), f (List.ofFn (v + Pi.single i t)) = k + a i * t ^ 2 := by
    intro i t
    rw [hf]
    congr 1
    rw [Finset.sum_eq_single i]
    · simp
    · intro j _ hj; simp [Pi.single_eq_of_ne hj]
    · simp
  have nev : ∀ i, v + Pi.single i (1 : ℝ) ≠ v := fun i e => by
    have := congrFun e i; simp at this
  have i0 : Fin n := ⟨0, by omega⟩
  have minI : (∀ i, 0 < a i) ↔ ∀ u : Fin n → ℝ, u ≠ v → f (List.ofFn v) < f (List.ofFn u) := by
    constructor
    · intro p u hu
      rw [fv, hf]
      have : 0 < ∑ i, a i * (u i - v i) ^ 2 := by
        obtain ⟨i, hi⟩ := Function.ne_iff.mp hu
        exact Finset.sum_pos' (fun j _ => mul_nonneg (p j).le (sq_nonneg _)) ⟨i, Finset.mem_univ _, mul_pos (p i) (by
          have := sub_ne_zero.mpr hi; positivity)⟩
      linarith
    · intro p i
      have := p _ (nev i)
      rw [fv, single] at this
      linarith
  have maxI : (∀ i, a i < 0) ↔ ∀ u : Fin n → ℝ, u ≠ v → f (List.ofFn u) < f (List.ofFn v) := by
    constructor
    · intro p u hu
      rw [fv, hf]
      have : 0 < ∑ i, -a i * (u i - v i) ^ 2 := by
        obtain ⟨i, hi⟩ := Function.ne_iff.mp hu
        exact Finset.sum_pos' (fun j _ => mul_nonneg (neg_pos.mpr (p j)).le (sq_nonneg _)) ⟨i, Finset.mem_univ _, mul_pos (neg_pos.mpr (p i)) (by
          have := sub_ne_zero.mpr hi; positivity)⟩
      simp only [neg_mul, Finset.sum_neg_distrib] at this
      linarith
    · intro p i
      have := p _ (nev i)
      rw [fv, single] at this
      linarith
  have sadI : (∀ i, a i ≠ 0) → (((∃ u : Fin n → ℝ, f (List.ofFn u) < f (List.ofFn v)) ∧ ∃ u : Fin n → ℝ, f (List.ofFn v) < f (List.ofFn u)) ↔
      (¬ ∀ i, 0 < a i) ∧ ¬ ∀ i, a i < 0) := by
    intro nz
    constructor
    · rintro ⟨⟨u, hu⟩, u', hu'⟩
      constructor
      · intro p
        have := minI.mp p u (fun e => by subst e; exact lt_irrefl _ hu)
        linarith
      · intro p
        have := maxI.mp p u' (fun e => by subst e; exact lt_irrefl _ hu')
        linarith
    · rintro ⟨p, q⟩
      push Not at p q
      obtain ⟨i, hi⟩ := p
      obtain ⟨j, hj⟩ := q
      refine ⟨⟨v + Pi.single i 1, ?_⟩, v + Pi.single j 1, ?_⟩
      · rw [fv, single]
        have := lt_of_le_of_ne hi (nz i)
        linarith
      · rw [fv, single]
        have := lt_of_le_of_ne hj (nz j).symm
        linarith
  have hdiag : ∀ i, (Matrix.diagonal fun i => 2 * a i) i i = 2 * a i := fun i => Matrix.diagonal_apply_eq _ _
  unfold eigenBranch testByEigenvalues
  simp only [bind_assoc]
  refine Runs.bind ((LinAlg.checks_run hn2 w1 _ a1 l1 ej (· ≤ 0)).mono fun r h2 ⟨w2, k2, b, er, hb⟩ => ?_)
  subst er
  have K2 := k1.trans k2
  have a2 := a1.keep k2 l1 (fun q => q)
  have l2 := k2.live l1
  have hb' : b = true ↔ ∀ i, 0 < a i := by
    rw [hb]
    simp only [hdiag, not_le]
    exact ⟨fun q i => by linarith [q i], fun q i => by linarith [q i]⟩
  cases b with
  | true =>
    have p := hb'.mp rfl
    refine Runs.of_eq (a := "min") (h' := h2) rfl ⟨w2, K2, by simpa using minI.mp p, ?_, ?_, ?_⟩
    · simp only [← maxI]
      simp only [String.reduceEq, false_iff, not_forall]
      exact ⟨i0, by linarith [p i0]⟩
    · simp only [String.reduceEq, false_iff, not_exists]
      exact fun i => (p i).ne'
    · simp only [String.reduceEq, false_iff]
      rintro ⟨z, s⟩
      exact ((sadI z).mp s).1 p
  | false =>
    have np : ¬ ∀ i, 0 < a i := fun q => Bool.false_ne_true (hb'.mpr q)
    dsimp only
    simp only [bind_assoc]
    refine Runs.bind ((LinAlg.checks_run hn2 w2 _ a2 l2 ej (· ≥ 0)).mono fun r h3 ⟨w3, k3, b, er, hc⟩ => ?_)
    subst er
    have K3 := K2.trans k3
    have a3 := a2.keep k3 l2 (fun q => q)
    have l3 := k3.live l2
    have hc' : b = true ↔ ∀ i, a i < 0 := by
      rw [hc]
      simp only [hdiag, ge_iff_le, not_le]
      exact ⟨fun q i => by linarith [q i], fun q i => by linarith [q i]⟩
    cases b with
    | true =>
      have p := hc'.mp rfl
      refine Runs.of_eq (a := "max") (h' := h3) rfl ⟨w3, K3, ?_, by simpa using maxI.mp p, ?_, ?_⟩
      · simp only [← minI]
        simp only [String.reduceEq, false_iff]
        exact np
      · simp only [String.reduceEq, false_iff, not_exists]
        exact fun i => (p i).ne
      · simp only [String.reduceEq, false_iff]
        rintro ⟨z, s⟩
        exact ((sadI z).mp s).2 p
    | false =>
      have nq : ¬ ∀ i, a i < 0 := fun q => Bool.false_ne_true (hc'.mpr q)
      dsimp only
      simp only [bind_assoc]
      refine Runs.bind ((LinAlg.checks_run hn2 w3 _ a3 l3 ej (· = 0)).mono fun r h4 ⟨w4, k4, b, er, hd⟩ => ?_)
      subst er
      have K4 := K3.trans k4
      have hd' : b = true ↔ ∀ i, a i ≠ 0 := by
        rw [hd]
        simp only [hdiag]
        exact ⟨fun q i e => q i (by rw [e, mul_zero]), fun q i e => q i (by linarith)⟩
      cases b with
      | true =>
        have p := hd'.mp rfl
        refine Runs.of_eq (a := "test was inconclusive") (h' := h4) rfl ⟨w4, K4, ?_, ?_, ?_, ?_⟩
        · simp only [← minI]
          simp only [String.reduceEq, false_iff]
          exact np
        · simp only [← maxI]
          simp only [String.reduceEq, false_iff]
          exact nq
        · simp only [String.reduceEq, false_iff, not_exists]
          exact p
        · simp only [true_iff]
          exact ⟨p, (sadI p).mpr ⟨np, nq⟩⟩
      | false =>
        have p : ¬ ∀ i, a i ≠ 0 := fun q => Bool.false_ne_true (hd'.mpr q)
        refine Runs.of_eq (a := "saddle") (h' := h4) rfl ⟨w4, K4, ?_, ?_, ?_, ?_⟩
        · simp only [← minI]
          simp only [String.reduceEq, false_iff]
          exact np
        · simp only [← maxI]
          simp only [String.reduceEq, false_iff]
          exact nq
        · simp only [true_iff]
          push Not at p; exact p
        · simp only [String.reduceEq, false_iff]
          exact fun q => p q.1

/-- Instances: a constant function, and `x² + y² - z²`, a proper saddle point at the origin. -/
example : ∃ (h : Heap ℝ) (v : Fin 3 → ℝ) (f g : List ℝ → ℝ) (a b : Fin 3 → ℝ), h.WF ∧ IsVec h 0 v ∧ h.live (.v 0) ∧
    (∀ u : Fin 3 → ℝ, f (List.ofFn u) = 5 + ∑ i, a i * (u i - v i) ^ 2) ∧ (∃ i, a i = 0) ∧
    (∀ u : Fin 3 → ℝ, g (List.ofFn u) = 0 + ∑ i, b i * (u i - v i) ^ 2) ∧ (∀ i, b i ≠ 0) ∧ g [0, 0, 1] < g [0, 0, 0] ∧ g [0, 0, 0] < g [1, 0, 0] := by
  refine ⟨Heap.ofLists 0 [[0, 0, 0]] [], ![0, 0, 0], fun _ => 5, fun l => l[0]! ^ 2 + l[1]! ^ 2 - l[2]! ^ 2, ![0, 0, 0], ![1, 1, -1],
    Heap.ofLists_wf _ _ _ (by simp), ⟨by simp [Heap.ofLists], fun i => by fin_cases i <;> simp [Heap.ofLists]⟩,
    by simp [Heap.ofLists, Heap.live, Loc.id], fun u => ?_, ⟨0, rfl⟩, fun u => ?_, fun i => ?_, ?_, ?_⟩
  · simp [Fin.sum_univ_three]
  · simp [List.ofFn_succ, Fin.sum_univ_three]; ring
  · fin_cases i <;> simp
  · simp
  · simp

end Verif
