import Verif.Spec.SoftmaxReg
import Mathlib.Analysis.SpecialFunctions.Log.Deriv
import Mathlib.Analysis.SpecialFunctions.ExpDeriv

/-! # The derivative of the cross entropy of softmax -/

namespace Verif
open Spec Finset
variable {n k c : Nat}

theorem softmax_log (v : Fin c → ℝ) (a : Fin c) : Real.log (softmax v a) = v a - Real.log (∑ b, Real.exp (v b)) := by
  have : 0 < ∑ b, Real.exp (v b) := Finset.sum_pos (fun _ _ => Real.exp_pos _) ⟨a, mem_univ _⟩
  unfold softmax
  rw [Real.log_div (Real.exp_pos _).ne' this.ne', Real.log_exp]

/-- Cross entropy of softmax, when every row of `Y` sums to one. -/
theorem softmax_ce (Z Y : Matrix (Fin n) (Fin c) ℝ) (hY : ∀ i, ∑ a, Y i a = 1) :
    crossEntropy (cells fun i => softmax (Z i)) (cells Y) = ∑ i, (Real.log (∑ b, Real.exp (Z i b)) - ∑ a, Y i a * Z i a) := by
  unfold crossEntropy cells
  rw [Fintype.sum_prod_type, ← Finset.sum_neg_distrib]
  refine Finset.sum_congr rfl fun i _ => ?_
  simp only [softmax_log, mul_sub, Finset.sum_sub_distrib]
  rw [← Finset.sum_mul, hY]
  ring

theorem softmax_ce_deriv {Z : ℝ → Matrix (Fin n) (Fin c) ℝ} {d Y : Matrix (Fin n) (Fin c) ℝ} {t : ℝ}
    (hd : ∀ i a, HasDerivAt (fun t => Z t i a) (d i a) t) (hY : ∀ i, ∑ a, Y i a = 1) :
    HasDerivAt (fun t => crossEntropy (cells fun i => softmax (Z t i)) (cells Y)) (∑ i, ∑ a, (softmax (Z t i) a - Y i a) * d i a) t := by
  simp only [softmax_ce _ _ hY]
  refine HasDerivAt.fun_sum fun i _ => ?_
  have hpos : 0 < ∑ b, Real.exp (Z t i b) := by
    refine Finset.sum_pos (fun _ _ => Real.exp_pos _) ?_
    by_contra hne
    rw [Finset.not_nonempty_iff_eq_empty] at hne
    have := hY i
    rw [hne] at this
    simp at this
  have h1 : HasDerivAt (fun t => Real.log (∑ b, Real.exp (Z t i b))) ((∑ b, Real.exp (Z t i b) * d i b) / ∑ b, Real.exp (Z t i b)) t :=
    (HasDerivAt.fun_sum fun b _ => (hd i b).exp).log hpos.ne'
  have h2 : HasDerivAt (fun t => ∑ a, Y i a * Z t i a) (∑ a, Y i a * d i a) t := HasDerivAt.fun_sum fun a _ => (hd i a).const_mul _
  refine (h1.sub h2).congr_deriv ?_
  rw [Finset.sum_div, ← Finset.sum_sub_distrib]
  refine Finset.sum_congr rfl fun a _ => ?_
  unfold softmax
  ring

theorem affine_deriv_w (X : Matrix (Fin n) (Fin k) ℝ) (θ : MParams k c) (j : Fin k) (b : Fin c) (i : Fin n) (a : Fin c) :
    HasDerivAt (fun t => affine X ((fun r s => Function.update (cells θ.1) (j, b) t (r, s)), θ.2) i a) (if a = b then X i j else 0) (θ.1 j b) := by
  unfold affine
  refine (HasDerivAt.add_const _ ?_)
  have : (if a = b then X i j else 0) = ∑ r, X i r * (if (r, a) = (j, b) then 1 else 0) := by
    simp only [Prod.mk.injEq, mul_ite, mul_one, mul_zero]
    split
    next e => simp [e]
    next e => simp [e]
  rw [this]
  refine HasDerivAt.fun_sum fun r _ => HasDerivAt.const_mul _ ?_
  by_cases e : (r, a) = (j, b)
  · rw [if_pos e]; simp only [e, Function.update_self]; exact hasDerivAt_id' _
  · rw [if_neg e]; simp only [Function.update_of_ne e]; exact hasDerivAt_const _ _

theorem affine_deriv_b (X : Matrix (Fin n) (Fin k) ℝ) (θ : MParams k c) (b : Fin c) (i : Fin n) (a : Fin c) :
    HasDerivAt (fun t => affine X (θ.1, Function.update θ.2 b t) i a) (if a = b then 1 else 0) (θ.2 b) := by
  unfold affine
  refine HasDerivAt.const_add (f := fun t => Function.update θ.2 b t a) (∑ j, X i j * θ.1 j a) ?_
  by_cases e : a = b
  · subst e; simp only [Function.update_self, if_true]; exact hasDerivAt_id' _
  · rw [if_neg e]; simp only [Function.update_of_ne e]; exact hasDerivAt_const _ _

/-- The gradient of the loss of softmax regression. -/
theorem softmaxLoss_gradient (X : Matrix (Fin n) (Fin k) ℝ) {Y : Matrix (Fin n) (Fin c) ℝ} (hY : ∀ i, ∑ a, Y i a = 1) (θ : MParams k c) :
    Gradient (fun w => softmaxLoss X Y (fun i j => w (i, j), θ.2)) (cells θ.1) (cells fun j a => ∑ i, X i j * (softmaxes X θ i a - Y i a)) ∧
    Gradient (fun b => softmaxLoss X Y (θ.1, b)) θ.2 fun a => ∑ i, (softmaxes X θ i a - Y i a) := by
  constructor
  · rintro ⟨j, b⟩
    have := softmax_ce_deriv (t := θ.1 j b) (fun i a => affine_deriv_w X θ j b i a) hY
    refine this.congr_deriv (Finset.sum_congr rfl fun i _ => ?_)
    have e : (fun r s => Function.update (cells θ.1) (j, b) (θ.1 j b) (r, s)) = θ.1 := by
      funext r s
      rw [show θ.1 j b = cells θ.1 (j, b) from rfl, Function.update_eq_self]; rfl
    rw [e]
    simp only [mul_ite, mul_zero, Finset.sum_ite_eq', Finset.mem_univ, if_true]
    unfold softmaxes
    ring
  · intro b
    have := softmax_ce_deriv (t := θ.2 b) (fun i a => affine_deriv_b X θ b i a) hY
    refine this.congr_deriv (Finset.sum_congr rfl fun i _ => ?_)
    rw [Function.update_eq_self]
    simp only [mul_ite, mul_one, mul_zero, Finset.sum_ite_eq', Finset.mem_univ, if_true]
    rfl

end Verif
