import Verif.Lemmas.Mlp
import Verif.Lemmas.SoftmaxMath

/-! # The derivatives of the network -/

namespace Verif
open Spec Finset
namespace Mlp
open Glm (stepWith)
variable {n k m : Nat}

theorem weighted_deriv {Z : ℝ → Matrix (Fin n) (Fin m) ℝ} {d : Matrix (Fin n) (Fin m) ℝ} {t : ℝ} (hd : ∀ i a, HasDerivAt (fun t => Z t i a) (d i a) t)
    (e : Fin n → ℝ) (ω : Params m) :
    HasDerivAt (fun t => (∑ i, e i * linear (fun i a => logistic (Z t i a)) ω i) / (n : ℝ))
      ((∑ i, ∑ a, e i * ω.1 a * Activation.sigmoid_derivr (Z t i a) * d i a) / n) t := by
  refine HasDerivAt.div_const (HasDerivAt.fun_sum fun i _ => ?_) _
  unfold linear
  have h1 : HasDerivAt (fun t => ∑ a, logistic (Z t i a) * ω.1 a + ω.2) (∑ a, Activation.sigmoid_derivr (Z t i a) * d i a * ω.1 a) t := by
    refine HasDerivAt.add_const _ (HasDerivAt.fun_sum fun a _ => HasDerivAt.mul_const ?_ _)
    exact HasDerivAt.comp (h₂ := logistic) t (Glm.logistic_deriv (Z t i a)) (hd i a)
  refine (h1.const_mul (e i)).congr_deriv ?_
  rw [Finset.mul_sum]
  exact Finset.sum_congr rfl fun a _ => by ring

/-- The step of the hidden layer is a gradient step on the weighted output. -/
theorem first_gradStep (X : Matrix (Fin n) (Fin k) ℝ) (e : Fin n → ℝ) (ω : Params m) (lr : ℝ) (D : ℝ → ℝ) (θ : MParams k m) :
    MGradStep (fun η => weightedOut X e (η, ω)) lr D θ
      (stepM1 X (fun i a => e i * ω.1 a * Activation.sigmoid_derivr (affine X θ i a)) D (lr / n) θ) := by
  refine ⟨fun j b => (∑ i, e i * ω.1 b * Activation.sigmoid_derivr (affine X θ i b) * X i j) / n,
    fun b => (∑ i, e i * ω.1 b * Activation.sigmoid_derivr (affine X θ i b)) / n, ?_, ?_, ?_⟩
  · rintro ⟨j, b⟩
    have := weighted_deriv (t := θ.1 j b) (fun i a => affine_deriv_w X θ j b i a) e ω
    refine this.congr_deriv ?_
    have q : (fun r s => Function.update (cells θ.1) (j, b) (θ.1 j b) (r, s)) = θ.1 := by
      funext r s
      rw [show θ.1 j b = cells θ.1 (j, b) from rfl, Function.update_eq_self]; rfl
    rw [q]
    show _ = (∑ i, e i * ω.1 b * Activation.sigmoid_derivr (affine X θ i b) * X i j) / (n : ℝ)
    congr 1
    refine Finset.sum_congr rfl fun i _ => ?_
    simp only [mul_ite, mul_zero, Finset.sum_ite_eq', Finset.mem_univ, if_true]
  · intro b
    have := weighted_deriv (t := θ.2 b) (fun i a => affine_deriv_b X θ b i a) e ω
    refine this.congr_deriv ?_
    rw [Function.update_eq_self]
    congr 1
    refine Finset.sum_congr rfl fun i _ => ?_
    simp only [mul_ite, mul_zero, mul_one, Finset.sum_ite_eq', Finset.mem_univ, if_true]
  · unfold stepM1
    refine Prod.ext (funext fun j => funext fun a => congrArg D ?_) (funext fun a => ?_)
    · dsimp only
      rw [Finset.sum_congr rfl fun i _ => mul_comm (X i j) _]
      ring
    · dsimp only
      rw [← Finset.sum_mul]
      ring

theorem netStep_update (X : Matrix (Fin n) (Fin k) ℝ) (y : Fin n → ℝ) (D : ℝ → ℝ) (lr : ℝ) (θ : NetParams k m) :
    NetUpdate X y lr D θ (netStep X y D lr θ) := by
  constructor
  · exact Glm.log_gradStep (X := hiddens X θ.1) (y := y) lr D θ.2
  · exact first_gradStep X (fun i => netOut X θ i - y i) (netStep X y D lr θ).2 lr D θ.1

/-- The derivative of the loss by the hidden layer is that of the weighted output, with the errors and the output layer of `θ`: what an exact step
would have to follow. -/
theorem netLoss_deriv {X : Matrix (Fin n) (Fin k) ℝ} {η : ℝ → MParams k m} {d : Matrix (Fin n) (Fin m) ℝ} {t : ℝ}
    (hd : ∀ i a, HasDerivAt (fun t => affine X (η t) i a) (d i a) t) (y : Fin n → ℝ) (ω : Params m) :
    HasDerivAt (fun t => netLoss X y (η t, ω))
      ((∑ i, ∑ a, (netOut X (η t, ω) i - y i) * ω.1 a * Activation.sigmoid_derivr (affine X (η t) i a) * d i a) / n) t := by
  have e : (fun t => netLoss X y (η t, ω)) = fun t => (∑ i, (fun i z => -(y i * Real.log (logistic z + 0) + (1 - y i) * Real.log (1 - logistic z + 0)))
      i (linear (hiddens X (η t)) ω i)) / (n : ℝ) := by
    funext t
    exact congrFun (Glm.logisticLoss_eq (hiddens X (η t)) y) ω
  rw [e]
  refine HasDerivAt.div_const (HasDerivAt.fun_sum fun i _ => ?_) _
  have h1 : HasDerivAt (fun t => linear (hiddens X (η t)) ω i) (∑ a, Activation.sigmoid_derivr (affine X (η t) i a) * d i a * ω.1 a) t := by
    unfold linear
    refine HasDerivAt.add_const _ (HasDerivAt.fun_sum fun a _ => HasDerivAt.mul_const ?_ _)
    exact HasDerivAt.comp (h₂ := logistic) t (Glm.logistic_deriv (affine X (η t) i a)) (hd i a)
  have := (Glm.log_deriv (y i) (linear (hiddens X (η t)) ω i)).comp t h1
  refine this.congr_deriv ?_
  rw [Finset.mul_sum]
  exact Finset.sum_congr rfl fun a _ => by unfold netOut; ring

/-- When the output layer does not change the update is an exact step; this is what `NetUpdate` says with the old output layer. -/
theorem exact_first (X : Matrix (Fin n) (Fin k) ℝ) (y : Fin n → ℝ) (D : ℝ → ℝ) (lr : ℝ) (θ : NetParams k m) :
    MGradStep (fun η => netLoss X y (η, θ.2)) lr D θ.1
      (stepM1 X (fun i a => (netOut X θ i - y i) * θ.2.1 a * Activation.sigmoid_derivr (affine X θ.1 i a)) D (lr / n) θ.1) := by
  obtain ⟨G, g, hG, hg, e⟩ := first_gradStep X (fun i => netOut X θ i - y i) θ.2 lr D θ.1
  refine ⟨G, g, ?_, ?_, e⟩
  · rintro ⟨j, b⟩
    have h1 := netLoss_deriv (t := θ.1.1 j b) (η := fun t => (fun r s => Function.update (cells θ.1.1) (j, b) t (r, s), θ.1.2))
      (fun i a => affine_deriv_w X θ.1 j b i a) y θ.2
    have h2 := weighted_deriv (t := θ.1.1 j b) (fun i a => affine_deriv_w X θ.1 j b i a) (fun i => netOut X θ i - y i) θ.2
    have q : (fun r s => Function.update (cells θ.1.1) (j, b) (θ.1.1 j b) (r, s)) = θ.1.1 := by
      funext r s
      rw [show θ.1.1 j b = cells θ.1.1 (j, b) from rfl, Function.update_eq_self]; rfl
    refine h1.congr_deriv ?_
    have := (hG (j, b)).unique h2
    rw [this, q]
  · intro b
    have h1 := netLoss_deriv (t := θ.1.2 b) (η := fun t => (θ.1.1, Function.update θ.1.2 b t)) (fun i a => affine_deriv_b X θ.1 b i a) y θ.2
    have h2 := weighted_deriv (t := θ.1.2 b) (fun i a => affine_deriv_b X θ.1 b i a) (fun i => netOut X θ i - y i) θ.2
    refine h1.congr_deriv ?_
    have := (hg b).unique h2
    rw [this, Function.update_eq_self]

end Mlp
end Verif
