import Verif.Lemmas.SoftmaxNet
import Verif.Props.SoftmaxReg

/-! # The derivatives of the networks with one hidden layer -/

namespace Verif
open Spec Finset
namespace TwoLayer
open SoftmaxNet (backE deepStep deepStepW)
variable {n k m c : Nat}

theorem weightedDeep_deriv {X : Matrix (Fin n) (Fin k) ℝ} {η : ℝ → MParams k m} {d : Matrix (Fin n) (Fin m) ℝ} {t : ℝ}
    (hd : ∀ i a, HasDerivAt (fun t => affine X (η t) i a) (d i a) t) (E : Matrix (Fin n) (Fin c) ℝ) (ω : MParams m c) :
    HasDerivAt (fun t => weightedDeep X E (η t, ω)) (∑ i, ∑ a, backE E ω.1 (affine X (η t)) i a * d i a) t := by
  unfold weightedDeep
  refine HasDerivAt.fun_sum fun i _ => ?_
  have h1 : ∀ b, HasDerivAt (fun t => E i b * deepOut X (η t, ω) i b) (E i b * ∑ a, Activation.sigmoid_derivr (affine X (η t) i a) * d i a * ω.1 a b) t := by
    intro b
    refine HasDerivAt.const_mul _ ?_
    show HasDerivAt (fun t => ∑ a, logistic (affine X (η t) i a) * ω.1 a b + ω.2 b) _ t
    refine HasDerivAt.add_const _ (HasDerivAt.fun_sum fun a _ => HasDerivAt.mul_const ?_ _)
    exact HasDerivAt.comp (h₂ := logistic) t (Glm.logistic_deriv (affine X (η t) i a)) (hd i a)
  refine (HasDerivAt.fun_sum fun b _ => h1 b).congr_deriv ?_
  simp only [Finset.mul_sum]
  rw [Finset.sum_comm]
  refine Finset.sum_congr rfl fun a _ => ?_
  unfold backE
  rw [Finset.sum_mul, Finset.sum_mul]
  exact Finset.sum_congr rfl fun b _ => by ring

/-- The step of the hidden layer is a gradient step on the weighted outputs. -/
theorem first_gradStep (X : Matrix (Fin n) (Fin k) ℝ) (E : Matrix (Fin n) (Fin c) ℝ) (ω : MParams m c) (lr : ℝ) (D : ℝ → ℝ) (θ : MParams k m) :
    MGradStep (fun η => weightedDeep X E (η, ω)) lr D θ (SoftmaxReg.stepM X (backE E ω.1 (affine X θ)) D lr θ) := by
  refine ⟨fun j b => ∑ i, backE E ω.1 (affine X θ) i b * X i j, fun b => ∑ i, backE E ω.1 (affine X θ) i b, ?_, ?_, ?_⟩
  · rintro ⟨j, b⟩
    have := weightedDeep_deriv (t := θ.1 j b) (fun i a => affine_deriv_w X θ j b i a) E ω
    refine this.congr_deriv ?_
    have q : (fun r s => Function.update (cells θ.1) (j, b) (θ.1 j b) (r, s)) = θ.1 := by
      funext r s
      rw [show θ.1 j b = cells θ.1 (j, b) from rfl, Function.update_eq_self]; rfl
    rw [q]
    refine Finset.sum_congr rfl fun i _ => ?_
    simp only [mul_ite, mul_zero, Finset.sum_ite_eq', Finset.mem_univ, if_true]
  · intro b
    have := weightedDeep_deriv (t := θ.2 b) (fun i a => affine_deriv_b X θ b i a) E ω
    refine this.congr_deriv ?_
    rw [Function.update_eq_self]
    refine Finset.sum_congr rfl fun i _ => ?_
    simp only [mul_ite, mul_zero, mul_one, Finset.sum_ite_eq', Finset.mem_univ, if_true]
  · unfold SoftmaxReg.stepM
    refine Prod.ext (funext fun j => funext fun a => congrArg D ?_) (funext fun a => ?_)
    · dsimp only
      rw [Finset.sum_congr rfl fun i _ => mul_comm (X i j) _]
      ring
    · dsimp only
      rw [← Finset.sum_mul]
      ring

theorem second_gradStep (X : Matrix (Fin n) (Fin k) ℝ) {Y : Matrix (Fin n) (Fin c) ℝ} (hY : ∀ i, ∑ b, Y i b = 1) (D : ℝ → ℝ) (lr : ℝ)
    (θ : DeepParams k m c) : MGradStep (fun η => deepLoss X Y (θ.1, η)) lr D θ.2 (deepStep X Y D lr θ).2 :=
  softmax_gradStep (hiddens X θ.1) hY D lr θ.2

theorem deepStep_update (X : Matrix (Fin n) (Fin k) ℝ) {Y : Matrix (Fin n) (Fin c) ℝ} (hY : ∀ i, ∑ b, Y i b = 1) (D : ℝ → ℝ) (lr : ℝ)
    (θ : DeepParams k m c) : DeepUpdate X Y lr D θ (deepStep X Y D lr θ) :=
  ⟨second_gradStep X hY D lr θ, first_gradStep X (fun i b => deepSoftmax X θ i b - Y i b) (deepStep X Y D lr θ).2 lr D θ.1⟩

theorem deepStepW_update (X : Matrix (Fin n) (Fin k) ℝ) {Y : Matrix (Fin n) (Fin c) ℝ} (hY : ∀ i, ∑ b, Y i b = 1) (D : ℝ → ℝ) (lr : ℝ)
    (θ : DeepParams k m c) : DeepUpdateW X Y lr D θ (deepStepW X Y D lr θ) :=
  ⟨⟨_, second_gradStep X hY D lr θ⟩, rfl,
    first_gradStep X (fun i b => deepSoftmax X θ i b - Y i b) (deepStepW X Y D lr θ).2 lr D θ.1⟩

end TwoLayer
end Verif
