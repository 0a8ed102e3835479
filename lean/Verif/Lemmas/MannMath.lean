import Verif.Lemmas.Mann
import Verif.Lemmas.SoftmaxMath

/-! # The gradient of the loss of a network with several outputs -/

namespace Verif
open Spec Finset

namespace Mann
variable {n k c p : Nat} {o : Top} {A : Matrix (Fin n) (Fin p) ℝ} {Y : Matrix (Fin n) (Fin c) ℝ} {θ : MParams p c}

theorem mLoss_of (es : o.act ≠ .softmax) (A : Matrix (Fin n) (Fin p) ℝ) (Y : Matrix (Fin n) (Fin c) ℝ) (θ : MParams p c) :
    mLoss o A Y θ = ∑ i, ∑ a, sampleLoss o.cost (Activation.normReal o.act (affine A θ i a)) (Y i a) := by
  unfold mLoss
  cases ho : o.act
  case softmax => exact absurd ho es
  all_goals rfl

theorem mSmooth_of (es : o.act ≠ .softmax) (hs : mSmooth o A Y θ) : o.act ∉ [Activation.Fn.gelu, .arsech] ∧ ∀ i a, affine A θ i a ∈ smoothOn o.act ∧
    lossSmooth o.cost (Activation.normReal o.act (affine A θ i a)) (Y i a) := by
  unfold mSmooth at hs
  cases ho : o.act
  case softmax => exact absurd ho es
  all_goals
    rw [ho] at hs
    exact hs

theorem mLoss_deriv (es : o.act ≠ .softmax) (ho : o.WorksM) (hs : mSmooth o A Y θ) {Θ : ℝ → MParams p c} {t : ℝ} (et : Θ t = θ) {d : Matrix (Fin n) (Fin c) ℝ}
    (hd : ∀ i a, HasDerivAt (fun t => affine A (Θ t) i a) (d i a) t) :
    HasDerivAt (fun t => mLoss o A Y (Θ t)) (∑ i, ∑ a, outErr o A Y θ i a * d i a) t := by
  simp only [mLoss_of es]
  obtain ⟨s1, s2⟩ := mSmooth_of es hs
  have w := (ho.resolve_left es).1
  simp only [List.mem_cons, List.not_mem_nil, or_false, not_or] at w s1
  refine HasDerivAt.fun_sum fun i _ => HasDerivAt.fun_sum fun a _ => ?_
  obtain ⟨b1, b2⟩ := s2 i a
  have dr := C43_derivr_partial o.act _ b1 (by tauto) (by tauto) (by tauto) (fun q => absurd q (by tauto))
  have d1 : HasDerivAt (fun t => Activation.normReal o.act (affine A (Θ t) i a)) _ t :=
    HasDerivAt.comp (h₂ := Activation.normReal o.act) t (by rw [et]; exact dr) (hd i a)
  have := HasDerivAt.comp (h₂ := fun t => sampleLoss o.cost t (Y i a)) t (by rw [et]; exact Ann.sampleLoss_deriv b2) d1
  refine this.congr_deriv ?_
  rw [outErr_of es]
  ring

theorem mLoss_gradient (ho : o.WorksM) (hs : mSmooth o A Y θ) :
    Gradient (fun w => mLoss o A Y (fun i j => w (i, j), θ.2)) (cells θ.1) (cells fun j a => ∑ i, A i j * outErr o A Y θ i a) ∧
    Gradient (fun b => mLoss o A Y (θ.1, b)) θ.2 fun a => ∑ i, outErr o A Y θ i a := by
  by_cases es : o.act = .softmax
  · have e1 : ∀ θ, mLoss o A Y θ = softmaxLoss A Y θ := fun θ => by unfold mLoss; rw [es]
    have e2 : ∀ i a, outErr o A Y θ i a = softmaxes A θ i a - Y i a := fun i a => by unfold outErr; rw [es]
    have hY : ∀ i, ∑ a, Y i a = 1 := by unfold mSmooth at hs; rw [es] at hs; exact hs
    simp only [e1, e2]
    exact softmaxLoss_gradient A hY θ
  · constructor
    · rintro ⟨j, b⟩
      have e : (fun r s => Function.update (cells θ.1) (j, b) (θ.1 j b) (r, s)) = θ.1 := by
        funext r s
        rw [show θ.1 j b = cells θ.1 (j, b) from rfl, Function.update_eq_self]; rfl
      refine (mLoss_deriv es ho hs (Θ := fun t => (fun r s => Function.update (cells θ.1) (j, b) t (r, s), θ.2)) (t := θ.1 j b)
        (by rw [e]) fun i a => affine_deriv_w A θ j b i a).congr_deriv (Finset.sum_congr rfl fun i _ => ?_)
      simp only [mul_ite, mul_zero, Finset.sum_ite_eq', Finset.mem_univ, if_true]
      ring
    · intro b
      refine (mLoss_deriv es ho hs (Θ := fun t => (θ.1, Function.update θ.2 b t)) (t := θ.2 b) (by rw [Function.update_eq_self])
        fun i a => affine_deriv_b A θ b i a).congr_deriv (Finset.sum_congr rfl fun i _ => ?_)
      simp only [mul_ite, mul_one, mul_zero, Finset.sum_ite_eq', Finset.mem_univ, if_true]

theorem stepped_mstep (ho : o.WorksM) (s : ℝ) : MStep o A Y s θ (stepped o.reg o.lambda o.alpha s A (outErr o A Y θ) θ) :=
  ⟨_, _, fun hs => mLoss_gradient ho hs, rfl⟩

end Mann
end Verif
