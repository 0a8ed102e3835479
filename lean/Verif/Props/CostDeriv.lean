import Verif.Props.Cost
import Verif.Props.LinAlgElementwise
import Mathlib.Analysis.SpecialFunctions.Log.Deriv
import Mathlib.Analysis.SpecialFunctions.Sqrt
import Mathlib.Analysis.Calculus.Deriv.Abs
import Mathlib.Analysis.Calculus.Deriv.Pow

/-!
# C58: the derivatives of `MLPPCost` are gradients of the losses

The factor in front of each loss is explicit: the library leaves out the division by the number of entries.
-/

namespace Verif
open Spec Cost Finset LinAlg
variable {m n : Nat}

theorem gradientV_of {f : ℝ → ℝ → ℝ} {op : Ref → Ref → M ℝ Ref} (l : Lifts2 Loc.v f op) {L : Loss} {ok : Cond}
    (hg : ∀ (ι : Type) [Fintype ι] [DecidableEq ι] (p y : ι → ℝ), ok ι p y → Gradient (fun u => L ι u y) p fun i => f (p i) (y i)) :
    GradientV op L ok := fun _ _ _ _ p y w la lb ha hb o => ⟨_, l.vec w ha hb la lb, hg _ p y o⟩

theorem gradientM_of {f : ℝ → ℝ → ℝ} {op : Ref → Ref → M ℝ Ref} (l : Lifts2 Loc.m f op) {L : Loss} {ok : Cond}
    (hg : ∀ (ι : Type) [Fintype ι] [DecidableEq ι] (p y : ι → ℝ), ok ι p y → Gradient (fun u => L ι u y) p fun i => f (p i) (y i)) :
    GradientM op L ok := fun _ _ _ _ _ A B w la lb ha hb o => ⟨_, l.mat w ha hb la lb, hg _ (cells A) (cells B) o⟩

section
variable {ι : Type} [Fintype ι] [DecidableEq ι]

/-- The gradient of `k / num * Σ` for `k = num`. -/
theorem gradient_mean {F : ι → ℝ → ℝ} {x g : ι → ℝ} (hd : ∀ i, HasDerivAt (F i) (g i) (x i)) :
    Gradient (fun u => num ι * ((∑ i, F i (u i)) / num ι)) x g := by
  intro i
  have : num ι ≠ 0 := by
    have : 0 < Fintype.card ι := Fintype.card_pos_iff.2 ⟨i⟩
    simp [num]; omega
  refine HasDerivAt.congr_of_eventuallyEq (gradient_sum hd i) (Filter.Eventually.of_forall fun t => ?_)
  simp only
  field_simp

theorem mse_gradient (p y : ι → ℝ) : Gradient (fun u => num ι * halfMse u y) p fun i => p i - y i := by
  refine gradient_congr (gradient_mean (F := fun i t => (t - y i) ^ 2 / 2) (x := p) (g := fun i => p i - y i) fun i => ?_) ?_ fun _ => rfl
  · refine HasDerivAt.congr_deriv ((((hasDerivAt_id (p i)).sub_const (y i)).pow 2).div_const 2) ?_
    simp
  · intro u
    unfold halfMse
    rw [← Finset.sum_div]
    congr 1
    rw [div_div]

theorem logLoss_gradient (p y : ι → ℝ) (hp : ∀ i, 0 < p i ∧ p i < 1) :
    Gradient (fun u => num ι * logLoss 0 u y) p fun i => y i / p i * -1 + (y i + -1) * -1 / ((p i + -1) * -1) := by
  refine gradient_mean (F := fun i t => -(y i * Real.log (t + 0) + (1 - y i) * Real.log (1 - t + 0))) fun i => ?_
  obtain ⟨h0, h1⟩ := hp i
  have d1 : HasDerivAt (fun t => Real.log (t + 0)) (1 / (p i + 0)) (p i) :=
    ((hasDerivAt_id (p i)).add_const 0).log (by simp; linarith)
  have d2 : HasDerivAt (fun t => Real.log (1 - t + 0)) (-1 / (1 - p i + 0)) (p i) :=
    (((hasDerivAt_id (p i)).const_sub 1).add_const 0).log (by simp; linarith)
  refine HasDerivAt.congr_deriv ((d1.const_mul (y i)).add (d2.const_mul (1 - y i))).neg ?_
  have e : (p i + -1) * -1 = 1 - p i := by ring
  have : 1 - p i ≠ 0 := by linarith
  rw [e, add_zero, add_zero]
  field_simp
  ring

theorem crossEntropy_gradient (p y : ι → ℝ) (hp : ∀ i, 0 < p i) :
    Gradient (fun u => crossEntropy u y) p fun i => y i / p i * -1 := by
  refine gradient_congr (gradient_sum (F := fun i t => -(y i * Real.log t)) (x := p) (g := fun i => y i / p i * -1) fun i => ?_)
    (fun u => by unfold crossEntropy; rw [Finset.sum_neg_distrib]) fun _ => rfl
  refine HasDerivAt.congr_deriv ((Real.hasDerivAt_log (hp i).ne').const_mul (y i)).neg ?_
  rw [div_eq_mul_inv]; ring

theorem hingeTerm_deriv {p y : ℝ} (hk : 1 - y * p ≠ 0) : HasDerivAt (fun t => max 0 (1 - y * t)) (hingeDeriv p y) p := by
  have d : HasDerivAt (fun t => 1 - y * t) (-y) p := by
    simpa using ((hasDerivAt_id p).const_mul y).const_sub 1
  unfold hingeDeriv
  rcases lt_or_gt_of_ne hk with h | h
  · rw [if_neg (not_lt.2 h.le)]
    refine (hasDerivAt_const p (0 : ℝ)).congr_of_eventuallyEq ?_
    filter_upwards [d.continuousAt.eventually_lt continuousAt_const h] with t ht
    exact max_eq_left ht.le
  · rw [if_pos h]
    refine d.congr_of_eventuallyEq ?_
    filter_upwards [continuousAt_const.eventually_lt d.continuousAt h] with t ht
    exact max_eq_right (le_of_lt ht)

theorem hinge_gradient (p y : ι → ℝ) (hp : ∀ i, y i * p i ≠ 1) :
    Gradient (fun u => num ι * hinge u y) p fun i => hingeDeriv (p i) (y i) :=
  gradient_mean fun i => hingeTerm_deriv fun e => hp i (by linarith)

theorem wasserstein_gradient (p y : ι → ℝ) : Gradient (fun u => num ι * wasserstein u y) p fun i => y i * -1 := by
  refine gradient_congr (gradient_mean (F := fun i t => -(t * y i)) (x := p) (g := fun i => y i * -1) fun i => ?_)
    (fun u => by unfold wasserstein; rw [Finset.sum_neg_distrib]) fun _ => rfl
  refine HasDerivAt.congr_deriv ((hasDerivAt_id (p i)).mul_const (y i)).neg ?_
  ring

theorem rmse_gradient (p y : ι → ℝ) (hp : p ≠ y) :
    Gradient (fun u => rmse u y) p fun i => (p i - y i) / (num ι * rmse p y) := by
  intro i
  have hc : 0 < num ι := by
    have : 0 < Fintype.card ι := Fintype.card_pos_iff.2 ⟨i⟩
    simp [num]; omega
  have hS : 0 < (∑ i, (p i - y i) ^ 2) / num ι := by
    obtain ⟨j, hj⟩ := Function.ne_iff.1 hp
    refine div_pos (Finset.sum_pos' (fun _ _ => sq_nonneg _) ⟨j, mem_univ _, ?_⟩) hc
    have : p j - y j ≠ 0 := sub_ne_zero.2 hj
    positivity
  have g := mse_gradient p y i
  have d : HasDerivAt (fun t => (∑ j, (Function.update p i t j - y j) ^ 2) / num ι) (2 / num ι * (p i - y i)) (p i) := by
    refine HasDerivAt.congr_of_eventuallyEq (g.const_mul (2 / num ι)) (Filter.Eventually.of_forall fun t => ?_)
    simp only [halfMse]
    field_simp
  have hu : Function.update p i (p i) = p := Function.update_eq_self i p
  have := d.sqrt (by rw [hu]; exact hS.ne')
  rw [hu] at this
  refine HasDerivAt.congr_deriv this ?_
  unfold rmse
  have := (Real.sqrt_pos.2 hS).ne'
  field_simp

theorem mae_gradient (p y : ι → ℝ) (g : ι → ℝ) (hp : ∀ i, (y i < p i ∧ g i = 1) ∨ (p i < y i ∧ g i = -1)) :
    Gradient (fun u => num ι * mae u y) p g := by
  refine gradient_mean (F := fun i t => |t - y i|) fun i => ?_
  have d : HasDerivAt (fun t => t - y i) 1 (p i) := (hasDerivAt_id (p i)).sub_const (y i)
  rcases hp i with ⟨h, e⟩ | ⟨h, e⟩
  · rw [e]
    exact (hasDerivAt_abs_pos (sub_pos.2 h)).comp_of_eq (p i) d rfl |>.congr_deriv (by simp)
  · rw [e]
    exact (hasDerivAt_abs_neg (sub_neg.2 h)).comp_of_eq (p i) d rfl |>.congr_deriv (by simp)

end

/-- **C58.** `mse_deriv*` is the gradient of half the mean squared error times the number of entries. -/
theorem C58_mse : GradientV mse_derivv (fun ι _ p y => num ι * halfMse p y) (fun _ _ _ => True) ∧
    GradientM mse_derivm (fun ι _ p y => num ι * halfMse p y) (fun _ _ _ => True) :=
  ⟨gradientV_of subV_lifts fun _ _ _ p y _ => mse_gradient p y, gradientM_of (binM_lifts (· - ·)) fun _ _ _ p y _ => mse_gradient p y⟩

/-- **C58.** `log_loss_deriv*` is the gradient of the logistic loss (without the small constant in the logarithms) times the number of
entries, for predictions strictly between 0 and 1. -/
theorem C58_log_loss : GradientV log_loss_derivv (fun ι _ p y => num ι * logLoss 0 p y) (fun _ p _ => ∀ i, 0 < p i ∧ p i < 1) ∧
    GradientM log_loss_derivm (fun ι _ p y => num ι * logLoss 0 p y) (fun _ p _ => ∀ i, 0 < p i ∧ p i < 1) :=
  ⟨gradientV_of log_loss_derivv_lifts fun _ _ _ p y o => logLoss_gradient p y o,
    gradientM_of log_loss_derivm_lifts fun _ _ _ p y o => logLoss_gradient p y o⟩

/-- **C58.** `cross_entropy_deriv*` is the gradient of the cross entropy, for positive predictions. -/
theorem C58_cross_entropy : GradientV cross_entropy_derivv (fun _ _ p y => crossEntropy p y) (fun _ p _ => ∀ i, 0 < p i) ∧
    GradientM cross_entropy_derivm (fun _ _ p y => crossEntropy p y) (fun _ p _ => ∀ i, 0 < p i) :=
  ⟨gradientV_of cross_entropy_derivv_lifts fun _ _ _ p y o => crossEntropy_gradient p y o,
    gradientM_of cross_entropy_derivm_lifts fun _ _ _ p y o => crossEntropy_gradient p y o⟩

/-- **C58.** `hinge_loss_deriv*` is the gradient of the hinge loss times the number of entries, away from its kinks. -/
theorem C58_hinge : GradientV hinge_loss_derivv (fun ι _ p y => num ι * hinge p y) (fun _ p y => ∀ i, y i * p i ≠ 1) ∧
    GradientM hinge_loss_derivm (fun ι _ p y => num ι * hinge p y) (fun _ p y => ∀ i, y i * p i ≠ 1) :=
  ⟨gradientV_of (derivV_lifts hingeDeriv) fun _ _ _ p y o => hinge_gradient p y o,
    gradientM_of (derivM_lifts hingeDeriv) fun _ _ _ p y o => hinge_gradient p y o⟩

/-- **C58.** At the kinks too, `hinge_loss_derivv` returns a subgradient. -/
theorem C58_hinge_subgradient (h : Heap ℝ) (w : h.WF) (a b : Nat) (p y : Fin n → ℝ) (la : h.live (.v a)) (lb : h.live (.v b))
    (ha : IsVec h a p) (hb : IsVec h b y) : ∃ g : Fin n → ℝ, ReturnsVec (hinge_loss_derivv (some (.v a)) (some (.v b))) h g ∧
      ∀ u : Fin n → ℝ, n * hinge p y + ∑ i, g i * (u i - p i) ≤ n * hinge u y := by
  refine ⟨_, Lifts2.vec (derivV_lifts hingeDeriv) w ha hb la lb, fun u => ?_⟩
  rcases Nat.eq_zero_or_pos n with rfl | hn
  · simp
  have e : ∀ v : Fin n → ℝ, (n : ℝ) * hinge v y = ∑ i, max 0 (1 - y i * v i) := by
    intro v
    have : (n : ℝ) ≠ 0 := by positivity
    simp only [hinge, num, Fintype.card_fin]
    field_simp
  rw [e, e, ← Finset.sum_add_distrib]
  refine Finset.sum_le_sum fun i _ => ?_
  unfold hingeDeriv
  split
  next c => rw [max_eq_right c.le]; nlinarith [le_max_right 0 (1 - y i * u i)]
  next c => rw [max_eq_left (not_lt.1 c), zero_mul, add_zero]; exact le_max_left _ _

/-- **C58.** `hinge_loss_derivw*` is `C` times that. -/
theorem C58_hinge_scaled (C : ℝ) :
    GradientV (fun a b => hinge_loss_derivwv a b C) (fun ι _ p y => C * (num ι * hinge p y)) (fun _ p y => ∀ i, y i * p i ≠ 1) ∧
    GradientM (fun a b => hinge_loss_derivwm a b C) (fun ι _ p y => C * (num ι * hinge p y)) (fun _ p y => ∀ i, y i * p i ≠ 1) :=
  ⟨gradientV_of (hinge_loss_derivwv_lifts C) fun _ _ _ p y o =>
      gradient_congr (gradient_scale C (hinge_gradient p y o)) (fun _ => rfl) fun _ => mul_comm _ _,
    gradientM_of (hinge_loss_derivwm_lifts C) fun _ _ _ p y o =>
      gradient_congr (gradient_scale C (hinge_gradient p y o)) (fun _ => rfl) fun _ => mul_comm _ _⟩

/-- **C58.** `wasserstein_loss_deriv*` is the gradient of the Wasserstein loss times the number of entries. -/
theorem C58_wasserstein : GradientV wasserstein_loss_derivv (fun ι _ p y => num ι * wasserstein p y) (fun _ _ _ => True) ∧
    GradientM wasserstein_loss_derivm (fun ι _ p y => num ι * wasserstein p y) (fun _ _ _ => True) :=
  ⟨fun _ _ _ _ p y w _ lb _ hb _ => ⟨_, (unV_lifts (· * (-1 : ℝ))).vec w hb lb, wasserstein_gradient p y⟩,
    fun _ _ _ _ _ A B w _ lb _ hb _ => ⟨_, (dupM_lifts (· * (-1 : ℝ))).mat w hb lb, wasserstein_gradient (cells A) (cells B)⟩⟩

/-- **C58.** `rmse_derivv` is the gradient of the root mean squared error divided by `√2`, for a prediction that differs from the target. -/
theorem C58_rmse : GradientV rmse_derivv (fun _ _ p y => (1 / Real.sqrt 2) * rmse p y) (fun _ p y => p ≠ y) := by
  intro h a b n p y w la lb ha hb hp
  have e := (C57_mse_partial (m := 0) h w a b).1 p y ha hb
  set k := 1 / (2 * Real.sqrt ((n : ℝ) ^ 2 * halfMse p y)) with hk
  refine ⟨fun i => (p i - y i) * k, ?_, ?_⟩
  · unfold rmse_derivv ReturnsVec
    exact Runs.step e ((scaled_diffv_lifts k).vec w ha hb la lb)
  · refine gradient_congr (gradient_scale (1 / Real.sqrt 2) (rmse_gradient p y hp)) (fun _ => rfl) fun i => ?_
    have hn : (0 : ℝ) < n := by have := i.pos; exact_mod_cast this
    have e1 : (n : ℝ) ^ 2 * halfMse p y = ((n : ℝ) ^ 2 / 2) * ((∑ i, (p i - y i) ^ 2) / num (Fin n)) := by
      unfold halfMse; field_simp
    rw [hk, e1, Real.sqrt_mul (by positivity), Real.sqrt_div (by positivity), Real.sqrt_sq hn.le]
    change _ = 1 / Real.sqrt 2 * ((p i - y i) / (num (Fin n) * Real.sqrt _))
    have e2 : num (Fin n) = n := by simp [num]
    have hS : 0 < Real.sqrt ((∑ i, (p i - y i) ^ 2) / num (Fin n)) := by
      refine Real.sqrt_pos.2 ?_
      obtain ⟨j, hj⟩ := Function.ne_iff.1 hp
      refine div_pos (Finset.sum_pos' (fun _ _ => sq_nonneg _) ⟨j, mem_univ _, ?_⟩) (by rw [e2]; exact hn)
      have : p j - y j ≠ 0 := sub_ne_zero.2 hj
      positivity
    generalize Real.sqrt ((∑ i, (p i - y i) ^ 2) / num (Fin n)) = s at hS ⊢
    rw [e2]
    have h2 : Real.sqrt 2 * Real.sqrt 2 = 2 := Real.mul_self_sqrt (by norm_num)
    have h2p : 0 < Real.sqrt 2 := by positivity
    generalize Real.sqrt 2 = r at h2 h2p ⊢
    have h22 : (2 : ℝ) = r * r := h2.symm
    field_simp
    linear_combination (exp := 1) (p i - y i) * h2

end Verif
