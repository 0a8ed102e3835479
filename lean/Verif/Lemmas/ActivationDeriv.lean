import Verif.Lemmas.Activation
import Mathlib.Analysis.SpecialFunctions.Trigonometric.DerivHyp
import Mathlib.Analysis.SpecialFunctions.ExpDeriv
import Mathlib.Analysis.SpecialFunctions.Log.Deriv
import Mathlib.Analysis.SpecialFunctions.Sqrt
import Mathlib.Analysis.SpecialFunctions.Trigonometric.Deriv
import Mathlib.MeasureTheory.Integral.IntervalIntegral.FundThmCalculus
import Mathlib.Analysis.Calculus.Deriv.Abs

/-! # Derivatives of the activation functions -/

namespace Verif.Activation

theorem hasDerivAt_of_eventually {f g : ℝ → ℝ} {f' z : ℝ} {s : Set ℝ} (hs : IsOpen s) (hz : z ∈ s) (e : ∀ x ∈ s, f x = g x)
    (h : HasDerivAt g f' z) : HasDerivAt f f' z :=
  h.congr_of_eventuallyEq (Filter.eventually_of_mem (hs.mem_nhds hz) e)

theorem sigmoid_pos (z : ℝ) : 0 < 1 + Real.exp (-z) := by positivity

theorem hasDerivAt_sigmoid (z : ℝ) : HasDerivAt sigmoid_normr (sigmoid_derivr z) z := by
  have h1 : HasDerivAt (fun x : ℝ => 1 + Real.exp (-x)) (-Real.exp (-z)) z := by
    have := ((hasDerivAt_id z).neg.exp).const_add 1
    simpa using this
  have h2 := h1.fun_inv (sigmoid_pos z).ne'
  have e : sigmoid_normr = fun x : ℝ => (1 + Real.exp (-x))⁻¹ := by funext x; simp [sigmoid_normr]
  rw [e]
  refine h2.congr_deriv ?_
  have := (sigmoid_pos z).ne'
  simp only [sigmoid_derivr, sigmoid_normr]
  field_simp
  ring

theorem hasDerivAt_softplus (z : ℝ) : HasDerivAt softplus_normr (softplus_derivr z) z := by
  have p : (0 : ℝ) < 1 + Real.exp z := by positivity
  have h1 : HasDerivAt (fun x : ℝ => 1 + Real.exp x) (Real.exp z) z := (Real.hasDerivAt_exp z).const_add 1
  refine (h1.log p.ne').congr_deriv ?_
  simp only [softplus_derivr, sigmoid_normr, Real.exp_neg]
  have := (Real.exp_pos z).ne'
  field_simp
  ring

theorem hasDerivAt_softsign (z : ℝ) : HasDerivAt softsign_normr (softsign_derivr z) z := by
  rcases lt_trichotomy z 0 with h | h | h
  · have q : 1 + -z ≠ 0 := by linarith
    refine hasDerivAt_of_eventually isOpen_Iio h (g := fun x => x / (1 + -x)) (fun x (hx : x < 0) => ?_) ?_
    · rw [softsign_normr, abs_of_neg hx]
    · refine ((hasDerivAt_id z).div ((hasDerivAt_id z).neg.const_add 1) q).congr_deriv ?_
      simp only [softsign_derivr, abs_of_neg h, id, Pi.neg_apply]
      rw [div_eq_div_iff (by positivity) (by positivity)]
      ring
  · subst h
    rw [hasDerivAt_iff_tendsto_slope_zero]
    have c : Filter.Tendsto (fun t : ℝ => 1 / (1 + |t|)) (nhds 0) (nhds (softsign_derivr 0)) := by
      have : ContinuousAt (fun t : ℝ => 1 / (1 + |t|)) 0 :=
        continuousAt_const.div (by fun_prop) (by simp)
      have := this.tendsto
      simpa [softsign_derivr] using this
    refine (c.mono_left nhdsWithin_le_nhds).congr' ?_
    filter_upwards [self_mem_nhdsWithin] with t ht
    have ht : t ≠ 0 := ht
    simp only [softsign_normr]
    have : (1 + |t|) ≠ 0 := by positivity
    simp
    field_simp
  · have q : 1 + z ≠ 0 := by linarith
    refine hasDerivAt_of_eventually isOpen_Ioi h (g := fun x => x / (1 + x)) (fun x (hx : 0 < x) => ?_) ?_
    · rw [softsign_normr, abs_of_pos hx]
    · refine ((hasDerivAt_id z).div ((hasDerivAt_id z).const_add 1) q).congr_deriv ?_
      simp only [softsign_derivr, abs_of_pos h, id]
      field_simp
      simp

theorem hasDerivAt_erf (z : ℝ) : HasDerivAt erfReal (2 / Real.sqrt Real.pi * Real.exp (-z ^ 2)) z := by
  have c : Continuous fun t : ℝ => Real.exp (-t ^ 2) := by fun_prop
  exact (intervalIntegral.integral_hasDerivAt_right (c.intervalIntegrable _ _) (c.stronglyMeasurableAtFilter _ _) c.continuousAt).const_mul _

theorem hasDerivAt_gaussian_cdf (z : ℝ) : HasDerivAt gaussian_cdf_normr (gaussian_cdf_derivr z) z := by
  have h1 : HasDerivAt (fun x : ℝ => x / Real.sqrt 2) (1 / Real.sqrt 2) z := (hasDerivAt_id z).div_const _
  have h2 := (((hasDerivAt_erf (z / Real.sqrt 2)).comp z h1).const_add 1).const_mul (1 / 2)
  refine h2.congr_deriv ?_
  have e : -(z / Real.sqrt 2) ^ 2 = -z * z / 2 := by rw [div_pow, Real.sq_sqrt (by norm_num)]; ring
  simp only [gaussian_cdf_derivr]
  rw [e, Real.sqrt_mul (by norm_num)]
  have := Real.sqrt_pos.mpr Real.pi_pos
  field_simp

theorem hasDerivAt_cloglog (z : ℝ) : HasDerivAt cloglog_normr (cloglog_derivr z) z := by
  have h := ((Real.hasDerivAt_exp z).neg.exp).const_sub 1
  refine h.congr_deriv ?_
  simp only [cloglog_derivr, sub_eq_add_neg, Real.exp_add]
  simp; ring

theorem hasDerivAt_logit {z : ℝ} (h0 : z ≠ 0) (h1 : z ≠ 1) : HasDerivAt logit_normr (logit_derivr z) z := by
  have q : 1 - z ≠ 0 := sub_ne_zero.mpr h1.symm
  have q2 : z - 1 ≠ 0 := sub_ne_zero.mpr h1
  have a := (hasDerivAt_id z).div ((hasDerivAt_id z).const_sub 1) q
  refine (a.log (div_ne_zero h0 q)).congr_deriv ?_
  simp only [logit_derivr, id]
  rw [← neg_sub 1 z]
  simp only [Pi.div_apply, id]
  field_simp

theorem hasDerivAt_unit_step {z : ℝ} (h0 : z ≠ 0) : HasDerivAt unit_step_normr (unit_step_derivr z) z := by
  rcases lt_or_gt_of_ne h0 with h | h
  · exact hasDerivAt_of_eventually isOpen_Iio h (fun x hx => if_pos hx) (hasDerivAt_const z (0 : ℝ))
  · exact hasDerivAt_of_eventually isOpen_Ioi h (fun x hx => if_neg (not_lt.mpr (le_of_lt hx))) (hasDerivAt_const z (1 : ℝ))

theorem hasDerivAt_swish (z : ℝ) : HasDerivAt swish_normr (swish_derivr z) z := by
  refine ((hasDerivAt_id z).mul (hasDerivAt_sigmoid z)).congr_deriv ?_
  simp only [swish_derivr, swish_normr, sigmoid_derivr, id]
  ring

theorem hasDerivAt_tanh (z : ℝ) : HasDerivAt Real.tanh (1 - Real.tanh z ^ 2) z := by
  have c := (Real.cosh_pos z).ne'
  have : Real.tanh = fun x => Real.sinh x / Real.cosh x := funext Real.tanh_eq_sinh_div_cosh
  rw [this]
  refine ((Real.hasDerivAt_sinh z).div (Real.hasDerivAt_cosh z) c).congr_deriv ?_
  field_simp

theorem tanh_sech (z : ℝ) : 1 - Real.tanh z ^ 2 = sech_normr z * sech_normr z := by
  have c := (Real.cosh_pos z).ne'
  rw [Real.tanh_eq_sinh_div_cosh, sech_normr]
  have := Real.cosh_sq z
  field_simp
  linarith

theorem hasDerivAt_mish {z : ℝ} (h0 : z ≠ 0) : HasDerivAt mish_normr (mish_derivr z) z := by
  have t := (hasDerivAt_tanh (softplus_normr z)).comp z (hasDerivAt_softplus z)
  refine ((hasDerivAt_id z).mul t).congr_deriv ?_
  simp only [mish_derivr, mish_normr, softplus_derivr, id, Function.comp, tanh_sech]
  field_simp
  ring

theorem hasDerivAt_sinc {z : ℝ} (h0 : z ≠ 0) : HasDerivAt sinc_normr (sinc_derivr z) z := by
  refine ((Real.hasDerivAt_sin z).div (hasDerivAt_id z) h0).congr_deriv ?_
  simp only [sinc_derivr, id]
  ring

theorem hasDerivAt_relu {z : ℝ} (h0 : z ≠ 0) : HasDerivAt relu_normr (relu_derivr z) z := by
  rcases lt_or_gt_of_ne h0 with h | h
  · rw [show relu_derivr z = 0 from if_pos h.le]
    exact hasDerivAt_of_eventually isOpen_Iio h (fun x hx => max_eq_left (le_of_lt hx)) (hasDerivAt_const z (0 : ℝ))
  · rw [show relu_derivr z = 1 from if_neg (not_le.mpr h)]
    exact hasDerivAt_of_eventually isOpen_Ioi h (fun x hx => max_eq_right (le_of_lt hx)) (hasDerivAt_id z)

theorem hasDerivAt_leaky_relu {z c : ℝ} (h0 : z ≠ 0) (hc : c ≤ 1) :
    HasDerivAt (fun x => leaky_relu_normr x c) (leaky_relu_derivr z c) z := by
  rcases lt_or_gt_of_ne h0 with h | h
  · rw [show leaky_relu_derivr z c = c from if_pos h.le]
    refine hasDerivAt_of_eventually isOpen_Iio h (g := fun x => c * x) (fun x (hx : x < 0) => max_eq_left ?_) ?_
    · nlinarith
    · simpa using (hasDerivAt_id z).const_mul c
  · rw [show leaky_relu_derivr z c = 1 from if_neg (not_le.mpr h)]
    refine hasDerivAt_of_eventually isOpen_Ioi h (fun x (hx : 0 < x) => max_eq_right ?_) (hasDerivAt_id z)
    nlinarith

theorem hasDerivAt_elu {z : ℝ} (c : ℝ) (h0 : z ≠ 0) : HasDerivAt (fun x => elu_normr x c) (elu_derivr z c) z := by
  rcases lt_or_gt_of_ne h0 with h | h
  · rw [show elu_derivr z c = c * Real.exp z from if_pos h.le]
    exact hasDerivAt_of_eventually isOpen_Iio h (fun x (hx : x < 0) => if_neg (not_le.mpr hx))
      (((Real.hasDerivAt_exp z).sub_const 1).const_mul c)
  · rw [show elu_derivr z c = 1 from if_neg (not_le.mpr h)]
    exact hasDerivAt_of_eventually isOpen_Ioi h (fun x (hx : 0 < x) => if_pos hx.le) (hasDerivAt_id z)

theorem hasDerivAt_selu {z : ℝ} (lam c : ℝ) (h0 : z ≠ 0) :
    HasDerivAt (fun x => selu_normr x lam c) (lam * elu_derivr z c) z := (hasDerivAt_elu c h0).const_mul lam

theorem hasDerivAt_sign {z : ℝ} (h0 : z ≠ 0) : HasDerivAt sign_normr (sign_derivr z) z := by
  rcases lt_or_gt_of_ne h0 with h | h
  · exact hasDerivAt_of_eventually isOpen_Iio h (fun x hx => if_pos hx) (hasDerivAt_const z (-1 : ℝ))
  · refine hasDerivAt_of_eventually isOpen_Ioi h (fun x (hx : 0 < x) => ?_) (hasDerivAt_const z (1 : ℝ))
    unfold sign_normr
    rw [if_neg (not_lt.mpr hx.le), if_neg hx.ne']

theorem sinh_fun : sinh_normr = Real.sinh := funext sinh_normr_eq
theorem cosh_fun : cosh_normr = Real.cosh := funext cosh_normr_eq
theorem tanh_fun : tanh_normr = Real.tanh := funext tanh_normr_eq

theorem hasDerivAt_sinh (z : ℝ) : HasDerivAt sinh_normr (sinh_derivr z) z := by
  rw [sinh_derivr, sinh_fun, cosh_fun]; exact Real.hasDerivAt_sinh z

theorem hasDerivAt_cosh (z : ℝ) : HasDerivAt cosh_normr (cosh_derivr z) z := by
  rw [cosh_derivr, sinh_fun, cosh_fun]; exact Real.hasDerivAt_cosh z

theorem hasDerivAt_tanhr (z : ℝ) : HasDerivAt tanh_normr (tanh_derivr z) z := by
  rw [tanh_derivr, tanh_fun, ← sq]; exact hasDerivAt_tanh z

theorem sinh_ne {z : ℝ} (h0 : z ≠ 0) : Real.sinh z ≠ 0 := by rwa [Ne, Real.sinh_eq_zero]

theorem hasDerivAt_csch {z : ℝ} (h0 : z ≠ 0) : HasDerivAt csch_normr (csch_derivr z) z := by
  have s := sinh_ne h0
  have c := (Real.cosh_pos z).ne'
  refine ((hasDerivAt_const z (1 : ℝ)).div (Real.hasDerivAt_sinh z) s).congr_deriv ?_
  simp only [csch_derivr, csch_normr, coth_normr, Real.tanh_eq_sinh_div_cosh]
  field_simp
  simp

theorem hasDerivAt_sech (z : ℝ) : HasDerivAt sech_normr (sech_derivr z) z := by
  have c := (Real.cosh_pos z).ne'
  refine ((hasDerivAt_const z (1 : ℝ)).div (Real.hasDerivAt_cosh z) c).congr_deriv ?_
  simp only [sech_derivr, sech_normr, tanh_normr_eq, Real.tanh_eq_sinh_div_cosh]
  field_simp
  simp

theorem hasDerivAt_coth {z : ℝ} (h0 : z ≠ 0) : HasDerivAt coth_normr (coth_derivr z) z := by
  have s := sinh_ne h0
  have c := (Real.cosh_pos z).ne'
  have t : Real.tanh z ≠ 0 := by rw [Real.tanh_eq_sinh_div_cosh]; exact div_ne_zero s c
  refine ((hasDerivAt_const z (1 : ℝ)).div (hasDerivAt_tanh z) t).congr_deriv ?_
  simp only [coth_derivr, csch_normr, Real.tanh_eq_sinh_div_cosh]
  have := Real.cosh_sq z
  field_simp
  linarith

theorem hasDerivAt_arsinh (z : ℝ) : HasDerivAt arsinh_normr (arsinh_derivr z) z := by
  have p : 0 < z * z + 1 := by nlinarith [mul_self_nonneg z]
  have sp := Real.sqrt_pos.mpr p
  have q : 0 < z + Real.sqrt (z * z + 1) := by
    have : |z| < Real.sqrt (z * z + 1) := by
      rw [← Real.sqrt_sq_eq_abs]; exact Real.sqrt_lt_sqrt (sq_nonneg z) (by nlinarith)
    linarith [neg_abs_le z]
  have h1 : HasDerivAt (fun x : ℝ => x * x + 1) (z + z) z := by
    simpa using ((hasDerivAt_id z).mul (hasDerivAt_id z)).add_const 1
  refine (((hasDerivAt_id z).add (h1.sqrt p.ne')).log q.ne').congr_deriv ?_
  simp only [arsinh_derivr, id, Pi.add_apply]
  generalize Real.sqrt _ = r at *
  rw [div_eq_div_iff q.ne' sp.ne']
  field_simp
  ring

theorem hasDerivAt_arcosh {z : ℝ} (h : 1 < z) : HasDerivAt arcosh_normr (arcosh_derivr z) z := by
  have p : 0 < z * z - 1 := by nlinarith
  have sp := Real.sqrt_pos.mpr p
  have q : 0 < z + Real.sqrt (z * z - 1) := by linarith
  have h1 : HasDerivAt (fun x : ℝ => x * x - 1) (z + z) z := by
    simpa using ((hasDerivAt_id z).mul (hasDerivAt_id z)).sub_const 1
  refine (((hasDerivAt_id z).add (h1.sqrt p.ne')).log q.ne').congr_deriv ?_
  simp only [arcosh_derivr, id, Pi.add_apply]
  generalize Real.sqrt _ = r at *
  rw [div_eq_div_iff q.ne' sp.ne']
  field_simp
  ring

theorem hasDerivAt_artanh {z : ℝ} (h0 : z ≠ 1) (h1 : z ≠ -1) : HasDerivAt artanh_normr (artanh_derivr z) z := by
  have a : 1 + z ≠ 0 := by intro e; exact h1 (by linarith)
  have b : 1 - z ≠ 0 := by intro e; exact h0 (by linarith)
  have h := (((hasDerivAt_id z).const_add 1).div ((hasDerivAt_id z).const_sub 1) b).log (div_ne_zero a b) |>.const_mul (1 / 2)
  refine h.congr_deriv ?_
  have e : 1 - z * z = (1 + z) * (1 - z) := by ring
  simp only [artanh_derivr, id, Pi.div_apply]
  rw [e]
  field_simp
  ring

theorem hasDerivAt_arcoth {z : ℝ} (h0 : z ≠ 1) (h1 : z ≠ -1) : HasDerivAt arcoth_normr (arcoth_derivr z) z := by
  have a : 1 + z ≠ 0 := by intro e; exact h1 (by linarith)
  have b : z - 1 ≠ 0 := by intro e; exact h0 (by linarith)
  have h := (((hasDerivAt_id z).const_add 1).div ((hasDerivAt_id z).sub_const 1) b).log (div_ne_zero a b) |>.const_mul (1 / 2)
  refine h.congr_deriv ?_
  have e : 1 - z * z = -((1 + z) * (z - 1)) := by ring
  simp only [arcoth_derivr, id, Pi.div_apply]
  rw [e]
  field_simp
  ring

theorem hasDerivAt_arcsch {z : ℝ} (h0 : z ≠ 0) : HasDerivAt arcsch_normr (arcsch_derivr z) z := by
  have zz : 0 < z * z := mul_self_pos.mpr h0
  have p : 0 < 1 + 1 / (z * z) := by positivity
  have sp := Real.sqrt_pos.mpr p
  have q : 0 < Real.sqrt (1 + 1 / (z * z)) + 1 / z := by
    have : |1 / z| < Real.sqrt (1 + 1 / (z * z)) := by
      rw [← Real.sqrt_sq_eq_abs]
      refine Real.sqrt_lt_sqrt (sq_nonneg _) ?_
      have : (1 / z) ^ 2 = 1 / (z * z) := by field_simp
      linarith
    linarith [neg_abs_le (1 / z)]
  have h1 : HasDerivAt (fun x : ℝ => 1 + 1 / (x * x)) (-(z + z) / (z * z) ^ 2) z := by
    have := (((hasDerivAt_const z (1 : ℝ)).div ((hasDerivAt_id z).mul (hasDerivAt_id z)) zz.ne')).const_add 1
    refine this.congr_deriv ?_
    simp
  have h2 : HasDerivAt (fun x : ℝ => 1 / x) (-1 / (z * z)) z := by
    refine ((hasDerivAt_const z (1 : ℝ)).div (hasDerivAt_id z) h0).congr_deriv ?_
    simp [sq]
  refine (((h1.sqrt p.ne').add h2).log q.ne').congr_deriv ?_
  simp only [arcsch_derivr, Pi.add_apply]
  have e2 : (z + z) / (z * z) ^ 2 = 2 * (1 / z * (1 / (z * z))) := by field_simp; ring
  have e3 : -1 / (z * z * Real.sqrt (1 + 1 / (z * z))) = -(1 / (z * z)) / Real.sqrt (1 + 1 / (z * z)) := by field_simp
  have e4 : -1 / (z * z) = -(1 / (z * z)) := by ring
  rw [e3, e4, neg_div _ (z + z), e2]
  generalize Real.sqrt (1 + 1 / (z * z)) = r at *
  generalize 1 / (z * z) = a at *
  generalize 1 / z = b at *
  field_simp
  ring

end Verif.Activation
