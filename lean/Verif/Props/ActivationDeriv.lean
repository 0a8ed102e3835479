import Verif.Lemmas.ActivationDeriv
import Verif.Lemmas.Gelu
import Verif.Spec.Activation

/-!
# C43: the derivative functions of `MLPPActivation`

Real numbers in place of `real_t`. A division by zero is `0` in Lean, NaN or an infinity in C++; every positive statement is
restricted to arguments (`smoothOn`) where no division by zero occurs.
-/

namespace Verif
open Spec Activation

/-- **C43** (part). For every activation function except softmax, gelu and arsech, and except mish at `0`, the function
`*_derivr` of the family is the derivative of `*_normr` at every point where that is differentiable. Missing: see the
`_fails` theorems below. -/
theorem C43_derivr_partial (f : Fn) (z : ℝ) (hz : z ∈ smoothOn f) (h1 : f ≠ .softmax) (h2 : f ≠ .gelu) (h3 : f ≠ .arsech)
    (h4 : f = .mish → z ≠ 0) : HasDerivAt (normReal f) (ownDerivReal f z) z := by
  cases f with
  | linear => exact hasDerivAt_id z
  | sigmoid => exact hasDerivAt_sigmoid z
  | swish => exact hasDerivAt_swish z
  | mish => exact hasDerivAt_mish (h4 rfl)
  | sinc => exact hasDerivAt_sinc hz
  | softmax => exact absurd rfl h1
  | softplus => exact hasDerivAt_softplus z
  | softsign => exact hasDerivAt_softsign z
  | adj_softmax => exact hasDerivAt_const z 0
  | cloglog => exact hasDerivAt_cloglog z
  | logit => exact hasDerivAt_logit hz.1.ne' hz.2.ne
  | gaussian_cdf => exact hasDerivAt_gaussian_cdf z
  | relu => exact hasDerivAt_relu hz
  | gelu => exact absurd rfl h2
  | sign => exact hasDerivAt_sign hz
  | unit_step => exact hasDerivAt_unit_step hz
  | sinh => exact hasDerivAt_sinh z
  | cosh => exact hasDerivAt_cosh z
  | tanh => exact hasDerivAt_tanhr z
  | csch => exact hasDerivAt_csch hz
  | sech => exact hasDerivAt_sech z
  | coth => exact hasDerivAt_coth hz
  | arsinh => exact hasDerivAt_arsinh z
  | arcosh => exact hasDerivAt_arcosh hz
  | artanh => exact hasDerivAt_artanh hz.2.ne hz.1.ne'
  | arcsch => exact hasDerivAt_arcsch hz
  | arsech => exact absurd rfl h3
  | arcoth =>
    refine hasDerivAt_arcoth ?_ ?_
    · rintro rfl; simp [smoothOn] at hz
    · rintro rfl; simp [smoothOn] at hz

/-- `leaky_relu_derivr(z, c)` is the derivative, for slopes `c ≤ 1`. -/
theorem C43_leaky_relu_partial {z c : ℝ} (h0 : z ≠ 0) (hc : c ≤ 1) :
    HasDerivAt (fun x => leaky_relu_normr x c) (leaky_relu_derivr z c) z := hasDerivAt_leaky_relu h0 hc

/-- `elu_derivr(z, c)` is the derivative. -/
theorem C43_elu {z : ℝ} (c : ℝ) (h0 : z ≠ 0) : HasDerivAt (fun x => elu_normr x c) (elu_derivr z c) z := hasDerivAt_elu c h0

/-- `gelu_derivr` is within 1/2000 of the derivative of `gelu_normr` everywhere (its coefficients are rounded). -/
theorem C43_gelu_partial (z : ℝ) : ∃ d, HasDerivAt gelu_normr d z ∧ |gelu_derivr z - d| ≤ 1 / 2000 :=
  ⟨_, hasDerivAt_gelu z, gelu_close z⟩

/-- `selu_derivr` is the derivative when `lambda = 1`. -/
theorem C43_selu_partial {z : ℝ} (c : ℝ) (h0 : z ≠ 0) :
    HasDerivAt (fun x => selu_normr x 1 c) (selu_derivr z 1 c) z := by
  have := hasDerivAt_selu 1 c h0
  rw [one_mul] at this; exact this

/-! ## What fails -/

/-- `run_activation_deriv_real` evaluates the function, not its derivative, whatever the function. -/
theorem C43_run_deriv_real_fails (f : Fn) : derivReal f = normReal f := by cases f <;> rfl

/-- ... which is not the derivative: sigmoid at `0` gives `1/2` instead of `1/4`. -/
theorem C43_run_deriv_real_wrong_fails : ¬ HasDerivAt (normReal .sigmoid) (derivReal .sigmoid 0) 0 := by
  intro h
  have := h.unique (hasDerivAt_sigmoid 0)
  rw [C43_run_deriv_real_fails] at this
  norm_num [normReal, sigmoid_normr, sigmoid_derivr] at this

/-- `leaky_relu_normr(z, c)` is `max(c z, z)`: for a slope `c > 1` it has slope `1` on the left and `c` on the right, and
`leaky_relu_derivr` has them the other way round. -/
theorem C43_leaky_relu_fails {z c : ℝ} (h0 : z ≠ 0) (hc : 1 < c) :
    ¬ HasDerivAt (fun x => leaky_relu_normr x c) (leaky_relu_derivr z c) z := by
  intro h
  rcases lt_or_gt_of_ne h0 with hz | hz
  · have e : HasDerivAt (fun x => leaky_relu_normr x c) 1 z := by
      refine (hasDerivAt_id z).congr_of_eventuallyEq ?_
      filter_upwards [Iio_mem_nhds hz] with x hx
      have hx : x < 0 := hx
      exact max_eq_right (by nlinarith)
    have := h.unique e
    rw [leaky_relu_derivr, if_pos hz.le] at this
    linarith
  · have e : HasDerivAt (fun x => leaky_relu_normr x c) c z := by
      have := (hasDerivAt_id z).const_mul c
      rw [mul_one] at this
      refine this.congr_of_eventuallyEq ?_
      filter_upwards [Ioi_mem_nhds hz] with x hx
      have hx : 0 < x := hx
      exact max_eq_left (by nlinarith)
    have := h.unique e
    rw [leaky_relu_derivr, if_neg (not_le.mpr hz)] at this
    linarith

/-- `selu_derivr` drops the factor `lambda`: for `lambda ≠ 1` it is wrong at every `z > 0`. -/
theorem C43_selu_fails {z lam : ℝ} (c : ℝ) (h0 : 0 < z) (hl : lam ≠ 1) :
    ¬ HasDerivAt (fun x => selu_normr x lam c) (selu_derivr z lam c) z := by
  intro h
  have := h.unique (hasDerivAt_selu lam c h0.ne')
  rw [selu_derivr, elu_derivr, if_neg (not_le.mpr h0), mul_one] at this
  exact hl this.symm

/-- `gelu_derivr` is not exact. -/
theorem C43_gelu_fails : ∃ z, ¬ HasDerivAt gelu_normr (gelu_derivr z) z := gelu_inexact

/-- `softmax_derivr(z) = z` is not the derivative of `softmax_normr(z) = z`, except at `1`. -/
theorem C43_softmax_fails {z : ℝ} (hz : z ≠ 1) : ¬ HasDerivAt softmax_normr (softmax_derivr z) z := by
  intro h
  exact hz (h.unique (hasDerivAt_id z))

/-- `mish_derivr` divides by `z`; at `0` the derivative of `mish_normr` is `tanh(log 2)`, and the C++ result is `0/0`. -/
theorem C43_mish_zero : HasDerivAt mish_normr (Real.tanh (Real.log 2)) 0 := by
  have h := (hasDerivAt_id (0 : ℝ)).mul ((hasDerivAt_tanh (softplus_normr 0)).comp 0 (hasDerivAt_softplus 0))
  have e : mish_normr = (id * (Real.tanh ∘ softplus_normr)) := rfl
  rw [e]
  refine h.congr_deriv ?_
  simp [softplus_normr]
  norm_num

/-- ... while the formula of `mish_derivr` has no value there: the model's convention `0/0 = 0` gives `0`, C++ gives NaN. -/
theorem C43_mish_fails : ¬ HasDerivAt mish_normr (mish_derivr 0) 0 := by
  intro h
  have := h.unique C43_mish_zero
  rw [mish_derivr, mul_zero, zero_mul, zero_add, div_zero] at this
  rw [Real.tanh_eq_sinh_div_cosh, eq_comm, div_eq_zero_iff, Real.sinh_eq_zero] at this
  rcases this with h1 | h1
  · exact absurd h1 (Real.log_pos (by norm_num)).ne'
  · exact absurd h1 (Real.cosh_pos _).ne'

/-- `arsech_normr` lacks the square root of `arsech(z) = log(1/z + sqrt(1/z^2 - 1))`, so `arsech_derivr` (the derivative of
arsech) is not its derivative. -/
theorem C43_arsech_fails : ¬ HasDerivAt arsech_normr (arsech_derivr (1 / 2)) (1 / 2) := by
  intro h
  have h0 : HasDerivAt (fun z : ℝ => 1 / z) (-4) (1 / 2) := by
    have := hasDerivAt_inv (x := (1 / 2 : ℝ)) (by norm_num)
    simp only [one_div] at this ⊢
    exact this.congr_deriv (by norm_num)
  have e : HasDerivAt arsech_normr (-4) (1 / 2) := by
    have h1 := (h0.add ((h0.add_const 1).mul (h0.sub_const 1))).log (by norm_num)
    refine HasDerivAt.congr_deriv (f := arsech_normr) h1 ?_
    simp only [Pi.add_apply, Pi.mul_apply]
    norm_num
  have := h.unique e
  rw [arsech_derivr, div_eq_iff (by positivity)] at this
  have h2 : Real.sqrt (1 - 1 / 2 * (1 / 2)) = 1 / 2 := by linarith
  have h3 := Real.sq_sqrt (show (0 : ℝ) ≤ 1 - 1 / 2 * (1 / 2) by norm_num)
  rw [h2] at h3
  norm_num at h3

/-- `arsech_derivr` is the derivative of the function `log(1/z + sqrt(1/z^2 - 1))` that `arsech_normr` should be. -/
theorem C43_arsech_partial {z : ℝ} (hz : z ∈ smoothOn .arsech) :
    HasDerivAt (fun z => Real.log (1 / z + Real.sqrt (1 / z ^ 2 - 1))) (arsech_derivr z) z := by
  obtain ⟨h0, h1⟩ := hz
  have hz0 : z ≠ 0 := h0.ne'
  have hp : 0 < 1 - z * z := by nlinarith
  have hq : 1 / z ^ 2 - 1 = (1 - z * z) / z ^ 2 := by field_simp
  have hq0 : 0 < 1 / z ^ 2 - 1 := by rw [hq]; positivity
  have i1 : HasDerivAt (fun z : ℝ => 1 / z) (-1 / z ^ 2) z := by
    have := hasDerivAt_inv hz0
    simp only [one_div] at this ⊢
    exact this.congr_deriv (by ring)
  have i2 : HasDerivAt (fun z : ℝ => 1 / z ^ 2 - 1) (-2 / z ^ 3) z := by
    have e : (fun z : ℝ => 1 / z ^ 2 - 1) = fun z => (1 / z) ^ 2 - 1 := by funext x; simp
    rw [e]
    refine HasDerivAt.congr_deriv ((i1.pow 2).sub_const 1) ?_
    simp; field_simp
  have h := (i1.add (i2.sqrt hq0.ne')).log (by
    have := Real.sqrt_nonneg (1 / z ^ 2 - 1); simp only [Pi.add_apply]; positivity)
  refine HasDerivAt.congr_deriv h ?_
  have es : Real.sqrt (1 / z ^ 2 - 1) = Real.sqrt (1 - z * z) / z := by
    rw [hq, Real.sqrt_div hp.le, Real.sqrt_sq h0.le]
  simp only [Pi.add_apply]
  rw [es, arsech_derivr]
  have hs : 0 < Real.sqrt (1 - z * z) := Real.sqrt_pos.mpr hp
  generalize Real.sqrt (1 - z * z) = r at *
  field_simp
  ring

/-! ## Non-vacuity -/

example : (0.3 : ℝ) ∈ smoothOn .logit := by constructor <;> norm_num
example : (-2 : ℝ) ∈ smoothOn .arcoth := by simp [smoothOn]
example : HasDerivAt (normReal .tanh) (ownDerivReal .tanh 3) 3 :=
  C43_derivr_partial .tanh 3 trivial (by nofun) (by nofun) (by nofun) (by nofun)

end Verif
