import Verif.Model.NumAnalysis
import Mathlib.Analysis.Calculus.Deriv.MeanValue
import Mathlib.Analysis.Calculus.Deriv.Shift
import Mathlib.Analysis.SpecialFunctions.Trigonometric.Deriv
import Mathlib.Analysis.Calculus.Deriv.Pow
import Mathlib.Tactic.LinearCombination
import Mathlib.Tactic.FieldSimp

/-! # C77: numerical derivatives and Taylor approximations of functions of one variable -/

namespace Verif
open NumAnalysis Set

/-- **C77.** `num_diffr` is the derivative at some point less than `1e-10` to the right. -/
theorem C77_num_diffr (f f' : ℝ → ℝ) (x : ℝ) (hf : ∀ t, HasDerivAt f (f' t) t) :
    ∃ ξ ∈ Ioo x (x + 1e-10), num_diffr f x = f' ξ := by
  have hlt : x < x + 1e-10 := by norm_num
  obtain ⟨ξ, hξ, e⟩ := exists_hasDerivAt_eq_slope f f' hlt (fun t _ => (hf t).continuousAt.continuousWithinAt) (fun t _ => hf t)
  refine ⟨ξ, hξ, ?_⟩
  rw [e]; unfold num_diffr
  simp

theorem diff2_mvt (f f' f'' : ℝ → ℝ) (x e : ℝ) (he : 0 < e) (hf : ∀ t, HasDerivAt f (f' t) t) (hf' : ∀ t, HasDerivAt f' (f'' t) t) :
    ∃ ξ ∈ Ioo x (x + 2 * e), f (x + 2 * e) - 2 * f (x + e) + f x = f'' ξ * (e * e) := by
  have sh : ∀ g g' : ℝ → ℝ, (∀ t, HasDerivAt g (g' t) t) → ∀ t, HasDerivAt (fun t => g (t + e) - g t) (g' (t + e) - g' t) t := by
    intro g g' hg t
    exact ((hg (t + e)).comp_add_const t e).sub (hg t)
  have h1 := sh f f' hf
  obtain ⟨ξ, hξ, e1⟩ := exists_hasDerivAt_eq_slope _ _ (show x < x + e by linarith) (fun t _ => (h1 t).continuousAt.continuousWithinAt) (fun t _ => h1 t)
  obtain ⟨η, hη, e2⟩ := exists_hasDerivAt_eq_slope f' f'' (show ξ < ξ + e by linarith) (fun t _ => (hf' t).continuousAt.continuousWithinAt) (fun t _ => hf' t)
  refine ⟨η, ⟨hξ.1.trans hη.1, by linarith [hξ.2, hη.2]⟩, ?_⟩
  rw [e2, add_sub_cancel_left, e1, add_sub_cancel_left]
  field_simp
  rw [show x + e + e = x + 2 * e by ring]; ring

/-- **C77.** `num_diff_2r` is the second derivative at some point less than `2e-5` to the right. -/
theorem C77_num_diff_2r (f f' f'' : ℝ → ℝ) (x : ℝ) (hf : ∀ t, HasDerivAt f (f' t) t) (hf' : ∀ t, HasDerivAt f' (f'' t) t) :
    ∃ ξ ∈ Ioo x (x + 2e-5), num_diff_2r f x = f'' ξ := by
  obtain ⟨ξ, hξ, e⟩ := diff2_mvt f f' f'' x 1e-5 (by norm_num) hf hf'
  refine ⟨ξ, ⟨hξ.1, hξ.2.trans_le (by norm_num)⟩, ?_⟩
  unfold num_diff_2r
  dsimp only
  rw [e]; field_simp

/-- **C77.** `num_diff_3r` is the third derivative at some point less than `3e-5` to the right. -/
theorem C77_num_diff_3r (f f' f'' f3 : ℝ → ℝ) (x : ℝ) (hf : ∀ t, HasDerivAt f (f' t) t) (hf' : ∀ t, HasDerivAt f' (f'' t) t)
    (hf'' : ∀ t, HasDerivAt f'' (f3 t) t) :
    ∃ ξ ∈ Ioo x (x + 3e-5), num_diff_3r f x = f3 ξ := by
  have sh : ∀ g g' : ℝ → ℝ, (∀ t, HasDerivAt g (g' t) t) → ∀ t, HasDerivAt (fun t => g (t + 1e-5) - g t) (g' (t + 1e-5) - g' t) t := by
    intro g g' hg t
    exact ((hg (t + 1e-5)).comp_add_const t 1e-5).sub (hg t)
  obtain ⟨ξ, hξ, e⟩ := diff2_mvt _ _ _ x 1e-5 (by norm_num) (sh f f' hf) (sh f' f'' hf')
  obtain ⟨η, hη, e2⟩ := exists_hasDerivAt_eq_slope f'' f3 (show ξ < ξ + 1e-5 by norm_num) (fun t _ => (hf'' t).continuousAt.continuousWithinAt) (fun t _ => hf'' t)
  refine ⟨η, ⟨hξ.1.trans hη.1, ?_⟩, ?_⟩
  · have := hξ.2; have := hη.2
    norm_num at *
    linarith
  · unfold num_diff_3r
    dsimp only at e ⊢
    rw [e2, add_sub_cancel_left]
    have p : (1e-5 : ℝ) ≠ 0 := by norm_num
    rw [show x + 2 * 1e-5 + 1e-5 = x + 3 * 1e-5 by ring, show x + 1e-5 + 1e-5 = x + 2 * 1e-5 by ring] at e
    rw [div_eq_div_iff (by positivity) p]
    linear_combination (1e-5) * e

/-- **C77.** On polynomials of degree one, two and three the three numerical derivatives are exact. -/
theorem C77_exact (a b c d x : ℝ) :
    num_diffr (fun t => a * t + b) x = a ∧ num_diff_2r (fun t => a * t ^ 2 + b * t + c) x = 2 * a ∧
      num_diff_3r (fun t => a * t ^ 3 + b * t ^ 2 + c * t + d) x = 6 * a := by
  refine ⟨?_, ?_, ?_⟩
  · unfold num_diffr; dsimp only; ring_nf
  · unfold num_diff_2r; dsimp only; ring_nf
  · unfold num_diff_3r; dsimp only; ring_nf

/-! ## Taylor approximations -/

theorem comp_line {f f' : ℝ → ℝ} (hf : ∀ t, HasDerivAt f (f' t) t) (c d t : ℝ) :
    HasDerivAt (fun t => f (c + t * d)) (f' (c + t * d) * d) t := by
  have h1 : HasDerivAt (fun t : ℝ => c + t * d) d t := by
    simpa using ((hasDerivAt_id t).mul_const d).const_add c
  exact (hf (c + t * d)).comp t h1

theorem taylor2 {p p' p'' : ℝ → ℝ} (h0 : ∀ t, HasDerivAt p (p' t) t) (h1 : ∀ t, HasDerivAt p' (p'' t) t) :
    ∃ ξ ∈ Ioo (0 : ℝ) 1, p 1 = p 0 + p' 0 + p'' ξ / 2 := by
  have hF : ∀ t, HasDerivAt (fun t => p 1 - p t - p' t * (1 - t)) (-p'' t * (1 - t)) t := by
    intro t
    have := ((h0 t).const_sub (p 1)).sub ((h1 t).mul ((hasDerivAt_id t).const_sub 1))
    refine this.congr_deriv ?_
    simp only [id]; ring
  have hG : ∀ t : ℝ, HasDerivAt (fun t => (1 - t) ^ 2) (-2 * (1 - t)) t := by
    intro t
    refine (((hasDerivAt_id t).const_sub 1).pow 2).congr_deriv ?_
    simp only [id]; norm_num
  obtain ⟨ξ, hξ, e⟩ := exists_ratio_hasDerivAt_eq_ratio_slope _ _ (show (0 : ℝ) < 1 by norm_num)
    (fun t _ => (hF t).continuousAt.continuousWithinAt) (fun t _ => hF t) _ _
    (fun t _ => (hG t).continuousAt.continuousWithinAt) (fun t _ => hG t)
  refine ⟨ξ, hξ, ?_⟩
  have q : (1 - ξ) ≠ 0 := by have := hξ.2; intro; linarith
  apply mul_left_cancel₀ q
  linear_combination (-1 / 2) * e

theorem taylor3 {p p' p'' p3 : ℝ → ℝ} (h0 : ∀ t, HasDerivAt p (p' t) t) (h1 : ∀ t, HasDerivAt p' (p'' t) t)
    (h2 : ∀ t, HasDerivAt p'' (p3 t) t) : ∃ ξ ∈ Ioo (0 : ℝ) 1, p 1 = p 0 + p' 0 + p'' 0 / 2 + p3 ξ / 6 := by
  have hs : ∀ t : ℝ, HasDerivAt (fun t => (1 - t) ^ 2) (-2 * (1 - t)) t := by
    intro t
    refine (((hasDerivAt_id t).const_sub 1).pow 2).congr_deriv ?_
    simp only [id]; norm_num
  have hF : ∀ t, HasDerivAt (fun t => p 1 - p t - p' t * (1 - t) - p'' t * (1 - t) ^ 2 / 2) (-p3 t * (1 - t) ^ 2 / 2) t := by
    intro t
    have := (((h0 t).const_sub (p 1)).sub ((h1 t).mul ((hasDerivAt_id t).const_sub 1))).sub (((h2 t).mul (hs t)).div_const 2)
    refine this.congr_deriv ?_
    simp only [id]; ring
  have hG : ∀ t : ℝ, HasDerivAt (fun t => (1 - t) ^ 3) (-3 * (1 - t) ^ 2) t := by
    intro t
    refine (((hasDerivAt_id t).const_sub 1).pow 3).congr_deriv ?_
    simp only [id]; norm_num
  obtain ⟨ξ, hξ, e⟩ := exists_ratio_hasDerivAt_eq_ratio_slope _ _ (show (0 : ℝ) < 1 by norm_num)
    (fun t _ => (hF t).continuousAt.continuousWithinAt) (fun t _ => hF t) _ _
    (fun t _ => (hG t).continuousAt.continuousWithinAt) (fun t _ => hG t)
  refine ⟨ξ, hξ, ?_⟩
  have q : (1 - ξ) ^ 2 ≠ 0 := by have := hξ.2; exact pow_ne_zero _ (by intro; linarith)
  apply mul_left_cancel₀ q
  linear_combination (-1 / 3) * e

theorem num_diffr_err {f f' f'' : ℝ → ℝ} (hf : ∀ t, HasDerivAt f (f' t) t) (hf' : ∀ t, HasDerivAt f' (f'' t) t) {C : ℝ}
    (hC : ∀ t, |f'' t| ≤ C) (x : ℝ) : |num_diffr f x - f' x| ≤ C * 1e-10 := by
  obtain ⟨ξ, hξ, e⟩ := C77_num_diffr f f' x hf
  obtain ⟨η, _, e2⟩ := exists_hasDerivAt_eq_slope f' f'' hξ.1 (fun t _ => (hf' t).continuousAt.continuousWithinAt) (fun t _ => hf' t)
  have p : 0 < ξ - x := sub_pos.mpr hξ.1
  have : f' ξ - f' x = f'' η * (ξ - x) := by rw [e2]; field_simp
  rw [e, this, abs_mul, abs_of_pos p]
  have c0 : 0 ≤ C := (abs_nonneg _).trans (hC 0)
  exact mul_le_mul (hC η) (by linarith [hξ.2]) p.le c0

theorem num_diff_2r_err {f f' f'' f3 : ℝ → ℝ} (hf : ∀ t, HasDerivAt f (f' t) t) (hf' : ∀ t, HasDerivAt f' (f'' t) t)
    (hf'' : ∀ t, HasDerivAt f'' (f3 t) t) {C : ℝ} (hC : ∀ t, |f3 t| ≤ C) (x : ℝ) : |num_diff_2r f x - f'' x| ≤ C * 2e-5 := by
  obtain ⟨ξ, hξ, e⟩ := C77_num_diff_2r f f' f'' x hf hf'
  obtain ⟨η, _, e2⟩ := exists_hasDerivAt_eq_slope f'' f3 hξ.1 (fun t _ => (hf'' t).continuousAt.continuousWithinAt) (fun t _ => hf'' t)
  have p : 0 < ξ - x := sub_pos.mpr hξ.1
  have : f'' ξ - f'' x = f3 η * (ξ - x) := by rw [e2]; field_simp
  rw [e, this, abs_mul, abs_of_pos p]
  have c0 : 0 ≤ C := (abs_nonneg _).trans (hC 0)
  exact mul_le_mul (hC η) (by linarith [hξ.2]) p.le c0

/-- **C77.** The error of `linear_approximationr`, when the second derivative is at most `C` in absolute value: that of the Taylor
polynomial, plus that of the numerical derivative. -/
theorem C77_linear_approximationr (f f' f'' : ℝ → ℝ) (hf : ∀ t, HasDerivAt f (f' t) t) (hf' : ∀ t, HasDerivAt f' (f'' t) t) (C : ℝ)
    (hC : ∀ t, |f'' t| ≤ C) (c x : ℝ) :
    |linear_approximationr f c x - f x| ≤ C / 2 * |x - c| ^ 2 + C * 1e-10 * |x - c| := by
  have h0 := comp_line hf c (x - c)
  have h1 : ∀ t, HasDerivAt (fun t => f' (c + t * (x - c)) * (x - c)) (f'' (c + t * (x - c)) * (x - c) * (x - c)) t :=
    fun t => (comp_line hf' c (x - c) t).mul_const (x - c)
  obtain ⟨ξ, -, e⟩ := taylor2 h0 h1
  simp only [one_mul, zero_mul, add_zero, add_sub_cancel] at e
  have n := num_diffr_err hf hf' hC c
  have : linear_approximationr f c x - f x = (num_diffr f c - f' c) * (x - c) - f'' (c + ξ * (x - c)) * (x - c) ^ 2 / 2 := by
    unfold linear_approximationr constant_approximationr; rw [e]; ring
  rw [this]
  refine (abs_sub _ _).trans ?_
  rw [abs_mul, abs_div, abs_mul, abs_pow, abs_two]
  have := mul_le_mul_of_nonneg_right n (abs_nonneg (x - c))
  have := mul_le_mul_of_nonneg_right (hC (c + ξ * (x - c))) (sq_nonneg |x - c|)
  linarith

/-- **C77.** The error of `quadratic_approximationr`, when the second derivative is at most `C` and the third at most `D` in absolute
value. -/
theorem C77_quadratic_approximationr (f f' f'' f3 : ℝ → ℝ) (hf : ∀ t, HasDerivAt f (f' t) t) (hf' : ∀ t, HasDerivAt f' (f'' t) t)
    (hf'' : ∀ t, HasDerivAt f'' (f3 t) t) (C D : ℝ) (hC : ∀ t, |f'' t| ≤ C) (hD : ∀ t, |f3 t| ≤ D) (c x : ℝ) :
    |quadratic_approximationr f c x - f x| ≤ D / 6 * |x - c| ^ 3 + C * 1e-10 * |x - c| + D * 1e-5 * |x - c| ^ 2 := by
  have h0 := comp_line hf c (x - c)
  have h1 : ∀ t, HasDerivAt (fun t => f' (c + t * (x - c)) * (x - c)) (f'' (c + t * (x - c)) * (x - c) * (x - c)) t :=
    fun t => (comp_line hf' c (x - c) t).mul_const (x - c)
  have h2 : ∀ t, HasDerivAt (fun t => f'' (c + t * (x - c)) * (x - c) * (x - c)) (f3 (c + t * (x - c)) * (x - c) * (x - c) * (x - c)) t :=
    fun t => ((comp_line hf'' c (x - c) t).mul_const (x - c)).mul_const (x - c)
  obtain ⟨ξ, -, e⟩ := taylor3 h0 h1 h2
  simp only [one_mul, zero_mul, add_zero, add_sub_cancel] at e
  have n := num_diffr_err hf hf' hC c
  have n2 := num_diff_2r_err hf hf' hf'' hD c
  have : quadratic_approximationr f c x - f x = (num_diffr f c - f' c) * (x - c) +
      (num_diff_2r f c - f'' c) * (x - c) ^ 2 / 2 - f3 (c + ξ * (x - c)) * (x - c) ^ 3 / 6 := by
    unfold quadratic_approximationr linear_approximationr constant_approximationr; rw [e]; ring
  rw [this]
  refine (abs_sub _ _).trans ((add_le_add_left (abs_add_le _ _) _).trans ?_)
  rw [abs_mul, abs_div, abs_mul, abs_pow, abs_two, abs_div, abs_mul, abs_pow, abs_of_pos (show (0 : ℝ) < 6 by norm_num)]
  have := mul_le_mul_of_nonneg_right n (abs_nonneg (x - c))
  have := mul_le_mul_of_nonneg_right n2 (sq_nonneg |x - c|)
  have := mul_le_mul_of_nonneg_right (hD (c + ξ * (x - c))) (pow_nonneg (abs_nonneg (x - c)) 3)
  norm_num at *
  linarith

/-- **C77** fails for `cubic_approximationr`: the cubic term is never added, whatever the function is. -/
theorem C77_cubic_approximationr_fails (f : ℝ → ℝ) (c x : ℝ) : cubic_approximationr f c x = quadratic_approximationr f c x := by
  unfold cubic_approximationr; norm_num

/-- For `t ↦ t³` about 0 the "cubic approximation" at 1 is smaller than 0.0001; the true value is 1. -/
theorem C77_cubic_wrong_fails : cubic_approximationr (fun t => t ^ 3) 0 1 < 0.0001 := by
  rw [C77_cubic_approximationr_fails]
  unfold quadratic_approximationr linear_approximationr constant_approximationr num_diffr num_diff_2r
  norm_num

/-- The hypotheses of the C77 theorems are met by the sine. -/
example : (∀ t, HasDerivAt Real.sin (Real.cos t) t) ∧ (∀ t, HasDerivAt Real.cos (-Real.sin t) t) ∧
    (∀ t, HasDerivAt (fun t => -Real.sin t) (-Real.cos t) t) ∧ (∀ t, |-Real.sin t| ≤ 1) ∧ (∀ t, |-Real.cos t| ≤ 1) :=
  ⟨Real.hasDerivAt_sin, Real.hasDerivAt_cos, fun t => (Real.hasDerivAt_sin t).neg, fun t => by rw [abs_neg]; exact Real.abs_sin_le_one t,
    fun t => by rw [abs_neg]; exact Real.abs_cos_le_one t⟩

end Verif
