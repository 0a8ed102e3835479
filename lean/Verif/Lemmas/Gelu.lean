import Verif.Lemmas.ActivationDeriv
import Mathlib.Analysis.Real.Pi.Bounds
import Mathlib.Analysis.Real.Pi.Irrational
import Mathlib.Analysis.Calculus.MeanValue

/-! # GELU: the stated derivative uses rounded constants -/

namespace Verif.Activation

/-- The exact derivative of `gelu_normr`. -/
noncomputable def geluExact (z : ℝ) : ℝ :=
  let k := Real.sqrt (2 / Real.pi)
  let u := k * (z + 0.044715 * z ^ 3)
  1 / 2 * (1 + Real.tanh u) + 1 / 2 * z * ((1 - Real.tanh u ^ 2) * (k * (1 + 0.044715 * (3 * z ^ 2))))

theorem hasDerivAt_gelu (z : ℝ) : HasDerivAt gelu_normr (geluExact z) z := by
  have e : gelu_normr = fun z => 1 / 2 * z * (1 + Real.tanh (Real.sqrt (2 / Real.pi) * (z + 0.044715 * z ^ 3))) := by
    funext x; rw [gelu_normr, Real.rpow_ofNat]
  rw [e]
  have h1 : HasDerivAt (fun x : ℝ => Real.sqrt (2 / Real.pi) * (x + 0.044715 * x ^ 3))
      (Real.sqrt (2 / Real.pi) * (1 + 0.044715 * (3 * z ^ 2))) z := by
    refine (((hasDerivAt_id z).add ((hasDerivAt_pow 3 z).const_mul 0.044715)).const_mul _).congr_deriv ?_
    norm_num
  have h2 := ((hasDerivAt_tanh _).comp z h1).const_add 1
  have h3 : HasDerivAt (fun x : ℝ => 1 / 2 * x) (1 / 2) z := by simpa using (hasDerivAt_id z).const_mul (1 / 2 : ℝ)
  exact h3.mul h2

/-- The value the code computes, with natural powers. -/
theorem gelu_derivr_eq (z : ℝ) : gelu_derivr z = 0.5 * Real.tanh (0.0356774 * z ^ 3 + 0.797885 * z) +
    (0.0535161 * z ^ 3 + 0.398942 * z) * (1 - Real.tanh (0.0356774 * z ^ 3 + 0.797885 * z) ^ 2) + 0.5 := by
  rw [tanh_sech, gelu_derivr, Real.rpow_ofNat, Real.rpow_ofNat, tanh_normr_eq, ← sq]

theorem gelu_odd (z : ℝ) : gelu_derivr (-z) - geluExact (-z) = -(gelu_derivr z - geluExact z) := by
  rw [gelu_derivr_eq, gelu_derivr_eq, geluExact, geluExact]
  have e1 : 0.0356774 * (-z) ^ 3 + 0.797885 * (-z) = -(0.0356774 * z ^ 3 + 0.797885 * z) := by ring
  have e2 : Real.sqrt (2 / Real.pi) * (-z + 0.044715 * (-z) ^ 3) = -(Real.sqrt (2 / Real.pi) * (z + 0.044715 * z ^ 3)) := by ring
  rw [e1, e2, Real.tanh_neg, Real.tanh_neg]
  ring

theorem gelu_const : 0.79788456 < Real.sqrt (2 / Real.pi) ∧ Real.sqrt (2 / Real.pi) < 0.79788457 := by
  have p0 := Real.pi_pos
  have p1 := Real.pi_gt_d20
  have p2 := Real.pi_lt_d20
  constructor
  · rw [Real.lt_sqrt (by norm_num), lt_div_iff₀ p0]; nlinarith
  · rw [Real.sqrt_lt' (by norm_num), div_lt_iff₀ p0]; nlinarith

theorem sech_bound {m x : ℝ} (hm : 0 ≤ m) (hx : m ≤ x) : 1 - Real.tanh x ^ 2 ≤ 1 / (1 + m ^ 2) := by
  have hs : m ≤ Real.sinh x := hx.trans (Real.self_le_sinh_iff.mpr (hm.trans hx))
  have c := Real.cosh_pos x
  have q := Real.cosh_sq x
  have : 1 - Real.tanh x ^ 2 = 1 / Real.cosh x ^ 2 := by
    rw [Real.tanh_eq_sinh_div_cosh]; field_simp; linarith
  rw [this, q]
  exact one_div_le_one_div_of_le (by positivity) (by nlinarith)

theorem tanh_sq_le (x : ℝ) : 0 ≤ 1 - Real.tanh x ^ 2 := by
  rw [tanh_sech]; exact mul_self_nonneg _

theorem abs_tanh_le (x : ℝ) : |Real.tanh x| ≤ 1 := by
  rw [← sq_le_one_iff_abs_le_one]; linarith [tanh_sq_le x]

theorem tanh_lip {m u v : ℝ} (hm : 0 ≤ m) (hu : m ≤ u) (hv : m ≤ v) :
    |Real.tanh v - Real.tanh u| ≤ 1 / (1 + m ^ 2) * |v - u| := by
  have := Convex.norm_image_sub_le_of_norm_hasDerivWithin_le (f := Real.tanh) (f' := fun x => 1 - Real.tanh x ^ 2) (C := 1 / (1 + m ^ 2))
    (s := Set.Ici m) (x := u) (y := v) (fun x _ => (hasDerivAt_tanh x).hasDerivWithinAt)
    (fun x hx => by rw [Real.norm_eq_abs, abs_of_nonneg (tanh_sq_le x)]; exact sech_bound hm hx) (convex_Ici m) hu hv
  simpa using this

theorem sech2_lip {m u v : ℝ} (hm : 0 ≤ m) (hu : m ≤ u) (hv : m ≤ v) :
    |(1 - Real.tanh v ^ 2) - (1 - Real.tanh u ^ 2)| ≤ 2 / (1 + m ^ 2) * |v - u| := by
  have e : (1 - Real.tanh v ^ 2) - (1 - Real.tanh u ^ 2) = -((Real.tanh v - Real.tanh u) * (Real.tanh v + Real.tanh u)) := by ring
  rw [e, abs_neg, abs_mul]
  have h1 := tanh_lip hm hu hv
  have h2 : |Real.tanh v + Real.tanh u| ≤ 2 := by
    calc _ ≤ |Real.tanh v| + |Real.tanh u| := abs_add_le _ _
      _ ≤ 2 := by linarith [abs_tanh_le v, abs_tanh_le u]
  calc _ ≤ (1 / (1 + m ^ 2) * |v - u|) * 2 := mul_le_mul h1 h2 (abs_nonneg _) (by positivity)
    _ = _ := by ring

theorem gelu_close_nonneg {z : ℝ} (hz : 0 ≤ z) : |gelu_derivr z - geluExact z| ≤ 1 / 2000 := by
  obtain ⟨k1, k2⟩ := gelu_const
  rw [gelu_derivr_eq, geluExact]
  generalize Real.sqrt (2 / Real.pi) = k at *
  set v := 0.0356774 * z ^ 3 + 0.797885 * z with hv
  set u := k * (z + 0.044715 * z ^ 3) with hu
  set m := 0.0356 * (z + z ^ 3) with hm
  have z3 : 0 ≤ z ^ 3 := by positivity
  have m0 : 0 ≤ m := by positivity
  have mu : m ≤ u := by nlinarith
  have mv : m ≤ v := by nlinarith
  have vu : |v - u| ≤ 0.0000005 * (z + z ^ 3) := by
    rw [abs_le]; constructor <;> nlinarith
  have vu' : |v - u| ≤ 0.0000005 / 0.0356 * m := by rw [hm]; linarith
  have M : 0 < 1 + m ^ 2 := by positivity
  have t := tanh_lip m0 mu mv
  have t2 := sech2_lip m0 mu mv
  have b1 : m / (1 + m ^ 2) ≤ 1 / 2 := by rw [div_le_iff₀ M]; nlinarith [sq_nonneg (m - 1)]
  have b2 : m * m / (1 + m ^ 2) ≤ 1 := by rw [div_le_iff₀ M]; nlinarith
  have T : |Real.tanh v - Real.tanh u| ≤ 0.0000071 := by
    calc _ ≤ 1 / (1 + m ^ 2) * (0.0000005 / 0.0356 * m) := t.trans (by gcongr)
      _ = 0.0000005 / 0.0356 * (m / (1 + m ^ 2)) := by ring
      _ ≤ 0.0000005 / 0.0356 * (1 / 2) := by gcongr
      _ ≤ _ := by norm_num
  set w := 0.0535161 * z ^ 3 + 0.398942 * z with hw
  set w' := 1 / 2 * z * (k * (1 + 0.044715 * (3 * z ^ 2))) with hw'
  have ew' : w' = k * 0.0670725 * z ^ 3 + k / 2 * z := by rw [hw']; ring
  have w0 : 0 ≤ w' := by positivity
  have wm : w' ≤ 0.4 / 0.0356 * m := by rw [ew', hm]; nlinarith
  have ww : |w - w'| ≤ 0.0000005 / 0.0356 * m := by
    rw [ew', abs_le, hm]; constructor <;> nlinarith
  have S : |w' * ((1 - Real.tanh v ^ 2) - (1 - Real.tanh u ^ 2))| ≤ 0.00032 := by
    rw [abs_mul, abs_of_nonneg w0]
    calc _ ≤ (0.4 / 0.0356 * m) * (2 / (1 + m ^ 2) * (0.0000005 / 0.0356 * m)) := by
          refine mul_le_mul wm (t2.trans ?_) (abs_nonneg _) (by positivity)
          gcongr
      _ = 0.4 / 0.0356 * 2 * (0.0000005 / 0.0356) * (m * m / (1 + m ^ 2)) := by ring
      _ ≤ 0.4 / 0.0356 * 2 * (0.0000005 / 0.0356) * 1 := by gcongr
      _ ≤ _ := by norm_num
  have W : |(w - w') * (1 - Real.tanh v ^ 2)| ≤ 0.0000071 := by
    rw [abs_mul, abs_of_nonneg (tanh_sq_le v)]
    calc _ ≤ (0.0000005 / 0.0356 * m) * (1 / (1 + m ^ 2)) := mul_le_mul ww (sech_bound m0 mv) (tanh_sq_le v) (by positivity)
      _ = 0.0000005 / 0.0356 * (m / (1 + m ^ 2)) := by ring
      _ ≤ 0.0000005 / 0.0356 * (1 / 2) := by gcongr
      _ ≤ _ := by norm_num
  have e : 0.5 * Real.tanh v + w * (1 - Real.tanh v ^ 2) + 0.5 -
      (1 / 2 * (1 + Real.tanh u) + 1 / 2 * z * ((1 - Real.tanh u ^ 2) * (k * (1 + 0.044715 * (3 * z ^ 2))))) =
      0.5 * (Real.tanh v - Real.tanh u) + w' * ((1 - Real.tanh v ^ 2) - (1 - Real.tanh u ^ 2)) + (w - w') * (1 - Real.tanh v ^ 2) := by
    rw [hw']; ring
  rw [e]
  rw [abs_le] at T S W ⊢
  constructor <;> linarith

theorem gelu_close (z : ℝ) : |gelu_derivr z - geluExact z| ≤ 1 / 2000 := by
  rcases le_total 0 z with h | h
  · exact gelu_close_nonneg h
  · have := gelu_odd (-z)
    rw [neg_neg] at this
    rw [this, abs_neg]; exact gelu_close_nonneg (by linarith)

/-- π is irrational, so the rounded constants cannot be exact. -/
theorem gelu_inexact : ∃ z, ¬ HasDerivAt gelu_normr (gelu_derivr z) z := by
  by_contra hall
  push Not at hall
  have eq : gelu_derivr = geluExact := funext fun z => (hall z).unique (hasDerivAt_gelu z)
  have d1 : HasDerivAt gelu_derivr (0.797885 * 0.5 + 0.398942) 0 := by
    have e : gelu_derivr = fun z => 0.5 * Real.tanh (0.0356774 * z ^ 3 + 0.797885 * z) +
        (0.0535161 * z ^ 3 + 0.398942 * z) * (1 - Real.tanh (0.0356774 * z ^ 3 + 0.797885 * z) ^ 2) + 0.5 := funext gelu_derivr_eq
    rw [e]
    have a : HasDerivAt (fun z : ℝ => 0.0356774 * z ^ 3 + 0.797885 * z) 0.797885 0 := by
      refine (((hasDerivAt_pow 3 0).const_mul 0.0356774).add ((hasDerivAt_id 0).const_mul 0.797885)).congr_deriv ?_
      norm_num
    have b : HasDerivAt (fun z : ℝ => 0.0535161 * z ^ 3 + 0.398942 * z) 0.398942 0 := by
      refine (((hasDerivAt_pow 3 0).const_mul 0.0535161).add ((hasDerivAt_id 0).const_mul 0.398942)).congr_deriv ?_
      norm_num
    have t := (hasDerivAt_tanh (0.0356774 * 0 ^ 3 + 0.797885 * 0)).comp (0 : ℝ) a
    refine (((t.const_mul 0.5).add (b.mul ((t.pow 2).const_sub 1))).add_const 0.5).congr_deriv ?_
    norm_num
  have d2 : HasDerivAt geluExact (Real.sqrt (2 / Real.pi)) 0 := by
    have h1 : HasDerivAt (fun x : ℝ => Real.sqrt (2 / Real.pi) * (x + 0.044715 * x ^ 3)) (Real.sqrt (2 / Real.pi)) 0 := by
      refine (((hasDerivAt_id 0).add ((hasDerivAt_pow 3 0).const_mul 0.044715)).const_mul _).congr_deriv ?_
      norm_num
    have t := (hasDerivAt_tanh (Real.sqrt (2 / Real.pi) * (0 + 0.044715 * 0 ^ 3))).comp (0 : ℝ) h1
    have l : HasDerivAt (fun x : ℝ => 1 / 2 * x) (1 / 2) 0 := by simpa using (hasDerivAt_id (0 : ℝ)).const_mul (1 / 2 : ℝ)
    have q : HasDerivAt (fun x : ℝ => Real.sqrt (2 / Real.pi) * (1 + 0.044715 * (3 * x ^ 2))) 0 0 := by
      refine ((((hasDerivAt_pow 2 0).const_mul 3).const_mul 0.044715).const_add 1 |>.const_mul _).congr_deriv ?_
      norm_num
    refine (((t.const_add 1).const_mul (1 / 2)).add (l.mul (((t.pow 2).const_sub 1).mul q))).congr_deriv ?_
    norm_num
    ring
  rw [eq] at d1
  have k := d1.unique d2
  have p := Real.pi_pos
  have sq : Real.sqrt (2 / Real.pi) ^ 2 = 2 / Real.pi := Real.sq_sqrt (by positivity)
  rw [← k] at sq
  have pe : Real.pi = ((2 / (0.797885 * 0.5 + 0.398942) ^ 2 : ℚ) : ℝ) := by
    push_cast
    rw [sq]; field_simp
  exact irrational_pi ⟨_, pe.symm⟩

end Verif.Activation
