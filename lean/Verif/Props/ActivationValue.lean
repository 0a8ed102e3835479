import Verif.Spec.ActivationValue
import Verif.Props.ActivationLift
import Mathlib.Analysis.SpecialFunctions.Arcosh
import Mathlib.Analysis.SpecialFunctions.Artanh
import Mathlib.Analysis.SpecialFunctions.Gaussian.GaussianIntegral
import Mathlib.Analysis.SpecialFunctions.Arsinh
import Mathlib.Tactic.FieldSimp
import Mathlib.Tactic.Linarith
import Verif.Lemmas.Example

/-! # C144: the values of the activation functions -/

namespace Verif
open Spec Activation MeasureTheory
noncomputable section

theorem sigmoid_eq (z : ℝ) : sigmoid_normr z = Real.sigmoid z := by
  rw [sigmoid_normr, Real.sigmoid_def, one_div]

theorem sinh_eq (z : ℝ) : sinh_normr z = Real.sinh z := by rw [sinh_normr, Real.sinh_eq]; ring

theorem cosh_eq (z : ℝ) : cosh_normr z = Real.cosh z := by rw [cosh_normr, Real.cosh_eq]; ring

theorem tanh_eq (z : ℝ) : tanh_normr z = Real.tanh z := by
  rw [tanh_normr, Real.tanh_eq_sinh_div_cosh, Real.sinh_eq, Real.cosh_eq, div_div_div_cancel_right₀ (by norm_num)]

theorem softplus_exp (z : ℝ) : Real.exp (softplus_normr z) = 1 + Real.exp z := by
  rw [softplus_normr, Real.exp_log (by positivity)]

theorem half_gaussian : ∫ x in Set.Iic (0 : ℝ), ProbabilityTheory.gaussianPDFReal 0 1 x = 1 / 2 := by
  have e : ∀ x : ℝ, ProbabilityTheory.gaussianPDFReal 0 1 x = (Real.sqrt (2 * Real.pi))⁻¹ * Real.exp (-(1 / 2) * x ^ 2) := by
    intro x
    rw [ProbabilityTheory.gaussianPDFReal]
    simp only [NNReal.coe_one, mul_one, sub_zero]
    congr 2
    ring
  have s : ∫ x in Set.Iic (0 : ℝ), ProbabilityTheory.gaussianPDFReal 0 1 (-x) = ∫ x in Set.Ioi (-0 : ℝ), ProbabilityTheory.gaussianPDFReal 0 1 x :=
    integral_comp_neg_Iic 0 _
  have s' : ∀ x : ℝ, ProbabilityTheory.gaussianPDFReal 0 1 (-x) = ProbabilityTheory.gaussianPDFReal 0 1 x := fun x => by rw [e, e]; simp
  simp only [s'] at s
  rw [s, neg_zero]
  simp only [e]
  rw [integral_const_mul, integral_gaussian_Ioi]
  have : Real.pi / (1 / 2) = 2 * Real.pi := by ring
  rw [this]
  have : Real.sqrt (2 * Real.pi) ≠ 0 := by positivity
  field_simp

theorem gaussian_cdf_eq (z : ℝ) : gaussian_cdf_normr z = (ProbabilityTheory.gaussianReal 0 1).real (Set.Iic z) := by
  have int := ProbabilityTheory.integrable_gaussianPDFReal 0 1
  have e : (ProbabilityTheory.gaussianReal 0 1).real (Set.Iic z) = ∫ x in Set.Iic z, ProbabilityTheory.gaussianPDFReal 0 1 x := by
    rw [Measure.real, ProbabilityTheory.gaussianReal_apply_eq_integral 0 one_ne_zero, ENNReal.toReal_ofReal]
    exact integral_nonneg fun x => ProbabilityTheory.gaussianPDFReal_nonneg _ _ _
  have d := intervalIntegral.integral_Iic_sub_Iic (int.integrableOn (s := Set.Iic 0)) (int.integrableOn (s := Set.Iic z))
  rw [half_gaussian] at d
  rw [e, eq_add_of_sub_eq d, gaussian_cdf_normr, erfReal]
  have c := intervalIntegral.integral_comp_div (a := 0) (b := z) (fun t => Real.exp (-t ^ 2)) (c := Real.sqrt 2) (by positivity)
  rw [zero_div] at c
  have e2 : ∫ x in (0 : ℝ)..z, ProbabilityTheory.gaussianPDFReal 0 1 x = (Real.sqrt (2 * Real.pi))⁻¹ * ∫ x in (0 : ℝ)..z, Real.exp (-(x / Real.sqrt 2) ^ 2) := by
    rw [← intervalIntegral.integral_const_mul]
    congr 1
    funext x
    rw [ProbabilityTheory.gaussianPDFReal]
    simp only [NNReal.coe_one, mul_one, sub_zero]
    rw [div_pow, Real.sq_sqrt (by norm_num), neg_div]
  rw [e2, c, smul_eq_mul, Real.sqrt_mul (by norm_num)]
  have h2 : Real.sqrt 2 ≠ 0 := by positivity
  have hp : Real.sqrt Real.pi ≠ 0 := by positivity
  field_simp
  ring

/-- **C144** (part): the value of each activation function is the one of the function it is named after, wherever that is defined. Missing: the
inverse hyperbolic secant, see `C144_arsech_fails`; softmax of a number. -/
theorem C144_value_partial (f : Fn) (z : ℝ) (hz : z ∈ definedOn f) (h1 : f ≠ .arsech) (h2 : f ≠ .softmax) (h3 : f ≠ .adj_softmax) :
    HasValue f z (normReal f z) := by
  cases f <;> simp only [HasValue, normReal]
  case linear => rfl
  case sigmoid => exact sigmoid_eq z
  case swish => rw [swish_normr, sigmoid_eq]
  case mish => exact ⟨softplus_normr z, softplus_exp z, rfl⟩
  case sinc => exact div_mul_cancel₀ _ hz
  case softmax => exact absurd rfl h2
  case softplus => exact softplus_exp z
  case softsign =>
    rw [softsign_normr]
    constructor
    · intro q
      rw [abs_of_nonneg q]
      field_simp
    · intro q
      rw [abs_of_neg q]
      have : 1 - z ≠ 0 := by linarith
      rw [← sub_eq_add_neg]
      field_simp
  case adj_softmax => exact absurd rfl h3
  case cloglog =>
    rw [cloglog_normr]
    refine ⟨by linarith [Real.exp_pos (-Real.exp z)], ?_⟩
    rw [sub_sub_cancel, Real.log_exp, neg_neg, Real.log_exp]
  case logit =>
    obtain ⟨p, q⟩ := hz
    rw [Real.sigmoid_def, logit_normr, ← Real.log_inv, Real.exp_log (by rw [inv_pos]; exact div_pos p (by linarith))]
    have : 1 - z ≠ 0 := by linarith
    have : z ≠ 0 := by linarith
    field_simp
    ring
  case gaussian_cdf => exact gaussian_cdf_eq z
  case relu => exact ⟨fun q => max_eq_right q, fun q => max_eq_left q.le⟩
  case gelu =>
    have e : z ^ (3 : ℝ) = z ^ 3 := by exact_mod_cast Real.rpow_natCast z 3
    rw [gelu_normr, e, Real.sigmoid_def, Real.tanh_eq_sinh_div_cosh, Real.sinh_eq, Real.cosh_eq, mul_assoc 2]
    generalize Real.sqrt (2 / Real.pi) * (z + 0.044715 * z ^ 3) = u
    have e2 : Real.exp (-(2 * u)) = Real.exp (-u) / Real.exp u := by rw [← Real.exp_sub]; congr 1; ring
    rw [e2]
    have p1 := Real.exp_pos u
    have p2 := Real.exp_pos (-u)
    field_simp
    ring
  case sign =>
    rw [sign_normr]
    rcases lt_trichotomy z 0 with q | q | q
    · simp [q]
    · simp [q]
    · simp [q, q.not_gt, q.ne']
  case unit_step => exact ⟨fun q => if_neg q.not_gt, fun q => if_pos q⟩
  case sinh => exact sinh_eq z
  case cosh => exact cosh_eq z
  case tanh => exact tanh_eq z
  case csch => exact one_div_mul_cancel fun q => hz (Real.sinh_eq_zero.mp q)
  case sech => exact one_div_mul_cancel (Real.cosh_pos z).ne'
  case coth =>
    refine one_div_mul_cancel fun q => hz ?_
    rw [Real.tanh_eq_sinh_div_cosh, div_eq_zero_iff] at q
    exact q.elim (fun q => Real.sinh_eq_zero.mp q) fun q => absurd q (Real.cosh_pos z).ne'
  case arsinh =>
    have : arsinh_normr z = Real.arsinh z := by
      rw [arsinh_normr, Real.arsinh, ← sq, add_comm (z ^ 2)]
    rw [this, Real.sinh_arsinh]
  case arcosh =>
    have hz : 1 ≤ z := hz
    have : arcosh_normr z = Real.arcosh z := by rw [arcosh_normr, Real.arcosh, ← sq]
    rw [this]
    exact ⟨Real.arcosh_nonneg hz, Real.cosh_arcosh hz⟩
  case artanh =>
    have hz : z ∈ Set.Ioo (-1) 1 := hz
    have : artanh_normr z = Real.artanh z := by rw [artanh_normr, Real.artanh_eq_half_log ⟨hz.1.le, hz.2.le⟩]
    rw [this, Real.tanh_artanh hz]
  case arcsch =>
    have : arcsch_normr z = Real.arsinh (1 / z) := by
      rw [arcsch_normr, Real.arsinh, div_pow, one_pow, ← sq, add_comm]
    rw [this, Real.sinh_arsinh]
  case arsech => exact absurd rfl h1
  case arcoth =>
    have hz : 1 < |z| := hz
    have z0 : z ≠ 0 := by rintro rfl; simp at hz; linarith
    have hi : 1 / z ∈ Set.Ioo (-1) 1 := by
      refine abs_lt.mp ?_
      rw [abs_div, abs_one, div_lt_one (by positivity)]
      exact hz
    have : arcoth_normr z = Real.artanh (1 / z) := by
      rw [arcoth_normr, Real.artanh_eq_half_log ⟨hi.1.le, hi.2.le⟩]
      congr 2
      have : z - 1 ≠ 0 := by
        intro q
        have : z = 1 := by linarith
        simp [this] at hz
      have : 1 - 1 / z ≠ 0 := by
        intro q
        exact hi.2.ne (by linarith)
      field_simp
      ring
    rw [this, Real.tanh_artanh hi]

/-- **C144** is false for the inverse hyperbolic secant (a square root is missing) at every point but one. -/
theorem C144_arsech_fails {z : ℝ} (hz : z ∈ definedOn .arsech) (h2 : z ^ 2 ≠ 1 / 2) : ¬ HasValue .arsech z (normReal .arsech z) := by
  obtain ⟨p, q⟩ : 0 < z ∧ z < 1 := hz
  rintro ⟨-, e⟩
  have u1 : 1 < 1 / z := by rw [lt_div_iff₀ p]; linarith
  have e1 : normReal .arsech z = Real.log (1 / z + (1 / z + 1) * (1 / z - 1)) := rfl
  have hu : (1 / z) ^ 2 ≠ 2 := by
    intro e
    apply h2
    rw [one_div, inv_pow] at e
    rw [← inv_inv (z ^ 2), e]
    norm_num
  rw [e1, Real.cosh_eq] at e
  generalize 1 / z = u at e u1 hu
  have t0 : 0 < u + (u + 1) * (u - 1) := by nlinarith
  rw [← Real.log_inv, Real.exp_log t0, Real.exp_log (inv_pos.mpr t0)] at e
  generalize ht : u + (u + 1) * (u - 1) = t at e t0
  have e3 : t ^ 2 + 1 = 2 * u * t := by
    field_simp at e
    linarith
  have e4 : (t - u) ^ 2 = u ^ 2 - 1 := by linarith [e3, (by ring : (t - u) ^ 2 = t ^ 2 - 2 * u * t + u ^ 2)]
  have e5 : t - u = u ^ 2 - 1 := by rw [← ht]; ring
  rw [e5] at e4
  have : (u ^ 2 - 1) * (u ^ 2 - 2) = 0 := by linarith [e4, (by ring : (u ^ 2 - 1) * (u ^ 2 - 2) = (u ^ 2 - 1) ^ 2 - (u ^ 2 - 1))]
  rcases mul_eq_zero.mp this with q | q
  · nlinarith
  · exact hu (by linarith)

/-- **C144** (part): the leaky rectifier, for slopes up to 1. -/
theorem C144_leaky_relu_partial {c : ℝ} (hc : c ≤ 1) (z : ℝ) : (0 ≤ z → leaky_relu_normr z c = z) ∧ (z < 0 → leaky_relu_normr z c = c * z) :=
  ⟨fun q => max_eq_right (by nlinarith), fun q => max_eq_left (by nlinarith)⟩

/-- **C144** is false for the leaky rectifier with a slope above 1: the branches are swapped. -/
theorem C144_leaky_relu_fails {c : ℝ} (hc : 1 < c) (z : ℝ) : (0 ≤ z → leaky_relu_normr z c = c * z) ∧ (z < 0 → leaky_relu_normr z c = z) :=
  ⟨fun q => max_eq_left (by nlinarith), fun q => max_eq_right (by nlinarith)⟩

/-- **C144**: the exponential linear unit, scaled or not. -/
theorem C144_elu (c lambda z : ℝ) : (0 ≤ z → elu_normr z c = z ∧ selu_normr z lambda c = lambda * z) ∧
    (z < 0 → elu_normr z c = c * (Real.exp z - 1) ∧ selu_normr z lambda c = lambda * (c * (Real.exp z - 1))) := by
  constructor
  · intro q
    simp [selu_normr, elu_normr, q]
  · intro q
    simp [selu_normr, elu_normr, q.not_ge]

/-- **C144**: at the points where two branches meet (and there is no derivative) the derivatives take the value of the left branch. -/
theorem C144_kinks (c lambda : ℝ) : relu_derivr 0 = 0 ∧ leaky_relu_derivr 0 c = c ∧ elu_derivr 0 c = c ∧ selu_derivr 0 lambda c = c ∧
    sign_derivr 0 = 0 ∧ unit_step_derivr 0 = 0 := by
  refine ⟨?_, ?_, ?_, ?_, rfl, rfl⟩
  · simp [relu_derivr]
  · simp [leaky_relu_derivr]
  · simp [elu_derivr]
  · simp [selu_derivr, elu_derivr]

/-- **C144** (part): the same for every element of a vector, in a new vector of the same size. -/
theorem C144_vector_partial (f : Fn) (h1 : f ≠ .arsech) (h2 : f ≠ .softmax) (h3 : f ≠ .adj_softmax) {h : Heap ℝ} (w : h.WF) (z : Nat) (lz : h.live (.v z))
    (hz : ∀ x ∈ h.buf (.v z), x ∈ definedOn f) :
    ∃ d, ReturnsNew Loc.v (normVector f (some (.v z))) h (h.size (.v z)) d ∧ List.Forall₂ (HasValue f) (h.buf (.v z)) d := by
  have el : Elementwise f := by cases f <;> simp_all [Elementwise]
  refine ⟨_, C45_norm_vector f el h w z lz, ?_⟩
  rw [List.forall₂_map_right_iff, List.forall₂_same]
  exact fun x hx => C144_value_partial f x (hz x hx) h1 h2 h3

/-- **C144** (part): the same for every cell of a matrix, apart from the four functions that return null or read a null handle for matrices. -/
theorem C144_matrix_partial (f : Fn) (h1 : f ≠ .arsech) (h2 : f ≠ .softmax) (h3 : f ≠ .adj_softmax)
    (hb : f ∉ [Fn.swish, Fn.mish, Fn.softplus, Fn.softsign]) {h : Heap ℝ} (w : h.WF) (z : Nat) (lz : h.live (.m z))
    (hz : ∀ x ∈ h.buf (.m z), x ∈ definedOn f) :
    ∃ d, ReturnsNew Loc.m (normMatrix f (some (.m z))) h (h.size (.m z)) d ∧ List.Forall₂ (HasValue f) (h.buf (.m z)) d := by
  have el : Elementwise f := by cases f <;> simp_all [Elementwise]
  refine ⟨_, C45_norm_matrix_partial f el hb h w z lz, ?_⟩
  rw [List.forall₂_map_right_iff, List.forall₂_same]
  exact fun x hx => C144_value_partial f x (hz x hx) h1 h2 h3

/-- Points where all the functions are defined, and a vector and a matrix that meet the hypotheses. -/
example : (∀ f, f ≠ Fn.arcosh → f ≠ Fn.arcoth → (1 / 2 : ℝ) ∈ definedOn f) ∧ (2 : ℝ) ∈ definedOn .arcosh ∧ (2 : ℝ) ∈ definedOn .arcoth ∧
    ((1 / 2 : ℝ) ^ 2 ≠ 1 / 2) ∧ (Heap.ofLists (0 : ℝ) [[2, 3]] [(1, 2, [-2, 3])]).WF ∧
    (∀ x ∈ (Heap.ofLists (0 : ℝ) [[2, 3]] [(1, 2, [-2, 3])]).buf (.v 0), x ∈ definedOn .arcosh) ∧
    ∀ x ∈ (Heap.ofLists (0 : ℝ) [[2, 3]] [(1, 2, [-2, 3])]).buf (.m 0), x ∈ definedOn .arcoth := by
  refine ⟨fun f q r => ?_, ?_, ?_, by norm_num, Heap.ofLists_wf _ _ _ (by simp), ?_, ?_⟩
  · cases f <;> first | exact Set.mem_univ _ | (exfalso; exact q rfl) | (exfalso; exact r rfl) | (simp [definedOn]; done) | (norm_num [definedOn])
  · norm_num [definedOn]
  · norm_num [definedOn]
  · simp only [Heap.ofLists, definedOn]
    intro x hx
    simp at hx
    rcases hx with rfl | rfl <;> norm_num
  · simp only [Heap.ofLists, definedOn]
    intro x hx
    simp at hx
    rcases hx with rfl | rfl <;> norm_num

end
end Verif
