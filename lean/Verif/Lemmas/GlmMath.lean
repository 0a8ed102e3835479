import Verif.Lemmas.GlmTrain
import Verif.Lemmas.ActivationDeriv
import Mathlib.Analysis.Calculus.MeanValue
import Mathlib.Analysis.Calculus.Deriv.MeanValue
import Mathlib.Algebra.Order.BigOperators.Ring.Finset

/-! # Gradients of the losses of linear models, and convergence of gradient descent -/

namespace Verif
open Spec Finset
namespace Glm
variable {n k : Nat} {X : Matrix (Fin n) (Fin k) ℝ} {y : Fin n → ℝ} {θ : Params k} {f g : ℝ → ℝ}

theorem linear_deriv_w (X : Matrix (Fin n) (Fin k) ℝ) (θ : Params k) (i : Fin n) (j : Fin k) :
    HasDerivAt (fun t => linear X (Function.update θ.1 j t, θ.2) i) (X i j) (θ.1 j) := by
  unfold linear
  have e : ∀ t, ∑ l, X i l * Function.update θ.1 j t l + θ.2 = X i j * t + (∑ l ∈ univ.erase j, X i l * θ.1 l + θ.2) := by
    intro t
    rw [← Finset.add_sum_erase univ _ (mem_univ j), Function.update_self, add_assoc]
    congr 2
    exact Finset.sum_congr rfl fun l hl => by rw [Function.update_of_ne (Finset.ne_of_mem_erase hl)]
  simp only [e]
  have := ((hasDerivAt_id (θ.1 j)).const_mul (X i j)).add_const (∑ l ∈ univ.erase j, X i l * θ.1 l + θ.2)
  simpa using this

theorem linear_deriv_b (X : Matrix (Fin n) (Fin k) ℝ) (θ : Params k) (i : Fin n) :
    HasDerivAt (fun b => linear X (θ.1, b) i) 1 θ.2 := by
  unfold linear
  exact (hasDerivAt_id' θ.2).const_add (∑ j, X i j * θ.1 j)

theorem gradStep_of {l l' : Fin n → ℝ → ℝ} (hd : ∀ i z, HasDerivAt (l i) (l' i z) z) (lr : ℝ) (D : ℝ → ℝ) (θ : Params k) :
    GradStep (fun θ => (∑ i, l i (linear X θ i)) / n) lr D θ (stepWith X D (lr / n) (fun i => l' i (linear X θ i)) lr n θ) := by
  refine ⟨fun j => (∑ i, l' i (linear X θ i) * X i j) / n, (∑ i, l' i (linear X θ i) * 1) / n, fun j => ?_, ?_, ?_⟩
  · refine HasDerivAt.div_const (HasDerivAt.fun_sum fun i _ => ?_) _
    have hu : linear X (Function.update θ.1 j (θ.1 j), θ.2) i = linear X θ i := by rw [Function.update_eq_self]
    have := hd i (linear X θ i)
    rw [← hu] at this
    have := this.comp (θ.1 j) (linear_deriv_w X θ i j)
    rwa [hu] at this
  · refine HasDerivAt.div_const (HasDerivAt.fun_sum fun i _ => ?_) _
    exact (hd i (linear X θ i)).comp θ.2 (linear_deriv_b X θ i)
  · unfold stepWith
    refine Prod.ext (funext fun j => congrArg D ?_) ?_
    · dsimp only
      rw [Finset.sum_congr rfl fun i _ => mul_comm (X i j) _]
      ring
    · simp only [mul_one]
      ring

theorem sqLoss_eq (f : ℝ → ℝ) (X : Matrix (Fin n) (Fin k) ℝ) (y : Fin n → ℝ) :
    sqLoss f X y = fun θ => (∑ i, (fun i z => (f z - y i) ^ 2 / 2 : Fin n → ℝ → ℝ) i (linear X θ i)) / (n : ℝ) := by
  funext θ
  unfold sqLoss halfMse num
  rw [← Finset.sum_div, div_div, Fintype.card_fin]

theorem sq_deriv (hf : ∀ z, HasDerivAt f (g z) z) (c z : ℝ) : HasDerivAt (fun z => (f z - c) ^ 2 / 2) ((f z - c) * g z) z := by
  refine ((((hf z).sub_const c).pow 2).div_const 2).congr_deriv ?_
  simp; ring

theorem sq_gradStep (hf : ∀ z, HasDerivAt f (g z) z) (lr : ℝ) (D : ℝ → ℝ) (θ : Params k) :
    GradStep (sqLoss f X y) lr D θ (stepWith X D (lr / n) (fun i => (f (linear X θ i) - y i) * g (linear X θ i)) lr n θ) := by
  rw [sqLoss_eq]
  exact gradStep_of (l := fun i z => (f z - y i) ^ 2 / 2) (l' := fun i z => (f z - y i) * g z) (fun i z => sq_deriv hf (y i) z) lr D θ

theorem logistic_pos (z : ℝ) : 0 < logistic z ∧ logistic z < 1 := by
  unfold logistic
  have := Real.exp_pos (-z)
  exact ⟨by positivity, by rw [div_lt_one (by positivity)]; linarith⟩

theorem logistic_deriv (z : ℝ) : HasDerivAt logistic (logistic z * (1 - logistic z)) z := Activation.hasDerivAt_sigmoid z

theorem log_deriv (c z : ℝ) : HasDerivAt (fun z => -(c * Real.log (logistic z + 0) + (1 - c) * Real.log (1 - logistic z + 0)))
    (logistic z - c) z := by
  obtain ⟨h0, h1⟩ := logistic_pos z
  have d := logistic_deriv z
  have d1 := (d.add_const 0).log (by simp; linarith)
  have d2 := ((d.const_sub 1).add_const 0).log (by simp; linarith)
  refine ((d1.const_mul c).add (d2.const_mul (1 - c))).neg.congr_deriv ?_
  have : 1 - logistic z ≠ 0 := by linarith
  rw [add_zero, add_zero]
  field_simp
  ring

theorem logisticLoss_eq (X : Matrix (Fin n) (Fin k) ℝ) (y : Fin n → ℝ) : logisticLoss logistic X y = fun θ =>
    (∑ i, (fun i z => -(y i * Real.log (logistic z + 0) + (1 - y i) * Real.log (1 - logistic z + 0))) i (linear X θ i)) / n := by
  funext θ
  unfold logisticLoss logLoss num
  rw [Fintype.card_fin]

theorem log_gradStep (lr : ℝ) (D : ℝ → ℝ) (θ : Params k) :
    GradStep (logisticLoss logistic X y) lr D θ (stepWith X D (lr / n) (fun i => logistic (linear X θ i) - y i) lr n θ) := by
  rw [logisticLoss_eq]
  exact gradStep_of (l' := fun i z => logistic z - y i) (fun i z => log_deriv (y i) z) lr D θ

/-! ## Convergence -/

/-- A function with a monotone derivative lies above its tangents. -/
theorem above_tangent {l l' : ℝ → ℝ} (hd : ∀ z, HasDerivAt l (l' z) z) (hm : Monotone l') (a b : ℝ) : l a + l' a * (b - a) ≤ l b := by
  rcases lt_trichotomy a b with c | c | c
  · obtain ⟨x, hx, e⟩ := exists_hasDerivAt_eq_slope l l' c (fun z _ => (hd z).continuousAt.continuousWithinAt) fun z _ => hd z
    have : l b - l a = l' x * (b - a) := by rw [e, div_mul_cancel₀ _ (by linarith)]
    nlinarith [hm hx.1.le]
  · subst c; simp
  · obtain ⟨x, hx, e⟩ := exists_hasDerivAt_eq_slope l l' c (fun z _ => (hd z).continuousAt.continuousWithinAt) fun z _ => hd z
    have : l a - l b = l' x * (a - b) := by rw [e, div_mul_cancel₀ _ (by linarith)]
    nlinarith [hm hx.2.le]

/-- A function with `β z - l' z` monotone lies below its parabolas of curvature `β`. -/
theorem below_parabola {l l' : ℝ → ℝ} {β : ℝ} (hd : ∀ z, HasDerivAt l (l' z) z) (hm : Monotone fun z => β * z - l' z) (a b : ℝ) :
    l b ≤ l a + l' a * (b - a) + β / 2 * (b - a) ^ 2 := by
  have hd' : ∀ z, HasDerivAt (fun z => β / 2 * (z * z) - l z) (β * z - l' z) z := fun z => by
    refine ((((hasDerivAt_id z).mul (hasDerivAt_id z)).const_mul (β / 2)).sub (hd z)).congr_deriv ?_
    simp; ring
  have := above_tangent hd' hm a b
  nlinarith

/-- The change of the predictions is at most the change of the parameters times the size of the data. -/
theorem linear_diff (X : Matrix (Fin n) (Fin k) ℝ) (θ θ' : Params k) :
    ∑ i, (linear X θ' i - linear X θ i) ^ 2 ≤ dataNorm2 X * paramDist2 θ' θ := by
  unfold dataNorm2
  rw [Finset.sum_mul]
  refine Finset.sum_le_sum fun i _ => ?_
  have e : linear X θ' i - linear X θ i = ∑ j, X i j * (θ'.1 j - θ.1 j) + 1 * (θ'.2 - θ.2) := by
    unfold linear
    simp only [mul_sub, Finset.sum_sub_distrib]; ring
  rw [e]
  have cs := Finset.sum_mul_sq_le_sq_mul_sq univ (fun j => X i j) (fun j => θ'.1 j - θ.1 j)
  unfold paramDist2
  set A := ∑ j, X i j ^ 2
  set B := ∑ j, (θ'.1 j - θ.1 j) ^ 2
  set P := ∑ j, X i j * (θ'.1 j - θ.1 j)
  set t := θ'.2 - θ.2
  have hA : 0 ≤ A := Finset.sum_nonneg fun _ _ => sq_nonneg _
  have hB : 0 ≤ B := Finset.sum_nonneg fun _ _ => sq_nonneg _
  -- (P + t)² ≤ (A + 1)(B + t²)
  have h1 : 2 * P * t ≤ A * t ^ 2 + B := by
    rcases hA.eq_or_lt with c | c
    · have : P = 0 := by
        have : P ^ 2 ≤ 0 := by rw [← c, zero_mul] at cs; exact cs
        exact pow_eq_zero_iff (two_ne_zero) |>.1 (le_antisymm this (sq_nonneg _))
      rw [this, ← c]; simpa using hB
    · have : 2 * P * t * A ≤ (A * t ^ 2 + B) * A := by nlinarith [sq_nonneg (A * t - P)]
      exact le_of_mul_le_mul_right this c
  nlinarith

/-- The gradient of the mean of `l i`, as a parameter vector, applied to a direction. -/
theorem grad_apply (X : Matrix (Fin n) (Fin k) ℝ) (e : Fin n → ℝ) (θ θ' : Params k) :
    ∑ i, e i * (linear X θ' i - linear X θ i) = ∑ j, (∑ i, X i j * e i) * (θ'.1 j - θ.1 j) + (∑ i, e i) * (θ'.2 - θ.2) := by
  have h : ∀ i, e i * (linear X θ' i - linear X θ i) = ∑ j, X i j * e i * (θ'.1 j - θ.1 j) + e i * (θ'.2 - θ.2) := by
    intro i
    unfold linear
    have : ∑ j, X i j * e i * (θ'.1 j - θ.1 j) = e i * (∑ j, X i j * θ'.1 j - ∑ j, X i j * θ.1 j) := by
      rw [← Finset.sum_sub_distrib, Finset.mul_sum]
      exact Finset.sum_congr rfl fun j _ => by ring
    rw [this]; ring
  simp only [h, Finset.sum_add_distrib, Finset.sum_mul]
  rw [Finset.sum_comm]

section
variable {l l' : Fin n → ℝ → ℝ} {β lr : ℝ}

theorem descent (hn : 0 < n) (up : ∀ i a b, l i b ≤ l i a + l' i a * (b - a) + β / 2 * (b - a) ^ 2)
    (lo : ∀ i a b, l i a + l' i a * (b - a) ≤ l i b) (hβ : 0 ≤ β) (hlr : 0 < lr) (hs : lr * (β * dataNorm2 X) ≤ n) (θ θs : Params k) :
    let L := fun θ : Params k => (∑ i, l i (linear X θ i)) / n
    let θ' := stepWith X id (lr / n) (fun i => l' i (linear X θ i)) lr n θ
    L θ' ≤ L θ ∧ 2 * lr * (L θ' - L θs) ≤ paramDist2 θ θs - paramDist2 θ' θs := by
  intro L θ'
  have hn' : (0 : ℝ) < n := by exact_mod_cast hn
  obtain ⟨e, he⟩ : ∃ e : Fin n → ℝ, ∀ i, e i = l' i (linear X θ i) := ⟨_, fun _ => rfl⟩
  obtain ⟨G, hG⟩ : ∃ G : Fin k → ℝ, ∀ j, G j = (∑ i, X i j * e i) / n := ⟨_, fun _ => rfl⟩
  obtain ⟨c, hc⟩ : ∃ c : ℝ, c = (∑ i, e i) / n := ⟨_, rfl⟩
  have e1 : ∀ j, θ'.1 j = θ.1 j - lr * G j := by
    intro j
    show id (θ.1 j - (∑ i, X i j * l' i (linear X θ i)) * (lr / n)) = _
    simp only [hG, id, he]; ring
  have e2 : θ'.2 = θ.2 - lr * c := by
    show θ.2 - lr * (∑ i, l' i (linear X θ i)) / n = _
    simp only [hc, he]; ring
  obtain ⟨N2, hN2⟩ : ∃ N2 : ℝ, N2 = ∑ j, G j ^ 2 + c ^ 2 := ⟨_, rfl⟩
  have hNn : 0 ≤ N2 := by
    rw [hN2]; have : 0 ≤ ∑ j, G j ^ 2 := Finset.sum_nonneg fun _ _ => sq_nonneg _
    positivity
  -- inner products with the gradient
  have ip : ∀ η : Params k, (∑ i, e i * (linear X η i - linear X θ i)) / n = ∑ j, G j * (η.1 j - θ.1 j) + c * (η.2 - θ.2) := by
    intro η
    rw [grad_apply, add_div, Finset.sum_div, hc]
    congr 1
    · exact Finset.sum_congr rfl fun j _ => by rw [hG]; ring
    · ring
  have ip' : (∑ i, e i * (linear X θ' i - linear X θ i)) / n = -lr * N2 := by
    rw [ip, hN2, mul_add, Finset.mul_sum]
    congr 1
    · exact Finset.sum_congr rfl fun j _ => by rw [e1]; ring
    · rw [e2]; ring
  have d' : paramDist2 θ' θ = lr ^ 2 * N2 := by
    unfold paramDist2
    rw [hN2, mul_add, Finset.mul_sum]
    congr 1
    · exact Finset.sum_congr rfl fun j _ => by rw [e1]; ring
    · rw [e2]; ring
  -- decrease
  have up' : L θ' ≤ L θ + -lr * N2 + β / 2 * (dataNorm2 X * (lr ^ 2 * N2)) / n := by
    have h1 : ∑ i, l i (linear X θ' i) ≤ ∑ i, l i (linear X θ i) + ∑ i, e i * (linear X θ' i - linear X θ i) +
        β / 2 * ∑ i, (linear X θ' i - linear X θ i) ^ 2 := by
      rw [Finset.mul_sum, ← Finset.sum_add_distrib, ← Finset.sum_add_distrib]
      exact Finset.sum_le_sum fun i _ => by rw [he]; exact up i _ _
    have h2 := linear_diff X θ θ'
    rw [d'] at h2
    have h3 : β / 2 * ∑ i, (linear X θ' i - linear X θ i) ^ 2 ≤ β / 2 * (dataNorm2 X * (lr ^ 2 * N2)) :=
      mul_le_mul_of_nonneg_left h2 (by positivity)
    have h4 := div_le_div_of_nonneg_right (h1.trans (add_le_add_right h3 _)) hn'.le
    rw [add_div, add_div, ip'] at h4
    exact h4
  have half : L θ' ≤ L θ - lr / 2 * N2 := by
    have : β / 2 * (dataNorm2 X * (lr ^ 2 * N2)) / n ≤ lr / 2 * N2 := by
      rw [div_le_iff₀ hn']
      have := mul_le_mul_of_nonneg_right hs (show 0 ≤ lr / 2 * N2 by positivity)
      nlinarith
    linarith
  refine ⟨by have : 0 ≤ lr / 2 * N2 := by positivity
             linarith, ?_⟩
  -- convexity
  have lo' : L θ + (∑ j, G j * (θs.1 j - θ.1 j) + c * (θs.2 - θ.2)) ≤ L θs := by
    rw [← ip]
    have h1 : ∑ i, l i (linear X θ i) + ∑ i, e i * (linear X θs i - linear X θ i) ≤ ∑ i, l i (linear X θs i) := by
      rw [← Finset.sum_add_distrib]
      exact Finset.sum_le_sum fun i _ => by rw [he]; exact lo i _ _
    have := div_le_div_of_nonneg_right h1 hn'.le
    rwa [add_div] at this
  have dd : paramDist2 θ' θs = paramDist2 θ θs + 2 * lr * (∑ j, G j * (θs.1 j - θ.1 j) + c * (θs.2 - θ.2)) + lr ^ 2 * N2 := by
    unfold paramDist2
    have : ∑ j, (θ'.1 j - θs.1 j) ^ 2 = ∑ j, (θ.1 j - θs.1 j) ^ 2 + 2 * lr * ∑ j, G j * (θs.1 j - θ.1 j) + lr ^ 2 * ∑ j, G j ^ 2 := by
      rw [Finset.mul_sum, Finset.mul_sum, ← Finset.sum_add_distrib, ← Finset.sum_add_distrib]
      exact Finset.sum_congr rfl fun j _ => by rw [e1]; ring
    rw [this, e2, hN2]; ring
  have := mul_le_mul_of_nonneg_left lo' (show 0 ≤ 2 * lr by positivity)
  have := mul_le_mul_of_nonneg_left half (show 0 ≤ 2 * lr by positivity)
  rw [dd]
  nlinarith

theorem converges (hn : 0 < n) (up : ∀ i a b, l i b ≤ l i a + l' i a * (b - a) + β / 2 * (b - a) ^ 2)
    (lo : ∀ i a b, l i a + l' i a * (b - a) ≤ l i b) (hβ : 0 ≤ β) (hlr : 0 < lr) (hs : lr * (β * dataNorm2 X) ≤ n) (θ : Params k)
    {D : ℝ → ℝ} (hD : D = id) (N : Nat) :
    let L := fun θ : Params k => (∑ i, l i (linear X θ i)) / n
    let x := walk (fun _ θ => stepWith X D (lr / n) (fun i => l' i (linear X θ i)) lr n θ) θ
    L (x N) ≤ L θ ∧ (0 < N → ∀ θs, L (x N) ≤ L θs + paramDist2 θ θs / (2 * lr * N)) := by
  intro L x
  subst hD
  have st : ∀ i θs, L (x (i + 1)) ≤ L (x i) ∧ 2 * lr * (L (x (i + 1)) - L θs) ≤ paramDist2 (x i) θs - paramDist2 (x (i + 1)) θs :=
    fun i θs => descent hn up lo hβ hlr hs (x i) θs
  have mono : ∀ i, L (x i) ≤ L θ := by
    intro i
    induction i with
    | zero => exact le_refl _
    | succ i ih => exact ((st i θ).1).trans ih
  refine ⟨mono N, fun hN θs => ?_⟩
  have key : ∀ i : Nat, 2 * lr * i * (L (x i) - L θs) ≤ paramDist2 θ θs - paramDist2 (x i) θs := by
    intro i
    induction i with
    | zero => simp only [Nat.cast_zero, mul_zero, zero_mul]; exact (sub_self _).ge
    | succ i ih =>
      have h1 := (st i θs).2
      have h2 := mul_le_mul_of_nonneg_left (st i θs).1 (show 0 ≤ 2 * lr * (i : ℝ) by positivity)
      push_cast
      nlinarith
  have hp : 0 ≤ paramDist2 (x N) θs := by
    unfold paramDist2
    have : 0 ≤ ∑ j, ((x N).1 j - θs.1 j) ^ 2 := Finset.sum_nonneg fun _ _ => sq_nonneg _
    positivity
  have hN' : (0 : ℝ) < N := by exact_mod_cast hN
  have := key N
  have : L (x N) - L θs ≤ paramDist2 θ θs / (2 * lr * N) := by
    rw [le_div_iff₀ (by positivity)]
    nlinarith
  linarith

end

theorem sq_bounds (c : ℝ) (a b : ℝ) : (b - c) ^ 2 / 2 = (a - c) ^ 2 / 2 + (a - c) * (b - a) + 1 / 2 * (b - a) ^ 2 := by ring

theorem logistic_mono : Monotone logistic := by
  refine monotone_of_deriv_nonneg (fun z => (logistic_deriv z).differentiableAt) fun z => ?_
  rw [(logistic_deriv z).deriv]
  obtain ⟨h0, h1⟩ := logistic_pos z
  nlinarith

theorem logistic_lip (c : ℝ) : Monotone fun z => 1 / 4 * z - (logistic z - c) := by
  have d : ∀ z, HasDerivAt (fun z => 1 / 4 * z - (logistic z - c)) (1 / 4 * 1 - logistic z * (1 - logistic z)) z := fun z =>
    ((hasDerivAt_id z).const_mul (1 / 4)).sub ((logistic_deriv z).sub_const c)
  refine monotone_of_deriv_nonneg (fun z => (d z).differentiableAt) fun z => ?_
  rw [(d z).deriv]
  nlinarith [sq_nonneg (logistic z - 1 / 2)]

end Glm
end Verif
