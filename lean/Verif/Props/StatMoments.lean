import Verif.Lemmas.Stat
import Mathlib.Algebra.Order.Chebyshev

/-!
# C36, C40, C41: mean, variance, covariance, correlation, least squares (exact real arithmetic)

The specification is `Verif/Spec/Stat.lean`.
-/

namespace Verif
open Spec

/-! ## Facts about the specification -/

theorem mean_between {l : List ℝ} (hne : l ≠ []) : Between l (mean l) := by
  intro lo hi hb
  have hp : (0 : ℝ) < l.length := by exact_mod_cast List.length_pos_of_ne_nil hne
  have h1 := List.card_nsmul_le_sum l lo fun a ha => (hb a ha).1
  have h2 := List.sum_le_card_nsmul l hi fun a ha => (hb a ha).2
  rw [nsmul_eq_mul] at h1 h2
  unfold mean
  rw [le_div_iff₀ hp, div_le_iff₀ hp]
  exact ⟨by linarith, by linarith⟩

theorem sum_map_fin {n : Nat} (a : List ℝ) (ha : a.length = n) (f : ℝ → ℝ) :
    (a.map f).sum = ∑ i : Fin n, f (a.getD i 0) := by
  have := sum_zipWith_fin a a ha ha fun x _ => f x
  rw [List.zipWith_self] at this
  exact this

theorem mean_fin {n : Nat} (a : List ℝ) (ha : a.length = n) : mean a = (∑ i : Fin n, a.getD i 0) / n := by
  rw [mean, ha, ← sum_map_fin a ha fun x => x, List.map_id']

theorem sampleCov_fin {n : Nat} (a b : List ℝ) (ha : a.length = n) (hb : b.length = n) :
    sampleCov a b = (∑ i : Fin n, (a.getD i 0 - mean a) * (b.getD i 0 - mean b)) / (n - 1) := by
  rw [sampleCov, sum_zipWith_fin a b ha hb fun x y => (x - mean a) * (y - mean b), ha]

theorem sampleVar_fin {n : Nat} (a : List ℝ) (ha : a.length = n) :
    sampleVar a = (∑ i : Fin n, (a.getD i 0 - mean a) ^ 2) / (n - 1) := by
  rw [sampleVar, sum_map_fin a ha fun x => (x - mean a) ^ 2, ha]

theorem sum_dev {n : Nat} (a : List ℝ) (ha : a.length = n) : ∑ i : Fin n, (a.getD i 0 - mean a) = 0 := by
  rcases Nat.eq_zero_or_pos n with h0 | h0
  · subst h0; simp
  · have : (n : ℝ) ≠ 0 := by positivity
    rw [Finset.sum_sub_distrib, mean_fin a ha]
    simp
    field_simp
    ring

theorem sampleVar_nonneg {a : List ℝ} (h2 : 2 ≤ a.length) : 0 ≤ sampleVar a := by
  rw [sampleVar_fin a rfl]
  have : (2 : ℝ) ≤ a.length := by exact_mod_cast h2
  exact div_nonneg (Finset.sum_nonneg fun i _ => sq_nonneg _) (by linarith)

theorem sampleVar_eq_zero {a : List ℝ} (h2 : 2 ≤ a.length) : sampleVar a = 0 ↔ ∀ x ∈ a, ∀ y ∈ a, x = y := by
  have h2' : (2 : ℝ) ≤ a.length := by exact_mod_cast h2
  rw [sampleVar_fin a rfl, div_eq_zero_iff]
  constructor
  · rintro (e | e)
    · rw [Finset.sum_eq_zero_iff_of_nonneg fun i _ => sq_nonneg _] at e
      have key : ∀ x ∈ a, x = mean a := by
        intro x hx
        obtain ⟨i, hi, rfl⟩ := List.mem_iff_getElem.mp hx
        have := e ⟨i, hi⟩ (Finset.mem_univ _)
        simp only [List.getD_eq_getElem?_getD, List.getElem?_eq_getElem hi, Option.getD_some] at this
        have := pow_eq_zero_iff (n := 2) (by norm_num) |>.mp this
        linarith
      intro x hx y hy
      rw [key x hx, key y hy]
    · linarith
  · intro e
    left
    have hne : a ≠ [] := by rintro rfl; simp at h2
    obtain ⟨c, hc⟩ := List.exists_mem_of_ne_nil a hne
    have hm := mean_between hne c c fun x hx => ⟨(e c hc x hx).le, (e x hx c hc).le⟩
    refine Finset.sum_eq_zero fun i _ => ?_
    have hi : (a.getD i 0) ∈ a := by
      rw [List.getD_eq_getElem?_getD, List.getElem?_eq_getElem i.2]; exact List.getElem_mem i.2
    rw [e _ hi c hc, show mean a = c by linarith [hm.1, hm.2]]
    ring

theorem mean_translate {a : List ℝ} (c : ℝ) (hne : a ≠ []) : mean (a.map (· + c)) = mean a + c := by
  have hp : (a.length : ℝ) ≠ 0 := by exact_mod_cast (List.length_pos_of_ne_nil hne).ne'
  unfold mean
  rw [List.length_map, List.sum_map_add]
  simp
  field_simp

theorem mean_scale (a : List ℝ) (k : ℝ) : mean (a.map (k * ·)) = k * mean a := by
  unfold mean
  rw [List.length_map, List.sum_map_mul_left, List.map_id']
  ring

theorem sampleVar_translate {a : List ℝ} (c : ℝ) : sampleVar (a.map (· + c)) = sampleVar a := by
  by_cases hne : a = []
  · subst hne; simp [sampleVar]
  · unfold sampleVar
    rw [mean_translate c hne, List.map_map, List.length_map]
    congr 3
    funext x
    simp

theorem sampleCov_self (a : List ℝ) : sampleCov a a = sampleVar a := by
  unfold sampleCov sampleVar
  rw [List.zipWith_self]
  simp only [sq]

theorem sampleCov_comm {a b : List ℝ} (hs : a.length = b.length) : sampleCov a b = sampleCov b a := by
  rw [sampleCov_fin a b rfl hs.symm, sampleCov_fin b a hs.symm rfl]
  congr 1
  exact Finset.sum_congr rfl fun i _ => mul_comm _ _

theorem getD_map' (a : List ℝ) (f : ℝ → ℝ) (i : Nat) (hi : i < a.length) : (a.map f).getD i 0 = f (a.getD i 0) := by
  simp [List.getD_eq_getElem?_getD, hi]

theorem sampleCov_scale {a b : List ℝ} (k : ℝ) (hs : a.length = b.length) :
    sampleCov (a.map (k * ·)) b = k * sampleCov a b := by
  rw [sampleCov_fin (n := a.length) _ b (by simp) hs.symm, sampleCov_fin a b rfl hs.symm, mean_scale, ← mul_div_assoc,
    Finset.mul_sum]
  congr 1
  refine Finset.sum_congr rfl fun i _ => ?_
  rw [getD_map' _ _ _ i.2]; ring

theorem sampleCov_add {a a' b : List ℝ} (hs : a.length = b.length) (hs' : a'.length = b.length) :
    sampleCov (List.zipWith (· + ·) a a') b = sampleCov a b + sampleCov a' b := by
  have hl : (List.zipWith (fun x y : ℝ => x + y) a a').length = b.length := by simp [hs, hs']
  have hg : ∀ i : Fin b.length, (List.zipWith (fun x y : ℝ => x + y) a a').getD i 0 = a.getD i 0 + a'.getD i 0 := by
    intro i
    have h1 : (i : Nat) < a.length := by omega
    have h2 : (i : Nat) < a'.length := by omega
    simp [List.getD_eq_getElem?_getD, h1, h2]
  have hm : mean (List.zipWith (fun x y : ℝ => x + y) a a') = mean a + mean a' := by
    rw [mean_fin _ hl, mean_fin _ hs, mean_fin _ hs', ← add_div, ← Finset.sum_add_distrib]
    congr 1
    exact Finset.sum_congr rfl fun i _ => hg i
  rw [sampleCov_fin _ b hl rfl, sampleCov_fin a b hs rfl, sampleCov_fin a' b hs' rfl, hm, ← add_div,
    ← Finset.sum_add_distrib]
  congr 1
  refine Finset.sum_congr rfl fun i _ => ?_
  rw [hg i]; ring

/-! ## C36 -/

/-- **C36** (mean): on a non-empty vector `meanv` returns the sum divided by the size, which lies between the smallest and
the largest element; nothing changes. -/
theorem C36_mean (h : Heap ℝ) (w : h.WF) (x : Nat) (hne : h.buf (.v x) ≠ []) :
    Runs (Stat.meanv (some x)) h fun r h' => h' = h ∧
      r = (h.buf (.v x)).sum / (h.buf (.v x)).length ∧ Between (h.buf (.v x)) r :=
  Runs.of_eq (Stat.meanv_run w x) ⟨rfl, rfl, mean_between hne⟩

/-- **C36** (weighted mean): with non-negative weights of positive total, `weighted_mean` returns `Σ wᵢxᵢ / Σ wᵢ`, which
lies between the smallest and the largest element. -/
theorem C36_weighted_mean (h : Heap ℝ) (w : h.WF) (x y : Nat) (hs : (h.buf (.v x)).length = (h.buf (.v y)).length)
    (hw : ∀ v ∈ h.buf (.v y), 0 ≤ v) (hp : 0 < (h.buf (.v y)).sum) :
    Runs (Stat.weighted_mean (some x) (some y)) h fun r h' => h' = h ∧
      r = (List.zipWith (fun a b => a * b) (h.buf (.v x)) (h.buf (.v y))).sum / (h.buf (.v y)).sum ∧
      Between (h.buf (.v x)) r := by
  refine Runs.of_eq (Stat.weighted_mean_run w x y hs) ⟨rfl, rfl, ?_⟩
  intro lo hi hb
  rw [le_div_iff₀ hp, div_le_iff₀ hp, sum_zipWith_fin _ _ rfl hs.symm]
  have e : (h.buf (.v y)).sum = ∑ i : Fin (h.buf (.v x)).length, (h.buf (.v y)).getD i 0 := by
    rw [← sum_map_fin _ hs.symm fun x => x, List.map_id']
  rw [e, Finset.mul_sum, Finset.mul_sum]
  have m1 : ∀ i : Fin (h.buf (.v x)).length, (h.buf (.v x)).getD i 0 ∈ h.buf (.v x) := fun i => by
    rw [List.getD_eq_getElem?_getD, List.getElem?_eq_getElem i.2]; exact List.getElem_mem i.2
  have m2 : ∀ i : Fin (h.buf (.v x)).length, (h.buf (.v y)).getD i 0 ∈ h.buf (.v y) := fun i => by
    have := i.2
    rw [List.getD_eq_getElem?_getD, List.getElem?_eq_getElem (by omega)]; exact List.getElem_mem _
  exact ⟨Finset.sum_le_sum fun i _ => mul_le_mul_of_nonneg_right (hb _ (m1 i)).1 (hw _ (m2 i)),
    Finset.sum_le_sum fun i _ => mul_le_mul_of_nonneg_right (hb _ (m1 i)).2 (hw _ (m2 i))⟩

/-- **C36** (variance): on a vector of at least two elements `variancev` returns the sample variance; it is non-negative
and zero exactly if all elements are equal. `standard_deviationv` is its square root. -/
theorem C36_variance (h : Heap ℝ) (w : h.WF) (x : Nat) (h2 : 2 ≤ (h.buf (.v x)).length) :
    Runs (do
      let v ← Stat.variancev (some x)
      let s ← Stat.standard_deviationv (some x)
      pure (v, s)) h fun r h' => h' = h ∧ r.1 = sampleVar (h.buf (.v x)) ∧ 0 ≤ r.1 ∧
        (r.1 = 0 ↔ ∀ a ∈ h.buf (.v x), ∀ b ∈ h.buf (.v x), a = b) ∧ 0 ≤ r.2 ∧ r.2 ^ 2 = r.1 := by
  refine Runs.of_eq (a := (_, _)) (by
    rw [bind_ok (Stat.variancev_run w x), bind_ok (Stat.standard_deviationv_run w x)]; rfl) ?_
  exact ⟨rfl, rfl, sampleVar_nonneg h2, sampleVar_eq_zero h2, Real.sqrt_nonneg _, Real.sq_sqrt (sampleVar_nonneg h2)⟩

/-- **C36** (translation): if `y` holds the elements of `x` plus a constant, both have the same variance. -/
theorem C36_variance_translation (h : Heap ℝ) (w : h.WF) (x y : Nat) (c : ℝ)
    (hy : h.buf (.v y) = (h.buf (.v x)).map (· + c)) :
    Runs (do
      let u ← Stat.variancev (some x)
      let v ← Stat.variancev (some y)
      pure (u, v)) h fun r h' => h' = h ∧ r.1 = r.2 := by
  refine Runs.of_eq (a := (_, _)) (by
    rw [bind_ok (Stat.variancev_run w x), bind_ok (Stat.variancev_run w y)]; rfl) ⟨rfl, ?_⟩
  dsimp only
  rw [hy, sampleVar_translate]

/-- **C36** (covariance): `covariancev` of vectors of equal size is the sample covariance; it is symmetric, linear in
the first argument (hence, by symmetry, in both), and the covariance of a vector with itself is its variance. -/
theorem C36_covariance (h : Heap ℝ) (w : h.WF) (x x' y u v : Nat) (k : ℝ)
    (hs : (h.buf (.v x)).length = (h.buf (.v y)).length) (hs' : (h.buf (.v x')).length = (h.buf (.v y)).length)
    (hu : h.buf (.v u) = (h.buf (.v x)).map (k * ·))
    (hv : h.buf (.v v) = List.zipWith (· + ·) (h.buf (.v x)) (h.buf (.v x'))) :
    Runs (do
      let xy ← Stat.covariancev (some x) (some y)
      let yx ← Stat.covariancev (some y) (some x)
      let xx ← Stat.covariancev (some x) (some x)
      let vx ← Stat.variancev (some x)
      let uy ← Stat.covariancev (some u) (some y)
      let x'y ← Stat.covariancev (some x') (some y)
      let vy ← Stat.covariancev (some v) (some y)
      pure ((xy, yx), (xx, vx), uy, x'y, vy)) h fun r h' => h' = h ∧
        r.1.1 = sampleCov (h.buf (.v x)) (h.buf (.v y)) ∧ r.1.1 = r.1.2 ∧ r.2.1.1 = r.2.1.2 ∧
        r.2.2.1 = k * r.1.1 ∧ r.2.2.2.2 = r.1.1 + r.2.2.2.1 := by
  refine Runs.of_eq (a := ((_, _), (_, _), _, _, _)) (by
    rw [bind_ok (Stat.covariancev_run w x y hs), bind_ok (Stat.covariancev_run w y x hs.symm),
      bind_ok (Stat.covariancev_run w x x rfl), bind_ok (Stat.variancev_run w x),
      bind_ok (Stat.covariancev_run w u y (by rw [hu, List.length_map, hs])), bind_ok (Stat.covariancev_run w x' y hs'),
      bind_ok (Stat.covariancev_run w v y (by rw [hv, List.length_zipWith, hs, hs', Nat.min_self]))]; rfl) ?_
  dsimp only
  refine ⟨rfl, rfl, sampleCov_comm hs, sampleCov_self _, ?_, ?_⟩
  · rw [hu, sampleCov_scale k hs]
  · rw [hv, sampleCov_add hs hs']

/-- **C36**: null arguments give 0. -/
theorem C36_null (h : Heap ℝ) (x : Option Nat) :
    Stat.meanv none h = .ok (0, h) ∧ Stat.variancev none h = .ok (0, h) ∧ Stat.covariancev none x h = .ok (0, h) ∧
    Stat.covariancev x none h = .ok (0, h) ∧ Stat.weighted_mean none x h = .ok (0, h) ∧
    Stat.weighted_mean x none h = .ok (0, h) := by
  refine ⟨rfl, rfl, rfl, ?_, rfl, ?_⟩ <;> cases x <;> rfl

example : mean [1, 2, 6] = 3 ∧ sampleVar [1, 2, 6] = 7 ∧ sampleCov [1, 2, 6] [0, 1, 2] = 5 / 2 := by
  refine ⟨?_, ?_, ?_⟩ <;> norm_num [mean, sampleVar, sampleCov]

/-! ## C40 -/

theorem cov_sq_le {a b : List ℝ} (hs : a.length = b.length) :
    sampleCov a b ^ 2 ≤ sampleVar a * sampleVar b := by
  rw [sampleCov_fin a b rfl hs.symm, sampleVar_fin a rfl, sampleVar_fin b hs.symm, div_pow, div_mul_div_comm, ← sq]
  exact div_le_div_of_nonneg_right (Finset.sum_mul_sq_le_sq_mul_sq _ _ _) (sq_nonneg _)

theorem corr_abs_le {a b : List ℝ} (hs : a.length = b.length) (h2 : 2 ≤ a.length) :
    |sampleCov a b / (Real.sqrt (sampleVar a) * Real.sqrt (sampleVar b))| ≤ 1 := by
  rw [abs_div, abs_of_nonneg (mul_nonneg (Real.sqrt_nonneg _) (Real.sqrt_nonneg _))]
  refine div_le_one_of_le₀ ?_ (by positivity)
  rw [← Real.sqrt_mul (sampleVar_nonneg h2), ← Real.sqrt_sq_eq_abs]
  exact Real.sqrt_le_sqrt (cov_sq_le hs)

/-- **C40.** For vectors of equal size (at least two) with non-zero variance, `correlation` lies in `[-1, 1]`, `r2` is its
square and lies in `[0, 1]`; the correlation of a vector with itself is 1. -/
theorem C40_correlation (h : Heap ℝ) (w : h.WF) (x y : Nat) (hs : (h.buf (.v x)).length = (h.buf (.v y)).length)
    (h2 : 2 ≤ (h.buf (.v x)).length) (hx : sampleVar (h.buf (.v x)) ≠ 0) (hy : sampleVar (h.buf (.v y)) ≠ 0) :
    Runs (do
      let c ← Stat.correlation (some x) (some y)
      let s ← Stat.r2 (some x) (some y)
      let o ← Stat.correlation (some x) (some x)
      pure (c, s, o)) h fun r h' => h' = h ∧
        r.1 * (Real.sqrt (sampleVar (h.buf (.v x))) * Real.sqrt (sampleVar (h.buf (.v y)))) =
          sampleCov (h.buf (.v x)) (h.buf (.v y)) ∧
        -1 ≤ r.1 ∧ r.1 ≤ 1 ∧ r.2.1 = r.1 ^ 2 ∧ 0 ≤ r.2.1 ∧ r.2.1 ≤ 1 ∧ r.2.2 = 1 := by
  refine Runs.of_eq (a := (_, _, _)) (by
    rw [bind_ok (Stat.correlation_run w x y hs), bind_ok (Stat.r2_run w x y hs), bind_ok (Stat.correlation_run w x x rfl)]; rfl) ?_
  dsimp only
  have hb := corr_abs_le hs h2
  have hpx : 0 < sampleVar (h.buf (.v x)) := lt_of_le_of_ne (sampleVar_nonneg h2) (Ne.symm hx)
  have hpy : 0 < sampleVar (h.buf (.v y)) := lt_of_le_of_ne (sampleVar_nonneg (by omega)) (Ne.symm hy)
  have hne : Real.sqrt (sampleVar (h.buf (.v x))) * Real.sqrt (sampleVar (h.buf (.v y))) ≠ 0 := by positivity
  refine ⟨rfl, div_mul_cancel₀ _ hne, (abs_le.mp hb).1, (abs_le.mp hb).2, (sq _).symm, mul_self_nonneg _, ?_, ?_⟩
  · exact abs_le_one_iff_mul_self_le_one.mp hb
  · rw [Real.mul_self_sqrt hpx.le, sampleCov_self, div_self hx]

example : sampleVar [1, 2, 6] ≠ 0 ∧ sampleVar [0, 1, 2] ≠ 0 := by
  constructor <;> norm_num [mean, sampleVar]

/-! ## C41 -/

theorem residuals_fin {n : Nat} (a b : List ℝ) (ha : a.length = n) (hb : b.length = n) (c0 c1 : ℝ) :
    residuals c0 c1 a b = ∑ i : Fin n, ((b.getD i 0 - mean b) - c1 * (a.getD i 0 - mean a)) ^ 2 +
      n * (mean b - c0 - c1 * mean a) ^ 2 := by
  have s1 := sum_dev a ha
  have s2 := sum_dev b hb
  rw [residuals, sum_zipWith_fin a b ha hb fun x y => (y - (c0 + c1 * x)) ^ 2]
  have : ∀ i : Fin n, (b.getD i 0 - (c0 + c1 * a.getD i 0)) ^ 2 =
      ((b.getD i 0 - mean b) - c1 * (a.getD i 0 - mean a)) ^ 2 +
        (2 * (mean b - c0 - c1 * mean a)) * (b.getD i 0 - mean b) -
        (2 * (mean b - c0 - c1 * mean a) * c1) * (a.getD i 0 - mean a) + (mean b - c0 - c1 * mean a) ^ 2 := fun i => by ring
  simp only [this]
  rw [Finset.sum_add_distrib, Finset.sum_sub_distrib, Finset.sum_add_distrib, ← Finset.mul_sum, ← Finset.mul_sum, s1, s2]
  simp

theorem sq_dev_fin {n : Nat} (a b : List ℝ) (c1 : ℝ) :
    ∑ i : Fin n, ((b.getD i 0 - mean b) - c1 * (a.getD i 0 - mean a)) ^ 2 =
      ∑ i : Fin n, (b.getD i 0 - mean b) ^ 2 - 2 * c1 * ∑ i : Fin n, (a.getD i 0 - mean a) * (b.getD i 0 - mean b) +
        c1 ^ 2 * ∑ i : Fin n, (a.getD i 0 - mean a) ^ 2 := by
  rw [Finset.mul_sum, Finset.mul_sum, ← Finset.sum_sub_distrib, ← Finset.sum_add_distrib]
  exact Finset.sum_congr rfl fun i _ => by ring

/-- The least squares identity: excess of any line over the fitted one. -/
theorem residuals_excess (a b : List ℝ) (hs : a.length = b.length) (h2 : 2 ≤ a.length) (hv : sampleVar a ≠ 0) (c0 c1 : ℝ) :
    residuals c0 c1 a b =
      residuals (mean b - sampleCov a b / sampleVar a * mean a) (sampleCov a b / sampleVar a) a b +
        ((a.length - 1) * sampleVar a) * (c1 - sampleCov a b / sampleVar a) ^ 2 +
        a.length * (mean b - c0 - c1 * mean a) ^ 2 := by
  have hn : (a.length : ℝ) - 1 ≠ 0 := by
    have : (2 : ℝ) ≤ a.length := by exact_mod_cast h2
    linarith
  set n := a.length with hn'
  have eb1 : sampleCov a b / sampleVar a = (∑ i : Fin n, (a.getD i 0 - mean a) * (b.getD i 0 - mean b)) /
      (∑ i : Fin n, (a.getD i 0 - mean a) ^ 2) := by
    rw [sampleCov_fin a b rfl hs.symm, sampleVar_fin a rfl, div_div_div_cancel_right₀ hn]
  have eS : ((n : ℝ) - 1) * sampleVar a = ∑ i : Fin n, (a.getD i 0 - mean a) ^ 2 := by
    rw [sampleVar_fin a rfl, mul_div_cancel₀ _ hn]
  have hS : ∑ i : Fin n, (a.getD i 0 - mean a) ^ 2 ≠ 0 := by rw [← eS]; exact mul_ne_zero hn hv
  rw [residuals_fin a b rfl hs.symm, residuals_fin a b rfl hs.symm, sq_dev_fin, sq_dev_fin, eb1, eS]
  simp only [← hn']
  field_simp
  ring

/-- **C41.** For vectors of equal size (at least two) with non-constant `x`, the line with intercept `b0_estimation` and
slope `b1_estimation` has the least sum of squared residuals of all lines, and it is the only such line. -/
theorem C41_least_squares (h : Heap ℝ) (w : h.WF) (x y : Nat) (hs : (h.buf (.v x)).length = (h.buf (.v y)).length)
    (h2 : 2 ≤ (h.buf (.v x)).length) (hx : ¬ ∀ a ∈ h.buf (.v x), ∀ b ∈ h.buf (.v x), a = b) :
    Runs (do
      let b0 ← Stat.b0_estimation (some x) (some y)
      let b1 ← Stat.b1_estimation (some x) (some y)
      pure (b0, b1)) h fun r h' => h' = h ∧
        ∀ c0 c1, residuals r.1 r.2 (h.buf (.v x)) (h.buf (.v y)) ≤ residuals c0 c1 (h.buf (.v x)) (h.buf (.v y)) ∧
          (residuals c0 c1 (h.buf (.v x)) (h.buf (.v y)) = residuals r.1 r.2 (h.buf (.v x)) (h.buf (.v y)) →
            c0 = r.1 ∧ c1 = r.2) := by
  refine Runs.of_eq (a := (_, _)) (by rw [bind_ok (Stat.b0_run w x y hs), bind_ok (Stat.b1_run w x y hs)]; rfl) ⟨rfl, ?_⟩
  dsimp only
  intro c0 c1
  have hv : sampleVar (h.buf (.v x)) ≠ 0 := fun e => hx ((sampleVar_eq_zero h2).mp e)
  have hp : 0 < sampleVar (h.buf (.v x)) := lt_of_le_of_ne (sampleVar_nonneg h2) (Ne.symm hv)
  have hn : (2 : ℝ) ≤ (h.buf (.v x)).length := by exact_mod_cast h2
  have ex := residuals_excess _ _ hs h2 hv c0 c1
  have hA : 0 < ((h.buf (.v x)).length - 1 : ℝ) * sampleVar (h.buf (.v x)) := mul_pos (by linarith) hp
  generalize ((h.buf (.v x)).length - 1 : ℝ) * sampleVar (h.buf (.v x)) = A at hA ex
  generalize sampleCov (h.buf (.v x)) (h.buf (.v y)) / sampleVar (h.buf (.v x)) = b1 at ex ⊢
  have p1 : 0 ≤ A * (c1 - b1) ^ 2 := by positivity
  have p2 : 0 ≤ ((h.buf (.v x)).length : ℝ) * (mean (h.buf (.v y)) - c0 - c1 * mean (h.buf (.v x))) ^ 2 := by positivity
  refine ⟨by linarith, fun e => ?_⟩
  have z1 : A * (c1 - b1) ^ 2 = 0 := by linarith
  have z2 : ((h.buf (.v x)).length : ℝ) * (mean (h.buf (.v y)) - c0 - c1 * mean (h.buf (.v x))) ^ 2 = 0 := by linarith
  have e1 : c1 = b1 := by
    rcases mul_eq_zero.mp z1 with q | q
    · linarith
    · linarith [pow_eq_zero_iff (n := 2) (by norm_num) |>.mp q]
  subst e1
  refine ⟨?_, rfl⟩
  rcases mul_eq_zero.mp z2 with q | q
  · linarith
  · linarith [pow_eq_zero_iff (n := 2) (by norm_num) |>.mp q]

example : (¬ ∀ a ∈ [1, 2, (6 : ℝ)], ∀ b ∈ [1, 2, (6 : ℝ)], a = b) ∧
    residuals (-1 / 14) (5 / 14) [1, 2, 6] [0, 1, 2] < residuals 0 (1 / 3) [1, 2, 6] [0, 1, 2] := by
  refine ⟨fun e => ?_, ?_⟩
  · have := e 1 (by simp) 2 (by simp); norm_num at this
  · norm_num [residuals]

end Verif
