import Verif.Props.StatMoments
import Mathlib.Analysis.SpecialFunctions.Pow.Deriv
import Mathlib.Analysis.Calculus.MeanValue
import Mathlib.Analysis.Complex.ExponentialBounds

/-!
# C42, C48: the other means; Chebyshev's inequality (exact real arithmetic)
-/

namespace Verif
open Spec

/-- `v` lies between `a` and `b`. -/
def Betw (a b v : ℝ) : Prop := min a b ≤ v ∧ v ≤ max a b

theorem Betw.symm {a b v : ℝ} (h : Betw a b v) : Betw b a v := by
  unfold Betw at *; rwa [min_comm, max_comm]

theorem Betw.of_le {a b v : ℝ} (h1 : a ≤ v) (h2 : v ≤ b) : Betw a b v :=
  ⟨(min_le_left _ _).trans h1, h2.trans (le_max_right _ _)⟩

/-- To show `Between` for a list of positive numbers, positive bounds suffice. -/
theorem between_of_pos {l : List ℝ} {v : ℝ} (hne : l ≠ []) (hp : ∀ a ∈ l, 0 < a) (hv : 0 ≤ v)
    (h : ∀ lo hi, 0 < lo → 0 < hi → (∀ a ∈ l, lo ≤ a ∧ a ≤ hi) → lo ≤ v ∧ v ≤ hi) : Between l v := by
  intro lo hi hb
  obtain ⟨c, hc⟩ := List.exists_mem_of_ne_nil l hne
  have hhi : 0 < hi := (hp c hc).trans_le (hb c hc).2
  by_cases hlo : 0 < lo
  · exact h lo hi hlo hhi hb
  · have hf : ∃ lo', 0 < lo' ∧ ∀ a ∈ l, lo' ≤ a := by
      clear hb hc h hne
      induction l with
      | nil => exact ⟨1, one_pos, by simp⟩
      | cons a l ih =>
        obtain ⟨m, hm, hb⟩ := ih fun x hx => hp x (by simp [hx])
        refine ⟨min m a, lt_min hm (hp a (by simp)), ?_⟩
        intro x hx
        rcases List.mem_cons.mp hx with rfl | hx
        · exact min_le_right _ _
        · exact (min_le_left _ _).trans (hb x hx)
    obtain ⟨lo', hlo', hb'⟩ := hf
    exact ⟨(not_lt.mp hlo).trans hv, (h lo' hi hlo' hhi fun a ha => ⟨hb' a ha, (hb a ha).2⟩).2⟩

theorem sum_map_bounds {l : List ℝ} (f : ℝ → ℝ) {lo hi : ℝ} (h : ∀ a ∈ l, lo ≤ f a ∧ f a ≤ hi) :
    lo * l.length ≤ (l.map f).sum ∧ (l.map f).sum ≤ hi * l.length := by
  have h1 := List.card_nsmul_le_sum (l.map f) lo (by simpa using fun a ha => (h a ha).1)
  have h2 := List.sum_le_card_nsmul (l.map f) hi (by simpa using fun a ha => (h a ha).2)
  rw [nsmul_eq_mul, List.length_map] at h1 h2
  exact ⟨by linarith, by linarith⟩

theorem avg_map_bounds {l : List ℝ} (hne : l ≠ []) (f : ℝ → ℝ) {lo hi : ℝ} (h : ∀ a ∈ l, lo ≤ f a ∧ f a ≤ hi) :
    lo ≤ (l.map f).sum / l.length ∧ (l.map f).sum / l.length ≤ hi := by
  have hp : (0 : ℝ) < l.length := by exact_mod_cast List.length_pos_of_ne_nil hne
  rw [le_div_iff₀ hp, div_le_iff₀ hp]
  exact sum_map_bounds f h

theorem prod_bounds {l : List ℝ} {lo hi : ℝ} (hlo : 0 < lo) (h : ∀ a ∈ l, lo ≤ a ∧ a ≤ hi) :
    lo ^ l.length ≤ l.prod ∧ l.prod ≤ hi ^ l.length := by
  induction l with
  | nil => simp
  | cons a l ih =>
    obtain ⟨i1, i2⟩ := ih fun x hx => h x (by simp [hx])
    obtain ⟨b1, b2⟩ := h a (by simp)
    rw [List.prod_cons, List.length_cons, pow_succ', pow_succ']
    have hq : 0 < l.prod := (pow_pos hlo _).trans_le i1
    exact ⟨mul_le_mul b1 i1 (pow_pos hlo _).le (hlo.le.trans b1),
      mul_le_mul b2 i2 hq.le (hlo.le.trans (b1.trans b2))⟩

/-- **C42** (geometric mean). -/
theorem C42_geometric_mean (h : Heap ℝ) (w : h.WF) (x : Nat) (hne : h.buf (.v x) ≠ []) (hp : ∀ a ∈ h.buf (.v x), 0 < a) :
    Runs (Stat.geometric_mean (some x)) h fun r h' => h' = h ∧
      r ^ (h.buf (.v x)).length = (h.buf (.v x)).prod ∧ Between (h.buf (.v x)) r := by
  have hn : (h.buf (.v x)).length ≠ 0 := (List.length_pos_of_ne_nil hne).ne'
  have hpp : 0 ≤ (h.buf (.v x)).prod := (List.prod_pos hp).le
  refine Runs.of_eq (Stat.geometric_mean_run w x) ⟨rfl, ?_, ?_⟩
  · rw [one_div]; exact Real.rpow_inv_natCast_pow hpp hn
  · refine between_of_pos hne hp (Real.rpow_nonneg hpp _) fun lo hi hlo hhi hb => ?_
    obtain ⟨b1, b2⟩ := prod_bounds hlo hb
    have q : (0 : ℝ) ≤ 1 / (h.buf (.v x)).length := by positivity
    have c1 := Real.rpow_le_rpow (pow_nonneg hlo.le _) b1 q
    have c2 := Real.rpow_le_rpow hpp b2 q
    rw [one_div] at c1 c2 ⊢
    rw [Real.pow_rpow_inv_natCast hlo.le hn] at c1
    rw [Real.pow_rpow_inv_natCast hhi.le hn] at c2
    exact ⟨c1, c2⟩

/-- **C42** (harmonic mean). -/
theorem C42_harmonic_mean (h : Heap ℝ) (w : h.WF) (x : Nat) (hne : h.buf (.v x) ≠ []) (hp : ∀ a ∈ h.buf (.v x), 0 < a) :
    Runs (Stat.harmonic_mean (some x)) h fun r h' => h' = h ∧
      r = (h.buf (.v x)).length / ((h.buf (.v x)).map fun a => 1 / a).sum ∧ Between (h.buf (.v x)) r := by
  have hn : (0 : ℝ) < (h.buf (.v x)).length := by exact_mod_cast List.length_pos_of_ne_nil hne
  refine Runs.of_eq (Stat.harmonic_mean_run w x) ⟨rfl, rfl, ?_⟩
  have hs : 0 ≤ ((h.buf (.v x)).map fun a => 1 / a).sum := List.sum_nonneg (by
    intro y hy
    obtain ⟨a, ha, rfl⟩ := List.mem_map.mp hy
    have := hp a ha
    positivity)
  refine between_of_pos hne hp (div_nonneg hn.le hs) fun lo hi hlo hhi hb => ?_
  obtain ⟨b1, b2⟩ := sum_map_bounds (l := h.buf (.v x)) (fun a => 1 / a) (lo := 1 / hi) (hi := 1 / lo) fun a ha =>
    ⟨one_div_le_one_div_of_le (hp a ha) (hb a ha).2, one_div_le_one_div_of_le hlo (hb a ha).1⟩
  have hs' : 0 < ((h.buf (.v x)).map fun a => 1 / a).sum := lt_of_lt_of_le (by positivity) b1
  rw [le_div_iff₀ hs', div_le_iff₀ hs']
  constructor
  · calc lo * _ ≤ lo * (1 / lo * (h.buf (.v x)).length) := mul_le_mul_of_nonneg_left b2 hlo.le
      _ = _ := by field_simp
  · calc ((h.buf (.v x)).length : ℝ) = hi * (1 / hi * (h.buf (.v x)).length) := by field_simp
      _ ≤ _ := mul_le_mul_of_nonneg_left b1 hhi.le

/-- **C42** (root mean square). -/
theorem C42_rms (h : Heap ℝ) (w : h.WF) (x : Nat) (hne : h.buf (.v x) ≠ []) (hp : ∀ a ∈ h.buf (.v x), 0 < a) :
    Runs (Stat.rms (some x)) h fun r h' => h' = h ∧
      r ^ 2 = ((h.buf (.v x)).map fun a => a ^ 2).sum / (h.buf (.v x)).length ∧ Between (h.buf (.v x)) r := by
  refine Runs.of_eq (Stat.rms_run w x) ⟨rfl, ?_, ?_⟩
  · rw [Real.sq_sqrt]
    · simp only [sq]
    · refine div_nonneg (List.sum_nonneg ?_) (Nat.cast_nonneg _)
      intro y hy
      obtain ⟨a, ha, rfl⟩ := List.mem_map.mp hy
      exact mul_self_nonneg a
  · refine between_of_pos hne hp (Real.sqrt_nonneg _) fun lo hi hlo hhi hb => ?_
    obtain ⟨b1, b2⟩ := avg_map_bounds hne (fun a => a * a) (lo := lo * lo) (hi := hi * hi) fun a ha =>
      ⟨mul_self_le_mul_self hlo.le (hb a ha).1, mul_self_le_mul_self (hp a ha).le (hb a ha).2⟩
    exact ⟨Real.le_sqrt_of_sq_le (by rw [sq]; exact b1), Real.sqrt_le_iff.mpr ⟨hhi.le, by rw [sq]; exact b2⟩⟩

/-- **C42** (power mean), for every exponent other than 0. -/
theorem C42_power_mean (h : Heap ℝ) (w : h.WF) (x : Nat) (p : ℝ) (hp0 : p ≠ 0) (hne : h.buf (.v x) ≠ [])
    (hp : ∀ a ∈ h.buf (.v x), 0 < a) :
    Runs (Stat.power_mean (some x) p) h fun r h' => h' = h ∧
      r ^ p = ((h.buf (.v x)).map fun a => a ^ p).sum / (h.buf (.v x)).length ∧ Between (h.buf (.v x)) r := by
  have hs : 0 ≤ ((h.buf (.v x)).map fun a => a ^ p).sum / (h.buf (.v x)).length := by
    refine div_nonneg (List.sum_nonneg ?_) (Nat.cast_nonneg _)
    intro y hy
    obtain ⟨a, ha, rfl⟩ := List.mem_map.mp hy
    exact Real.rpow_nonneg (hp a ha).le _
  have inv : ∀ y : ℝ, 0 < y → (y ^ p) ^ (1 / p) = y := fun y hy => by
    rw [← Real.rpow_mul hy.le, mul_one_div_cancel hp0, Real.rpow_one]
  refine Runs.of_eq (Stat.power_mean_run w x p) ⟨rfl, ?_, ?_⟩
  · rw [← Real.rpow_mul hs, one_div_mul_cancel hp0, Real.rpow_one]
  · refine between_of_pos hne hp (Real.rpow_nonneg hs _) fun lo hi hlo hhi hb => ?_
    rcases lt_or_gt_of_ne hp0 with neg | pos
    · obtain ⟨b1, b2⟩ := avg_map_bounds hne (fun a => a ^ p) (lo := hi ^ p) (hi := lo ^ p) fun a ha =>
        ⟨Real.rpow_le_rpow_of_nonpos (hp a ha) (hb a ha).2 neg.le, Real.rpow_le_rpow_of_nonpos hlo (hb a ha).1 neg.le⟩
      have q : 1 / p ≤ 0 := one_div_nonpos.mpr neg.le
      have s : 0 < ((h.buf (.v x)).map fun a => a ^ p).sum / (h.buf (.v x)).length :=
        (Real.rpow_pos_of_pos hhi p).trans_le b1
      have c1 := Real.rpow_le_rpow_of_nonpos s b2 q
      have c2 := Real.rpow_le_rpow_of_nonpos (Real.rpow_pos_of_pos hhi p) b1 q
      rw [inv _ hlo] at c1
      rw [inv _ hhi] at c2
      exact ⟨c1, c2⟩
    · obtain ⟨b1, b2⟩ := avg_map_bounds hne (fun a => a ^ p) (lo := lo ^ p) (hi := hi ^ p) fun a ha =>
        ⟨Real.rpow_le_rpow hlo.le (hb a ha).1 pos.le, Real.rpow_le_rpow (hp a ha).le (hb a ha).2 pos.le⟩
      have q : 0 ≤ 1 / p := one_div_nonneg.mpr pos.le
      have c1 := Real.rpow_le_rpow (Real.rpow_nonneg hlo.le _) b1 q
      have c2 := Real.rpow_le_rpow hs b2 q
      rw [inv _ hlo] at c1
      rw [inv _ hhi] at c2
      exact ⟨c1, c2⟩

theorem weighted_ratio {ι : Type} (s : Finset ι) (a wt : ι → ℝ) {lo hi : ℝ} (hw : ∀ i ∈ s, 0 ≤ wt i)
    (hpos : 0 < ∑ i ∈ s, wt i) (hb : ∀ i ∈ s, lo ≤ a i ∧ a i ≤ hi) :
    lo ≤ (∑ i ∈ s, a i * wt i) / (∑ i ∈ s, wt i) ∧ (∑ i ∈ s, a i * wt i) / (∑ i ∈ s, wt i) ≤ hi := by
  rw [le_div_iff₀ hpos, div_le_iff₀ hpos, Finset.mul_sum, Finset.mul_sum]
  exact ⟨Finset.sum_le_sum fun i hi => mul_le_mul_of_nonneg_right (hb i hi).1 (hw i hi),
    Finset.sum_le_sum fun i hi => mul_le_mul_of_nonneg_right (hb i hi).2 (hw i hi)⟩

theorem getD_mem {l : List ℝ} (i : Fin l.length) : l.getD i 0 ∈ l := by
  rw [List.getD_eq_getElem?_getD, List.getElem?_eq_getElem i.2]; exact List.getElem_mem i.2

theorem lehmer_between {l wt : List ℝ} (p : ℝ) (hs : l.length = wt.length) (hp : ∀ a ∈ l, 0 < a) (hw : ∀ v ∈ wt, 0 ≤ v)
    (hpos : 0 < wt.sum) :
    Between l ((List.zipWith (fun a b => b * a ^ p) l wt).sum / (List.zipWith (fun a b => b * a ^ (p - 1)) l wt).sum) := by
  intro lo hi hb
  rw [sum_zipWith_fin l wt rfl hs.symm fun a b => b * a ^ p, sum_zipWith_fin l wt rfl hs.symm fun a b => b * a ^ (p - 1)]
  have mw : ∀ i : Fin l.length, 0 ≤ wt.getD i 0 := fun i => hw _ (by
    have := i.2
    rw [List.getD_eq_getElem?_getD, List.getElem?_eq_getElem (by omega)]; exact List.getElem_mem _)
  have pa : ∀ i : Fin l.length, 0 < l.getD i 0 := fun i => hp _ (getD_mem i)
  have e : ∀ i : Fin l.length, wt.getD i 0 * l.getD i 0 ^ p = l.getD i 0 * (wt.getD i 0 * l.getD i 0 ^ (p - 1)) := fun i => by
    have := (pa i).ne'
    rw [Real.rpow_sub_one this, mul_comm (wt.getD i 0) (_ / _), ← mul_assoc, mul_div_cancel₀ _ this, mul_comm]
  simp only [e]
  have nn : ∀ i : Fin l.length, 0 ≤ wt.getD i 0 * l.getD i 0 ^ (p - 1) := fun i =>
    mul_nonneg (mw i) (Real.rpow_nonneg (pa i).le _)
  refine weighted_ratio Finset.univ _ _ (fun i _ => nn i) ?_ fun i _ => hb _ (getD_mem i)
  have hex : ∃ i : Fin l.length, 0 < wt.getD i 0 := by
    by_contra hc
    push Not at hc
    have : wt.sum = ∑ i : Fin l.length, wt.getD i 0 := by
      rw [← sum_map_fin wt hs.symm fun x => x, List.map_id']
    rw [this] at hpos
    exact absurd (Finset.sum_nonpos fun i _ => hc i) (not_le.mpr hpos)
  obtain ⟨i, hi⟩ := hex
  exact lt_of_lt_of_le (mul_pos hi (Real.rpow_pos_of_pos (pa i) _))
    (Finset.single_le_sum (f := fun i : Fin l.length => wt.getD i 0 * l.getD i 0 ^ (p - 1)) (fun i _ => nn i) (Finset.mem_univ i))

/-- **C42** (weighted Lehmer mean), every real exponent, non-negative weights of positive total. -/
theorem C42_weighted_lehmer_mean (h : Heap ℝ) (w : h.WF) (x y : Nat) (p : ℝ)
    (hs : (h.buf (.v x)).length = (h.buf (.v y)).length) (hp : ∀ a ∈ h.buf (.v x), 0 < a)
    (hw : ∀ v ∈ h.buf (.v y), 0 ≤ v) (hpos : 0 < (h.buf (.v y)).sum) :
    Runs (Stat.weighted_lehmer_mean (some x) (some y) p) h fun r h' => h' = h ∧
      r = (List.zipWith (fun a b => b * a ^ p) (h.buf (.v x)) (h.buf (.v y))).sum /
        (List.zipWith (fun a b => b * a ^ (p - 1)) (h.buf (.v x)) (h.buf (.v y))).sum ∧ Between (h.buf (.v x)) r :=
  Runs.of_eq (Stat.weighted_lehmer_mean_run w x y p hs) ⟨rfl, rfl, lehmer_between p hs hp hw hpos⟩

/-- **C42** (Lehmer mean, every real exponent, and the contraharmonic mean `Σ aᵢ² / Σ aᵢ`). -/
theorem C42_lehmer_mean (h : Heap ℝ) (w : h.WF) (x : Nat) (p : ℝ) (hne : h.buf (.v x) ≠ []) (hp : ∀ a ∈ h.buf (.v x), 0 < a) :
    Runs (do
      let l ← Stat.lehmer_mean (some x) p
      let c ← Stat.contra_harmonic_mean (some x)
      pure (l, c)) h fun r h' => h' = h ∧
        r.1 = ((h.buf (.v x)).map fun a => a ^ p).sum / ((h.buf (.v x)).map fun a => a ^ (p - 1)).sum ∧
        r.2 = ((h.buf (.v x)).map fun a => a ^ 2).sum / (h.buf (.v x)).sum ∧
        Between (h.buf (.v x)) r.1 ∧ Between (h.buf (.v x)) r.2 := by
  have key : ∀ q : ℝ, Between (h.buf (.v x))
      (((h.buf (.v x)).map fun a => a ^ q).sum / ((h.buf (.v x)).map fun a => a ^ (q - 1)).sum) := fun q => by
    have := lehmer_between (l := h.buf (.v x)) (wt := List.replicate (h.buf (.v x)).length 1) q (by simp) hp
      (by intro v hv; rw [(List.mem_replicate.mp hv).2]; exact zero_le_one)
      (by rw [List.sum_replicate, nsmul_one]; exact_mod_cast List.length_pos_of_ne_nil hne)
    have zz : ∀ f : ℝ → ℝ, List.zipWith (fun a b => b * f a) (h.buf (.v x)) (List.replicate (h.buf (.v x)).length 1) =
        (h.buf (.v x)).map f := fun f => by
      apply List.ext_getElem (by simp)
      intro i h1 h2
      simp
    rwa [zz fun a => a ^ q, zz fun a => a ^ (q - 1)] at this
  refine Runs.of_eq (a := (_, _)) (by
    rw [bind_ok (Stat.lehmer_mean_run w x p),
      bind_ok (show Stat.contra_harmonic_mean (some x) h = _ from Stat.lehmer_mean_run w x _)]; rfl) ?_
  dsimp only
  have e2 : ((h.buf (.v x)).map fun a => a ^ (((2 : Int) : ℝ))).sum / ((h.buf (.v x)).map fun a => a ^ (((2 : Int) : ℝ) - 1)).sum =
      ((h.buf (.v x)).map fun a => a ^ 2).sum / (h.buf (.v x)).sum := by
    have : (((2 : Int) : ℝ) - 1) = 1 := by norm_num
    simp only [this, Real.rpow_one, List.map_id']
    congr 3
    funext a
    rw [show (((2 : Int) : ℝ)) = ((2 : Nat) : ℝ) by norm_num, Real.rpow_natCast]
  exact ⟨rfl, rfl, e2, key p, key _⟩

/-- The hypotheses of the theorems above are met by, e.g., [1, 2, 6]. -/
example : ∀ a ∈ [1, 2, (6 : ℝ)], 0 < a := by simp

/-- **C42** (Heronian mean of non-negative numbers). -/
theorem C42_heronian_mean (a b : ℝ) (ha : 0 ≤ a) (hb : 0 ≤ b) : Betw a b (Stat.heronian_mean a b) := by
  have key : ∀ a b : ℝ, 0 ≤ a → a ≤ b → Betw a b (Stat.heronian_mean a b) := fun a b ha hab => by
    have h1 : a ≤ Real.sqrt (a * b) := Real.le_sqrt_of_sq_le (by nlinarith)
    have h2 : Real.sqrt (a * b) ≤ b := Real.sqrt_le_iff.mpr ⟨by linarith, by nlinarith⟩
    have e : Stat.heronian_mean a b = (a + Real.sqrt (a * b) + b) / 3 := by simp [Stat.heronian_mean, MathFns.sqrt]
    rw [e]
    exact .of_le (by linarith) (by linarith)
  rcases le_total a b with q | q
  · exact key a b ha q
  · have e : Stat.heronian_mean a b = Stat.heronian_mean b a := by
      simp only [Stat.heronian_mean, mul_comm a b]; ring
    rw [e]; exact (key b a hb q).symm

/-- **C42** (Heinz mean of positive numbers, parameter in `[0, 1]`). -/
theorem C42_heinz_mean (a b x : ℝ) (ha : 0 < a) (hb : 0 < b) (hx : 0 ≤ x) (hx1 : x ≤ 1) :
    Betw a b (Stat.heinz_mean a b x) := by
  have e : Stat.heinz_mean a b x = (a ^ x * b ^ (1 - x) + a ^ (1 - x) * b ^ x) / 2 := by
    simp [Stat.heinz_mean, MathFns.pow]
  have lo : ∀ m y : ℝ, 0 < m → m ^ y * m ^ (1 - y) = m := fun m y hm => by
    rw [← Real.rpow_add hm]; simp
  have hm : 0 < min a b := lt_min ha hb
  have hM : 0 < max a b := lt_max_of_lt_left ha
  have g1 : ∀ u v y : ℝ, min a b ≤ u → u ≤ max a b → min a b ≤ v → v ≤ max a b → 0 ≤ y → y ≤ 1 →
      min a b ≤ u ^ y * v ^ (1 - y) ∧ u ^ y * v ^ (1 - y) ≤ max a b := fun u v y u1 u2 v1 v2 y0 y1 => by
    have y1' : 0 ≤ 1 - y := by linarith
    constructor
    · rw [← lo _ y hm]
      refine mul_le_mul ?_ ?_ (Real.rpow_nonneg hm.le _) (Real.rpow_nonneg (hm.le.trans u1) _)
      · exact Real.rpow_le_rpow hm.le u1 y0
      · exact Real.rpow_le_rpow hm.le v1 y1'
    · rw [← lo _ y hM]
      refine mul_le_mul ?_ ?_ (Real.rpow_nonneg (hm.le.trans v1) _) (Real.rpow_nonneg hM.le _)
      · exact Real.rpow_le_rpow (hm.le.trans u1) u2 y0
      · exact Real.rpow_le_rpow (hm.le.trans v1) v2 y1'
  obtain ⟨p1, p2⟩ := g1 a b x (min_le_left _ _) (le_max_left _ _) (min_le_right _ _) (le_max_right _ _) hx hx1
  obtain ⟨q1, q2⟩ := g1 b a x (min_le_right _ _) (le_max_right _ _) (min_le_left _ _) (le_max_left _ _) hx hx1
  rw [mul_comm] at q1 q2
  rw [e]
  exact ⟨by linarith, by linarith⟩

theorem log_bounds {x y : ℝ} (hx : 0 < x) (hxy : x < y) :
    (y - x) / y ≤ Real.log y - Real.log x ∧ Real.log y - Real.log x ≤ (y - x) / x := by
  have hy : 0 < y := hx.trans hxy
  rw [← Real.log_div hy.ne' hx.ne']
  have hq : 0 < y / x := by positivity
  constructor
  · have := Real.one_sub_inv_le_log_of_pos hq
    rw [inv_div] at this
    rwa [sub_div, div_self hy.ne']
  · have := Real.log_le_sub_one_of_pos hq
    rwa [sub_div, div_self hx.ne']

/-- **C42** (logarithmic mean of positive numbers). -/
theorem C42_log_mean (x y : ℝ) (hx : 0 < x) (hy : 0 < y) : Betw x y (Stat.log_mean x y) := by
  have key : ∀ x y : ℝ, 0 < x → x < y → Betw x y ((y - x) / (Real.log y - Real.log x)) := fun x y hx hxy => by
    obtain ⟨l1, l2⟩ := log_bounds hx hxy
    have hy : 0 < y := hx.trans hxy
    have hd : 0 < y - x := by linarith
    have hl : 0 < Real.log y - Real.log x := lt_of_lt_of_le (by positivity) l1
    refine .of_le ?_ ?_
    · rw [le_div_iff₀ hl]
      rw [le_div_iff₀ hx] at l2; linarith
    · rw [div_le_iff₀ hl]
      rw [div_le_iff₀ hy] at l1; linarith
  unfold Stat.log_mean
  split
  · next e => subst e; exact .of_le le_rfl le_rfl
  · next e =>
    rcases lt_or_gt_of_ne e with q | q
    · exact key x y hx q
    · have := (key y x hy q).symm
      have e : (x - y) / (Real.log x - Real.log y) = (y - x) / (Real.log y - Real.log x) := by
        rw [← neg_div_neg_eq]; congr 1 <;> ring
      rwa [e] at this

/-- **C42** (identric mean of positive numbers). -/
theorem C42_identric_mean (x y : ℝ) (hx : 0 < x) (hy : 0 < y) : Betw x y (Stat.identric_mean x y) := by
  have form : ∀ x y : ℝ, 0 < x → 0 < y → (1 / Real.exp 1) * ((x ^ x / y ^ y) ^ (1 / (x - y))) =
      Real.exp ((x * Real.log x - y * Real.log y) / (x - y) - 1) := fun x y hx hy => by
    rw [Real.rpow_def_of_pos hx, Real.rpow_def_of_pos hy, ← Real.exp_sub, ← Real.exp_mul, one_div (Real.exp 1),
      ← Real.exp_neg, ← Real.exp_add]
    congr 1; ring
  have key : ∀ x y : ℝ, 0 < x → x < y → Betw x y (Real.exp ((x * Real.log x - y * Real.log y) / (x - y) - 1)) := fun x y hx hxy => by
    have hy : 0 < y := hx.trans hxy
    obtain ⟨l1, l2⟩ := log_bounds hx hxy
    rw [div_le_iff₀ hy] at l1
    rw [le_div_iff₀ hx] at l2
    have hd : 0 < y - x := by linarith
    have e : (x * Real.log x - y * Real.log y) / (x - y) - 1 = (y * Real.log y - x * Real.log x - (y - x)) / (y - x) := by
      have : x - y ≠ 0 := by linarith
      have : y - x ≠ 0 := by linarith
      rw [← neg_div_neg_eq (x * Real.log x - y * Real.log y), sub_div, div_self this]
      congr 2 <;> ring
    rw [e]
    refine .of_le ?_ ?_
    · rw [← Real.exp_log hx, Real.exp_log hx]
      conv_lhs => rw [← Real.exp_log hx]
      apply Real.exp_le_exp.mpr
      rw [le_div_iff₀ hd]; nlinarith
    · conv_rhs => rw [← Real.exp_log hy]
      apply Real.exp_le_exp.mpr
      rw [div_le_iff₀ hd]; nlinarith
  unfold Stat.identric_mean
  split
  · next e => subst e; exact .of_le le_rfl le_rfl
  · next e =>
    have f : (1 / MathFns.exp (1 : ℝ)) * MathFns.pow (MathFns.pow x x / MathFns.pow y y) (1 / (x - y)) =
        Real.exp ((x * Real.log x - y * Real.log y) / (x - y) - 1) := form x y hx hy
    rw [f]
    rcases lt_or_gt_of_ne e with q | q
    · exact key x y hx q
    · have := (key y x hy q).symm
      have e : (x * Real.log x - y * Real.log y) / (x - y) = (y * Real.log y - x * Real.log x) / (y - x) := by
        rw [← neg_div_neg_eq]; congr 1 <;> ring
      rwa [← e] at this

/-- **C42** (Stolarsky mean of positive numbers, parameter other than 0 and 1). -/
theorem C42_stolarsky_mean (x y p : ℝ) (hx : 0 < x) (hy : 0 < y) (hp0 : p ≠ 0) (hp1 : p ≠ 1) :
    Betw x y (Stat.stolarsky_mean x y p) := by
  have key : ∀ x y : ℝ, 0 < x → x < y → Betw x y (((x ^ p - y ^ p) / (p * (x - y))) ^ (1 / (p - 1))) := fun x y hx hxy => by
    have hd : ∀ t : ℝ, 0 < t → HasDerivAt (fun t : ℝ => t ^ p) (p * t ^ (p - 1)) t := fun t ht =>
      Real.hasDerivAt_rpow_const (.inl ht.ne')
    obtain ⟨c, hc, e⟩ := exists_hasDerivAt_eq_slope (fun t : ℝ => t ^ p) (fun t => p * t ^ (p - 1)) hxy
      (fun t ht => (hd t (hx.trans_le ht.1)).continuousAt.continuousWithinAt) (fun t ht => hd t (hx.trans ht.1))
    have hc0 : 0 < c := hx.trans hc.1
    have e2 : (x ^ p - y ^ p) / (p * (x - y)) = c ^ (p - 1) := by
      have h1 : y - x ≠ 0 := by linarith
      have h2 : x - y ≠ 0 := by linarith
      have e' : p * c ^ (p - 1) = (y ^ p - x ^ p) / (y - x) := e
      rw [eq_div_iff h1] at e'
      rw [div_eq_iff (mul_ne_zero hp0 h2)]
      linarith
    rw [e2, ← Real.rpow_mul hc0.le, mul_one_div_cancel (sub_ne_zero.mpr hp1), Real.rpow_one]
    exact .of_le hc.1.le hc.2.le
  unfold Stat.stolarsky_mean
  split
  · next e => subst e; exact .of_le le_rfl le_rfl
  · next e =>
    show Betw x y (((x ^ p - y ^ p) / (p * (x - y))) ^ (1 / (p - 1)))
    rcases lt_or_gt_of_ne e with q | q
    · exact key x y hx q
    · have := (key y x hy q).symm
      have e : (x ^ p - y ^ p) / (p * (x - y)) = (y ^ p - x ^ p) / (p * (y - x)) := by
        rw [← neg_div_neg_eq]; congr 1 <;> ring
      rwa [← e] at this

/-- **C42**: what the means of two numbers are. -/
theorem C42_pair_means_values (a b x : ℝ) (h : a ≠ b) :
    Stat.heronian_mean a b * 3 = a + Real.sqrt (a * b) + b ∧
    Stat.heinz_mean a b x * 2 = a ^ x * b ^ (1 - x) + a ^ (1 - x) * b ^ x ∧
    Stat.log_mean a b = (b - a) / (Real.log b - Real.log a) ∧
    Stat.identric_mean a b = (Real.exp 1)⁻¹ * (a ^ a / b ^ b) ^ (1 / (a - b)) ∧
    Stat.stolarsky_mean a b x = ((a ^ x - b ^ x) / (x * (a - b))) ^ (1 / (x - 1)) := by
  refine ⟨?_, ?_, ?_, ?_, ?_⟩
  · simp [Stat.heronian_mean, MathFns.sqrt]
  · simp [Stat.heinz_mean, MathFns.pow]
  · simp [Stat.log_mean, MathFns.log, h]
  · simp [Stat.identric_mean, MathFns.pow, MathFns.exp, h]
  · simp [Stat.stolarsky_mean, MathFns.pow, h]

/-- **C42**, the Neuman-Sandor mean is wrong (the code multiplies by the inverse hyperbolic sine instead of dividing by
it): of two equal numbers it is 0, and of 3 and 1 it is less than 1. -/
theorem C42_neuman_sandor_fails :
    (∀ a : ℝ, Stat.neuman_sandor_mean a a = 0) ∧ ¬ Betw 1 1 (Stat.neuman_sandor_mean (1 : ℝ) 1) ∧
    ¬ Betw 3 1 (Stat.neuman_sandor_mean (3 : ℝ) 1) := by
  have z : ∀ a : ℝ, Stat.neuman_sandor_mean a a = 0 := fun a => by simp [Stat.neuman_sandor_mean]
  refine ⟨z, ?_, ?_⟩
  · rw [z]; intro b; have := b.1; norm_num at this
  · have e : Stat.neuman_sandor_mean (3 : ℝ) 1 = Real.log (1 / 2 + Real.sqrt (5 / 4)) := by
      simp only [Stat.neuman_sandor_mean, MathFns.log, MathFns.sqrt]
      norm_num
    rw [e]
    intro b
    have b1 := b.1
    rw [min_eq_right (by norm_num)] at b1
    have hs : Real.sqrt (5 / 4) ≤ 3 / 2 := Real.sqrt_le_iff.mpr ⟨by norm_num, by norm_num⟩
    have hp : (0 : ℝ) < 1 / 2 + Real.sqrt (5 / 4) := by positivity
    have := (Real.le_log_iff_exp_le hp).mp b1
    have := Real.exp_one_gt_d9
    linarith

/-! ## C48 -/

/-- **C48** (Chebyshev): for every `k > 0`, at least the fraction `chebyshev_ineq(k)` of the elements lies within `k`
standard deviations (as computed by `standard_deviationv`) of the mean (as computed by `meanv`). -/
theorem C48_chebyshev (h : Heap ℝ) (w : h.WF) (x : Nat) (k : ℝ) (hk : 0 < k) (h2 : 2 ≤ (h.buf (.v x)).length) :
    Runs (do
      let m ← Stat.meanv (some x)
      let s ← Stat.standard_deviationv (some x)
      pure (m, s)) h fun r h' => h' = h ∧
        Stat.chebyshev_ineq k * (h.buf (.v x)).length ≤ ((h.buf (.v x)).countP fun a => decide (|a - r.1| ≤ k * r.2)) := by
  refine Runs.of_eq (a := (_, _)) (by
    rw [bind_ok (Stat.meanv_run w x), bind_ok (Stat.standard_deviationv_run w x)]; rfl) ⟨rfl, ?_⟩
  dsimp only
  set l := h.buf (.v x) with hl
  set m := mean l
  have hn : (2 : ℝ) ≤ l.length := by exact_mod_cast h2
  have hv := sampleVar_nonneg h2
  set V := sampleVar l with hV
  have hsum : (l.map fun a => (a - m) ^ 2).sum = (l.length - 1) * V := by
    rw [hV, sampleVar]
    exact (mul_div_cancel₀ _ (show ((l.length : ℝ) - 1) ≠ 0 by linarith)).symm
  -- Markov: the far elements contribute at least `k² V` each
  have markov : ∀ q : List ℝ, ((q.countP fun a => !decide (|a - m| ≤ k * Real.sqrt V)) : ℝ) * (k ^ 2 * V) ≤
      (q.map fun a => (a - m) ^ 2).sum := by
    intro q
    induction q with
    | nil => simp
    | cons a q ih =>
      rw [List.countP_cons, List.map_cons, List.sum_cons]
      by_cases hc : |a - m| ≤ k * Real.sqrt V
      · simp [hc]; nlinarith [sq_nonneg (a - m)]
      · have hc' := not_le.mp hc
        have : k ^ 2 * V ≤ (a - m) ^ 2 := by
          rw [← sq_abs (a - m)]
          calc k ^ 2 * V = (k * Real.sqrt V) ^ 2 := by rw [mul_pow, Real.sq_sqrt hv]
            _ ≤ _ := pow_le_pow_left₀ (by positivity) hc'.le 2
        simp [hc]; nlinarith
  have hm := markov l
  rw [hsum] at hm
  have hcount : (l.length : ℝ) = (l.countP fun a => decide (|a - m| ≤ k * Real.sqrt V)) +
      (l.countP fun a => !decide (|a - m| ≤ k * Real.sqrt V)) := by
    have := List.length_eq_countP_add_countP (fun a => decide (|a - m| ≤ k * Real.sqrt V)) (l := l)
    have e : (l.countP fun a => !decide (|a - m| ≤ k * Real.sqrt V)) =
        l.countP fun a => decide ¬(decide (|a - m| ≤ k * Real.sqrt V)) = true := by
      congr 1; funext a; by_cases q : |a - m| ≤ k * Real.sqrt V <;> simp [q]
    rw [e]
    exact_mod_cast this
  set C : ℝ := ((l.countP fun a => decide (|a - m| ≤ k * Real.sqrt V) : ℕ) : ℝ) with hC
  set D : ℝ := ((l.countP fun a => !decide (|a - m| ≤ k * Real.sqrt V) : ℕ) : ℝ) with hD
  have hD0 : 0 ≤ D := Nat.cast_nonneg _
  unfold Stat.chebyshev_ineq
  rcases hv.eq_or_lt with v0 | vp
  · -- all elements are equal to the mean
    have all := (sampleVar_eq_zero h2).mp v0.symm
    have hne : l ≠ [] := by intro e; rw [e] at h2; simp at h2
    have : C = l.length := by
      rw [hC]
      congr 1
      rw [List.countP_eq_length]
      intro a ha
      have hm := mean_between hne a a fun y hy => ⟨(all a ha y hy).le, (all y hy a ha).le⟩
      have : a - m = 0 := by have := hm.1; have := hm.2; simp only [m]; linarith
      simp only [this, abs_zero, decide_eq_true_eq]
      positivity
    rw [this]
    have : 0 ≤ 1 / (k * k) := by positivity
    nlinarith
  · have h3 : D * k ^ 2 ≤ l.length - 1 := by
      have : D * k ^ 2 * V ≤ (l.length - 1) * V := by linarith
      exact le_of_mul_le_mul_right this vp
    have h4 : D ≤ l.length * (1 / (k * k)) := by
      rw [mul_one_div, le_div_iff₀ (by positivity)]
      nlinarith
    nlinarith

/-- **C48** (absolute deviation): the average absolute deviation is between 0 and the largest distance to the mean, and it
is at most the standard deviation. -/
theorem C48_abs_avg_deviation (h : Heap ℝ) (w : h.WF) (x : Nat) (h2 : 2 ≤ (h.buf (.v x)).length) :
    Runs (do
      let d ← Stat.abs_avg_deviation (some x)
      let s ← Stat.standard_deviationv (some x)
      pure (d, s)) h fun r h' => h' = h ∧
        r.1 * (h.buf (.v x)).length = ((h.buf (.v x)).map fun a => |a - mean (h.buf (.v x))|).sum ∧
        0 ≤ r.1 ∧ r.1 ≤ r.2 := by
  refine Runs.of_eq (a := (_, _)) (by
    rw [bind_ok (Stat.abs_avg_deviation_run w x), bind_ok (Stat.standard_deviationv_run w x)]; rfl) ?_
  dsimp only
  set l := h.buf (.v x)
  have hn : (2 : ℝ) ≤ l.length := by exact_mod_cast h2
  have hn0 : (l.length : ℝ) ≠ 0 := by linarith
  have h0 : 0 ≤ (l.map fun a => |a - mean l|).sum := List.sum_nonneg (by
    intro y hy
    obtain ⟨a, _, rfl⟩ := List.mem_map.mp hy
    exact abs_nonneg _)
  refine ⟨rfl, div_mul_cancel₀ _ hn0, div_nonneg h0 (by linarith), ?_⟩
  refine Real.le_sqrt_of_sq_le ?_
  rw [sum_map_fin l rfl fun a => |a - mean l|, sampleVar_fin l rfl, div_pow]
  have cs := sq_sum_le_card_mul_sum_sq (s := (Finset.univ : Finset (Fin l.length))) (f := fun i => |l.getD i 0 - mean l|)
  simp only [Finset.card_univ, Fintype.card_fin, sq_abs] at cs
  have hS : 0 ≤ ∑ i : Fin l.length, (l.getD i 0 - mean l) ^ 2 := Finset.sum_nonneg fun i _ => sq_nonneg _
  rw [div_le_div_iff₀ (by positivity) (by linarith)]
  nlinarith

end Verif
