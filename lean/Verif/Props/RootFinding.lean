import Verif.Lemmas.NumAnalysis
import Verif.Lemmas.Example
import Mathlib.Analysis.Convex.Slope
import Mathlib.Topology.Order.MonotoneConvergence

/-! # C79: root finding -/

namespace Verif
open NumAnalysis Set Filter Spec

theorem newton_zero (f : ℝ → ℝ) (x0 : ℝ) : newton_raphson_method f x0 0 = x0 := by
  unfold newton_raphson_method; simp

theorem newton_succ (f : ℝ → ℝ) (x0 : ℝ) (n : ℕ) : newton_raphson_method f x0 (n + 1 : ℕ) =
    newton_raphson_method f x0 n - f (newton_raphson_method f x0 n) / num_diffr f (newton_raphson_method f x0 n) := by
  unfold newton_raphson_method
  simp only [Nat.ceil_natCast]
  rw [Function.iterate_succ_apply']

theorem convex_mono {f : ℝ → ℝ} {r : ℝ} (hc : ConvexOn ℝ (Ici r) f) (hr : f r = 0) (hp : ∀ x, r < x → 0 < f x) {x y : ℝ} (hx : r ≤ x)
    (hxy : x ≤ y) : f x ≤ f y := by
  rcases hxy.eq_or_lt with rfl | hlt
  · exact le_rfl
  rcases hx.eq_or_lt with rfl | hx'
  · rw [hr]; exact (hp y hlt).le
  have s := hc.slope_mono_adjacent (mem_Ici.mpr le_rfl) (mem_Ici.mpr (hx.trans hxy)) hx' hlt
  have : 0 ≤ (f x - f r) / (x - r) := div_nonneg (by rw [hr]; linarith [hp x hx']) (by linarith)
  have := this.trans s
  rw [le_div_iff₀ (by linarith)] at this
  linarith

theorem newton_step {f : ℝ → ℝ} {r : ℝ} (hc : ConvexOn ℝ (Ici r) f) (hr : f r = 0) (hp : ∀ x, r < x → 0 < f x) {x : ℝ} (hx : r ≤ x) :
    r ≤ x - f x / num_diffr f x ∧ x - f x / num_diffr f x ≤ x := by
  rcases hx.eq_or_lt with rfl | hx'
  · rw [hr]; simp
  have s := hc.slope_mono_adjacent (mem_Ici.mpr le_rfl) (mem_Ici.mpr (show r ≤ x + 1e-10 by norm_num; linarith)) hx'
    (show x < x + 1e-10 by norm_num)
  have d : (f (x + 1e-10) - f x) / (x + 1e-10 - x) = num_diffr f x := by unfold num_diffr; simp
  rw [d, hr, sub_zero] at s
  have fx := hp x hx'
  have xr : 0 < x - r := by linarith
  have dp : 0 < num_diffr f x := (div_pos fx xr).trans_le s
  have : f x / num_diffr f x ≤ x - r := by
    rw [div_le_iff₀ dp]
    rw [div_le_iff₀ xr] at s
    linarith
  exact ⟨by linarith, by have := div_pos fx dp; linarith⟩

/-- **C79.** For a convex function with root `r` that is positive to the right of `r`, Newton's method started at any point to the right
of the root never jumps over the root, never moves away from it, and converges to it. -/
theorem C79_newton_converges (f : ℝ → ℝ) (r x0 : ℝ) (hc : ConvexOn ℝ (Ici r) f) (hr : f r = 0) (hp : ∀ x, r < x → 0 < f x) (hx : r ≤ x0) :
    (∀ n : ℕ, r ≤ newton_raphson_method f x0 (n + 1 : ℕ) ∧ newton_raphson_method f x0 (n + 1 : ℕ) ≤ newton_raphson_method f x0 n) ∧
      Tendsto (fun n : ℕ => newton_raphson_method f x0 n) atTop (nhds r) := by
  set x : ℕ → ℝ := fun n => newton_raphson_method f x0 n with hxdef
  have x0e : x 0 = x0 := by rw [hxdef]; simpa using newton_zero f x0
  have hs : ∀ n, x (n + 1) = x n - f (x n) / num_diffr f (x n) := fun n => newton_succ f x0 n
  have lo : ∀ n, r ≤ x n := by
    intro n
    induction n with
    | zero => rw [x0e]; exact hx
    | succ n ih => rw [hs]; exact (newton_step hc hr hp ih).1
  have dec : ∀ n, x (n + 1) ≤ x n := fun n => by rw [hs]; exact (newton_step hc hr hp (lo n)).2
  refine ⟨fun n => ⟨lo (n + 1), dec n⟩, ?_⟩
  have anti : Antitone x := antitone_nat_of_succ_le dec
  have bdd : BddBelow (range x) := ⟨r, by rintro _ ⟨n, rfl⟩; exact lo n⟩
  have lim := tendsto_atTop_ciInf anti bdd
  have hL : r ≤ ⨅ n, x n := le_ciInf lo
  rcases hL.eq_or_lt with e | hlt
  · rw [e]; exact lim
  exfalso
  set L := ⨅ n, x n with hLdef
  have fL := hp L hlt
  have Ln : ∀ n, L ≤ x n := fun n => ciInf_le bdd n
  have D0 : 0 < f (x0 + 1e-10) := hp _ (by norm_num; linarith)
  have step : ∀ n, x (n + 1) ≤ x n - f L * 1e-10 / f (x0 + 1e-10) := by
    intro n
    rw [hs]
    have hn : x n ≤ x0 := by rw [← x0e]; exact anti (Nat.zero_le n)
    have h1 : f L ≤ f (x n) := convex_mono hc hr hp hL (Ln n)
    have h2 : f (x n + 1e-10) ≤ f (x0 + 1e-10) := convex_mono hc hr hp (by have := lo n; norm_num; linarith) (by linarith)
    have h3 : 0 < f (x n) := fL.trans_le h1
    have h4 : num_diffr f (x n) ≤ f (x0 + 1e-10) / 1e-10 := by
      unfold num_diffr
      dsimp only
      gcongr
      linarith
    have h5 : 0 < num_diffr f (x n) := by
      have s := hc.slope_mono_adjacent (mem_Ici.mpr le_rfl) (mem_Ici.mpr (show r ≤ x n + 1e-10 by have := lo n; norm_num; linarith))
        (hlt.trans_le (Ln n)) (show x n < x n + 1e-10 by norm_num)
      have d : (f (x n + 1e-10) - f (x n)) / (x n + 1e-10 - x n) = num_diffr f (x n) := by unfold num_diffr; simp
      rw [d, hr, sub_zero] at s
      exact (div_pos h3 (by have := Ln n; linarith)).trans_le s
    have h6 : f L * 1e-10 / f (x0 + 1e-10) ≤ f (x n) / num_diffr f (x n) := by
      rw [div_le_div_iff₀ D0 h5]
      rw [le_div_iff₀ (by norm_num)] at h4
      calc f L * 1e-10 * num_diffr f (x n) = f L * (num_diffr f (x n) * 1e-10) := by ring
        _ ≤ f (x n) * f (x0 + 1e-10) := mul_le_mul h1 h4 (by positivity) h3.le
    linarith
  have δ : 0 < f L * 1e-10 / f (x0 + 1e-10) := by positivity
  have far : ∀ n : ℕ, x n ≤ x0 - n * (f L * 1e-10 / f (x0 + 1e-10)) := by
    intro n
    induction n with
    | zero => rw [x0e]; simp
    | succ n ih => have := step n; push_cast; linarith
  obtain ⟨n, hn⟩ := exists_nat_gt ((x0 - r) / (f L * 1e-10 / f (x0 + 1e-10)))
  rw [div_lt_iff₀ δ] at hn
  have := far n
  have := lo n
  linarith

/-- **C79.** A root is a fixed point of Newton's and of Halley's method. -/
theorem C79_root_is_fixed (f : ℝ → ℝ) (r n : ℝ) (hr : f r = 0) : newton_raphson_method f r n = r ∧ halley_method f r n = r := by
  unfold newton_raphson_method halley_method
  refine ⟨Function.iterate_fixed ?_ _, Function.iterate_fixed ?_ _⟩ <;> simp [hr]

/-- **C79.** Both methods find the root of a function of degree one in one step, and keep it. -/
theorem C79_affine_exact (a b x0 n : ℝ) (ha : a ≠ 0) (hn : 0 < n) :
    newton_raphson_method (fun t => a * t + b) x0 n = -b / a ∧ halley_method (fun t => a * t + b) x0 n = -b / a := by
  have d1 : ∀ x, num_diffr (fun t => a * t + b) x = a := fun x => by unfold num_diffr; dsimp only; ring_nf
  have d2 : ∀ x, num_diff_2r (fun t => a * t + b) x = 0 := fun x => by unfold num_diff_2r; dsimp only; ring_nf
  have hk : ∃ k, ⌈n⌉₊ = k + 1 := Nat.exists_eq_succ_of_ne_zero (Nat.ceil_pos.mpr hn).ne'
  obtain ⟨k, hk⟩ := hk
  have it : ∀ g : ℝ → ℝ, (∀ x, g x = -b / a) → g^[k + 1] x0 = -b / a := fun g hg => by rw [Function.iterate_succ_apply', hg]
  unfold newton_raphson_method halley_method
  rw [hk]
  refine ⟨it _ fun x => ?_, it _ fun x => ?_⟩
  · rw [d1]; field_simp; ring
  · rw [d1, d2]; field_simp; ring

/-! ## Inverse quadratic interpolation -/

/-- The value the interpolation formula gives is the value at zero of the quadratic through the three points. -/
theorem lagrange_zero {a b c fa fb fc p q r : ℝ} (hab : fa ≠ fb) (hac : fa ≠ fc) (hbc : fb ≠ fc) (ha : a = p * fa ^ 2 + q * fa + r)
    (hb : b = p * fb ^ 2 + q * fb + r) (hc : c = p * fc ^ 2 + q * fc + r) :
    fb * fc / ((fa - fb) * (fa - fc)) * a + fa * fc / ((fb - fa) * (fb - fc)) * b + fa * fb / ((fc - fa) * (fc - fb)) * c = r := by
  have h1 := sub_ne_zero.mpr hab
  have h2 := sub_ne_zero.mpr hac
  have h3 := sub_ne_zero.mpr hbc
  have h1' : fb - fa = -(fa - fb) := by ring
  have h2' : fc - fa = -(fa - fc) := by ring
  have h3' : fc - fb = -(fb - fc) := by ring
  rw [h1', h2', h3', ha, hb, hc]
  field_simp
  ring

/-- **C79.** Inverse quadratic interpolation started with three points. Let `x` be the sequence that begins with these points and in
which each further point is the value at zero of the quadratic `y ↦ p y² + q y + x (n + 3)` which takes the function values at the
previous three points to these points. Then the result after `N ≥ 1` epochs is the last point reached, `x (N + 2)`, as long as the
function values met are different; the starting vector is not changed. -/
theorem C79_inverse_quadratic (h : Heap ℝ) (w : h.WF) (f : ℝ → ℝ) (o : Nat) (x : ℕ → ℝ) (a : IsVec h o (fun i : Fin 3 => x i))
    (l : h.live (.v o)) (N : ℕ) (hN : 0 < N)
    (hd : ∀ n < N, f (x n) ≠ f (x (n + 1)) ∧ f (x n) ≠ f (x (n + 2)) ∧ f (x (n + 1)) ≠ f (x (n + 2)))
    (hx : ∀ n < N, ∃ p q : ℝ, ∀ k < 3, x (n + k) = p * f (x (n + k)) ^ 2 + q * f (x (n + k)) + x (n + 3)) :
    ReturnsVal (inv_quadratic_interpolation f (some (.v o)) N) h (x (N + 2)) := by
  unfold inv_quadratic_interpolation
  refine Runs.step (derefV_run o h) ?_
  refine (Vec.dup_spec w a l).bind fun d h1 w1 k1 f1 l1 a1 => ?_
  refine Runs.step (derefV_run d h1) ?_
  rw [Int.toNat_natCast]
  have e1 : h1.vec d = [x 0, x 1, x 2] := by rw [a1.vec_eq w1]; rfl
  have main : Runs (foldN N (0 : ℝ) fun _ _ => do
      let a ← Vec.index_get d 0
      let b ← Vec.index_get d 1
      let c ← Vec.index_get d 2
      let t1 := ((f b * f c) / ((f a - f b) * (f a - f c))) * a
      let t2 := ((f a * f c) / ((f b - f a) * (f b - f c))) * b
      let t3 := ((f a * f b) / ((f c - f a) * (f c - f b))) * c
      let x := t1 + t2 + t3
      Vec.remove d 0
      Vec.push_back d x
      pure x) h1 fun v h' => (0 < N → v = x (N + 2)) ∧ h'.WF ∧ Keeps h1 h' (· = .v d) ∧ h'.vec d = [x N, x (N + 1), x (N + 2)] := by
    refine Runs.foldN N (fun i v h' => (0 < i → v = x (i + 2)) ∧ h'.WF ∧ Keeps h1 h' (· = .v d) ∧
      h'.vec d = [x i, x (i + 1), x (i + 2)]) _ _ _ ⟨nofun, w1, Keeps.refl _ _, e1⟩ ?_
    rintro n s h2 hn ⟨-, w2, k2, e2⟩
    refine Runs.step (Vec.index_get_run w2 (i := 0) (by rw [e2]; rfl)) ?_
    refine Runs.step (Vec.index_get_run w2 (i := 1) (by rw [e2]; rfl)) ?_
    refine Runs.step (Vec.index_get_run w2 (i := 2) (by rw [e2]; rfl)) ?_
    obtain ⟨h3, er, u3⟩ := Vec.remove_ok w2 d 0 (by rw [e2]; simp)
    have w3 := u3.wf w2
    obtain ⟨p, q, hp⟩ := hx n hn
    obtain ⟨d1, d2, d3⟩ := hd n hn
    have key := lagrange_zero d1 d2 d3 (hp 0 (by omega)) (hp 1 (by omega)) (hp 2 (by omega))
    simp only [Nat.add_zero] at key
    dsimp only
    rw [key]
    refine Runs.step er ?_
    obtain ⟨h4, ep, u4⟩ := Vec.push_back_run w3 d (x (n + 3))
    refine Runs.step ep ?_
    refine Runs.of_eq (a := x (n + 3)) (h' := h4) rfl ⟨fun _ => rfl, u4.wf w3, (k2.trans u3.keeps).trans u4.keeps, ?_⟩
    rw [u4.vec_same, u3.vec_same, e2]; rfl
  refine main.mono fun v h' ⟨hv, w', k', _⟩ => ⟨hv hN, w', ?_⟩
  exact k1.trans_new k' (fun l e hl => by subst e; exact f1 hl)

/-- **C79.** With no epoch the result of inverse quadratic interpolation is zero; with fewer than three starting points and at least one
epoch the program aborts. -/
theorem C79_inverse_quadratic_edge (h : Heap ℝ) (w : h.WF) (f : ℝ → ℝ) (o n : Nat) (v : Fin n → ℝ) (a : IsVec h o v) (l : h.live (.v o))
    (N : Int) : (N ≤ 0 → ReturnsVal (inv_quadratic_interpolation f (some (.v o)) N) h 0) ∧
      (0 < N → n < 3 → inv_quadratic_interpolation f (some (.v o)) N h = .crash) := by
  have hdp := Vec.dup_spec w a l
  have hdp' := hdp
  unfold ReturnsVec at hdp
  rw [runs_iff] at hdp
  obtain ⟨_, h1, e1, d, rfl, f1, l1, w1, k1, a1⟩ := hdp
  refine ⟨fun hN => ?_, fun hN hn => ?_⟩
  · unfold inv_quadratic_interpolation
    refine Runs.step (derefV_run o h) (Runs.step e1 (Runs.step (derefV_run d h1) ?_))
    rw [Int.toNat_of_nonpos hN]
    exact Runs.of_eq (a := 0) (h' := h1) rfl ⟨rfl, w1, k1⟩
  · unfold inv_quadratic_interpolation
    rw [bind_ok (derefV_run o h), bind_ok e1, bind_ok (derefV_run d h1)]
    obtain ⟨k, rfl⟩ : ∃ k : Nat, N = (k + 1 : Nat) := ⟨N.toNat - 1, by omega⟩
    rw [Int.toNat_natCast]
    unfold foldN
    rw [loop_succ]
    refine bind_crash ?_
    have get : ∀ i : Nat, i < n → ∃ y, Vec.index_get d (i : Int) h1 = .ok (y, h1) := fun i hi =>
      ⟨v ⟨i, hi⟩, Vec.index_get_run w1 (a1.2 ⟨i, hi⟩)⟩
    have bad : ∀ i : Nat, n ≤ i → Vec.index_get d (i : Int) h1 = .crash := by
      intro i hi
      unfold Vec.index_get
      rw [bind_ok (Vec.size_run w1 d), a1.vec_eq w1, List.length_ofFn, if_neg]
      · rfl
      · simp [idxOk]; omega
    have b2 := bad 2 (by omega)
    by_cases h0 : 0 < n
    · obtain ⟨y0, g0⟩ := get 0 h0
      rw [bind_ok (show Vec.index_get d 0 h1 = _ from g0)]
      by_cases h1 : 1 < n
      · obtain ⟨y1, g1⟩ := get 1 h1
        rw [bind_ok (show Vec.index_get d 1 _ = _ from g1)]
        exact bind_crash b2
      · exact bind_crash (bad 1 (by omega))
    · exact bind_crash (bad 0 (by omega))

/-- The hypotheses of `C79_newton_converges` are met by `t ↦ t² - 4` with root 2, started at 10. -/
example : ConvexOn ℝ (Ici (2 : ℝ)) (fun t => t ^ 2 - 4) ∧ (fun t : ℝ => t ^ 2 - 4) 2 = 0 ∧ (∀ x : ℝ, 2 < x → 0 < x ^ 2 - 4) ∧ (2 : ℝ) ≤ 10 := by
  refine ⟨?_, by norm_num, fun x hx => by nlinarith, by norm_num⟩
  refine ⟨convex_Ici 2, fun x _ y _ a b ha hb hab => ?_⟩
  simp only [smul_eq_mul]
  have : b = 1 - a := by linarith
  subst this
  nlinarith [mul_nonneg ha hb, sq_nonneg (x - y), mul_nonneg (mul_nonneg ha hb) (sq_nonneg (x - y))]

/-- The hypotheses of `C79_inverse_quadratic` are met: the function `t ↦ 2 t - 2` started with the points 0, 2 and 3 gives the root 1
after one epoch. -/
example : ∃ (h : Heap ℝ) (x : ℕ → ℝ), h.WF ∧ IsVec h 0 (fun i : Fin 3 => x i) ∧ h.live (.v 0) ∧ x (1 + 2) = 1 ∧
    ∀ n < 1, ((fun t : ℝ => 2 * t - 2) (x n) ≠ (fun t : ℝ => 2 * t - 2) (x (n + 1)) ∧ (fun t : ℝ => 2 * t - 2) (x n) ≠ (fun t : ℝ => 2 * t - 2) (x (n + 2)) ∧
      (fun t : ℝ => 2 * t - 2) (x (n + 1)) ≠ (fun t : ℝ => 2 * t - 2) (x (n + 2))) ∧
    ∃ p q : ℝ, ∀ k < 3, x (n + k) = p * ((fun t : ℝ => 2 * t - 2) (x (n + k))) ^ 2 + q * (fun t : ℝ => 2 * t - 2) (x (n + k)) + x (n + 3) := by
  refine ⟨Heap.ofLists 0 [[0, 2, 3]] [], fun k => if k = 0 then 0 else if k = 1 then 2 else if k = 2 then 3 else 1,
    Heap.ofLists_wf _ _ _ (by simp), ⟨by simp [Heap.ofLists], fun i => by fin_cases i <;> simp [Heap.ofLists]⟩,
    by simp [Heap.ofLists, Heap.live, Loc.id], by norm_num, fun n hn => ?_⟩
  obtain rfl : n = 0 := by omega
  refine ⟨by norm_num, 0, 1 / 2, fun k hk => ?_⟩
  interval_cases k <;> norm_num

end Verif
