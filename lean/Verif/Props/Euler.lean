import Verif.Props.NumDiff
import Verif.Lemmas.NumAnalysis
import Verif.Lemmas.Example
import Mathlib.Analysis.SpecialFunctions.Exp
import Mathlib.Analysis.SpecialFunctions.ExpDeriv

/-! # C80: Euler's method and exponential growth -/

namespace Verif
open NumAnalysis Spec Activation Finset

theorem trunc_toNat {x : ℝ} (h : 0 ≤ x) : (trunc x).toNat = ⌊x⌋₊ := by
  unfold trunc; rw [if_pos h]; exact Int.floor_toNat x

theorem inInt_of_nonneg {x : ℝ} (h : 0 ≤ x) (h' : x < 2147483648) : InInt x := ⟨by linarith, h'⟩

/-- **C80.** `eulerian_methodv` follows Euler's polygon: if `y` starts at `q_1` and goes on by `y + step · F(t, y)`, where the callback
is given the vector `(t, y)`, the result is the point of the polygon after `⌊(p - q_0) / step⌋` steps. -/
theorem C80_eulerv_polygon (h : Heap ℝ) (w : h.WF) (F : List ℝ → ℝ) (q0 q1 p s : ℝ) (hn : 0 ≤ (p - q0) / s)
    (hi : (p - q0) / s < 2147483648) (y : ℕ → ℝ) (y0 : y 0 = q1) (ys : ∀ k, y (k + 1) = y k + s * F [q0 + k * s, y k]) :
    ReturnsVal (eulerian_methodv F q0 q1 p s) h (y ⌊(p - q0) / s⌋₊) := by
  unfold eulerian_methodv
  refine Runs.step (toInt_run (inInt_of_nonneg hn hi) h) ?_
  refine Runs.newVec w ⟨rfl, rfl⟩ fun h1 w1 k1 f1 l1 s1 => ?_
  generalize h.next = q at *
  obtain ⟨g, c1⟩ := exists_VCells w1 s1
  rw [trunc_toNat hn]
  refine Runs.andThen (Runs.foldN _ (fun i (st : ℝ × ℝ) h' => st = (q0 + i * s, y i) ∧ h'.WF ∧ Keeps h1 h' (· = .v q) ∧ ∃ g, VCells h' (.v q) 2 g)
    _ _ _ ⟨by simp [y0], w1, Keeps.refl _ _, g, c1⟩ ?_) ?_
  · rintro i st h2 - ⟨rfl, w2, k2, g, c2⟩
    refine (Vec.set_cells w2 c2 (i := 0) (by omega) (q0 + i * s)).andThen fun _ h3 ⟨w3, k3, _, c3⟩ => ?_
    refine (Vec.set_cells w3 c3 (i := 1) (by omega) (y i)).andThen fun _ h4 ⟨w4, k4, _, c4⟩ => ?_
    have e : IsVec h4 q ![q0 + i * s, y i] := by
      refine ⟨c4.1, fun j => ?_⟩
      rw [c4.get j.isLt]
      fin_cases j <;> simp [SortArray.upd]
    refine Runs.step (callV_run w4 F e) ?_
    refine Runs.of_eq (a := (q0 + i * s + s, y i + s * F (List.ofFn ![q0 + i * s, y i]))) (h' := h4) rfl
      ⟨?_, w4, (k2.trans k3).trans k4, _, c4⟩
    have : List.ofFn ![q0 + i * s, y i] = [q0 + i * s, y i] := by simp [List.ofFn_succ]
    rw [this, ys]; push_cast
    refine Prod.ext ?_ rfl
    dsimp only; ring
  · rintro _ h2 ⟨rfl, w2, k2, -⟩
    exact Runs.of_eq (a := y ⌊(p - q0) / s⌋₊) (h' := h2) rfl ⟨rfl, w2, k1.trans_new k2 (fun l e hl => by subst e; exact f1 hl)⟩

/-- **C80.** `eulerian_methodr` is the left Riemann sum of the derivative with the given step. -/
theorem C80_eulerr_sum (h : Heap ℝ) (d : ℝ → ℝ) (q0 q1 p s : ℝ) (hn : 0 ≤ (p - q0) / s) (hi : (p - q0) / s < 2147483648) :
    eulerian_methodr d q0 q1 p s h = .ok (q1 + s * ∑ k ∈ range ⌊(p - q0) / s⌋₊, d (q0 + k * s), h) := by
  unfold eulerian_methodr
  rw [bind_ok (toInt_run (inInt_of_nonneg hn hi) h), trunc_toNat hn]
  rw [bind_ok (foldN_read ⌊(p - q0) / s⌋₊ (fun i : ℕ => (q0 + i * s, q1 + s * ∑ k ∈ range i, d (q0 + k * s))) _ _ h (by simp) ?_)]
  · rfl
  · intro i _
    show Out.ok (_, h) = _
    refine congrArg (fun z => Out.ok (z, h)) (Prod.ext ?_ ?_)
    · dsimp only; push_cast; ring
    · dsimp only; rw [Finset.sum_range_succ]; ring

/-- **C80.** The step count is zero when the end lies before the start, and the conversion to `int` is undefined when it is too large. -/
theorem C80_euler_range (h : Heap ℝ) (d : ℝ → ℝ) (q0 q1 p s : ℝ) :
    (-2147483649 < (p - q0) / s → (p - q0) / s < 0 → eulerian_methodr d q0 q1 p s h = .ok (q1, h)) ∧
      (2147483648 ≤ (p - q0) / s → eulerian_methodr d q0 q1 p s h = .ub) := by
  refine ⟨fun h1 h2 => ?_, fun h1 => ?_⟩
  · unfold eulerian_methodr
    rw [bind_ok (toInt_run ⟨h1, by linarith⟩ h)]
    have : (trunc ((p - q0) / s)).toNat = 0 := by
      unfold trunc; rw [if_neg (by linarith), Int.toNat_eq_zero]
      exact Int.ceil_le.mpr (by simpa using h2.le)
    rw [this]; rfl
  · unfold eulerian_methodr
    exact bind_ub (toInt_ub (fun q => by have := q.2; linarith) h)

/-- One step of Euler's method along a solution misses it by at most `C s² / 2`. -/
theorem euler_local {Y Y' Y'' : ℝ → ℝ} (h0 : ∀ t, HasDerivAt Y (Y' t) t) (h1 : ∀ t, HasDerivAt Y' (Y'' t) t) {C : ℝ} (hC : ∀ t, |Y'' t| ≤ C)
    (t s : ℝ) : |Y (t + s) - (Y t + s * Y' t)| ≤ C * s ^ 2 / 2 := by
  obtain ⟨ξ, -, e⟩ := taylor2 (p := fun r => Y (t + s * r)) (p' := fun r => s * Y' (t + s * r)) (p'' := fun r => s ^ 2 * Y'' (t + s * r))
    (fun r => by
      have := (h0 (t + s * r)).comp r (((hasDerivAt_id r).const_mul s).const_add t)
      refine this.congr_deriv ?_; simp [mul_comm])
    (fun r => by
      have := ((h1 (t + s * r)).comp r (((hasDerivAt_id r).const_mul s).const_add t)).const_mul s
      refine this.congr_deriv ?_; ring)
  simp only [mul_one, mul_zero, add_zero] at e
  rw [e, show Y t + s * Y' t + s ^ 2 * Y'' (t + s * ξ) / 2 - (Y t + s * Y' t) = s ^ 2 / 2 * Y'' (t + s * ξ) by ring, abs_mul,
    abs_of_nonneg (show 0 ≤ s ^ 2 / 2 by positivity)]
  have := mul_le_mul_of_nonneg_left (hC (t + s * ξ)) (show 0 ≤ s ^ 2 / 2 by positivity)
  linarith

/-- **C80.** Accuracy of `eulerian_methodr`: if `Y` is an antiderivative with `Y(q_0) = q_1` and `|Y''| ≤ C`, the error at the point
`q_0 + n s` reached after `n = ⌊(p - q_0)/s⌋` steps is at most `n C s² / 2`. -/
theorem C80_eulerr_error (h : Heap ℝ) (d d' Y : ℝ → ℝ) (q0 q1 p s C : ℝ) (hn : 0 ≤ (p - q0) / s) (hi : (p - q0) / s < 2147483648)
    (hY : ∀ t, HasDerivAt Y (d t) t) (hd : ∀ t, HasDerivAt d (d' t) t) (hC : ∀ t, |d' t| ≤ C) (hq : Y q0 = q1) :
    ∃ y, eulerian_methodr d q0 q1 p s h = .ok (y, h) ∧ |y - Y (q0 + ⌊(p - q0) / s⌋₊ * s)| ≤ ⌊(p - q0) / s⌋₊ * (C * s ^ 2 / 2) := by
  refine ⟨_, C80_eulerr_sum h d q0 q1 p s hn hi, ?_⟩
  generalize ⌊(p - q0) / s⌋₊ = n
  induction n with
  | zero => simp [hq]
  | succ n ih =>
    have := euler_local hY hd hC (q0 + n * s) s
    rw [Finset.sum_range_succ, show q0 + ((n + 1 : ℕ) : ℝ) * s = q0 + n * s + s by push_cast; ring]
    rw [abs_le] at *
    push_cast
    constructor <;> linarith [this.1, this.2, ih.1, ih.2]

/-- **C80.** Accuracy of `eulerian_methodv` with `N` equal steps: if `Y` solves `Y' = F(t, Y)`, `Y(q_0) = q_1`, with `|Y''| ≤ C`, and `F` is
`L`-Lipschitz in its second argument, then the error at the end point `p > q_0` is at most `C (p - q_0)² e^(L (p - q_0)) / (2 N)`. -/
theorem C80_eulerv_error (h : Heap ℝ) (w : h.WF) (F : List ℝ → ℝ) (Y Y'' : ℝ → ℝ) (q0 q1 p C L : ℝ) (N : ℕ) (hp : q0 < p) (hN : 0 < N)
    (hi : N < 2147483648) (hY : ∀ t, HasDerivAt Y (F [t, Y t]) t) (hd : ∀ t, HasDerivAt (fun t => F [t, Y t]) (Y'' t) t)
    (hC : ∀ t, |Y'' t| ≤ C) (hL : ∀ t a b, |F [t, a] - F [t, b]| ≤ L * |a - b|) (hq : Y q0 = q1) :
    ∃ y, ReturnsVal (eulerian_methodv F q0 q1 p ((p - q0) / N)) h y ∧
      |y - Y p| ≤ C * (p - q0) ^ 2 * Real.exp (L * (p - q0)) / (2 * N) := by
  have hN' : (0 : ℝ) < N := by exact_mod_cast hN
  have hT : 0 < p - q0 := by linarith
  have e0 : (p - q0) / ((p - q0) / N) = N := by field_simp
  set s := (p - q0) / N with hs
  have sp : 0 < s := by positivity
  have L0 : 0 ≤ L := by
    have := (abs_nonneg _).trans (hL 0 1 0)
    simpa using this
  have C0 : 0 ≤ C := (abs_nonneg _).trans (hC 0)
  let y : ℕ → ℝ := fun k => Nat.rec q1 (fun k z => z + s * F [q0 + k * s, z]) k
  have ys : ∀ k, y (k + 1) = y k + s * F [q0 + k * s, y k] := fun k => rfl
  refine ⟨y N, ?_, ?_⟩
  · have := C80_eulerv_polygon h w F q0 q1 p s (by rw [e0]; positivity) (by rw [e0]; exact_mod_cast hi) y rfl ys
    rwa [e0, Nat.floor_natCast] at this
  have bound : ∀ k : ℕ, |y k - Y (q0 + k * s)| ≤ k * (C * s ^ 2 / 2) * (1 + L * s) ^ k := by
    intro k
    induction k with
    | zero => simp [show y 0 = q1 from rfl, hq]
    | succ k ih =>
      have h1 := euler_local hY hd hC (q0 + k * s) s
      have h2 := hL (q0 + k * s) (y k) (Y (q0 + k * s))
      rw [show q0 + ((k + 1 : ℕ) : ℝ) * s = q0 + k * s + s by push_cast; ring, ys]
      have h3 : |y k + s * F [q0 + k * s, y k] - Y (q0 + k * s + s)| ≤ |y k - Y (q0 + k * s)| + s * (L * |y k - Y (q0 + k * s)|) + C * s ^ 2 / 2 := by
        have e : y k + s * F [q0 + k * s, y k] - Y (q0 + k * s + s) = (y k - Y (q0 + k * s)) + s * (F [q0 + k * s, y k] - F [q0 + k * s, Y (q0 + k * s)]) -
          (Y (q0 + k * s + s) - (Y (q0 + k * s) + s * F [q0 + k * s, Y (q0 + k * s)])) := by ring
        rw [e]
        refine (abs_sub _ _).trans (add_le_add ((abs_add_le _ _).trans (add_le_add le_rfl ?_)) h1)
        rw [abs_mul, abs_of_pos sp]
        exact mul_le_mul_of_nonneg_left h2 sp.le
      have p1 : (1 : ℝ) ≤ (1 + L * s) ^ (k + 1) := one_le_pow₀ (by have := mul_nonneg L0 sp.le; linarith)
      have p2 : 0 ≤ C * s ^ 2 / 2 := by positivity
      have p3 : (1 + L * s) * |y k - Y (q0 + k * s)| ≤ (1 + L * s) * (k * (C * s ^ 2 / 2) * (1 + L * s) ^ k) :=
        mul_le_mul_of_nonneg_left ih (by positivity)
      have p4 := mul_le_mul_of_nonneg_left p1 p2
      rw [mul_one] at p4
      calc _ ≤ (1 + L * s) * |y k - Y (q0 + k * s)| + C * s ^ 2 / 2 := by linarith
        _ ≤ (1 + L * s) * (k * (C * s ^ 2 / 2) * (1 + L * s) ^ k) + C * s ^ 2 / 2 * (1 + L * s) ^ (k + 1) := by linarith
        _ = _ := by push_cast; ring
  have b := bound N
  rw [show q0 + (N : ℝ) * s = p by rw [hs]; field_simp; ring] at b
  refine b.trans ?_
  have e1 : (1 + L * s) ^ N ≤ Real.exp (L * (p - q0)) := by
    have h1 : 1 + L * s ≤ Real.exp (L * s) := by have := Real.add_one_le_exp (L * s); linarith
    calc (1 + L * s) ^ N ≤ Real.exp (L * s) ^ N := pow_le_pow_left₀ (by positivity) h1 N
      _ = Real.exp (L * (p - q0)) := by
        rw [← Real.exp_nat_mul]; congr 1; rw [hs]; field_simp
  have e2 : (N : ℝ) * (C * s ^ 2 / 2) = C * (p - q0) ^ 2 / (2 * N) := by rw [hs]; field_simp
  rw [e2]
  calc _ ≤ C * (p - q0) ^ 2 / (2 * N) * Real.exp (L * (p - q0)) := mul_le_mul_of_nonneg_left e1 (by positivity)
    _ = _ := by ring

/-- **C80.** `growth_method(C, k, t)` is the solution of `P' = k P`, `P(0) = C`, and the only one. -/
theorem C80_growth (C k : ℝ) : growth_method C k 0 = C ∧ (∀ t, HasDerivAt (growth_method C k) (k * growth_method C k t) t) ∧
    ∀ P : ℝ → ℝ, P 0 = C → (∀ t, HasDerivAt P (k * P t) t) → P = growth_method C k := by
  have ex : ∀ x : ℝ, MathFns.exp x = Real.exp x := fun _ => rfl
  have hg : ∀ t, HasDerivAt (growth_method C k) (k * growth_method C k t) t := by
    intro t
    have := (((hasDerivAt_id t).const_mul k).exp).const_mul C
    refine (show HasDerivAt (growth_method C k) _ t from this).congr_deriv ?_
    unfold growth_method; rw [ex]; simp only [id]; ring
  refine ⟨by unfold growth_method; rw [ex]; simp, hg, fun P h0 hP => ?_⟩
  have hc : ∀ t, HasDerivAt (fun t => P t * Real.exp (-(k * t))) 0 t := by
    intro t
    have := (hP t).mul (((hasDerivAt_id t).const_mul k).neg.exp)
    refine this.congr_deriv ?_
    simp only [id, Pi.neg_apply]; ring
  have cst := is_const_of_deriv_eq_zero (fun t => (hc t).differentiableAt) (fun t => (hc t).deriv)
  funext t
  have := cst t 0
  simp only [mul_zero, neg_zero, Real.exp_zero, mul_one, h0] at this
  unfold growth_method
  rw [ex, ← this, mul_assoc, ← Real.exp_add]; simp

/-- The hypotheses of `C80_eulerv_error` are met by `y' = cos t`, `y(0) = 0` on `[0, 1]` with 10 steps. -/
example : (∀ t, HasDerivAt Real.sin ((fun l : List ℝ => Real.cos l[0]!) [t, Real.sin t]) t) ∧
    (∀ t, HasDerivAt (fun t => (fun l : List ℝ => Real.cos l[0]!) [t, Real.sin t]) (-Real.sin t) t) ∧ (∀ t, |-Real.sin t| ≤ 1) ∧
    (∀ t a b : ℝ, |(fun l : List ℝ => Real.cos l[0]!) [t, a] - (fun l : List ℝ => Real.cos l[0]!) [t, b]| ≤ 0 * |a - b|) ∧ Real.sin 0 = 0 :=
  ⟨fun t => by simpa using Real.hasDerivAt_sin t, fun t => by simpa using Real.hasDerivAt_cos t,
    fun t => by rw [abs_neg]; exact Real.abs_sin_le_one t, fun t a b => by simp, Real.sin_zero⟩

end Verif
