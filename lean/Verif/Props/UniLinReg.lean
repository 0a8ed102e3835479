import Verif.Model.Simple
import Verif.Lemmas.VecSpec
import Verif.Props.StatMoments

/-! # C82: the simple linear regression model -/

namespace Verif.UniLinReg
open Spec
variable {n : Nat}

theorem isVec_buf {h : Heap ℝ} (w : h.WF) {x : Nat} {u : Fin n → ℝ} (a : IsVec h x u) : h.buf (.v x) = List.ofFn u := a.vec_eq w

theorem residuals_ofFn (a b : ℝ) (u v : Fin n → ℝ) :
    residuals a b (List.ofFn u) (List.ofFn v) = ∑ i, (v i - (a + b * u i)) ^ 2 := by
  unfold residuals
  rw [show List.zipWith (fun x y => (y - (a + b * x)) ^ 2) (List.ofFn u) (List.ofFn v) = List.ofFn fun i => (v i - (a + b * u i)) ^ 2 by
    apply List.ext_getElem <;> simp, List.sum_ofFn]

/-- C82 (training): fitting data with at least two different inputs leaves the vectors alone and stores the line with the least sum of
squared errors `Σᵢ (yᵢ - (b0 + b1 xᵢ))²`; no other line has that sum. -/
theorem C82_least_squares {h : Heap ℝ} (w : h.WF) {x y : Nat} {u v : Fin n → ℝ} (hx : IsVec h x u) (hy : IsVec h y v)
    (hne : ∃ i j, u i ≠ u j) (j0 j1 : ℝ) :
    Runs (create j0 j1 (some x) (some y)) h fun s h' => h' = h ∧ s.input_set = some x ∧ s.output_set = some y ∧
      ∀ c0 c1, ∑ i, (v i - s.model_test (u i)) ^ 2 ≤ ∑ i, (v i - (c0 + c1 * u i)) ^ 2 ∧
        (∑ i, (v i - (c0 + c1 * u i)) ^ 2 = ∑ i, (v i - s.model_test (u i)) ^ 2 → ∀ t, s.model_test t = c0 + c1 * t) := by
  have ex := isVec_buf w hx
  have ey := isVec_buf w hy
  have hs : (h.buf (.v x)).length = (h.buf (.v y)).length := by rw [ex, ey]; simp
  have hl : 2 ≤ (h.buf (.v x)).length := by
    rw [ex, List.length_ofFn]
    obtain ⟨i, j, hij⟩ := hne
    have : i.val ≠ j.val := fun e => hij (by rw [Fin.ext e])
    have := i.2; have := j.2; omega
  have hc : ¬ ∀ a ∈ h.buf (.v x), ∀ b ∈ h.buf (.v x), a = b := by
    obtain ⟨i, j, hij⟩ := hne
    rw [ex]
    exact fun e => hij (e _ (List.mem_ofFn.mpr ⟨i, rfl⟩) _ (List.mem_ofFn.mpr ⟨j, rfl⟩))
  obtain ⟨r, h', e, rfl, hr⟩ := runs_iff.mp (C41_least_squares h w x y hs hl hc)
  rw [bind_ok (Stat.b0_run w x y hs), bind_ok (Stat.b1_run w x y hs)] at e
  cases e
  unfold create train
  rw [if_neg (by simp)]
  refine Runs.step (Stat.b1_run w x y hs) (Runs.step (Stat.b0_run w x y hs) (Runs.of_eq rfl ⟨rfl, rfl, rfl, fun c0 c1 => ?_⟩))
  have := hr c0 c1
  simp only [ex, ey, residuals_ofFn] at this
  simp only [model_test, ex, ey]
  refine ⟨this.1, fun e t => ?_⟩
  obtain ⟨e0, e1⟩ := this.2 e
  rw [e0, e1]

/-- C82 (exactness): data that lie on a line are fitted by that line. -/
theorem C82_exact {h : Heap ℝ} (w : h.WF) {x y : Nat} {u v : Fin n → ℝ} (hx : IsVec h x u) (hy : IsVec h y v) (hne : ∃ i j, u i ≠ u j)
    (a b : ℝ) (hv : ∀ i, v i = a + b * u i) (j0 j1 : ℝ) :
    Runs (create j0 j1 (some x) (some y)) h fun s h' => h' = h ∧ ∀ t, s.model_test t = a + b * t := by
  refine (C82_least_squares w hx hy hne j0 j1).mono fun s h' ⟨e, _, _, hr⟩ => ⟨e, fun t => ?_⟩
  refine (hr a b).2 ?_ t
  have z : ∑ i, (v i - (a + b * u i)) ^ 2 = 0 := Finset.sum_eq_zero fun i _ => by rw [hv]; ring
  have := (hr a b).1
  rw [z] at this ⊢
  exact (le_antisymm this (Finset.sum_nonneg fun i _ => sq_nonneg _)).symm

/-- C82 (set test): testing a vector gives a new vector with the answers for its elements. -/
theorem C82_set_test {h : Heap ℝ} (w : h.WF) (s : UniLinReg) {x : Nat} {u : Fin n → ℝ} (hx : IsVec h x u) (lx : h.live (.v x)) :
    ReturnsVec (model_set_test s (some (.v x))) h fun i => s.model_test (u i) := by
  unfold model_set_test
  refine Runs.step (derefV_run x h) ?_
  refine (Vec.un_spec (· * s.b1) w hx lx).bind fun o h1 w1 k1 f1 l1 a1 => ?_
  refine Runs.step (derefV_run o h1) ?_
  have := (Vec.un_spec (· + s.b0) w1 a1 l1).from k1
  refine this.mono fun r h' ⟨o, e, a, b, c, d, f⟩ => ⟨o, e, a, b, c, d, ?_⟩
  convert f using 2
  simp only [model_test]; ring

/-- C82 (missing data): without an input set or without an output set, training changes nothing. -/
theorem C82_null (h : Heap ℝ) (s : UniLinReg) (hn : s.input_set = none ∨ s.output_set = none) : train s h = .ok (s, h) := by
  unfold train
  rw [if_pos (by simpa using hn)]; rfl

/-- The hypotheses are met. -/
example : let h : Heap ℝ := Heap.ofLists 0 [[1, 2, 3], [5, 7, 9]] []
    IsVec h 0 ![1, 2, 3] ∧ IsVec h 1 ![5, 7, 9] ∧ (∃ i j, (![1, 2, 3] : Fin 3 → ℝ) i ≠ ![1, 2, 3] j) ∧
      ∀ i, (![5, 7, 9] : Fin 3 → ℝ) i = 3 + 2 * (![1, 2, 3] : Fin 3 → ℝ) i := by
  refine ⟨⟨by simp [Heap.ofLists], fun i => by fin_cases i <;> simp [Heap.ofLists]⟩,
    ⟨by simp [Heap.ofLists], fun i => by fin_cases i <;> simp [Heap.ofLists]⟩, ⟨0, 1, by simp⟩, fun i => by fin_cases i <;> norm_num⟩

end Verif.UniLinReg
