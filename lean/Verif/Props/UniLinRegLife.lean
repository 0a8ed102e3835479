import Verif.Spec.UniLinRegLife
import Verif.Props.UniLinReg

/-! # C156: a simple linear regression over its whole life -/

namespace Verif.UniLinReg
open Spec Spec.UniLinRegLife
variable {n : Nat} {h : Heap ℝ} {s : UniLinReg} {P : Known}

/-- Training on inputs and outputs of the same number. -/
theorem train_run (w : h.WF) {x y : Nat} (ex : s.input_set = some x) (ey : s.output_set = some y) {u v : Fin n → ℝ} (hx : IsVec h x u) (hy : IsVec h y v) :
    Runs (train s) h fun s' h' => h' = h ∧ s' = { s with b0 := s'.b0, b1 := s'.b1 } ∧ ((∃ i j, u i ≠ u j) → LeastSquares u v s'.b0 s'.b1) := by
  have ux := isVec_buf w hx
  have uy := isVec_buf w hy
  have hs : (h.buf (.v x)).length = (h.buf (.v y)).length := by rw [ux, uy]; simp
  unfold train
  rw [if_neg (by simp [ex, ey]), ex, ey]
  refine Runs.step (Stat.b1_run w x y hs) (Runs.step (Stat.b0_run w x y hs) (Runs.of_eq rfl ⟨rfl, rfl, fun hne => ?_⟩))
  have hl : 2 ≤ (h.buf (.v x)).length := by
    rw [ux, List.length_ofFn]
    obtain ⟨i, j, hij⟩ := hne
    have : i.val ≠ j.val := fun e => hij (by rw [Fin.ext e])
    have := i.2; have := j.2; omega
  have hc : ¬ ∀ a ∈ h.buf (.v x), ∀ b ∈ h.buf (.v x), a = b := by
    obtain ⟨i, j, hij⟩ := hne
    rw [ux]
    exact fun e => hij (e _ (List.mem_ofFn.mpr ⟨i, rfl⟩) _ (List.mem_ofFn.mpr ⟨j, rfl⟩))
  obtain ⟨r, h', e, rfl, hr⟩ := runs_iff.mp (C41_least_squares h w x y hs hl hc)
  rw [bind_ok (Stat.b0_run w x y hs), bind_ok (Stat.b1_run w x y hs)] at e
  cases e
  intro c0 c1
  have := hr c0 c1
  simp only [ux, uy, residuals_ofFn] at this
  simp only [ux, uy]
  exact this

/-- What holds of an object of which `P` is known. -/
structure Life (h : Heap ℝ) (P : Known) (s : UniLinReg) : Prop where
  input : s.input_set = P.input
  output : s.output_set = P.output
  b0 : IsB0 h s.b0 P.b0
  b1 : IsB1 h s.b1 P.b1

/-- Two vectors cannot be the contents of the same object. -/
theorem isVec_unique (w : h.WF) {x m : Nat} {u : Fin n → ℝ} {u' : Fin m → ℝ} (a : IsVec h x u) (b : IsVec h x u') : List.ofFn u = List.ofFn u' :=
  (isVec_buf w a).symm.trans (isVec_buf w b)

theorem ofFn_eq {m : Nat} {u : Fin n → ℝ} {u' : Fin m → ℝ} (e : List.ofFn u = List.ofFn u') : ∃ q : m = n, ∀ i, u' i = u (i.cast q) := by
  have q : m = n := by simpa using (congrArg List.length e).symm
  subst q
  exact ⟨rfl, fun i => (congrFun (List.ofFn_injective e) i).symm⟩

theorem Life.step (w : h.WF) (L : Life h P s) (c : Call) (hc : Admissible h P c) :
    Runs (call s c) h fun s' h' => h' = h ∧ Life h (knownBy P c) s' := by
  cases c with
  | set_input_set v => exact Runs.of_eq rfl ⟨rfl, rfl, L.output, L.b0, L.b1⟩
  | set_output_set v => exact Runs.of_eq rfl ⟨rfl, L.input, rfl, L.b0, L.b1⟩
  | set_b0 v => exact Runs.of_eq rfl ⟨rfl, L.input, L.output, rfl, L.b1⟩
  | set_b1 v => exact Runs.of_eq rfl ⟨rfl, L.input, L.output, L.b0, rfl⟩
  | train =>
    show Runs (UniLinReg.train s) h _
    dsimp only [knownBy]
    cases ei : P.input with
    | none => exact Runs.of_eq (C82_null h s (.inl (L.input.trans ei))) ⟨rfl, L⟩
    | some x =>
      cases eo : P.output with
      | none => exact Runs.of_eq (C82_null h s (.inr (L.output.trans eo))) ⟨rfl, L⟩
      | some y =>
        obtain ⟨n, u, v, hx, hy⟩ := hc x y ei eo
        refine (train_run w (L.input.trans ei) (L.output.trans eo) hx hy).mono fun s' h' ⟨eh, es, q⟩ => ?_
        subst eh
        have both : ∀ (m : Nat) (u' v' : Fin m → ℝ), IsVec h' x u' → IsVec h' y v' → (∃ i j, u' i ≠ u' j) → LeastSquares u' v' s'.b0 s'.b1 := by
          intro m u' v' hx' hy' ne
          obtain ⟨rfl, eu⟩ := ofFn_eq (isVec_unique w hx hx')
          obtain ⟨_, ev⟩ := ofFn_eq (isVec_unique w hy hy')
          obtain rfl : u' = u := funext fun i => eu i
          obtain rfl : v' = v := funext fun i => ev i
          exact q ne
        refine ⟨rfl, ?_, ?_, fun m u' v' hx' hy' ne => ⟨_, both m u' v' hx' hy' ne⟩, fun m u' v' hx' hy' ne => ⟨_, both m u' v' hx' hy' ne⟩⟩
        · rw [es]; exact L.input.trans ei
        · rw [es]; exact L.output.trans eo

theorem Life.run (w : h.WF) (L : Life h P s) (hist : List Call) (hc : ∀ before c after, hist = before ++ c :: after → Admissible h (known P before) c) :
    Runs (run s hist) h fun s' h' => h' = h ∧ Life h (known P hist) s' := by
  induction hist generalizing P s with
  | nil => exact Runs.of_eq rfl ⟨rfl, L⟩
  | cons c hist ih =>
    refine Runs.bind ((L.step w c (hc [] c hist rfl)).mono fun s' h' ⟨eh, L'⟩ => ?_)
    subst eh
    exact ih L' fun before x after q => hc (c :: before) x after (by rw [q]; rfl)

/-- **C156**: an object made without data is given any sequence of calls of its setters and of `train`. No call fails or changes the data. The getters return what was set
last; each coefficient is the value set last (0 if none was) or, if a training with data came after that, the one of the only line of least squares for the vectors that
were the data at the last such training, even if others were set since. Predictions are by these coefficients. -/
theorem C156_history (w : h.WF) (hist : List Call)
    (hc : ∀ before c after, hist = before ++ c :: after → Admissible h (known ⟨none, none, .value 0, .value 0⟩ before) c) :
    Runs (run blank hist) h fun s h' => h' = h ∧ get_input_set s = (known ⟨none, none, .value 0, .value 0⟩ hist).input ∧
      get_output_set s = (known ⟨none, none, .value 0, .value 0⟩ hist).output ∧
      IsB0 h (get_b0 s) (known ⟨none, none, .value 0, .value 0⟩ hist).b0 ∧ IsB1 h (get_b1 s) (known ⟨none, none, .value 0, .value 0⟩ hist).b1 ∧
      ∀ t, model_test s t = get_b0 s + get_b1 s * t :=
  (Life.run w (P := ⟨none, none, .value 0, .value 0⟩) (s := blank) ⟨rfl, rfl, rfl, rfl⟩ hist hc).mono fun _ _ ⟨e, L⟩ => ⟨e, L.input, L.output, L.b0, L.b1, fun _ => rfl⟩

/-- **C156**: the same for an object made with data, whose line is fitted to them from the beginning. -/
theorem C156_from_data (w : h.WF) {x y : Nat} {u v : Fin n → ℝ} (hx : IsVec h x u) (hy : IsVec h y v) (j0 j1 : ℝ) (hist : List Call)
    (hc : ∀ before c after, hist = before ++ c :: after → Admissible h (known ⟨some x, some y, .fitted x y, .fitted x y⟩ before) c) :
    Runs (create j0 j1 (some x) (some y) >>= fun s => run s hist) h fun s h' => h' = h ∧
      get_input_set s = (known ⟨some x, some y, .fitted x y, .fitted x y⟩ hist).input ∧
      get_output_set s = (known ⟨some x, some y, .fitted x y, .fitted x y⟩ hist).output ∧
      IsB0 h (get_b0 s) (known ⟨some x, some y, .fitted x y, .fitted x y⟩ hist).b0 ∧
      IsB1 h (get_b1 s) (known ⟨some x, some y, .fitted x y, .fitted x y⟩ hist).b1 ∧ ∀ t, model_test s t = get_b0 s + get_b1 s * t := by
  have L : Life h ⟨some x, some y, .value j0, .value j1⟩ ⟨some x, some y, j0, j1⟩ := ⟨rfl, rfl, rfl, rfl⟩
  refine Runs.bind ((L.step w .train fun _ _ e e' => by cases e; cases e'; exact ⟨n, u, v, hx, hy⟩).mono fun s h' ⟨eh, L'⟩ => ?_)
  subst eh
  exact (L'.run w hist hc).mono fun _ _ ⟨e, L⟩ => ⟨e, L.input, L.output, L.b0, L.b1, fun _ => rfl⟩

/-- A history that meets the hypotheses of `C156_history`: after training the slope is set, and the outputs are exchanged. -/
example : let h : Heap ℝ := Heap.ofLists 0 [[1, 2, 3], [5, 7, 9]] []
    (∀ before c after, [Call.set_input_set (some 0), .train, .set_output_set (some 1), .train, .set_b1 4, .set_output_set (some 0)] = before ++ c :: after →
      Admissible h (known ⟨none, none, .value 0, .value 0⟩ before) c) ∧
    known ⟨none, none, .value 0, .value 0⟩ [Call.set_input_set (some 0), .train, .set_output_set (some 1), .train, .set_b1 4, .set_output_set (some 0)] =
      ⟨some 0, some 0, .fitted 0 1, .value 4⟩ := by
  intro h
  have hx : IsVec h 0 ![1, 2, 3] := ⟨by simp [h, Heap.ofLists], fun i => by fin_cases i <;> simp [h, Heap.ofLists]⟩
  have hy : IsVec h 1 ![5, 7, 9] := ⟨by simp [h, Heap.ofLists], fun i => by fin_cases i <;> simp [h, Heap.ofLists]⟩
  refine ⟨?_, rfl⟩
  intro before c after e
  match before, e with
  | [], e => cases e; trivial
  | [_], e => cases e; exact fun _ _ _ e => by cases e
  | [_, _], e => cases e; trivial
  | [_, _, _], e => cases e; exact fun _ _ e e' => by cases e; cases e'; exact ⟨_, _, _, hx, hy⟩
  | [_, _, _, _], e => cases e; trivial
  | [_, _, _, _, _], e => cases e; trivial
  | _ :: _ :: _ :: _ :: _ :: _ :: _, e => simp at e

end Verif.UniLinReg
