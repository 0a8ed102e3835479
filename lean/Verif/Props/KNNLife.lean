import Verif.Spec.KNNLife

/-! # C158: a nearest-neighbours classifier over its whole life -/

namespace Verif.KNN
open Spec Spec.KNNLife Activation
variable {n m : Nat} {h h0 : Heap ℝ} {s : KNN} {P : Known} {A : Matrix (Fin (m + 1)) (Fin n) ℝ} {t : Fin (m + 1) → ℤ}

theorem inInt_cast {z : ℤ} (b : -2147483648 ≤ z ∧ z < 2147483648) : InInt (z : ℝ) := by
  refine ⟨?_, ?_⟩
  · have : (-2147483648 : ℝ) ≤ z := by exact_mod_cast b.1
    linarith
  · exact_mod_cast b.2

theorem trunc_cast (z : ℤ) : trunc (z : ℝ) = z := by
  unfold trunc
  split <;> simp

theorem nearest_cast (z r : ℤ) : Nearest (z : ℝ) r ↔ z = r := by
  unfold Nearest
  constructor
  · rintro ⟨h1, -⟩
    by_contra ne
    have : (1 : ℝ) ≤ |(z : ℝ) - r| := by
      have : 1 ≤ |z - r| := Int.one_le_abs (sub_ne_zero.2 ne)
      exact_mod_cast this
    linarith
  · rintro rfl
    refine ⟨by simp, fun e => ?_⟩
    simp at e

theorem Data.keep (D : Data h P A t) {h' : Heap ℝ} (k : Keeps h h' (fun _ => False)) : Data h' P A t := by
  obtain ⟨⟨a, ea, ha, la⟩, ⟨o, eo, ho, lo⟩, b⟩ := D
  exact ⟨⟨a, ea, ha.keep k la id, k.live la⟩, ⟨o, eo, ho.keep k lo id, k.live lo⟩, b⟩

/-- The answers of an object with data. -/
theorem answers (w : h.WF) (ei : s.input_set = P.input) (eo : s.output_set = P.output) (ek : s.k = P.k) (D : Data h P A t) : ∃ f : (Fin n → ℝ) → ℤ,
    (∀ (x : Nat) (u : Fin n → ℝ), IsVec h x u → h.live (.v x) → ReturnsVal (KNN.model_test s (some (.v x))) h (f u) ∧ Answer P.k A t u (f u)) ∧
    (∀ (X l : Nat) (B : Matrix (Fin l) (Fin n) ℝ), IsMat h X B → h.live (.m X) → ReturnsVal (KNN.model_set_test s (some X)) h (List.ofFn fun i => f (B i))) ∧
    ReturnsVal (KNN.score s) h (fraction fun i => t i = f (A i)) := by
  obtain ⟨⟨a, ea, ha, la⟩, ⟨o, eo', ho, lo⟩, b⟩ := D
  have hi := ei.trans ea
  have hs := eo.trans eo'
  have q : ∀ i, InInt ((fun i => (t i : ℝ)) i) := fun i => inInt_cast (b i)
  obtain ⟨f, f1, f2, f3⟩ := C85_model w s hi hs ha ho q la lo
  refine ⟨f, fun x u hx lx => ⟨f1 x u hx lx, ?_⟩, f2, ?_⟩
  · have r1 := f1 x u hx lx
    have r2 : Runs (KNN.model_test s (some (.v x))) h fun r _ => Answer P.k A t u r := by
      unfold KNN.model_test
      refine Runs.bind ((C84_neighbours_partial w s hi ha hx la lx).mono fun knn h1 ⟨w1, k1, nd, l, e, p1, p2, p3⟩ => ?_)
      refine (C85_votes w1 s hs (ho.keep k1 lo id) q knn).mono fun r h2 ⟨_, i, er, v1, v2⟩ => ?_
      subst e
      simp only [trunc_cast] at er v1 v2
      refine ⟨l, List.Nodup.of_map _ nd, p1, p2, ?_, i, er, v1, v2⟩
      rw [List.length_map] at p3
      rw [← ek]
      exact p3
    obtain ⟨r, h1, e1, rfl, -, -⟩ := runs_iff.1 r1
    obtain ⟨r', h2, e2, A2⟩ := runs_iff.1 r2
    rw [e1] at e2
    cases e2
    exact A2
  · have : (fraction fun i => t i = f (A i)) = fraction fun i => Nearest ((t i : ℝ)) (f (A i)) := by
      congr 1
      exact funext fun i => propext (nearest_cast _ _).symm
    rw [this]
    exact f3

/-- What holds of an object of which `P` is known. -/
structure Life (h0 : Heap ℝ) (P : Known) (s : KNN) (h : Heap ℝ) : Prop where
  wf : h.WF
  keep : Keeps h0 h (fun _ => False)
  input : s.input_set = P.input
  output : s.output_set = P.output
  k : s.k = P.k

theorem Life.ask (L : Life h0 P s h) {α : Type} {f : M ℝ α} {x : α} (r : ReturnsVal f h x) : Runs (f >>= fun _ => pure s) h fun s' h' => Life h0 P s' h' :=
  Runs.bind (r.mono fun _ _ ⟨_, w', k'⟩ => Runs.of_eq rfl ⟨w', L.keep.trans k', L.input, L.output, L.k⟩)

theorem Life.step (L : Life h0 P s h) (c : Call) (hc : Admissible h0 P c) : Runs (call s c) h fun s' h' => Life h0 (knownBy P c) s' h' := by
  cases c with
  | set_input_set v => exact Runs.of_eq rfl ⟨L.wf, L.keep, rfl, L.output, L.k⟩
  | set_output_set v => exact Runs.of_eq rfl ⟨L.wf, L.keep, L.input, rfl, L.k⟩
  | set_k v => exact Runs.of_eq rfl ⟨L.wf, L.keep, L.input, L.output, rfl⟩
  | model_test x =>
    obtain ⟨m, n, A, t, o, u, D, rfl, hu, lu⟩ := hc
    obtain ⟨f, f1, -, -⟩ := answers L.wf L.input L.output L.k (Data.keep D L.keep)
    exact L.ask (f1 o u (hu.keep L.keep lu id) (L.keep.live lu)).1
  | model_set_test X =>
    rcases hc with rfl | ⟨m, n, l, A, t, o, B, D, rfl, hB, lB⟩
    · refine Runs.step (C84_null h s none []).2.2 (Runs.of_eq rfl L)
    · obtain ⟨f, -, f2, -⟩ := answers L.wf L.input L.output L.k (Data.keep D L.keep)
      exact L.ask (f2 o l B (hB.keep L.keep lB id) (L.keep.live lB))
  | score =>
    obtain ⟨m, n, A, t, D⟩ := hc
    obtain ⟨f, -, -, f3⟩ := answers L.wf L.input L.output L.k (Data.keep D L.keep)
    exact L.ask f3

theorem Life.run (L : Life h0 P s h) (hist : List Call) (hc : ∀ before c after, hist = before ++ c :: after → Admissible h0 (before.foldl knownBy P) c) :
    Runs (run s hist) h fun s' h' => Life h0 (hist.foldl knownBy P) s' h' := by
  induction hist generalizing P s h with
  | nil => exact Runs.of_eq rfl L
  | cons c hist ih =>
    refine Runs.bind ((L.step c (hc [] c hist rfl)).mono fun s' h' L' => ?_)
    exact ih L' fun before x after q => hc (c :: before) x after (by rw [q]; rfl)

/-- **C158** (as far as it holds): an object made empty is given any sequence of setters and questions. No call fails or changes anything that existed; the getters return what
was set last; and as soon as there are data, the answers are those for the data and the `k` set last, whatever was set or asked before: of single points, of all rows of a matrix,
and in the score, which is the fraction of the samples whose class is the answer for them. What is missing: that there are `k` neighbours and that their classes are what is
counted, which is false (C84_fails, C85_majority_fails): `Answer` says what is counted instead. -/
theorem C158_history_partial (w : h.WF) (hist : List Call) (hc : ∀ before c after, hist = before ++ c :: after → Admissible h (known before) c) :
    Runs (run blank hist) h fun s h' => Keeps h h' (fun _ => False) ∧ get_input_set s = (known hist).input ∧ get_output_set s = (known hist).output ∧
      get_k s = (known hist).k ∧ ∀ (m n : Nat) (A : Matrix (Fin (m + 1)) (Fin n) ℝ) (t : Fin (m + 1) → ℤ), Data h (known hist) A t → ∃ f : (Fin n → ℝ) → ℤ,
        (∀ (x : Nat) (u : Fin n → ℝ), IsVec h' x u → h'.live (.v x) →
          ReturnsVal (KNN.model_test s (some (.v x))) h' (f u) ∧ Answer (known hist).k A t u (f u)) ∧
        (∀ (X l : Nat) (B : Matrix (Fin l) (Fin n) ℝ), IsMat h' X B → h'.live (.m X) →
          ReturnsVal (KNN.model_set_test s (some X)) h' (List.ofFn fun i => f (B i))) ∧
        ReturnsVal (KNN.score s) h' (fraction fun i => t i = f (A i)) :=
  (Life.run (P := ⟨none, none, 0⟩) (s := blank) ⟨w, Keeps.refl _ _, rfl, rfl, rfl⟩ hist hc).mono fun s h' L =>
    ⟨L.keep, L.input, L.output, L.k, fun m n A t D => answers L.wf L.input L.output L.k (Data.keep D L.keep)⟩

/-- A history that meets the hypotheses of `C158_history_partial`. -/
example : let h : Heap ℝ := Heap.ofLists 0 [[0, 1], [1, 2]] [(2, 2, [0, 1, 3, 3])]
    (∀ before c after, [Call.set_input_set (some 0), .set_output_set (some 1), .set_k 2, .model_test (some (.v 0)), .score] = before ++ c :: after → Admissible h (known before) c) ∧
    Data h (known [Call.set_input_set (some 0), .set_output_set (some 1), .set_k 2]) (!![0, 1; 3, 3] : Matrix (Fin 2) (Fin 2) ℝ) ![1, 2] := by
  intro h
  have hA : IsMat h 0 (!![0, 1; 3, 3] : Matrix (Fin 2) (Fin 2) ℝ) := ⟨by simp [h, Heap.ofLists], fun i j => by fin_cases i <;> fin_cases j <;> simp [h, Heap.ofLists]⟩
  have hx : IsVec h 0 ![0, 1] := ⟨by simp [h, Heap.ofLists], fun i => by fin_cases i <;> simp [h, Heap.ofLists]⟩
  have ho : IsVec h 1 (fun i => ((![1, 2] : Fin 2 → ℤ) i : ℝ)) := ⟨by simp [h, Heap.ofLists], fun i => by fin_cases i <;> simp [h, Heap.ofLists]⟩
  have la : h.live (.m 0) := by simp [h, Heap.ofLists, Heap.live, Loc.id]
  have l0 : h.live (.v 0) := by simp [h, Heap.ofLists, Heap.live, Loc.id]
  have l1 : h.live (.v 1) := by simp [h, Heap.ofLists, Heap.live, Loc.id]
  have D : Data h ⟨some 0, some 1, 2⟩ (!![0, 1; 3, 3] : Matrix (Fin 2) (Fin 2) ℝ) ![1, 2] :=
    ⟨⟨0, rfl, hA, la⟩, ⟨1, rfl, ho, l1⟩, fun i => by fin_cases i <;> simp⟩
  refine ⟨?_, D⟩
  intro before c after e
  match before, e with
  | [], e => cases e; trivial
  | [_], e => cases e; trivial
  | [_, _], e => cases e; trivial
  | [_, _, _], e => cases e; exact ⟨_, _, _, _, 0, _, D, rfl, hx, l0⟩
  | [_, _, _, _], e => cases e; exact ⟨_, _, _, _, D⟩
  | _ :: _ :: _ :: _ :: _ :: _, e => simp at e

end Verif.KNN
