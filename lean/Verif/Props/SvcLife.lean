import Verif.Spec.SvcLife
import Verif.Props.Svc
import Verif.Props.Scores

/-! # C157: a support vector classifier over its whole life -/

namespace Verif.Svc
open Spec Spec.SvcLife Glm
variable {n k : Nat} {h : Heap ℝ} {s : Obj} {X : Matrix (Fin n) (Fin k) ℝ} {y : Fin n → ℝ} {P : Known n k}

/-- What holds of an object of which `P` is known. -/
structure Life (a b : Ref) (X : Matrix (Fin n) (Fin k) ℝ) (y : Fin n → ℝ) (P : Known n k) (s : Obj) (h : Heap ℝ) : Prop where
  ready : Ready s.glm h X y P.θ
  shown : HasV h s.glm.y_hat P.shown
  c : s.c = P.c
  pos : 0 ≤ P.c
  input : s.glm.input_set = a
  output : s.glm.output_set = b

theorem Life.trained {a b : Ref} (L : Life a b X y P s h) {g : Glm} {h' : Heap ℝ} {θ : Params k} (T : Trained signOf s.glm h g h' X y θ) :
    Life a b X y ⟨P.c, θ, fun i => signOf (linear X θ i)⟩ { s with glm := g } h' :=
  ⟨T.ready, T.shown, L.c, L.pos, T.same.input_set.trans L.input, T.same.output_set.trans L.output⟩

theorem Life.step {a b : Ref} (L : Life a b X y P s h) (hn : 0 < n) (c : Call) (hc : Admissible n c) :
    Runs (call s c) h fun s' h' => ∃ Q, Effect X y P c Q ∧ Life a b X y Q s' h' := by
  have hC : 0 ≤ s.c := by rw [L.c]; exact L.pos
  cases c with
  | set_input_set v => exact hc.elim
  | set_output_set v => exact hc.elim
  | data_y_hat_set v => exact hc.elim
  | data_weights_set v => exact hc.elim
  | initialize_ gw gb => exact hc.elim
  | set_c v => exact Runs.of_eq rfl ⟨{ P with c := v }, rfl, L.ready, L.shown, rfl, hc, L.input, L.output⟩
  | data_z_set v =>
    exact Runs.of_eq rfl ⟨P, rfl, ⟨L.ready.wf, L.ready.rows, L.ready.cols, L.ready.input, L.ready.output, L.ready.weights, L.ready.bias, L.ready.apart⟩, L.shown, L.c, L.pos,
      L.input, L.output⟩
  | data_bias_set v => exact Runs.of_eq rfl ⟨{ P with θ := (P.θ.1, v) }, rfl, L.ready.setBias v, L.shown, L.c, L.pos, L.input, L.output⟩
  | train_gradient_descent lr e =>
    refine Runs.bind ((C100_gradient_descent_partial L.ready L.shown hn hC lr e).mono fun g h' ⟨θ, T, C⟩ => ?_)
    rw [L.c] at C
    exact Runs.of_eq rfl ⟨⟨P.c, θ, fun i => signOf (linear X θ i)⟩, ⟨rfl, C, rfl⟩, L.trained T⟩
  | train_sgd pick lr e =>
    refine Runs.bind ((C100_sgd L.ready L.shown hc hC lr e).mono fun g h' ⟨θ, T, C⟩ => ?_)
    rw [L.c] at C
    obtain ⟨x, x0, x1, xs⟩ := C
    exact Runs.of_eq rfl ⟨⟨P.c, θ, fun i => signOf (linear X θ i)⟩, ⟨rfl, ⟨x, x0, x1, fun i hi => ⟨⟨pick (i + 1), hc _⟩, rfl, xs i hi⟩⟩, rfl⟩, L.trained T⟩
  | train_mbgd lr e b =>
    obtain ⟨b0, b1⟩ := hc
    obtain ⟨b, rfl⟩ := Int.eq_ofNat_of_zero_le b0.le
    have b0 : 0 < b := by exact_mod_cast b0
    have b1 : b ≤ n := by exact_mod_cast b1
    refine Runs.bind ((C100_mbgd_fails L.ready L.shown s.c lr e b0 rfl (Nat.div_pos b1 b0)).mono fun g h' ⟨B, T⟩ => ?_)
    exact Runs.of_eq rfl ⟨⟨P.c, (fun j => (1 - lr / n) ^ (epochCount e * (n / b)) * P.θ.1 j, B), fun i => signOf (linear X _ i)⟩, ⟨rfl, fun j => rfl, rfl⟩, L.trained T⟩

theorem Life.run {a b : Ref} (L : Life a b X y P s h) (hn : 0 < n) (hist : List Call) (hc : ∀ c ∈ hist, Admissible n c) :
    Runs (run s hist) h fun s' h' => ∃ Q, Leads X y P hist Q ∧ Life a b X y Q s' h' := by
  induction hist generalizing P s h with
  | nil => exact Runs.of_eq rfl ⟨P, .nil P, L⟩
  | cons c hist ih =>
    refine Runs.bind ((L.step hn c (hc c (by simp))).mono fun s' h1 ⟨Q, E, L'⟩ => ?_)
    exact (ih L' fun x hx => hc x (by simp [hx])).mono fun s'' h2 ⟨R, D, L''⟩ => ⟨R, .cons E D, L''⟩

/-- **C157** (as far as it holds): an object made with data is given any sequence of calls of `set_c`, `data_z_set`, `data_bias_set` and of the three trainings. No call
fails; the data stay what they are; the parameters go from the numbers drawn to what the calls lead to, one after another; the answers are the signs of the linear function
with these parameters, and the predictions that the object shows are those of the last training. What is missing: `set_input_set`, `initialize` and the setters of the
object's vectors; `set_output_set` does not work, and two of the trainings do not descend. -/
theorem C157_history_partial (gw gb : Utilities.Source) (w : h.WF) {a b : Ref} (ha : HasM h a X) (hb : HasV h b y) (hn : 0 < n) {c : ℝ} (hc : 0 ≤ c) (hist : List Call)
    (ok : ∀ x ∈ hist, Admissible n x) :
    Runs (make gw gb a b c >>= fun s => run s hist) h fun s h' => ∃ P Q : Known n k, P.c = c ∧ (∀ j, P.θ.1 j = gw.u j) ∧ P.θ.2 = gb.u 0 ∧ Leads X y P hist Q ∧
      get_input_set s = a ∧ HasM h' a X ∧ get_output_set s = b ∧ HasV h' b y ∧ get_c s = Q.c ∧ HasV h' (data_weights_get s) Q.θ.1 ∧ data_bias_get s = Q.θ.2 ∧
      HasV h' (data_y_hat_get s) Q.shown ∧ Predicts signOf h' Q.θ (model_test s.glm) (model_set_test s.glm) := by
  unfold make
  refine Runs.bind (Runs.bind ((C100_create gw gb w ha hb).mono fun g h1 ⟨θ, p, R, hp, _, ea, eb, e1, e2⟩ => ?_))
  refine Runs.of_eq rfl ?_
  have L : Life a b X y ⟨c, θ, p⟩ ⟨g, c⟩ h1 := ⟨R, hp, rfl, hc, ea, eb⟩
  refine (L.run hn hist ok).mono fun s h' ⟨Q, D, L'⟩ => ⟨_, Q, rfl, e1, e2, D, L'.input, ?_, L'.output, ?_, L'.c, L'.ready.weights, L'.ready.bias, L'.shown, ?_⟩
  · rw [← L'.input]; exact L'.ready.input
  · rw [← L'.output]; exact L'.ready.output
  · exact C100_predict L'.ready L'.shown

theorem refuses_of (h : Heap ℝ) (e : s.glm.output_set = none) : Refuses s h := by
  refine ⟨e, fun r pick gw gb lr ep b => ?_⟩
  obtain ⟨q1, q2, q3, q4, q5, q6⟩ := C100_missing_data h s.glm (.inr e) r pick s.c lr ep b
  refine ⟨q1, q2, q3, bind_ok (show Glm.initialize_ gw gb s.glm h = .ok (s.glm, h) from ?_), bind_ok q4, bind_ok q5, bind_ok q6⟩
  unfold Glm.initialize_
  rw [e]
  cases s.glm.input_set <;> rfl

/-- An object without labels has none after a call, and the call has no other effect. -/
theorem call_without (h : Heap ℝ) (e : s.glm.output_set = none) (c : Call) : ∃ s', call s c h = .ok (s', h) ∧ s'.glm.output_set = none := by
  cases c with
  | set_output_set v => exact ⟨_, rfl, (C100_set_output_set_fails h s.glm v none 0 0 0).1⟩
  | initialize_ gw gb => exact ⟨s, ((refuses_of h e).2 none (fun _ => 0) gw gb 0 0 0).2.2.2.1, e⟩
  | train_gradient_descent lr ep => exact ⟨s, bind_ok (C100_missing_data h s.glm (.inr e) none (fun _ => 0) s.c lr ep 0).2.2.2.1, e⟩
  | train_sgd pick lr ep => exact ⟨s, bind_ok (C100_missing_data h s.glm (.inr e) none pick s.c lr ep 0).2.2.2.2.1, e⟩
  | train_mbgd lr ep b => exact ⟨s, bind_ok (C100_missing_data h s.glm (.inr e) none (fun _ => 0) s.c lr ep b).2.2.2.2.2, e⟩
  | _ => exact ⟨_, rfl, e⟩

theorem run_without (h : Heap ℝ) (e : s.glm.output_set = none) (hist : List Call) : ∃ s', run s hist h = .ok (s', h) ∧ Refuses s' h := by
  induction hist generalizing s with
  | nil => exact ⟨s, rfl, refuses_of h e⟩
  | cons c hist ih =>
    obtain ⟨s1, e1, o1⟩ := call_without h e c
    obtain ⟨s2, e2, r2⟩ := ih o1
    exact ⟨s2, (bind_ok e1).trans e2, r2⟩

/-- **C157** (false for an object made without data): whatever is called, in whatever order, with whatever data, a classifier made without data never gets any labels, never
answers anything but 0 and null, and is never trained; nothing that existed changes. -/
theorem C157_empty_fails (w : h.WF) (hist : List Call) :
    Runs (blank >>= fun s => run s hist) h fun s h' => Refuses s h' ∧ Keeps h h' (fun _ => False) := by
  unfold blank
  rw [bind_assoc]
  refine stepV0 w fun o1 h1 v1 w1 k1 f1 a1 => ?_
  rw [bind_assoc]
  refine stepV0 w1 fun o2 h2 v2 w2 k2 f2 a2 => ?_
  rw [bind_assoc]
  refine stepV0 w2 fun o3 h3 v3 w3 k3 f3 a3 => ?_
  obtain ⟨s, e, r⟩ := run_without (s := ⟨⟨true, none, none, some (.v o1), some (.v o2), some (.v o3), 0, .none, 0, 0, 0, 0⟩, 0⟩) h3 rfl hist
  exact Runs.of_eq e ⟨r, (k1.trans k2).trans k3⟩

/-- **C157** (false for `set_output_set`): a call of `set_output_set`, with anything, makes a classifier refuse for the rest of its life, whatever is called after that. -/
theorem C157_set_output_set_fails (h : Heap ℝ) (s : Obj) (v : Ref) (hist : List Call) :
    ∃ s', run s (.set_output_set v :: hist) h = .ok (s', h) ∧ Refuses s' h := by
  obtain ⟨s1, e1, r1⟩ := run_without (s := { s with glm := Svc.set_output_set s.glm v }) h (C100_set_output_set_fails h s.glm v none 0 0 0).1 hist
  exact ⟨s1, e1, r1⟩

/-- A history that meets the hypotheses of `C157_history_partial`: three samples of two columns. -/
example : let h : Heap ℝ := Heap.ofLists 0 [[1, -1, 1]] [(2, 3, [1, 2, 3, 4, 5, 6])]
    h.WF ∧ (∃ X : Matrix (Fin 3) (Fin 2) ℝ, HasM h (some (.m 0)) X) ∧ HasV h (some (.v 0)) ![1, -1, 1] ∧
    ∀ x ∈ [Call.train_sgd (fun e => e % 3) 1 5, .set_c 2, .train_gradient_descent 1 3, .data_bias_set 4, .data_z_set none, .train_mbgd 1 2 2], Admissible 3 x := by
  refine ⟨Heap.ofLists_wf _ _ _ (by simp), ⟨!![1, 2; 3, 4; 5, 6], 0, rfl, ?_, ?_⟩, ⟨0, rfl, ?_, ?_⟩, fun x hx => ?_⟩
  · simp [Heap.ofLists, Heap.live, Loc.id]
  · refine ⟨by simp [Heap.ofLists], fun i j => ?_⟩
    fin_cases i <;> fin_cases j <;> simp [Heap.ofLists]
  · simp [Heap.ofLists, Heap.live, Loc.id]
  · exact ⟨by simp [Heap.ofLists], fun i => by fin_cases i <;> simp [Heap.ofLists]⟩
  · simp only [List.mem_cons, List.not_mem_nil, or_false] at hx
    rcases hx with rfl | rfl | rfl | rfl | rfl | rfl
    · exact fun e => Nat.mod_lt _ (by norm_num)
    · show (0 : ℝ) ≤ 2; norm_num
    · trivial
    · trivial
    · trivial
    · exact ⟨by norm_num, by norm_num⟩

end Verif.Svc
