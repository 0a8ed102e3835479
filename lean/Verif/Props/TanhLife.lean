import Verif.Spec.TanhLife
import Verif.Props.GlmDescent
import Verif.Props.GlmStochastic
import Verif.Props.Scores
import Verif.Lemmas.AnnOptRules

/-! # C159: a tanh regression over its whole life -/

namespace Verif.TanhReg
open Spec Spec.TanhLife Glm
variable {n k : Nat} {h : Heap ℝ} {s : Glm} {X : Matrix (Fin n) (Fin k) ℝ} {y : Fin n → ℝ} {P : Known n k} {θ : Params k}

/-- **C159** (`train_sgd`): with any regularisation, every epoch regularises the weights and nothing else; the bias goes along the slope for the drawn sample. -/
theorem C159_sgd_fails (R : Ready s h X y θ) {p : Fin n → ℝ} (hy : HasV h s.y_hat p) {pick : Nat → Nat} (hp : ∀ e, pick e < n) (lr : ℝ) (e : Int) :
    Runs (train_sgd s pick lr e) h fun s' h' => ∃ θ', Trained Real.tanh s h s' h' X y θ' ∧
      Chain (fun t θ θ' => ∃ (i : Fin n) (c : ℝ), (i : Nat) = pick (t + 1) ∧
        HasDerivAt (fun b => sqLoss Real.tanh (sampleX X i) (sampleY y i) (θ.1, b)) c θ.2 ∧
        θ' = (fun j => decay s.reg s.lambda s.alpha (θ.1 j), θ.2 - lr * c)) (epochCount e) θ θ' := by
  unfold train_sgd
  refine Runs.step (needs_init_run R hy) (Runs.step (Hd.sizem_run R.input) ?_)
  have st : Steps (fun s d => do let _ ← Hd.subn s.weights d; regularize s) s.reg s.lambda s.alpha k
      fun w _ j => decay s.reg s.lambda s.alpha (w j) := by
    constructor
    intro n X y θ s2 h R er el ea d u hd
    refine stepV (Hd.subn_spec R.wf R.weights hd) fun r h1 w1 k1 _ _ => ?_
    have R1 := R.keep w1 k1
    refine (regularize_run w1 R1.weights).mono fun s' h' ⟨r, e, w', k', f', a'⟩ => ⟨r, e, ?_, ?_⟩
    · subst e
      have R2 := R1.keep w' k'
      rw [er, el, ea] at a'
      exact ⟨w', R.rows, R.cols, R2.input, R2.output, a', R.bias, (f'.ne R1.output).symm⟩
    · subst e
      exact ⟨⟨rfl, rfl, rfl, rfl, rfl, rfl, rfl, rfl⟩, (k1.trans k').mono fun _ _ => nofun, .inr (f'.mono k1)⟩
  refine (sgd_run tanhReg_link R ((Nat.zero_le _).trans_lt (hp 0)) hp _ _ st lr e).mono fun s' h' T =>
    ⟨_, T, chain_walk (fun t θ => ⟨⟨pick (t + 1), hp _⟩, ?_⟩) _ _⟩
  obtain ⟨g, c, -, hc, ec⟩ := sq_sampled (X := X) (y := y) (factor := fun _ y_hat => 1 - y_hat * y_hat) tanh_hasDeriv (fun z => rfl) id lr ⟨pick (t + 1), hp _⟩ θ
  exact ⟨c, rfl, hc, Prod.ext rfl (congrArg Prod.snd ec :)⟩

/-- What holds of an object of which `P` is known. -/
structure Life (a b : Ref) (X : Matrix (Fin n) (Fin k) ℝ) (y : Fin n → ℝ) (P : Known n k) (s : Glm) (h : Heap ℝ) : Prop where
  ready : Ready s h X y P.θ
  shown : HasV h s.y_hat P.shown
  reg : s.reg = P.reg
  lambda : s.lambda = P.lambda
  alpha : s.alpha = P.alpha
  input : s.input_set = a
  output : s.output_set = b

theorem Life.trained {a b : Ref} (L : Life a b X y P s h) {g : Glm} {h' : Heap ℝ} {θ : Params k} (T : Trained Real.tanh s h g h' X y θ) :
    Life a b X y ⟨P.reg, P.lambda, P.alpha, θ, fun i => Real.tanh (linear X θ i)⟩ g h' :=
  ⟨T.ready, T.shown, T.same.reg.trans L.reg, T.same.lambda.trans L.lambda, T.same.alpha.trans L.alpha, T.same.input_set.trans L.input,
    T.same.output_set.trans L.output⟩

theorem _root_.Verif.Spec.Ready.other (R : Ready s h X y θ) (z : Ref) (r : Reg.Kind) (l a : ℝ) :
    Ready { s with z := z, reg := r, lambda := l, alpha := a } h X y θ :=
  ⟨R.wf, R.rows, R.cols, R.input, R.output, R.weights, R.bias, R.apart⟩

theorem Life.step {a b : Ref} (L : Life a b X y P s h) (c : Call) (hc : Admissible n c) :
    Runs (call s c) h fun s' h' => ∃ Q, Effect X y P c Q ∧ Life a b X y Q s' h' := by
  cases c with
  | set_input_set v => exact hc.elim
  | set_output_set v => exact hc.elim
  | data_y_hat_set v => exact hc.elim
  | data_weights_set v => exact hc.elim
  | initialize_ gw gb => exact hc.elim
  | train_mbgd lr e b => exact hc.elim
  | set_reg v => exact Runs.of_eq rfl ⟨{ P with reg := v }, rfl, L.ready.other _ _ _ _, L.shown, rfl, L.lambda, L.alpha, L.input, L.output⟩
  | set_lambda v => exact Runs.of_eq rfl ⟨{ P with lambda := v }, rfl, L.ready.other _ _ _ _, L.shown, L.reg, rfl, L.alpha, L.input, L.output⟩
  | set_alpha v => exact Runs.of_eq rfl ⟨{ P with alpha := v }, rfl, L.ready.other _ _ _ _, L.shown, L.reg, L.lambda, rfl, L.input, L.output⟩
  | data_z_set v =>
    cases v with
    | none => exact Runs.of_eq rfl ⟨P, rfl, L⟩
    | some v => exact Runs.of_eq rfl ⟨P, rfl, L.ready.other _ _ _ _, L.shown, L.reg, L.lambda, L.alpha, L.input, L.output⟩
  | data_bias_set v =>
    exact Runs.of_eq rfl ⟨{ P with θ := (P.θ.1, v) }, rfl, L.ready.setBias v, L.shown, L.reg, L.lambda, L.alpha, L.input, L.output⟩
  | train_gradient_descent lr e =>
    refine (C87_tanh_reg L.ready L.shown lr e).mono fun g h' ⟨θ, T, C⟩ => ?_
    rw [L.reg, L.lambda, L.alpha] at C
    exact ⟨⟨P.reg, P.lambda, P.alpha, θ, fun i => Real.tanh (linear X θ i)⟩, ⟨rfl, rfl, rfl, C, rfl⟩, L.trained T⟩
  | train_sgd pick lr e =>
    refine (C159_sgd_fails L.ready L.shown hc lr e).mono fun g h' ⟨θ, T, C⟩ => ?_
    rw [L.reg, L.lambda, L.alpha] at C
    exact ⟨⟨P.reg, P.lambda, P.alpha, θ, fun i => Real.tanh (linear X θ i)⟩, ⟨rfl, rfl, rfl, C, rfl⟩, L.trained T⟩

theorem Life.run {a b : Ref} (L : Life a b X y P s h) (hist : List Call) (hc : ∀ c ∈ hist, Admissible n c) :
    Runs (run s hist) h fun s' h' => ∃ Q, Leads X y P hist Q ∧ Life a b X y Q s' h' := by
  induction hist generalizing P s h with
  | nil => exact Runs.of_eq rfl ⟨P, .nil P, L⟩
  | cons c hist ih =>
    refine Runs.bind ((L.step c (hc c (by simp))).mono fun s' h1 ⟨Q, E, L'⟩ => ?_)
    exact (ih L' fun x hx => hc x (by simp [hx])).mono fun s'' h2 ⟨R, D, L''⟩ => ⟨R, .cons E D, L''⟩

/-- **C159** (as far as it holds): an object made with data is given any sequence of calls of `set_reg`, `set_lambda`, `set_alpha`, `data_z_set`, `data_bias_set` and of
`train_gradient_descent` and `train_sgd`. No call fails; the data stay what they are; the parameters go from the numbers drawn to what the calls lead to, one after another,
each training with the settings made last; the answers are the hyperbolic tangents of the linear function with these parameters, and the predictions that the object shows
are those of the last training. `get_output_set` returns null all the time. What is missing: `set_input_set`, `initialize`, the setters of the object's vectors and
`train_mbgd`; `set_output_set` does not work, and `train_sgd` does not descend. -/
theorem C159_history_partial (gw gb : Utilities.Source) (w : h.WF) {a b : Ref} (ha : HasM h a X) (hb : HasV h b y) (r : Reg.Kind) (l al : ℝ) (hist : List Call)
    (ok : ∀ x ∈ hist, Admissible n x) :
    Runs (Glm.create_z gw gb a b r l al >>= fun s => run s hist) h fun s h' => ∃ P Q : Known n k, P.reg = r ∧ P.lambda = l ∧ P.alpha = al ∧ (∀ j, P.θ.1 j = gw.u j) ∧
      P.θ.2 = gb.u 0 ∧ Leads X y P hist Q ∧ get_input_set s = a ∧ HasM h' a X ∧ TanhReg.get_output_set s = none ∧ HasV h' b y ∧ get_reg s = Q.reg ∧
      get_lambda s = Q.lambda ∧ get_alpha s = Q.alpha ∧ HasV h' (data_weights_get s) Q.θ.1 ∧ data_bias_get s = Q.θ.2 ∧ HasV h' (data_y_hat_get s) Q.shown ∧
      Predicts Real.tanh h' Q.θ (model_test s) (model_set_test s) := by
  refine Runs.bind ((C86_create_z gw gb w ha hb r l al).mono fun g h1 ⟨θ, p, R, hp, _, _, ea, eb, er, el, eal, e1, e2⟩ => ?_)
  have L : Life a b X y ⟨r, l, al, θ, p⟩ g h1 := ⟨R, hp, er, el, eal, ea, eb⟩
  refine (L.run hist ok).mono fun s h' ⟨Q, D, L'⟩ => ⟨_, Q, rfl, rfl, rfl, e1, e2, D, L'.input, ?_, C86_tanh_get_output_set_fails L'.ready.output, ?_, L'.reg, L'.lambda,
    L'.alpha, L'.ready.weights, L'.ready.bias, L'.shown, C86_tanh_reg L'.ready L'.shown⟩
  · rw [← L'.input]; exact L'.ready.input
  · rw [← L'.output]; exact L'.ready.output

theorem refuses_of (h : Heap ℝ) (e : s.output_set = none) : Refuses s h := by
  refine ⟨by unfold TanhReg.get_output_set; rw [e]; rfl, fun r pick gw gb lr ep b => ?_⟩
  obtain ⟨q1, q2, q3, -, -, -, q⟩ := C86_missing_data h s (.inr e) r pick lr ep b
  refine ⟨q1, q2, q3, ?_, q (train_gradient_descent s lr ep) (by simp), q (train_sgd s pick lr ep) (by simp),
    q (train_mbgd s lr ep b) (by simp)⟩
  show Glm.initialize_ gw gb s h = .ok (s, h)
  unfold Glm.initialize_
  rw [e]
  cases s.input_set <;> rfl

/-- An object without outputs has none after a call, and the call has no other effect. -/
theorem call_without (h : Heap ℝ) (e : s.output_set = none) (c : Call) : ∃ s', call s c h = .ok (s', h) ∧ s'.output_set = none := by
  have q := fun pick lr ep b => (C86_missing_data h s (.inr e) none pick lr ep b).2.2.2.2.2.2
  cases c with
  | set_output_set v => exact ⟨_, rfl, (C86_tanh_set_output_set_fails h s v none 0 0).1⟩
  | initialize_ gw gb => exact ⟨s, ((refuses_of h e).2 none (fun _ => 0) gw gb 0 0 0).2.2.2.1, e⟩
  | train_gradient_descent lr ep => exact ⟨s, q (fun _ => 0) lr ep 0 (train_gradient_descent s lr ep) (by simp), e⟩
  | train_sgd pick lr ep => exact ⟨s, q pick lr ep 0 (train_sgd s pick lr ep) (by simp), e⟩
  | train_mbgd lr ep b => exact ⟨s, q (fun _ => 0) lr ep b (train_mbgd s lr ep b) (by simp), e⟩
  | data_z_set v => cases v <;> exact ⟨_, rfl, e⟩
  | data_y_hat_set v => cases v <;> exact ⟨_, rfl, e⟩
  | data_weights_set v => cases v <;> exact ⟨_, rfl, e⟩
  | _ => exact ⟨_, rfl, e⟩

theorem run_without (h : Heap ℝ) (e : s.output_set = none) (hist : List Call) : ∃ s', run s hist h = .ok (s', h) ∧ Refuses s' h := by
  induction hist generalizing s with
  | nil => exact ⟨s, rfl, refuses_of h e⟩
  | cons c hist ih =>
    obtain ⟨s1, e1, o1⟩ := call_without h e c
    obtain ⟨s2, e2, r2⟩ := ih o1
    exact ⟨s2, (bind_ok e1).trans e2, r2⟩

/-- **C159** (false for an object made without data): whatever is called, in whatever order, with whatever data, a regression made without data never gets any outputs, never
answers anything but 0 and null, and is never trained; nothing that existed changes. -/
theorem C159_empty_fails (w : h.WF) (hist : List Call) :
    Runs (blank >>= fun s => run s hist) h fun s h' => Refuses s h' ∧ Keeps h h' (fun _ => False) := by
  unfold blank
  rw [bind_assoc]
  refine stepV0 w fun o1 h1 v1 w1 k1 f1 a1 => ?_
  rw [bind_assoc]
  refine stepV0 w1 fun o2 h2 v2 w2 k2 f2 a2 => ?_
  rw [bind_assoc]
  refine stepV0 w2 fun o3 h3 v3 w3 k3 f3 a3 => ?_
  obtain ⟨s, e, r⟩ := run_without (s := ⟨true, none, none, some (.v o1), some (.v o2), some (.v o3), 0, .none, 0, 0, 0, 0⟩) h3 rfl hist
  exact Runs.of_eq e ⟨r, (k1.trans k2).trans k3⟩

/-- **C159** (false for `set_output_set`): a call of `set_output_set`, with anything, makes a regression refuse for the rest of its life, whatever is called after that. -/
theorem C159_set_output_set_fails (h : Heap ℝ) (s : Glm) (v : Ref) (hist : List Call) :
    ∃ s', run s (.set_output_set v :: hist) h = .ok (s', h) ∧ Refuses s' h := by
  obtain ⟨s1, e1, r1⟩ := run_without (s := TanhReg.set_output_set s v) h (C86_tanh_set_output_set_fails h s v none 0 0).1 hist
  exact ⟨s1, e1, r1⟩

/-- A history that meets the hypotheses of `C159_history_partial`: three samples of two columns. -/
example : let h : Heap ℝ := Heap.ofLists 0 [[1, -1, 1]] [(2, 3, [1, 2, 3, 4, 5, 6])]
    h.WF ∧ (∃ X : Matrix (Fin 3) (Fin 2) ℝ, HasM h (some (.m 0)) X) ∧ HasV h (some (.v 0)) ![1, -1, 1] ∧
    ∀ x ∈ [Call.train_sgd (fun e => e % 3) 1 5, .set_reg .ridge, .set_lambda 2, .train_gradient_descent 1 3, .data_bias_set 4, .data_z_set none, .set_alpha 1],
      Admissible 3 x := by
  refine ⟨Heap.ofLists_wf _ _ _ (by simp), ⟨!![1, 2; 3, 4; 5, 6], 0, rfl, ?_, ?_⟩, ⟨0, rfl, ?_, ?_⟩, fun x hx => ?_⟩
  · simp [Heap.ofLists, Heap.live, Loc.id]
  · refine ⟨by simp [Heap.ofLists], fun i j => ?_⟩
    fin_cases i <;> fin_cases j <;> simp [Heap.ofLists]
  · simp [Heap.ofLists, Heap.live, Loc.id]
  · exact ⟨by simp [Heap.ofLists], fun i => by fin_cases i <;> simp [Heap.ofLists]⟩
  · simp only [List.mem_cons, List.not_mem_nil, or_false] at hx
    rcases hx with rfl | rfl | rfl | rfl | rfl | rfl | rfl
    · exact fun e => Nat.mod_lt _ (by norm_num)
    all_goals trivial

end Verif.TanhReg
