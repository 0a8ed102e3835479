import Verif.Spec.OutputLife
import Verif.Props.LayerLife

/-! # C153: an output layer over its whole life -/

namespace Verif
open Spec Finset
namespace OutputLayer
open Spec.OutputLife
open Mlp (lastValue_snoc)
open HiddenLayer (runs_of)
variable {m0 : Nat} {f0 : Activation.Fn} {c0 : Cost.Kind} {i0 : Ref} {d0 : Utilities.Kind} {r0 : Reg.Kind} {l0 al0 : ℝ}
variable {n k m : Nat} {h h0 : Heap ℝ} {s : OutputLayer} {X : Matrix (Fin n) (Fin k) ℝ} {pre : List Call} {g0 g0' : Utilities.Source}

theorem uses_of_init {gw gb : Utilities.Source} {s1 : OutputLayer} {h1 : Heap ℝ} (e : initialize_ gw gb s h = .ok (s1, h1)) (hi : s1.initialized = true) :
    forward_pass gw gb s h = forward_pass gw gb s1 h1 ∧ ∀ x, test gw gb s x h = test gw gb s1 x h1 := by
  constructor
  · unfold forward_pass; rw [bind_ok e, bind_ok (init_skip gw gb hi h1)]
  · intro x; unfold test; rw [bind_ok e, bind_ok (init_skip gw gb hi h1)]

theorem waiting_snoc (x : Call) : Waiting (pre ++ [x]) ↔ Resets x ∨ (¬ Resets x ∧ offered x = none) ∧ Waiting pre := by
  constructor
  · rintro ⟨before, c, after, e, hc, ha⟩
    rcases List.eq_nil_or_concat after with rfl | ⟨l, y, rfl⟩
    · obtain ⟨-, q⟩ := List.append_inj' e rfl
      cases q
      exact .inl hc
    · rw [List.concat_eq_append] at ha e
      rw [← List.cons_append, ← List.append_assoc] at e
      obtain ⟨rfl, q⟩ := List.append_inj' e rfl
      cases q
      exact .inr ⟨ha x (by simp), before, c, l, rfl, hc, fun y hy => ha y (by simp [hy])⟩
  · rintro (hx | ⟨hx, before, c, after, rfl, hc, ha⟩)
    · exact ⟨pre, x, [], rfl, hx, by simp⟩
    · refine ⟨before, c, after ++ [x], by simp, hc, fun y hy => ?_⟩
      rcases List.mem_append.1 hy with q | q
      · exact ha y q
      · rw [List.mem_singleton.1 q]; exact hx

theorem drawn_keep {g g' : Utilities.Source} (d : DrawnFrom g0 g0' pre g g') {u : Call} (hu : ¬ Resets u) : DrawnFrom g0 g0' (pre ++ [u]) g g' := by
  rcases d with ⟨d, rfl, rfl⟩ | ⟨before, v, after, rfl, nc, ov, d⟩
  · exact .inl ⟨fun c hc => by
      rcases List.mem_append.1 hc with q | q
      · exact d c q
      · rw [List.mem_singleton.1 q]; exact hu, rfl, rfl⟩
  · exact .inr ⟨before, v, after ++ [u], by simp, nc, ov, fun c hc => by
      rcases List.mem_append.1 hc with q | q
      · exact d c q
      · rw [List.mem_singleton.1 q]; exact hu⟩

theorem not_resets_of_offered {u : Call} {p : Utilities.Source × Utilities.Source} (hu : offered u = some p) : ¬ Resets u := by
  cases u <;> first | exact id | cases hu

/-- The weights and the bias of a layer that is initialised. -/
def Drew (g0 g0' : Utilities.Source) (pre : List Call) (s : OutputLayer) (h : Heap ℝ) : Prop :=
  ∃ g g', DrawnFrom g0 g0' pre g g' ∧ HasV h s.weights (drawnV g s.weight_init s.n_hidden) ∧ s.bias = g'.u 0

/-- What holds after a forward pass that ends a history. -/
def Passed (h0 : Heap ℝ) (g0 g0' : Utilities.Source) (pre : List Call) (s : OutputLayer) (h : Heap ℝ) : Prop :=
  ∃ (n : Nat) (X : Matrix (Fin n) (Fin s.n_hidden) ℝ) (g g' : Utilities.Source), HasM h0 s.input X ∧ DrawnFrom g0 g0' pre g g' ∧
    HasV h s.a (applied s.activation fun i => ∑ j, X i j * drawnV g s.weight_init s.n_hidden j + g'.u 0)

/-- What holds after a test that ends a history. -/
def Tested (h0 : Heap ℝ) (g0 g0' : Utilities.Source) (pre : List Call) (s : OutputLayer) (x : Ref) : Prop :=
  ∃ (v : Fin s.n_hidden → ℝ) (g g' : Utilities.Source), HasV h0 x v ∧ DrawnFrom g0 g0' pre g g' ∧
    s.a_test = Activation.normReal s.activation (∑ j, v j * drawnV g s.weight_init s.n_hidden j + g'.u 0)

/-- The layer has the settings that the constructor was given, or those set since. -/
structure Settings (m0 : Nat) (f0 : Activation.Fn) (c0 : Cost.Kind) (i0 : Ref) (d0 : Utilities.Kind) (r0 : Reg.Kind) (l0 al0 : ℝ) (hist : List Call)
    (s : OutputLayer) : Prop where
  n_hidden : get_n_hidden s = lastUnits m0 hist
  activation : get_activation s = lastValue (fun | .set_activation v => some v | _ => none) hist f0
  cost : get_cost s = lastValue (fun | .set_cost v => some v | _ => none) hist c0
  input : get_input s = lastInput i0 hist
  weight_init : get_weight_init s = lastDistribution d0 hist
  reg : get_reg s = lastValue (fun | .set_reg v => some v | _ => none) hist r0
  lambda : get_lambda s = lastValue (fun | .set_lambda v => some v | _ => none) hist l0
  alpha : get_alpha s = lastValue (fun | .set_alpha v => some v | _ => none) hist al0

/-- What holds after the history `pre`. -/
structure Life (m0 : Nat) (f0 : Activation.Fn) (c0 : Cost.Kind) (i0 : Ref) (d0 : Utilities.Kind) (r0 : Reg.Kind) (l0 al0 : ℝ) (h0 : Heap ℝ)
    (g0 g0' : Utilities.Source) (pre : List Call) (s : OutputLayer) (h : Heap ℝ) : Prop where
  wf : h.WF
  settings : Settings m0 f0 c0 i0 d0 r0 l0 al0 pre s
  keep : Keeps h0 h (fun _ => False)
  act : s.activation ≠ .adj_softmax
  own : ∃ (p : Nat) (W : Fin p → ℝ), HasV h s.weights W
  new_w : NotIn h0 s.weights
  flag : s.initialized = false ↔ Waiting pre
  ready : s.initialized = true → Drew g0 g0' pre s h
  passed : ∀ before g g', pre = before ++ [.forward_pass g g'] → Passed h0 g0 g0' pre s h
  tested : ∀ before x g g', pre = before ++ [.test x g g'] → Tested h0 g0 g0' pre s x

/-- The settings after a use. -/
theorem Settings.use {s' : OutputLayer} {u : Call} (S : Settings m0 f0 c0 i0 d0 r0 l0 al0 pre s) (e : offered u ≠ none ∧
    (s'.n_hidden, s'.activation, s'.cost, s'.input, s'.weight_init, s'.reg, s'.lambda, s'.alpha) =
      (s.n_hidden, s.activation, s.cost, s.input, s.weight_init, s.reg, s.lambda, s.alpha)) :
    Settings m0 f0 c0 i0 d0 r0 l0 al0 (pre ++ [u]) s' := by
  obtain ⟨hu, e⟩ := e
  simp only [Prod.mk.injEq] at e
  obtain ⟨e1, e2, e3, e4, e5, e6, e7, e8⟩ := e
  obtain ⟨a1, a2, a3, a4, a5, a6, a7, a8⟩ := S
  unfold lastUnits at a1
  unfold lastInput at a4
  unfold lastDistribution at a5
  cases u <;> first | exact absurd rfl hu | skip
  all_goals
    refine ⟨e1.trans ?_, e2.trans ?_, e3.trans ?_, e4.trans ?_, e5.trans ?_, e6.trans ?_, e7.trans ?_, e8.trans ?_⟩
    all_goals
      try unfold lastInput
      try unfold lastUnits
      try unfold lastDistribution
      rw [lastValue_snoc]
      assumption

theorem Life.init (L : Life m0 f0 c0 i0 d0 r0 l0 al0 h0 g0 g0' pre s h) (gw gb : Utilities.Source) : Runs (initialize_ gw gb s) h fun s' h' =>
    s' = { s with bias := s'.bias, initialized := true } ∧ h'.WF ∧ Keeps h0 h' (fun _ => False) ∧
      ∀ u, offered u = some (gw, gb) → Drew g0 g0' (pre ++ [u]) s' h' := by
  by_cases hi : s.initialized = true
  · refine Runs.of_eq (init_skip gw gb hi h) ⟨by rw [← hi], L.wf, L.keep, fun u hu => ?_⟩
    obtain ⟨g, g', a1, a2, a3⟩ := L.ready hi
    exact ⟨g, g', drawn_keep a1 (not_resets_of_offered hu), a2, a3⟩
  · have hi' : s.initialized = false := by simpa using hi
    obtain ⟨p, W, hW⟩ := L.own
    refine (init_run gw gb L.wf rfl hW hi').mono fun s' h' ⟨es, K, w', hW'⟩ => ?_
    subst es
    refine ⟨rfl, w', L.keep.trans_new K fun l hl lv => L.new_w l hl.symm lv, fun u hu => ?_⟩
    exact ⟨gw, gb, .inr ⟨pre, u, [], rfl, L.flag.1 hi', hu, by simp⟩, hW', rfl⟩

theorem snoc_inj {l l' : List Call} {x y : Call} (e : l ++ [x] = l' ++ [y]) : x = y := by
  obtain ⟨-, q⟩ := List.append_inj' e rfl
  cases q
  rfl

theorem not_waiting {u : Call} {p : Utilities.Source × Utilities.Source} (hu : offered u = some p) : ¬ Waiting (pre ++ [u]) := fun z => by
  rcases (waiting_snoc u).1 z with q | ⟨⟨-, q⟩, -⟩
  · exact not_resets_of_offered hu q
  · rw [hu] at q; cases q

theorem Life.call_init (L : Life m0 f0 c0 i0 d0 r0 l0 al0 h0 g0 g0' pre s h) (gw gb : Utilities.Source) :
    Runs (initialize_ gw gb s) h fun s' h' => Life m0 f0 c0 i0 d0 r0 l0 al0 h0 g0 g0' (pre ++ [.initialize_ gw gb]) s' h' := by
  refine (L.init gw gb).mono fun s' h' ⟨es, w', K, D⟩ => ?_
  have D := D (.initialize_ gw gb) rfl
  obtain ⟨b', rfl⟩ : ∃ b', s' = { s with bias := b', initialized := true } := ⟨_, es⟩
  obtain ⟨g, g', a1, a2, a3⟩ := id D
  exact ⟨w', L.settings.use ⟨by simp [offered], rfl⟩, K, L.act, ⟨_, _, a2⟩, L.new_w, ⟨fun e => Bool.noConfusion e, fun z => absurd z (not_waiting rfl)⟩, fun _ => D,
    fun _ _ _ e => Call.noConfusion (snoc_inj e), fun _ _ _ _ e => Call.noConfusion (snoc_inj e)⟩

theorem Life.call_forward (L : Life m0 f0 c0 i0 d0 r0 l0 al0 h0 g0 g0' pre s h) (gw gb : Utilities.Source)
    (hx : Admissible h0 s.input s.n_hidden (.forward_pass gw gb)) :
    Runs (forward_pass gw gb s) h fun s' h' => Life m0 f0 c0 i0 d0 r0 l0 al0 h0 g0 g0' (pre ++ [.forward_pass gw gb]) s' h' := by
  obtain ⟨s1, h1, e1, es, w1, K, D⟩ := runs_iff.1 (L.init gw gb)
  have D := D (.forward_pass gw gb) rfl
  obtain ⟨b', rfl⟩ : ∃ b', s1 = { s with bias := b', initialized := true } := ⟨_, es⟩
  obtain ⟨g, g', a1, a2, a3⟩ := id D
  obtain ⟨n, X, ha⟩ := hx
  have R : OutputReady { s with bias := b', initialized := true } h1 X (drawnV g s.weight_init s.n_hidden, g'.u 0) :=
    ⟨w1, rfl, ha.keep K fun _ _ => id, a2, a3⟩
  refine runs_of (uses_of_init e1 rfl).1 ?_
  refine (forward_run gw gb R rfl L.act).mono fun s2 h2 ⟨es, K2, _, _, R2, _, hA⟩ => ?_
  obtain ⟨z', a', rfl⟩ : ∃ z' a', s2 = { s with bias := b', initialized := true, z := z', a := a' } := ⟨_, _, es⟩
  exact ⟨R2.wf, L.settings.use ⟨by simp [offered], rfl⟩, K.trans K2, L.act, ⟨_, _, R2.weights⟩, L.new_w,
    ⟨fun e => Bool.noConfusion e, fun z => absurd z (not_waiting rfl)⟩, fun _ => ⟨g, g', a1, R2.weights, a3⟩,
    fun _ _ _ _ => ⟨n, X, g, g', ha, a1, hA⟩, fun _ _ _ _ e => Call.noConfusion (snoc_inj e)⟩

theorem Life.call_test (L : Life m0 f0 c0 i0 d0 r0 l0 al0 h0 g0 g0' pre s h) (gw gb : Utilities.Source) {x : Ref}
    (hx : Admissible h0 s.input s.n_hidden (.test x gw gb)) :
    Runs (test gw gb s x) h fun s' h' => Life m0 f0 c0 i0 d0 r0 l0 al0 h0 g0 g0' (pre ++ [.test x gw gb]) s' h' := by
  obtain ⟨s1, h1, e1, es, w1, K, D⟩ := runs_iff.1 (L.init gw gb)
  have D := D (.test x gw gb) rfl
  obtain ⟨b', rfl⟩ : ∃ b', s1 = { s with bias := b', initialized := true } := ⟨_, es⟩
  obtain ⟨g, g', a1, a2, a3⟩ := id D
  obtain ⟨v, hv⟩ := hx
  refine runs_of ((uses_of_init e1 rfl).2 x) ?_
  unfold test
  refine Runs.step (init_skip gw gb rfl h1) ?_
  refine Runs.step (Hd.dot_run w1 a2 (hv.keep K fun _ _ => id)) ?_
  refine Runs.of_eq rfl ⟨w1, L.settings.use ⟨by simp [offered], rfl⟩, K, L.act, ⟨_, _, a2⟩, L.new_w,
    ⟨fun e => Bool.noConfusion e, fun z => absurd z (not_waiting rfl)⟩, fun _ => ⟨g, g', a1, a2, a3⟩,
    fun _ _ _ e => Call.noConfusion (snoc_inj e), fun _ y _ _ e => ?_⟩
  cases snoc_inj e
  refine ⟨v, g, g', hv, a1, ?_⟩
  dsimp only at a3 ⊢
  rw [a3]
  congr 2
  exact Finset.sum_congr rfl fun j _ => mul_comm _ _

theorem Life.step (L : Life m0 f0 c0 i0 d0 r0 l0 al0 h0 g0 g0' pre s h) (c : Call) (hc : Admissible h0 s.input s.n_hidden c) :
    Runs (call s c) h fun s' h' => Life m0 f0 c0 i0 d0 r0 l0 al0 h0 g0 g0' (pre ++ [c]) s' h' := by
  obtain ⟨a1, a2, a3, a4, a5, a6, a7, a8⟩ := id L.settings
  unfold lastUnits at a1
  unfold lastInput at a4
  unfold lastDistribution at a5
  cases c with
  | initialize_ gw gb => exact L.call_init gw gb
  | forward_pass gw gb => exact L.call_forward gw gb hc
  | test x gw gb => exact L.call_test gw gb hc
  | set_reg v =>
    refine Runs.of_eq rfl ⟨L.wf, ?_, L.keep, L.act, L.own, L.new_w, ?_, fun e => ?_, fun _ _ _ e => Call.noConfusion (snoc_inj e),
      fun _ _ _ _ e => Call.noConfusion (snoc_inj e)⟩
    · constructor <;> ((try unfold lastInput); (try unfold lastUnits); (try unfold lastDistribution); rw [lastValue_snoc]; first | assumption | rfl)
    · refine L.flag.trans ?_
      rw [waiting_snoc]
      exact ⟨fun z => .inr ⟨⟨id, rfl⟩, z⟩, fun z => z.elim (fun q => q.elim) And.right⟩
    · obtain ⟨g, g', b1, b2, b3⟩ := L.ready e
      exact ⟨g, g', drawn_keep b1 id, b2, b3⟩
  | set_activation v =>
    refine Runs.of_eq rfl ⟨L.wf, ?_, L.keep, hc, L.own, L.new_w, ⟨fun _ => (waiting_snoc _).2 (.inl trivial), fun _ => rfl⟩, fun e => Bool.noConfusion e,
      fun _ _ _ e => Call.noConfusion (snoc_inj e), fun _ _ _ _ e => Call.noConfusion (snoc_inj e)⟩
    constructor <;> ((try unfold lastInput); (try unfold lastUnits); (try unfold lastDistribution); rw [lastValue_snoc]; first | assumption | rfl)
  | set_n_hidden v | set_input v | set_cost v | set_bias v | set_z v | set_a v | set_z_test v | set_a_test v | set_delta v | set_lambda v | set_alpha v
  | set_weight_init v =>
    refine Runs.of_eq rfl ⟨L.wf, ?_, L.keep, L.act, L.own, L.new_w, ⟨fun _ => (waiting_snoc _).2 (.inl trivial), fun _ => rfl⟩, fun e => Bool.noConfusion e,
      fun _ _ _ e => Call.noConfusion (snoc_inj e), fun _ _ _ _ e => Call.noConfusion (snoc_inj e)⟩
    constructor <;> ((try unfold lastInput); (try unfold lastUnits); (try unfold lastDistribution); rw [lastValue_snoc]; first | assumption | rfl)

theorem Life.run (L : Life m0 f0 c0 i0 d0 r0 l0 al0 h0 g0 g0' pre s h) (hist : List Call)
    (hc : ∀ before c after, hist = before ++ c :: after → Admissible h0 (lastInput i0 (pre ++ before)) (lastUnits m0 (pre ++ before)) c) :
    Runs (run s hist) h fun s' h' => Life m0 f0 c0 i0 d0 r0 l0 al0 h0 g0 g0' (pre ++ hist) s' h' := by
  induction hist generalizing pre s h with
  | nil => exact Runs.of_eq rfl (by simpa using L)
  | cons c hist ih =>
    have := hc [] c hist rfl
    rw [List.append_nil, ← L.settings.input, ← L.settings.n_hidden] at this
    refine Runs.bind ((L.step c this).mono fun s' h' L' => ?_)
    have := ih L' fun before c' after e => by
      have := hc (c :: before) c' after (by rw [e]; rfl)
      rwa [List.append_assoc]
    rwa [List.append_assoc] at this

theorem Life.create (gw gb : Utilities.Source) (w : h.WF) (a : Ref) (m : Nat) {f : Activation.Fn} (hf : f ≠ .adj_softmax) (c : Cost.Kind) (d : Utilities.Kind)
    (r : Reg.Kind) (l al : ℝ) :
    Runs (create gw gb m f c a d r l al) h fun s h' => Life m f c a d r l al h gw gb [] s h' := by
  unfold OutputLayer.create
  refine stepV0 w fun o1 h1 v1 w1 k1 f1 b1 => ?_
  refine stepV0 w1 fun o2 h2 v2 w2 k2 f2 b2 => ?_
  refine stepV0 w2 fun o3 h3 v3 w3 k3 f3 b3 => ?_
  have K3 := (k1.trans k2).trans k3
  refine stepV0 w3 fun o4 h4 v4 w4 k4 f4 b4 => ?_
  have g4 := f4.mono K3
  have K4 := K3.trans k4
  refine (OutputLayer.init_run gw gb w4 rfl b4 rfl).mono fun s' h5 ⟨e5, k5, w5, b5⟩ => ?_
  have K5 := K4.wr_new k5 g4
  subst e5
  have nw : ¬ Waiting [] := by rintro ⟨before, c, after, e, -⟩; simp at e
  exact ⟨w5, ⟨rfl, rfl, rfl, rfl, rfl, rfl, rfl, rfl⟩, K5, hf, ⟨_, _, b5⟩, g4, ⟨fun e => Bool.noConfusion e, fun z => absurd z nw⟩,
    fun _ => ⟨gw, gb, .inl ⟨by simp, rfl, rfl⟩, b5, rfl⟩, fun _ _ _ e => by simp at e, fun _ _ _ _ e => by simp at e⟩

/-- **C153** (every life): an output layer, made with or without inputs, is given any calls of setters, `initialize`, forward passes and tests, in any order, such that
there are inputs of as many columns as there are weights whenever a forward pass is made. Nothing that existed before it was made is ever changed, and every getter
returns the value set last. The layer is initialised exactly if it was used since the last setter, that of the regularisation excepted. It then has the weights and the bias
drawn by the first use after that setter (the constructor, if there was none), and these are kept by all uses after it. After a forward pass the outputs are the activation
function of `X w + b` for the present inputs, after a test that of `w · x + b`. -/
theorem C153_history (gw gb : Utilities.Source) (w : h.WF) (a : Ref) (m : Nat) {f : Activation.Fn} (hf : f ≠ .adj_softmax) (c : Cost.Kind) (d : Utilities.Kind)
    (r : Reg.Kind) (l al : ℝ) (hist : List Call)
    (hc : ∀ before c after, hist = before ++ c :: after → Admissible h (lastInput a before) (lastUnits m before) c) :
    Runs (create gw gb m f c a d r l al >>= fun s => run s hist) h fun s h' => h'.WF ∧ Keeps h h' (fun _ => False) ∧
      get_n_hidden s = lastUnits m hist ∧
      get_activation s = lastValue (fun | .set_activation v => some v | _ => none) hist f ∧
      get_cost s = lastValue (fun | .set_cost v => some v | _ => none) hist c ∧
      get_input s = lastInput a hist ∧ get_weight_init s = lastDistribution d hist ∧
      get_reg s = lastValue (fun | .set_reg v => some v | _ => none) hist r ∧
      get_lambda s = lastValue (fun | .set_lambda v => some v | _ => none) hist l ∧
      get_alpha s = lastValue (fun | .set_alpha v => some v | _ => none) hist al ∧
      (is_initialized s = false ↔ Waiting hist) ∧
      (is_initialized s = true → ∃ g g', DrawnFrom gw gb hist g g' ∧
        HasV h' (get_weights s) (drawnV g (lastDistribution d hist) (get_n_hidden s)) ∧ get_bias s = g'.u 0) ∧
      (∀ before g1 g2, hist = before ++ [.forward_pass g1 g2] →
        ∃ (n : Nat) (X : Matrix (Fin n) (Fin (get_n_hidden s)) ℝ) (g g' : Utilities.Source), HasM h (lastInput a hist) X ∧ DrawnFrom gw gb hist g g' ∧
          HasV h' (get_a s) (applied (get_activation s) fun i => ∑ j, X i j * drawnV g (lastDistribution d hist) (get_n_hidden s) j + g'.u 0)) ∧
      ∀ before x g1 g2, hist = before ++ [.test x g1 g2] →
        ∃ (v : Fin (get_n_hidden s) → ℝ) (g g' : Utilities.Source), HasV h x v ∧ DrawnFrom gw gb hist g g' ∧
          get_a_test s = Activation.normReal (get_activation s) (∑ j, v j * drawnV g (lastDistribution d hist) (get_n_hidden s) j + g'.u 0) := by
  refine Runs.bind ((Life.create gw gb w a m hf c d r l al).mono fun s h1 L => ?_)
  refine (L.run hist (by simpa using hc)).mono fun s' h' L' => ?_
  rw [List.nil_append] at L'
  obtain ⟨a1, a2, a3, a4, a5, a6, a7, a8⟩ := L'.settings
  refine ⟨L'.wf, L'.keep, a1, a2, a3, a4, a5, a6, a7, a8, L'.flag, fun e => ?_, fun before g1 g2 e => ?_, fun before x g1 g2 e => ?_⟩
  · rw [← a5]; exact L'.ready e
  · rw [← a4, ← a5]; exact L'.passed before g1 g2 e
  · rw [← a5]; exact L'.tested before x g1 g2 e

/-- A history that meets the hypotheses of `C153_history`, on the objects of the example of C104: a forward pass, another activation function, which draws new weights
and a new bias at the next pass, a regularisation, which does not. -/
example (g g' : Utilities.Source) :
    (∀ before c after, [Call.forward_pass g g, .set_activation .tanh, .set_reg .ridge, .forward_pass g' g, .set_reg .none, .test (some (.v 1)) g g] =
      before ++ c :: after → Admissible layHeap (lastInput (some (.m 0)) before) (lastUnits 1 before) c) ∧
    DrawnFrom g g [Call.forward_pass g g, .set_activation .tanh, .set_reg .ridge, .forward_pass g' g, .set_reg .none, .test (some (.v 1)) g g] g' g := by
  have lv : ∀ i < 3, layHeap.live (.m i) := by intro i hi; simp [layHeap, Heap.ofLists, Heap.live, Loc.id]; omega
  have lw : ∀ i < 2, layHeap.live (.v i) := by intro i hi; simp [layHeap, Heap.ofLists, Heap.live, Loc.id]; omega
  have h0 : HasM layHeap (some (.m 0)) (!![5; 6] : Matrix (Fin 2) (Fin 1) ℝ) :=
    ⟨0, rfl, lv 0 (by omega), by simp [layHeap, Heap.ofLists], fun i j => by fin_cases i <;> fin_cases j <;> simp [layHeap, Heap.ofLists]⟩
  have v1 : HasV layHeap (some (.v 1)) ![(5 : ℝ)] :=
    ⟨1, rfl, lw 1 (by omega), by simp [layHeap, Heap.ofLists], fun i => by fin_cases i; simp [layHeap, Heap.ofLists]⟩
  constructor
  · intro before c after e
    rcases before with _ | ⟨_, _ | ⟨_, _ | ⟨_, _ | ⟨_, _ | ⟨_, _ | ⟨_, t⟩⟩⟩⟩⟩⟩
    all_goals simp only [List.nil_append, List.cons_append, List.cons.injEq, List.nil_eq, reduceCtorEq, List.append_eq_nil_iff, and_false] at e
    · obtain ⟨rfl, rfl⟩ := e; exact ⟨_, _, h0⟩
    · obtain ⟨rfl, rfl, rfl⟩ := e; simp [Admissible]
    · obtain ⟨rfl, rfl, rfl, rfl⟩ := e; trivial
    · obtain ⟨rfl, rfl, rfl, rfl, rfl⟩ := e; exact ⟨_, _, h0⟩
    · obtain ⟨rfl, rfl, rfl, rfl, rfl, rfl⟩ := e; trivial
    · obtain ⟨rfl, rfl, rfl, rfl, rfl, rfl, rfl⟩ := e; exact ⟨_, v1⟩
  · refine .inr ⟨[.forward_pass g g, .set_activation .tanh, .set_reg .ridge], .forward_pass g' g, [.set_reg .none, .test (some (.v 1)) g g], rfl,
      ⟨[.forward_pass g g], .set_activation .tanh, [.set_reg .ridge], rfl, trivial, by simp [Resets, offered]⟩, rfl, by simp [Resets]⟩

end OutputLayer
end Verif
