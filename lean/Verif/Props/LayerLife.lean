import Verif.Spec.LayerLife
import Verif.Lemmas.AnnOptRules
import Verif.Props.Layers
import Verif.Props.MlpLife

/-! # C152: a hidden layer over its whole life -/

namespace Verif
open Spec Finset
namespace HiddenLayer
open Spec.LayerLife
open Mlp (lastValue_snoc)
variable {m0 : Nat} {f0 : Activation.Fn} {i0 : Ref} {d0 : Utilities.Kind} {r0 : Reg.Kind} {l0 al0 : ℝ}
variable {n k m : Nat} {h h0 : Heap ℝ} {s : HiddenLayer} {X : Matrix (Fin n) (Fin k) ℝ} {pre : List Call} {g0 : Utilities.Source}

/-- **C152** (initialising): a layer that is not initialised, with inputs, and with weights and biases of its own of any sizes, becomes ready, with weights drawn;
only its weights and biases are written. -/
theorem C152_initialize (gw gb : Utilities.Source) (w : h.WF) (hi : is_initialized s = false) (ha : HasM h s.input X)
    {p q r p' q' : Nat} {W : Matrix (Fin p) (Fin q) ℝ} {b : Fin r → ℝ} {Z : Matrix (Fin p') (Fin q') ℝ} (hW : HasM h s.weights W) (hb : HasV h s.bias b)
    (hz : HasM h s.z Z) (d : [s.z, s.weights, s.input].Nodup) (ht : s.weight_init = .default ∨ s.weight_init = .uniform) :
    Runs (initialize_ gw gb s) h fun s' h' => s' = { s with initialized := true } ∧ Keeps h h' (some · ∈ [s.weights, s.bias]) ∧
      ∃ b : Fin s.n_hidden → ℝ, HiddenReady s' h' X (drawnM gw s.weight_init k s.n_hidden, b) := by
  have dd := d
  simp only [List.nodup_cons, List.mem_cons, List.not_mem_nil, or_false, not_or, not_false_eq_true, List.nodup_nil, and_true] at dd
  obtain ⟨⟨d1, d2⟩, d3⟩ := dd
  have d4 := Ne.symm d1
  have d5 := Ne.symm d3
  have hi' : s.initialized = false := hi
  unfold initialize_
  rw [if_neg (by rw [hi']; decide)]
  refine Runs.step (Hd.sizem_run ha) ?_
  dsimp only
  have K0 := Keeps.refl h (some · ∈ [s.weights, s.bias])
  refine Runs.bind ((Hd.resizem_run w hW k s.n_hidden).mono fun _ h1 ⟨w1, k1, W1, uW⟩ => ?_)
  have K1 := K0.into k1 (by simp)
  wr k1
  refine Runs.bind ((Hd.resizev_run w1 hb s.n_hidden).mono fun _ h2 ⟨w2, k2, b2, ub⟩ => ?_)
  have K2 := K1.into k2 (by simp)
  wr k2
  obtain ⟨o, eo, lo, io⟩ := id uW
  rw [show s.weights.mat = some o by rw [eo]; rfl]
  refine Runs.bind (((Utilities.C64_matrix_partial gw h2 w2 o W1 io s.weight_init ht).hasM lo).mono fun _ h3 ⟨w3, k3, uw3⟩ => ?_)
  rw [← eo] at k3 uw3
  have K3 := K2.into k3 (by simp)
  wr k3
  obtain ⟨c, ec, lc, ic⟩ := id ub
  rw [show s.bias.vec = some c by rw [ec]; rfl]
  refine Runs.step (Utilities.C64_bias_vector_fails gb h3 c) ?_
  exact Runs.of_eq rfl ⟨rfl, K3, b2, w3, rfl, ha, uw3, ub, ⟨_, _, _, hz⟩, d⟩

theorem runs_of {α : Type} {c c' : M ℝ α} {h' : Heap ℝ} {Q : α → Heap ℝ → Prop} (e : c h = c' h') (r : Runs c' h' Q) : Runs c h Q := by
  unfold Runs
  rw [e]
  exact r

/-- After an initialisation, `forward_pass` and `test` behave as on the initialised object. -/
theorem uses_of_init {gw gb : Utilities.Source} {s1 : HiddenLayer} {h1 : Heap ℝ} (e : initialize_ gw gb s h = .ok (s1, h1)) (hi : s1.initialized = true) :
    forward_pass gw gb s h = forward_pass gw gb s1 h1 ∧ ∀ x, test gw gb s x h = test gw gb s1 x h1 := by
  constructor
  · unfold forward_pass; rw [bind_ok e, bind_ok (init_skip gw gb hi h1)]
  · intro x; unfold test; rw [bind_ok e, bind_ok (init_skip gw gb hi h1)]

theorem drawn_keep {g : Utilities.Source} (d : DrawnFrom g0 pre g) {u : Call} (hu : IsUse u) : DrawnFrom g0 (pre ++ [u]) g := by
  rcases d with ⟨d, rfl⟩ | ⟨before, c, v, after, rfl, nc, ov, d⟩
  · exact .inl ⟨fun c hc => by
      rcases List.mem_append.1 hc with q | q
      · exact d c q
      · rw [List.mem_singleton.1 q]; exact hu, rfl⟩
  · exact .inr ⟨before, c, v, after ++ [u], by simp, nc, ov, fun c hc => by
      rcases List.mem_append.1 hc with q | q
      · exact d c q
      · rw [List.mem_singleton.1 q]; exact hu⟩

/-- What holds of a ready layer after a history. -/
def Drew (h0 : Heap ℝ) (g0 : Utilities.Source) (pre : List Call) (s : HiddenLayer) (h : Heap ℝ) : Prop :=
  ∃ (n k : Nat) (X : Matrix (Fin n) (Fin k) ℝ) (g : Utilities.Source) (b : Fin s.n_hidden → ℝ), HasM h0 s.input X ∧ DrawnFrom g0 pre g ∧
    HiddenReady s h X (drawnM g s.weight_init k s.n_hidden, b)

/-- What holds after a forward pass that ends a history. -/
def Passed (h0 : Heap ℝ) (g0 : Utilities.Source) (pre : List Call) (s : HiddenLayer) (h : Heap ℝ) : Prop :=
  ∃ (n k : Nat) (X : Matrix (Fin n) (Fin k) ℝ) (g : Utilities.Source) (b : Fin s.n_hidden → ℝ), HasM h0 s.input X ∧ DrawnFrom g0 pre g ∧ HasV h s.bias b ∧
    HasM h s.a fun i => applied s.activation fun a => ∑ j, X i j * drawnM g s.weight_init k s.n_hidden j a + b a

/-- What holds after a test that ends a history. -/
def Tested (h0 : Heap ℝ) (g0 : Utilities.Source) (pre : List Call) (s : HiddenLayer) (h : Heap ℝ) (x : Ref) : Prop :=
  ∃ (k : Nat) (v : Fin k → ℝ) (g : Utilities.Source) (b : Fin s.n_hidden → ℝ), HasV h0 x v ∧ DrawnFrom g0 pre g ∧ HasV h s.bias b ∧
    HasV h s.a_test (applied s.activation fun a => ∑ j, v j * drawnM g s.weight_init k s.n_hidden j a + b a)

/-- The layer has the settings that the constructor was given, or those set since. -/
structure Settings (m0 : Nat) (f0 : Activation.Fn) (i0 : Ref) (d0 : Utilities.Kind) (r0 : Reg.Kind) (l0 al0 : ℝ) (hist : List Call) (s : HiddenLayer) : Prop where
  n_hidden : get_n_hidden s = lastValue (fun | .set_n_hidden v => some v | _ => none) hist m0
  activation : get_activation s = lastValue (fun | .set_activation v => some v | _ => none) hist f0
  input : get_input s = lastInput i0 hist
  weight_init : get_weight_init s = lastDistribution d0 hist
  reg : get_reg s = lastValue (fun | .set_reg v => some v | _ => none) hist r0
  lambda : get_lambda s = lastValue (fun | .set_lambda v => some v | _ => none) hist l0
  alpha : get_alpha s = lastValue (fun | .set_alpha v => some v | _ => none) hist al0

/-- What holds after the history `pre`. -/
structure Life (m0 : Nat) (f0 : Activation.Fn) (i0 : Ref) (d0 : Utilities.Kind) (r0 : Reg.Kind) (l0 al0 : ℝ) (h0 : Heap ℝ) (g0 : Utilities.Source)
    (pre : List Call) (s : HiddenLayer) (h : Heap ℝ) : Prop where
  wf : h.WF
  settings : Settings m0 f0 i0 d0 r0 l0 al0 pre s
  keep : Keeps h0 h (fun _ => False)
  input : ∃ (n k : Nat) (X : Matrix (Fin n) (Fin k) ℝ), HasM h0 s.input X
  act : s.activation ∉ [Activation.Fn.adj_softmax, .swish, .mish, .softplus, .softsign]
  wi : s.weight_init = .default ∨ s.weight_init = .uniform
  own : ∃ (p q r p' q' : Nat) (W : Matrix (Fin p) (Fin q) ℝ) (b : Fin r → ℝ) (Z : Matrix (Fin p') (Fin q') ℝ), HasM h s.weights W ∧ HasV h s.bias b ∧ HasM h s.z Z
  new_w : NotIn h0 s.weights
  new_b : NotIn h0 s.bias
  new_z : NotIn h0 s.z
  ne : s.z ≠ s.weights
  flag : s.initialized = true ↔ ∀ before c, pre = before ++ [c] → IsUse c
  ready : s.initialized = true → Drew h0 g0 pre s h
  passed : ∀ before g g', pre = before ++ [.forward_pass g g'] → Passed h0 g0 pre s h
  tested : ∀ before x g g', pre = before ++ [.test x g g'] → Tested h0 g0 pre s h x

/-- The settings after a use. -/
theorem Settings.use {s' : HiddenLayer} {u : Call} (S : Settings m0 f0 i0 d0 r0 l0 al0 pre s) (e : IsUse u ∧
    (s'.n_hidden, s'.activation, s'.input, s'.weight_init, s'.reg, s'.lambda, s'.alpha) = (s.n_hidden, s.activation, s.input, s.weight_init, s.reg, s.lambda, s.alpha)) :
    Settings m0 f0 i0 d0 r0 l0 al0 (pre ++ [u]) s' := by
  obtain ⟨hu, e⟩ := e
  simp only [Prod.mk.injEq] at e
  obtain ⟨e1, e2, e3, e4, e5, e6, e7⟩ := e
  obtain ⟨a1, a2, a3, a4, a5, a6, a7⟩ := S
  unfold lastInput at a3
  unfold lastDistribution at a4
  cases u <;> first | exact absurd rfl hu | skip
  all_goals
    refine ⟨e1.trans ?_, e2.trans ?_, e3.trans ?_, e4.trans ?_, e5.trans ?_, e6.trans ?_, e7.trans ?_⟩
    all_goals
      try unfold lastInput
      try unfold lastDistribution
      rw [lastValue_snoc]
      assumption

theorem Life.init (L : Life m0 f0 i0 d0 r0 l0 al0 h0 g0 pre s h) (gw gb : Utilities.Source) : Runs (initialize_ gw gb s) h fun s' h' => s' = { s with initialized := true } ∧
    Keeps h0 h' (fun _ => False) ∧ ∀ u, offered u = some gw → Drew h0 g0 (pre ++ [u]) s' h' := by
  by_cases hi : s.initialized = true
  · refine Runs.of_eq (init_skip gw gb hi h) ⟨by rw [← hi], L.keep, fun u hu => ?_⟩
    obtain ⟨n, k, X, g, b, a1, a2, a3⟩ := L.ready hi
    exact ⟨n, k, X, g, b, a1, drawn_keep a2 (by unfold IsUse; rw [hu]; simp), a3⟩
  · obtain ⟨p, q, r, p', q', W, b, Z, hW, hb, hz⟩ := L.own
    obtain ⟨n, k, X, ha⟩ := L.input
    have nf : ¬ ∀ before c, pre = before ++ [c] → IsUse c := fun z => hi (L.flag.2 z)
    push Not at nf
    obtain ⟨before, c, rfl, nc⟩ := nf
    refine (C152_initialize gw gb L.wf (by simpa [is_initialized] using hi) (ha.keep L.keep fun _ _ => id) hW hb hz ?_ L.wi).mono fun s' h' ⟨es, K, b', R⟩ => ?_
    · simp only [List.nodup_cons, List.mem_cons, List.not_mem_nil, or_false, not_or, not_false_eq_true, List.nodup_nil, and_true]
      exact ⟨⟨L.ne, L.new_z.ne_mat ha⟩, L.new_w.ne_mat ha⟩
    · refine ⟨es, L.keep.trans_new K fun l hl lv => ?_, fun u hu => ?_⟩
      · simp only [List.mem_cons, List.not_mem_nil, or_false] at hl
        rcases hl with e | e
        · exact L.new_w l e.symm lv
        · exact L.new_b l e.symm lv
      · subst es
        exact ⟨n, k, X, gw, b', ha, .inr ⟨before, c, u, [], by simp, nc, hu, by simp⟩, R⟩

theorem snoc_inj {l l' : List Call} {x y : Call} (e : l ++ [x] = l' ++ [y]) : x = y := by
  obtain ⟨-, q⟩ := List.append_inj' e rfl
  cases q
  rfl

theorem flag_use {u : Call} (hu : IsUse u) : ∀ before c, pre ++ [u] = before ++ [c] → IsUse c := fun _ _ e => snoc_inj e ▸ hu

theorem Life.call_init (L : Life m0 f0 i0 d0 r0 l0 al0 h0 g0 pre s h) (gw gb : Utilities.Source) :
    Runs (initialize_ gw gb s) h fun s' h' => Life m0 f0 i0 d0 r0 l0 al0 h0 g0 (pre ++ [.initialize_ gw gb]) s' h' := by
  refine (L.init gw gb).mono fun s' h' ⟨es, K, D⟩ => ?_
  have D := D (.initialize_ gw gb) rfl
  subst es
  obtain ⟨n, k, X, g, b, a1, a2, R⟩ := id D
  obtain ⟨p', q', Z, hz⟩ := R.z
  exact ⟨R.wf, L.settings.use ⟨by simp [IsUse, offered], rfl⟩, K, L.input, L.act, L.wi, ⟨_, _, _, _, _, _, _, Z, R.weights, R.bias, hz⟩, L.new_w, L.new_b, L.new_z, L.ne,
    ⟨fun _ => flag_use (by simp [IsUse, offered]), fun _ => rfl⟩, fun _ => D, fun _ _ _ e => Call.noConfusion (snoc_inj e), fun _ _ _ _ e => Call.noConfusion (snoc_inj e)⟩

theorem Life.call_forward (L : Life m0 f0 i0 d0 r0 l0 al0 h0 g0 pre s h) (gw gb : Utilities.Source) :
    Runs (forward_pass gw gb s) h fun s' h' => Life m0 f0 i0 d0 r0 l0 al0 h0 g0 (pre ++ [.forward_pass gw gb]) s' h' := by
  obtain ⟨s1, h1, e1, es, K, D⟩ := runs_iff.1 (L.init gw gb)
  have D := D (.forward_pass gw gb) rfl
  obtain ⟨n, k, X, g, b, a1, a2, R⟩ := D
  subst es
  refine runs_of (uses_of_init e1 rfl).1 ?_
  refine (forward_run gw gb R rfl L.act).mono fun s2 h2 ⟨es, K2, _, R2, _, ha⟩ => ?_
  obtain ⟨p', q', Z, hz⟩ := R2.z
  have K' : Keeps h0 h2 (fun _ => False) := K.trans_new K2 fun l hl lv => L.new_z l hl.symm lv
  obtain ⟨a', rfl⟩ : ∃ a', s2 = { s with initialized := true, a := a' } := ⟨_, es⟩
  have D2 : Drew h0 g0 (pre ++ [.forward_pass gw gb]) { s with initialized := true, a := a' } h2 := ⟨n, k, X, g, b, a1, a2, R2⟩
  exact ⟨R2.wf, L.settings.use ⟨by simp [IsUse, offered], rfl⟩, K', L.input, L.act, L.wi, ⟨_, _, _, _, _, _, _, Z, R2.weights, R2.bias, hz⟩, L.new_w, L.new_b, L.new_z, L.ne,
    ⟨fun _ => flag_use (by simp [IsUse, offered]), fun _ => rfl⟩, fun _ => D2, fun _ _ _ _ => ⟨n, k, X, g, b, a1, a2, R2.bias, ha⟩,
    fun _ _ _ _ e => Call.noConfusion (snoc_inj e)⟩

theorem Life.call_test (L : Life m0 f0 i0 d0 r0 l0 al0 h0 g0 pre s h) (gw gb : Utilities.Source) {x : Ref} (hx : Admissible h0 s.input (.test x gw gb)) :
    Runs (test gw gb s x) h fun s' h' => Life m0 f0 i0 d0 r0 l0 al0 h0 g0 (pre ++ [.test x gw gb]) s' h' := by
  obtain ⟨s1, h1, e1, es, K, D⟩ := runs_iff.1 (L.init gw gb)
  have D := D (.test x gw gb) rfl
  obtain ⟨n, k, X, g, b, a1, a2, R⟩ := D
  obtain ⟨n', k', X', v, ha', hv⟩ := hx
  subst es
  have ek : k' = k := by
    obtain ⟨i, ei, -, z1, -⟩ := ha'
    obtain ⟨j, ej, -, z2, -⟩ := a1
    rw [show s.input = some (.m j) from ej] at ei
    cases ei
    rw [z1] at z2
    exact congrArg Size.x z2
  subst ek
  refine runs_of ((uses_of_init e1 rfl).2 x) ?_
  refine (test_run gw gb R rfl (by have := L.act; simp only [List.mem_cons, not_or] at this; exact this.1) (hv.keep K fun _ _ => id)).mono
    fun s2 h2 ⟨es, K2, R2, ha⟩ => ?_
  obtain ⟨p', q', Z, hz⟩ := R2.z
  have K' : Keeps h0 h2 (fun _ => False) := K.trans K2
  obtain ⟨z', a', rfl⟩ : ∃ z' a', s2 = { s with initialized := true, z_test := z', a_test := a' } := ⟨_, _, es⟩
  have D2 : Drew h0 g0 (pre ++ [.test x gw gb]) { s with initialized := true, z_test := z', a_test := a' } h2 := ⟨n, k', X, g, b, a1, a2, R2⟩
  refine ⟨R2.wf, L.settings.use ⟨by simp [IsUse, offered], rfl⟩, K', L.input, L.act, L.wi, ⟨_, _, _, _, _, _, _, Z, R2.weights, R2.bias, hz⟩, L.new_w, L.new_b, L.new_z, L.ne,
    ⟨fun _ => flag_use (by simp [IsUse, offered]), fun _ => rfl⟩, fun _ => D2, fun _ _ _ e => Call.noConfusion (snoc_inj e), fun _ y _ _ e => ?_⟩
  have := snoc_inj e
  cases this
  exact ⟨k', v, g, b, hv, a2, R2.bias, ha⟩

theorem Life.step (L : Life m0 f0 i0 d0 r0 l0 al0 h0 g0 pre s h) (c : Call) (hc : Admissible h0 s.input c) : Runs (call s c) h fun s' h' => Life m0 f0 i0 d0 r0 l0 al0 h0 g0 (pre ++ [c]) s' h' := by
  cases c with
  | initialize_ gw gb => exact L.call_init gw gb
  | forward_pass gw gb => exact L.call_forward gw gb
  | test x gw gb => exact L.call_test gw gb hc
  | set_input v =>
    exact Runs.of_eq rfl ⟨L.wf, by obtain ⟨a1, a2, a3, a4, a5, a6, a7⟩ := L.settings; unfold lastInput at a3; unfold lastDistribution at a4; constructor <;> ((try unfold lastInput); (try unfold lastDistribution); rw [lastValue_snoc]; first | assumption | rfl), L.keep, hc, L.act, L.wi, L.own, L.new_w, L.new_b, L.new_z, L.ne,
      ⟨fun e => Bool.noConfusion e, fun f => absurd (f _ _ rfl) (by simp [IsUse, offered])⟩, fun e => Bool.noConfusion e,
      fun _ _ _ e => Call.noConfusion (snoc_inj e), fun _ _ _ _ e => Call.noConfusion (snoc_inj e)⟩
  | set_activation v =>
    exact Runs.of_eq rfl ⟨L.wf, by obtain ⟨a1, a2, a3, a4, a5, a6, a7⟩ := L.settings; unfold lastInput at a3; unfold lastDistribution at a4; constructor <;> ((try unfold lastInput); (try unfold lastDistribution); rw [lastValue_snoc]; first | assumption | rfl), L.keep, L.input, hc, L.wi, L.own, L.new_w, L.new_b, L.new_z, L.ne,
      ⟨fun e => Bool.noConfusion e, fun f => absurd (f _ _ rfl) (by simp [IsUse, offered])⟩, fun e => Bool.noConfusion e,
      fun _ _ _ e => Call.noConfusion (snoc_inj e), fun _ _ _ _ e => Call.noConfusion (snoc_inj e)⟩
  | set_weight_init v =>
    exact Runs.of_eq rfl ⟨L.wf, by obtain ⟨a1, a2, a3, a4, a5, a6, a7⟩ := L.settings; unfold lastInput at a3; unfold lastDistribution at a4; constructor <;> ((try unfold lastInput); (try unfold lastDistribution); rw [lastValue_snoc]; first | assumption | rfl), L.keep, L.input, L.act, hc, L.own, L.new_w, L.new_b, L.new_z, L.ne,
      ⟨fun e => Bool.noConfusion e, fun f => absurd (f _ _ rfl) (by simp [IsUse, offered])⟩, fun e => Bool.noConfusion e,
      fun _ _ _ e => Call.noConfusion (snoc_inj e), fun _ _ _ _ e => Call.noConfusion (snoc_inj e)⟩
  | set_n_hidden v | set_a v | set_z_test v | set_a_test v | set_delta v | set_reg v | set_lambda v | set_alpha v =>
    exact Runs.of_eq rfl ⟨L.wf, by obtain ⟨a1, a2, a3, a4, a5, a6, a7⟩ := L.settings; unfold lastInput at a3; unfold lastDistribution at a4; constructor <;> ((try unfold lastInput); (try unfold lastDistribution); rw [lastValue_snoc]; first | assumption | rfl), L.keep, L.input, L.act, L.wi, L.own, L.new_w, L.new_b, L.new_z, L.ne,
      ⟨fun e => Bool.noConfusion e, fun f => absurd (f _ _ rfl) (by simp [IsUse, offered])⟩, fun e => Bool.noConfusion e,
      fun _ _ _ e => Call.noConfusion (snoc_inj e), fun _ _ _ _ e => Call.noConfusion (snoc_inj e)⟩

theorem Life.run (L : Life m0 f0 i0 d0 r0 l0 al0 h0 g0 pre s h) (hist : List Call)
    (hc : ∀ before c after, hist = before ++ c :: after → Admissible h0 (lastInput i0 (pre ++ before)) c) :
    Runs (run s hist) h fun s' h' => Life m0 f0 i0 d0 r0 l0 al0 h0 g0 (pre ++ hist) s' h' := by
  induction hist generalizing pre s h with
  | nil => exact Runs.of_eq rfl (by simpa using L)
  | cons c hist ih =>
    have := hc [] c hist rfl
    rw [List.append_nil, ← L.settings.input] at this
    refine Runs.bind ((L.step c this).mono fun s' h' L' => ?_)
    have := ih L' fun before c' after e => by
      have := hc (c :: before) c' after (by rw [e]; rfl)
      rwa [List.append_assoc]
    rwa [List.append_assoc] at this

theorem Life.create (gw gb : Utilities.Source) (w : h.WF) {a : Ref} (ha : HasM h a X) (m : Nat) {f : Activation.Fn}
    (hf : f ∉ [Activation.Fn.adj_softmax, .swish, .mish, .softplus, .softsign]) {d : Utilities.Kind} (hd : d = .default ∨ d = .uniform) (r : Reg.Kind) (l al : ℝ) :
    Runs (create gw gb m f a d r l al) h fun s h' => Life m f a d r l al h gw [] s h' := by
  refine (C103_create_partial (m := m) gw gb w ha f d hd r l al).mono fun s h' ⟨b, R, K, e1, e2, e3, e4, e5, e6, e7, nn⟩ => ?_
  obtain ⟨p', q', Z, hz⟩ := R.z
  have hm := R.units
  subst hm
  have D : Drew h gw [] s h' := ⟨_, _, X, gw, b, e2 ▸ ha, .inl ⟨by simp, rfl⟩, e4 ▸ R⟩
  exact ⟨R.wf, ⟨rfl, e3, e2, e4, e5, e6, e7⟩, K, ⟨_, _, X, e2 ▸ ha⟩, e3 ▸ hf, e4 ▸ hd, ⟨_, _, _, _, _, _, b, Z, R.weights, R.bias, hz⟩, nn _ (by simp), nn _ (by simp),
    nn _ (by simp), by have := R.apart; simp at this; exact this.1.1, ⟨fun _ _ _ e => by simp at e, fun _ => e1⟩, fun _ => D,
    fun _ _ _ e => by simp at e, fun _ _ _ _ e => by simp at e⟩

/-- **C152** (every life): a layer made with inputs, one of the activation functions that work for all values (C103) and a uniform distribution of weights (C64) is
given any calls of setters, `initialize`, forward passes and tests, in any order. Nothing that existed before it was made is ever changed, and every getter returns
the value set last. The layer is initialised exactly if no setter has been called since the last use: it then has weights that the first use after the last setter drew
(the constructor, if there was none), in the sizes of the present inputs and number of units, and these are kept by all uses after it. After a forward pass the outputs
are the activation function of `X W + b` for the present inputs, after a test that of `W x + b`, where `W` are these weights and `b` the biases of the layer. -/
theorem C152_history (gw gb : Utilities.Source) (w : h.WF) {a : Ref} (ha : HasM h a X) (m : Nat) {f : Activation.Fn}
    (hf : f ∉ [Activation.Fn.adj_softmax, .swish, .mish, .softplus, .softsign]) {d : Utilities.Kind} (hd : d = .default ∨ d = .uniform) (r : Reg.Kind) (l al : ℝ)
    (hist : List Call) (hc : ∀ before c after, hist = before ++ c :: after → Admissible h (lastInput a before) c) :
    Runs (create gw gb m f a d r l al >>= fun s => run s hist) h fun s h' => h'.WF ∧ Keeps h h' (fun _ => False) ∧
      get_n_hidden s = lastValue (fun | .set_n_hidden v => some v | _ => none) hist m ∧
      get_activation s = lastValue (fun | .set_activation v => some v | _ => none) hist f ∧
      get_input s = lastInput a hist ∧ get_weight_init s = lastDistribution d hist ∧
      get_reg s = lastValue (fun | .set_reg v => some v | _ => none) hist r ∧
      get_lambda s = lastValue (fun | .set_lambda v => some v | _ => none) hist l ∧
      get_alpha s = lastValue (fun | .set_alpha v => some v | _ => none) hist al ∧
      (is_initialized s = true ↔ ∀ before c, hist = before ++ [c] → IsUse c) ∧
      (is_initialized s = true → ∃ (n k : Nat) (X : Matrix (Fin n) (Fin k) ℝ) (g : Utilities.Source) (b : Fin (get_n_hidden s) → ℝ), HasM h (lastInput a hist) X ∧
        DrawnFrom gw hist g ∧ HiddenReady s h' X (drawnM g (lastDistribution d hist) k (get_n_hidden s), b)) ∧
      (∀ before g1 g2, hist = before ++ [.forward_pass g1 g2] →
        ∃ (n k : Nat) (X : Matrix (Fin n) (Fin k) ℝ) (g : Utilities.Source) (b : Fin (get_n_hidden s) → ℝ), HasM h (lastInput a hist) X ∧ DrawnFrom gw hist g ∧
          HasV h' (get_bias s) b ∧
          HasM h' (get_a s) fun i => applied (get_activation s) fun u => ∑ j, X i j * drawnM g (lastDistribution d hist) k (get_n_hidden s) j u + b u) ∧
      ∀ before x g1 g2, hist = before ++ [.test x g1 g2] →
        ∃ (k : Nat) (v : Fin k → ℝ) (g : Utilities.Source) (b : Fin (get_n_hidden s) → ℝ), HasV h x v ∧ DrawnFrom gw hist g ∧ HasV h' (get_bias s) b ∧
          HasV h' (get_a_test s) (applied (get_activation s) fun u => ∑ j, v j * drawnM g (lastDistribution d hist) k (get_n_hidden s) j u + b u) := by
  refine Runs.bind ((Life.create gw gb w ha m hf hd r l al).mono fun s h1 L => ?_)
  refine (L.run hist (by simpa using hc)).mono fun s' h' L' => ?_
  rw [List.nil_append] at L'
  obtain ⟨a1, a2, a3, a4, a5, a6, a7⟩ := L'.settings
  refine ⟨L'.wf, L'.keep, a1, a2, a3, a4, a5, a6, a7, L'.flag, fun e => ?_, fun before g1 g2 e => ?_, fun before x g1 g2 e => ?_⟩
  · rw [← a3, ← a4]; exact L'.ready e
  · rw [← a3, ← a4]; exact L'.passed before g1 g2 e
  · rw [← a4]; exact L'.tested before x g1 g2 e

/-- A history that meets the hypotheses of `C152_history`, on the matrices of the example of C103: a forward pass, another number of units, which draws new weights,
a test, other inputs. -/
example (g g' : Utilities.Source) :
    (∀ before c after, [Call.forward_pass g g, .set_n_hidden 3, .set_activation .tanh, .forward_pass g' g, .test (some (.v 1)) g g, .set_lambda 1, .set_input (some (.m 1))] =
      before ++ c :: after → Admissible layHeap (lastInput (some (.m 0)) before) c) ∧
    DrawnFrom g [Call.forward_pass g g, .set_n_hidden 3, .set_activation .tanh, .forward_pass g' g, .test (some (.v 1)) g g] g' := by
  have lv : ∀ i < 3, layHeap.live (.m i) := by intro i hi; simp [layHeap, Heap.ofLists, Heap.live, Loc.id]; omega
  have lw : ∀ i < 2, layHeap.live (.v i) := by intro i hi; simp [layHeap, Heap.ofLists, Heap.live, Loc.id]; omega
  have h0 : HasM layHeap (some (.m 0)) (!![5; 6] : Matrix (Fin 2) (Fin 1) ℝ) :=
    ⟨0, rfl, lv 0 (by omega), by simp [layHeap, Heap.ofLists], fun i j => by fin_cases i <;> fin_cases j <;> simp [layHeap, Heap.ofLists]⟩
  have h1 : HasM layHeap (some (.m 1)) (!![7, 8] : Matrix (Fin 1) (Fin 2) ℝ) :=
    ⟨1, rfl, lv 1 (by omega), by simp [layHeap, Heap.ofLists], fun i j => by fin_cases i; fin_cases j <;> simp [layHeap, Heap.ofLists]⟩
  have v1 : HasV layHeap (some (.v 1)) ![(5 : ℝ)] :=
    ⟨1, rfl, lw 1 (by omega), by simp [layHeap, Heap.ofLists], fun i => by fin_cases i; simp [layHeap, Heap.ofLists]⟩
  constructor
  · intro before c after e
    rcases before with _ | ⟨_, _ | ⟨_, _ | ⟨_, _ | ⟨_, _ | ⟨_, _ | ⟨_, _ | ⟨_, t⟩⟩⟩⟩⟩⟩⟩
    all_goals simp only [List.nil_append, List.cons_append, List.cons.injEq, List.nil_eq, reduceCtorEq, List.append_eq_nil_iff, and_false] at e
    · obtain ⟨rfl, rfl⟩ := e; trivial
    · obtain ⟨rfl, rfl, rfl⟩ := e; trivial
    · obtain ⟨rfl, rfl, rfl, rfl⟩ := e; simp [Admissible]
    · obtain ⟨rfl, rfl, rfl, rfl, rfl⟩ := e; trivial
    · obtain ⟨rfl, rfl, rfl, rfl, rfl, rfl⟩ := e; exact ⟨_, _, _, _, h0, v1⟩
    · obtain ⟨rfl, rfl, rfl, rfl, rfl, rfl, rfl⟩ := e; trivial
    · obtain ⟨rfl, rfl, rfl, rfl, rfl, rfl, rfl, rfl⟩ := e; exact ⟨_, _, _, h1⟩
  · exact .inr ⟨[.forward_pass g g, .set_n_hidden 3], .set_activation .tanh, .forward_pass g' g, [.test (some (.v 1)) g g], rfl, by simp [IsUse, offered], rfl,
      by simp [IsUse, offered]⟩

end HiddenLayer
end Verif
