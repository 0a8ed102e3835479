import Verif.Spec.MultiLife
import Verif.Props.LayerLife

/-! # C155: a layer with several outputs over its whole life -/

namespace Verif
open Spec Finset
namespace MultiOutputLayer
open Spec.MultiLife
open Mlp (lastValue_snoc)
variable {k0 m0 : Nat} {f0 : Activation.Fn} {c0 : Cost.Kind} {i0 : Ref} {d0 : Utilities.Kind} {r0 : Reg.Kind} {l0 al0 : ℝ}
variable {n k m : Nat} {h h0 : Heap ℝ} {s : MultiOutputLayer} {pre : List Call} {g0 : Utilities.Source}

/-- What the getters return. -/
structure Settings (k0 m0 : Nat) (f0 : Activation.Fn) (c0 : Cost.Kind) (i0 : Ref) (d0 : Utilities.Kind) (r0 : Reg.Kind) (l0 al0 : ℝ) (hist : List Call)
    (s : MultiOutputLayer) : Prop where
  n_output : get_n_output s = lastValue (fun | .set_n_output v => some v | _ => none) hist m0
  n_hidden : get_n_hidden s = lastValue (fun | .set_n_hidden v => some v | _ => none) hist k0
  activation : get_activation s = lastActivation f0 hist
  cost : get_cost s = lastValue (fun | .set_cost v => some v | _ => none) hist c0
  input : get_input s = lastInput i0 hist
  weight_init : get_weight_init s = lastValue (fun | .set_weight_init v => some v | _ => none) hist d0
  reg : get_reg s = lastValue (fun | .set_reg v => some v | _ => none) hist r0
  lambda : get_lambda s = lastValue (fun | .set_lambda v => some v | _ => none) hist l0
  alpha : get_alpha s = lastValue (fun | .set_alpha v => some v | _ => none) hist al0
  weights : ∀ r, setWeights hist = some r → get_weights s = r
  bias : ∀ r, setBias hist = some r → get_bias s = r
  delta : ∀ r, setDelta hist = some r → get_delta s = r
  z : ∀ r, setZ hist = some r → get_z s = r
  a : ∀ r, setA hist = some r → get_a s = r
  z_test : ∀ r, setZTest hist = some r → get_z_test s = r
  a_test : ∀ r, setATest hist = some r → get_a_test s = r

/-- What holds after the history `pre`. -/
structure Life (k0 m0 : Nat) (f0 : Activation.Fn) (c0 : Cost.Kind) (i0 : Ref) (d0 : Utilities.Kind) (r0 : Reg.Kind) (l0 al0 : ℝ) (h0 : Heap ℝ)
    (g0 : Utilities.Source) (pre : List Call) (s : MultiOutputLayer) (h : Heap ℝ) : Prop where
  wf : h.WF
  settings : Settings k0 m0 f0 c0 i0 d0 r0 l0 al0 pre s
  keep : Keeps h0 h (fun _ => False)
  act : s.activation ∉ [Activation.Fn.adj_softmax, .swish, .mish, .softplus, .softsign]
  own_w : setWeights pre = none → HasM h s.weights (drawnM g0 d0 k0 m0)
  own_b : setBias pre = none → ∃ b : Fin m0 → ℝ, HasV h s.bias b
  passed : ∀ before, pre = before ++ [.forward_pass] → ∃ (n k m : Nat) (X : Matrix (Fin n) (Fin k) ℝ) (W : Matrix (Fin k) (Fin m) ℝ) (b : Fin m → ℝ),
    HasM h s.input X ∧ HasM h s.weights W ∧ HasV h s.bias b ∧ HasM h s.z (fun i a => ∑ j, X i j * W j a + b a) ∧
    HasM h s.a fun i => applied s.activation fun a => ∑ j, X i j * W j a + b a
  tested : ∀ before x, pre = before ++ [.test x] → ∃ (k m : Nat) (v : Fin k → ℝ) (W : Matrix (Fin k) (Fin m) ℝ) (b : Fin m → ℝ),
    HasV h0 x v ∧ HasM h s.weights W ∧ HasV h s.bias b ∧ HasV h s.a_test (applied s.activation fun a => ∑ j, v j * W j a + b a)

theorem snoc_inj {α : Type} {a b : List α} {x y : α} (e : a ++ [x] = b ++ [y]) : x = y := by
  obtain ⟨-, q⟩ := List.append_inj' e rfl
  cases q
  rfl

theorem Life.weights (L : Life k0 m0 f0 c0 i0 d0 r0 l0 al0 h0 g0 pre s h) (e : WeightsFit h0 k0 m0 pre k m) :
    ∃ W : Matrix (Fin k) (Fin m) ℝ, HasM h s.weights W := by
  rcases e with ⟨e, rfl, rfl⟩ | ⟨r, e, W, hW⟩
  · exact ⟨_, L.own_w e⟩
  · have := L.settings.weights r e
    exact ⟨W, show HasM h (get_weights s) W from this ▸ adv_hasm L.keep hW⟩

theorem Life.bias (L : Life k0 m0 f0 c0 i0 d0 r0 l0 al0 h0 g0 pre s h) (e : BiasFits h0 m0 pre m) : ∃ b : Fin m → ℝ, HasV h s.bias b := by
  rcases e with ⟨e, rfl⟩ | ⟨r, e, b, hb⟩
  · exact L.own_b e
  · have := L.settings.bias r e
    exact ⟨b, show HasV h (get_bias s) b from this ▸ adv_hasv L.keep hb⟩

set_option hygiene false in
/-- Settings after one more call. -/
local macro "history" : tactic => `(tactic| (
  constructor
  all_goals first
    | (try unfold lastActivation); (try unfold lastInput); rw [lastValue_snoc]; first | assumption | rfl
    | (intro r e; (try unfold setWeights at *); (try unfold setBias at *); (try unfold setDelta at *); (try unfold setZ at *); (try unfold setA at *)
       (try unfold setZTest at *); (try unfold setATest at *); rw [lastValue_snoc] at e
       first | (cases e; rfl) | (cases e; done) | exact b1 r e | exact b2 r e | exact b3 r e | exact b4 r e | exact b5 r e | exact b6 r e | exact b7 r e)))

theorem Life.call_forward (L : Life k0 m0 f0 c0 i0 d0 r0 l0 al0 h0 g0 pre s h) (hx : Admissible h0 k0 m0 i0 pre .forward_pass) :
    Runs (forward_pass s) h fun s' h' => Life k0 m0 f0 c0 i0 d0 r0 l0 al0 h0 g0 (pre ++ [.forward_pass]) s' h' := by
  obtain ⟨n, k, m, X, hX, hw, hb⟩ := hx
  obtain ⟨W, hW⟩ := L.weights hw
  obtain ⟨b, hB⟩ := L.bias hb
  have ei : s.input = lastInput i0 pre := L.settings.input
  have hX' : HasM h s.input X := ei ▸ adv_hasm L.keep hX
  refine (forward_run (θ := (W, b)) ⟨L.wf, hX', hW, hB⟩ L.act).mono fun s2 h2 ⟨es, K2, _, _, R2, hz, hA⟩ => ?_
  obtain ⟨z', a', rfl⟩ : ∃ z' a', s2 = { s with z := z', a := a' } := ⟨_, _, es⟩
  refine ⟨R2.wf, ?_, L.keep.trans K2, L.act, fun e => ?_, fun e => ?_, fun before e => ?_, fun _ _ e => Call.noConfusion (snoc_inj e)⟩
  · obtain ⟨a1, a2, a3, a4, a5, a6, a7, a8, a9, b1, b2, b3, b4, b5, b6, b7⟩ := L.settings
    history
  · unfold setWeights at e; rw [lastValue_snoc] at e; exact adv_hasm K2 (L.own_w e)
  · unfold setBias at e; rw [lastValue_snoc] at e; obtain ⟨b, hb⟩ := L.own_b e; exact ⟨b, adv_hasv K2 hb⟩
  · exact ⟨n, k, m, X, W, b, adv_hasm K2 hX', adv_hasm K2 hW, adv_hasv K2 hB, hz, hA⟩

/-- A test does not look at the inputs. -/
theorem test_alone {W : Matrix (Fin k) (Fin m) ℝ} {b : Fin m → ℝ} (w : h.WF) (uw : HasM h s.weights W) (ub : HasV h s.bias b) (hf : s.activation ≠ .adj_softmax)
    {x : Ref} {v : Fin k → ℝ} (hx : HasV h x v) :
    Runs (test s x) h fun s' h' => s' = { s with z_test := s'.z_test, a_test := s'.a_test } ∧ h'.WF ∧ Keeps h h' (fun _ => False) ∧
      HasV h' s'.a_test (applied s.activation fun a => ∑ j, v j * W j a + b a) := by
  unfold test
  refine stepM (Hd.transposen_spec w uw) fun t h1 w1 k1 f1 ut => ?_
  have K1 := k1
  nw f1 k1
  refine stepV (Hd.mult_vec_spec w1 ut hx) fun z h2 w2 k2 f2 uv => ?_
  have K2 := K1.trans k2
  nw f2 k2
  refine stepV (Hd.addn_spec w2 uv ub) fun z h3 w3 k3 f3 uz => ?_
  have K3 := K2.trans k3
  nw f3 k3
  refine stepV (Layer.act_vec_gen (Layer.fits_of hf) w3 uz) fun a h4 w4 k4 f4 ua => ?_
  have K4 := K3.trans k4
  refine Runs.of_eq rfl ⟨rfl, w4, K4, ?_⟩
  refine cast (congrArg _ ?_) ua
  refine congrArg _ (funext fun a => ?_)
  show (∑ j, W j a * v j) + b a = _
  rw [Finset.sum_congr rfl fun j _ => mul_comm (W j a) (v j)]

theorem Life.call_test (L : Life k0 m0 f0 c0 i0 d0 r0 l0 al0 h0 g0 pre s h) {x : Ref} (hx : Admissible h0 k0 m0 i0 pre (.test x)) :
    Runs (test s x) h fun s' h' => Life k0 m0 f0 c0 i0 d0 r0 l0 al0 h0 g0 (pre ++ [.test x]) s' h' := by
  obtain ⟨k, m, v, hv, hw, hb⟩ := hx
  obtain ⟨W, hW⟩ := L.weights hw
  obtain ⟨b, hB⟩ := L.bias hb
  refine (test_alone L.wf hW hB (fun e => L.act (by rw [e]; simp)) (adv_hasv L.keep hv)).mono fun s2 h2 ⟨es, w2, K2, hA⟩ => ?_
  obtain ⟨z', a', rfl⟩ : ∃ z' a', s2 = { s with z_test := z', a_test := a' } := ⟨_, _, es⟩
  refine ⟨w2, ?_, L.keep.trans K2, L.act, fun e => ?_, fun e => ?_, fun _ e => Call.noConfusion (snoc_inj e), fun before y e => ?_⟩
  · obtain ⟨a1, a2, a3, a4, a5, a6, a7, a8, a9, b1, b2, b3, b4, b5, b6, b7⟩ := L.settings
    history
  · unfold setWeights at e; rw [lastValue_snoc] at e; exact adv_hasm K2 (L.own_w e)
  · unfold setBias at e; rw [lastValue_snoc] at e; obtain ⟨b, hb⟩ := L.own_b e; exact ⟨b, adv_hasv K2 hb⟩
  · cases snoc_inj e
    exact ⟨k, m, v, W, b, hv, adv_hasm K2 hW, adv_hasv K2 hB, hA⟩

theorem Life.step (L : Life k0 m0 f0 c0 i0 d0 r0 l0 al0 h0 g0 pre s h) (c : Call) (hc : Admissible h0 k0 m0 i0 pre c) :
    Runs (call s c) h fun s' h' => Life k0 m0 f0 c0 i0 d0 r0 l0 al0 h0 g0 (pre ++ [c]) s' h' := by
  obtain ⟨a1, a2, a3, a4, a5, a6, a7, a8, a9, b1, b2, b3, b4, b5, b6, b7⟩ := id L.settings
  cases c with
  | forward_pass => exact L.call_forward hc
  | test x => exact L.call_test hc
  | set_weights v =>
    refine Runs.of_eq rfl ⟨L.wf, by history, L.keep, L.act, fun e => ?_, fun e => ?_, fun _ e => Call.noConfusion (snoc_inj e),
      fun _ _ e => Call.noConfusion (snoc_inj e)⟩
    · unfold setWeights at e; rw [lastValue_snoc] at e; cases e
    · unfold setBias at e; rw [lastValue_snoc] at e; exact L.own_b e
  | set_bias v =>
    refine Runs.of_eq rfl ⟨L.wf, by history, L.keep, L.act, fun e => ?_, fun e => ?_, fun _ e => Call.noConfusion (snoc_inj e),
      fun _ _ e => Call.noConfusion (snoc_inj e)⟩
    · unfold setWeights at e; rw [lastValue_snoc] at e; exact L.own_w e
    · unfold setBias at e; rw [lastValue_snoc] at e; cases e
  | set_activation v =>
    refine Runs.of_eq rfl ⟨L.wf, by history, L.keep, hc, fun e => ?_, fun e => ?_, fun _ e => Call.noConfusion (snoc_inj e),
      fun _ _ e => Call.noConfusion (snoc_inj e)⟩
    · unfold setWeights at e; rw [lastValue_snoc] at e; exact L.own_w e
    · unfold setBias at e; rw [lastValue_snoc] at e; exact L.own_b e
  | set_n_output v | set_n_hidden v | set_cost v | set_input v | set_z v | set_a v | set_z_test v | set_a_test v | set_delta v | set_reg v | set_lambda v
  | set_alpha v | set_weight_init v =>
    refine Runs.of_eq rfl ⟨L.wf, by history, L.keep, L.act, fun e => ?_, fun e => ?_, fun _ e => Call.noConfusion (snoc_inj e),
      fun _ _ e => Call.noConfusion (snoc_inj e)⟩
    · unfold setWeights at e; rw [lastValue_snoc] at e; exact L.own_w e
    · unfold setBias at e; rw [lastValue_snoc] at e; exact L.own_b e

theorem Life.run (L : Life k0 m0 f0 c0 i0 d0 r0 l0 al0 h0 g0 pre s h) (hist : List Call)
    (hc : ∀ before c after, hist = before ++ c :: after → Admissible h0 k0 m0 i0 (pre ++ before) c) :
    Runs (run s hist) h fun s' h' => Life k0 m0 f0 c0 i0 d0 r0 l0 al0 h0 g0 (pre ++ hist) s' h' := by
  induction hist generalizing pre s h with
  | nil => exact Runs.of_eq rfl (by simpa using L)
  | cons c hist ih =>
    refine Runs.bind ((L.step c (by simpa using hc [] c hist rfl)).mono fun s' h' L' => ?_)
    have := ih L' fun before c' after e => by
      have := hc (c :: before) c' after (by rw [e]; rfl)
      rwa [List.append_assoc]
    rwa [List.append_assoc] at this

theorem Life.create (gw gb : Utilities.Source) (w : h.WF) (a : Ref) (m k : Nat) {f : Activation.Fn}
    (hf : f ∉ [Activation.Fn.adj_softmax, .swish, .mish, .softplus, .softsign]) (c : Cost.Kind) {wi : Utilities.Kind} (ht : wi = .default ∨ wi = .uniform)
    (r : Reg.Kind) (l al : ℝ) :
    Runs (create gw gb m k f c a wi r l al) h fun s h' => Life k m f c a wi r l al h gw [] s h' := by
  unfold MultiOutputLayer.create
  refine stepM0 w fun oz h1 Az w1 k1 f1 bz => ?_
  have K1 := k1
  refine stepM0 w1 fun oa h2 Aa w2 k2 f2 ba => ?_
  have K2 := K1.trans k2
  refine stepV0 w2 fun o3 h3 v3 w3 k3 f3 b3 => ?_
  have K3 := K2.trans k3
  refine stepV0 w3 fun o4 h4 v4 w4 k4 f4 b4 => ?_
  have K4 := K3.trans k4
  refine stepM0 w4 fun o5 h5 A5 w5 k5 f5 b5 => ?_
  have K5 := K4.trans k5
  refine stepM0 w5 fun ow h6 Aw w6 k6 f6 bw => ?_
  have g6 := f6.mono K5
  have K6 := K5.trans k6
  nw f6 k6
  refine stepV0 w6 fun ob h7 vb w7 k7 f7 bb => ?_
  have g7 := f7.mono K6
  have K7 := K6.trans k7
  nw f7 k7
  refine Runs.bind ((Hd.resizem_run w7 bw k m).mono fun _ h8 ⟨w8, k8, W1, bw1⟩ => ?_)
  have K8 := K7.wr_new k8 g6
  wr k8
  refine Runs.bind ((Hd.resizev_run w8 bb m).mono fun _ h9 ⟨w9, k9, B1, bb1⟩ => ?_)
  have K9 := K8.wr_new k9 g7
  wr k9
  obtain ⟨o, eo, lo, io⟩ := id bw1
  cases eo
  refine Runs.bind (((Utilities.C64_matrix_partial gw h9 w9 ow W1 io wi ht).hasM lo).mono fun _ h10 ⟨w10, k10, bw2⟩ => ?_)
  have K10 := K9.wr_new k10 g6
  wr k10
  refine Runs.step (Utilities.C64_bias_vector_fails gb h10 ob) ?_
  exact Runs.of_eq rfl ⟨w10, ⟨rfl, rfl, rfl, rfl, rfl, rfl, rfl, rfl, rfl, nofun, nofun, nofun, nofun, nofun, nofun, nofun⟩, K10, hf, fun _ => bw2,
    fun _ => ⟨B1, bb1⟩, fun _ e => by simp at e, fun _ _ e => by simp at e⟩

/-- **C155** (every life): a layer with several outputs is given any calls of setters, forward passes and tests, in any order, such that the sizes of inputs, weights and
biases fit together whenever a pass or a test is made. Nothing that existed before it was made is ever changed, and every getter returns the value set last. The weights are
those set last; if none were set they are still those drawn by the constructor. After a forward pass the outputs are the activation function of `X W + b`, for the present
inputs, weights, biases and activation function; after a test they are that of `x W + b`. -/
theorem C155_history (gw gb : Utilities.Source) (w : h.WF) (a : Ref) (m k : Nat) {f : Activation.Fn}
    (hf : f ∉ [Activation.Fn.adj_softmax, .swish, .mish, .softplus, .softsign]) (c : Cost.Kind) {wi : Utilities.Kind} (ht : wi = .default ∨ wi = .uniform)
    (r : Reg.Kind) (l al : ℝ) (hist : List Call) (hc : ∀ before c after, hist = before ++ c :: after → Admissible h k m a before c) :
    Runs (create gw gb m k f c a wi r l al >>= fun s => run s hist) h fun s h' => h'.WF ∧ Keeps h h' (fun _ => False) ∧
      get_n_output s = lastValue (fun | .set_n_output v => some v | _ => none) hist m ∧
      get_n_hidden s = lastValue (fun | .set_n_hidden v => some v | _ => none) hist k ∧
      get_activation s = lastActivation f hist ∧
      get_cost s = lastValue (fun | .set_cost v => some v | _ => none) hist c ∧
      get_input s = lastInput a hist ∧
      get_weight_init s = lastValue (fun | .set_weight_init v => some v | _ => none) hist wi ∧
      get_reg s = lastValue (fun | .set_reg v => some v | _ => none) hist r ∧
      get_lambda s = lastValue (fun | .set_lambda v => some v | _ => none) hist l ∧
      get_alpha s = lastValue (fun | .set_alpha v => some v | _ => none) hist al ∧
      (∀ r, setWeights hist = some r → get_weights s = r) ∧ (∀ r, setBias hist = some r → get_bias s = r) ∧ (∀ r, setDelta hist = some r → get_delta s = r) ∧
      (∀ r, setZ hist = some r → get_z s = r) ∧ (∀ r, setA hist = some r → get_a s = r) ∧ (∀ r, setZTest hist = some r → get_z_test s = r) ∧
      (∀ r, setATest hist = some r → get_a_test s = r) ∧
      (setWeights hist = none → HasM h' (get_weights s) (drawnM gw wi k m)) ∧
      (setBias hist = none → ∃ b : Fin m → ℝ, HasV h' (get_bias s) b) ∧
      (∀ before, hist = before ++ [.forward_pass] → ∃ (n k m : Nat) (X : Matrix (Fin n) (Fin k) ℝ) (W : Matrix (Fin k) (Fin m) ℝ) (b : Fin m → ℝ),
        HasM h' (get_input s) X ∧ HasM h' (get_weights s) W ∧ HasV h' (get_bias s) b ∧ HasM h' (get_z s) (fun i a => ∑ j, X i j * W j a + b a) ∧
        HasM h' (get_a s) fun i => applied (get_activation s) fun a => ∑ j, X i j * W j a + b a) ∧
      ∀ before x, hist = before ++ [.test x] → ∃ (k m : Nat) (v : Fin k → ℝ) (W : Matrix (Fin k) (Fin m) ℝ) (b : Fin m → ℝ),
        HasV h x v ∧ HasM h' (get_weights s) W ∧ HasV h' (get_bias s) b ∧
        HasV h' (get_a_test s) (applied (get_activation s) fun a => ∑ j, v j * W j a + b a) := by
  refine Runs.bind ((Life.create gw gb w a m k hf c ht r l al).mono fun s h1 L => ?_)
  refine (L.run hist (by simpa using hc)).mono fun s' h' L' => ?_
  rw [List.nil_append] at L'
  obtain ⟨a1, a2, a3, a4, a5, a6, a7, a8, a9, b1, b2, b3, b4, b5, b6, b7⟩ := L'.settings
  exact ⟨L'.wf, L'.keep, a1, a2, a3, a4, a5, a6, a7, a8, a9, b1, b2, b3, b4, b5, b6, b7, L'.own_w, L'.own_b, L'.passed, L'.tested⟩

/-- A history that meets the hypotheses of `C155_history`, on the objects of the example of C104: a forward pass of a layer made with one hidden unit and two outputs, then
other weights and another activation function, then a test. -/
example : ∀ before c after, [Call.forward_pass, .set_weights (some (.m 1)), .set_activation .tanh, .set_bias (some (.v 0)), .test (some (.v 1))] = before ++ c :: after →
    Admissible layHeap 1 2 (some (.m 0)) before c := by
  have lv : ∀ i < 3, layHeap.live (.m i) := by intro i hi; simp [layHeap, Heap.ofLists, Heap.live, Loc.id]; omega
  have lw : ∀ i < 2, layHeap.live (.v i) := by intro i hi; simp [layHeap, Heap.ofLists, Heap.live, Loc.id]; omega
  have hX : HasM layHeap (some (.m 0)) (!![5; 6] : Matrix (Fin 2) (Fin 1) ℝ) :=
    ⟨0, rfl, lv 0 (by omega), by simp [layHeap, Heap.ofLists], fun i j => by fin_cases i <;> fin_cases j <;> simp [layHeap, Heap.ofLists]⟩
  have hW : HasM layHeap (some (.m 1)) (!![7, 8] : Matrix (Fin 1) (Fin 2) ℝ) :=
    ⟨1, rfl, lv 1 (by omega), by simp [layHeap, Heap.ofLists], fun i j => by fin_cases i; fin_cases j <;> simp [layHeap, Heap.ofLists]⟩
  have hb : HasV layHeap (some (.v 0)) ![(3 : ℝ), 4] :=
    ⟨0, rfl, lw 0 (by omega), by simp [layHeap, Heap.ofLists], fun i => by fin_cases i <;> simp [layHeap, Heap.ofLists]⟩
  have v1 : HasV layHeap (some (.v 1)) ![(5 : ℝ)] :=
    ⟨1, rfl, lw 1 (by omega), by simp [layHeap, Heap.ofLists], fun i => by fin_cases i; simp [layHeap, Heap.ofLists]⟩
  intro before c after e
  match before, e with
  | [], e => cases e; exact ⟨_, _, _, _, hX, .inl ⟨rfl, rfl, rfl⟩, .inl ⟨rfl, rfl⟩⟩
  | [_], e => cases e; trivial
  | [_, _], e => cases e; simp [Admissible]
  | [_, _, _], e => cases e; trivial
  | [_, _, _, _], e => cases e; exact ⟨_, _, _, v1, .inr ⟨_, rfl, _, hW⟩, .inr ⟨_, rfl, _, hb⟩⟩
  | _ :: _ :: _ :: _ :: _ :: _, e => simp at e

end MultiOutputLayer
end Verif
