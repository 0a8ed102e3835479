import Verif.Lemmas.Layers
import Verif.Lemmas.Example
import Mathlib.LinearAlgebra.Matrix.Notation

/-!
# C103–C105: the layers of networks: `MLPPHiddenLayer`, `MLPPOutputLayer`, `MLPPMultiOutputLayer`
-/

namespace Verif
open Spec Finset
variable {n k m : Nat} {h : Heap ℝ} {X : Matrix (Fin n) (Fin k) ℝ}

/-! ## C103: hidden layers -/

section
variable {s : HiddenLayer} {θ : MParams k m}

/-- C103 (forward pass): the outputs are the activation function of `X · W + b`, in a new matrix; of the existing objects only `z` changes; the
weights, the biases and the inputs stay. Missing: values that do not fit with adj_softmax (`C103_overflow_fails`) and the functions whose matrix version does not
work (`C103_forward_fails`). -/
theorem C103_forward_partial (gw gb : Utilities.Source) (R : HiddenReady s h X θ) (hi : s.initialized = true)
    (hf : s.activation ∉ [Activation.Fn.swish, .mish, .softplus, .softsign]) (hr : ∀ i, FitsInt s.activation fun a => ∑ j, X i j * θ.1 j a + θ.2 a) :
    Runs (HiddenLayer.forward_pass gw gb s) h fun s' h' => s' = { s with a := s'.a } ∧ Keeps h h' (some · = s.z) ∧ NotIn h s'.a ∧
      HiddenReady s' h' X θ ∧ HasM h' s'.z (fun i a => ∑ j, X i j * θ.1 j a + θ.2 a) ∧
      HasM h' s'.a (fun i => applied s.activation fun a => ∑ j, X i j * θ.1 j a + θ.2 a) :=
  (HiddenLayer.forward_run_gen gw gb R hi hf hr).mono fun s' h' ⟨e, k, nn, r, a, b⟩ => ⟨e, k, nn, r, by rw [e]; exact a, b⟩

/-- C103 (a vector): `test(x)` computes the outputs at `x`, and changes nothing that existed. -/
theorem C103_test_partial (gw gb : Utilities.Source) (R : HiddenReady s h X θ) (hi : s.initialized = true)
    {x : Ref} {v : Fin k → ℝ} (hx : HasV h x v) (hr : FitsInt s.activation fun a => ∑ j, v j * θ.1 j a + θ.2 a) :
    Runs (HiddenLayer.test gw gb s x) h fun s' h' => s' = { s with z_test := s'.z_test, a_test := s'.a_test } ∧ Keeps h h' (fun _ => False) ∧
      HiddenReady s' h' X θ ∧ HasV h' s'.a_test (applied s.activation fun a => ∑ j, v j * θ.1 j a + θ.2 a) :=
  HiddenLayer.test_run_gen gw gb R hi hx hr

/-- C103 (forward pass: false): with the softplus, softsign and swish functions there are no outputs, with mish the behaviour is undefined. -/
theorem C103_forward_fails (gw gb : Utilities.Source) (R : HiddenReady s h X θ) (hi : s.initialized = true) :
    (s.activation ∈ [Activation.Fn.softplus, .softsign, .swish] → Runs (HiddenLayer.forward_pass gw gb s) h fun s' _ => s'.a = none) ∧
    (s.activation = .mish → HiddenLayer.forward_pass gw gb s h = .ub) := by
  have w := R.wf
  have ux := R.input
  have uw := R.weights
  have ub := R.bias
  obtain ⟨p, q, Z, uz⟩ := R.z
  have d := R.apart
  simp only [List.nodup_cons, List.mem_cons, List.not_mem_nil, or_false, not_or, not_false_eq_true, List.nodup_nil, and_true] at d
  casesm* _ ∧ _
  have n1 : s.z ≠ s.input := by assumption
  have n2 : s.z ≠ s.weights := by assumption
  have pre : Runs (do Hd.multb s.z s.input s.weights; Hd.add_vec s.z s.bias) h fun _ h' => h'.WF ∧ HasM h' s.z (affine X θ) := by
    refine Runs.bind ((Hd.multb_run w uz ux uw n1 n2).mono fun _ h1 ⟨w1, k1, uz1⟩ => ?_)
    wr k1
    exact (Hd.add_vec_run w1 uz1 ub).mono fun _ h2 ⟨w2, k2, uz2⟩ => ⟨w2, uz2⟩
  obtain ⟨u, h1, e1, w1, uz1⟩ := runs_iff.1 pre
  obtain ⟨o, eo, lo, -⟩ := id uz1
  have run : HiddenLayer.forward_pass gw gb s h = (do let a ← Activation.normMatrix s.activation s.z; pure { s with a := a } : M ℝ HiddenLayer) h1 := by
    unfold HiddenLayer.forward_pass
    rw [bind_ok (HiddenLayer.init_skip gw gb hi h)]
    have := bind_ok (k := fun _ => (do let a ← Activation.normMatrix s.activation s.z; pure { s with a := a } : M ℝ HiddenLayer)) e1
    simp only [bind_assoc] at this
    exact this
  constructor
  · intro ha
    have key : ReturnsVal (Activation.normMatrix s.activation s.z) h1 none := by
      rw [eo]
      simp only [List.mem_cons, List.not_mem_nil, or_false] at ha
      rcases ha with e | e | e <;> rw [e]
      · exact C45_softplus_normm_fails w1 lo
      · exact C45_softsign_normm_fails w1 lo
      · exact C45_swish_normm_fails w1 lo
    unfold Runs
    rw [run]
    show Runs (do let a ← Activation.normMatrix s.activation s.z; pure { s with a := a } : M ℝ HiddenLayer) h1 _
    refine Runs.bind (key.mono fun r h2 e => ?_)
    exact Runs.of_eq rfl e.1
  · intro ha
    rw [run]
    refine bind_ub ?_
    rw [eo, ha]
    exact C45_mish_normm_fails w1 lo

/-- C103 (setters: false): whatever is set on a layer, weights included, the next forward pass first draws new weights, written over the old ones (the
object the caller has handed in, too), and computes with them. -/
theorem C103_setters_fails (gw gb : Utilities.Source) (v : Ref) (W : Matrix (Fin k) (Fin m) ℝ) (b : Fin m → ℝ)
    (R : HiddenReady (HiddenLayer.set_weights s v) h X (W, b)) (ht : s.weight_init = .default ∨ s.weight_init = .uniform)
    (hf : s.activation ∉ [Activation.Fn.swish, .mish, .softplus, .softsign])
    (hr : ∀ i, FitsInt s.activation fun a => ∑ j, X i j * drawnM gw s.weight_init k m j a + b a) :
    Runs (HiddenLayer.forward_pass gw gb (HiddenLayer.set_weights s v)) h fun s' h' => s'.weights = v ∧
      HasM h' v (drawnM gw s.weight_init k m) ∧
      HasM h' s'.a (fun i => applied s.activation fun a => ∑ j, X i j * drawnM gw s.weight_init k m j a + b a) := by
  refine (HiddenLayer.forward_new_run_gen gw gb R rfl ht hf hr).mono fun s' h' ⟨e, k, nn, r, a, b⟩ => ⟨?_, ?_, b⟩
  · rw [e]; rfl
  · have := r.weights
    rw [e] at this
    exact this

/-- C103 (setters: false): every setter does this, whatever it sets: the layer is no longer initialised. -/
theorem C103_every_setter_fails (s : HiddenLayer) (u : Nat) (f : Activation.Fn) (r : Ref) (x : ℝ) :
    (HiddenLayer.set_n_hidden s u).initialized = false ∧ (HiddenLayer.set_activation s f).initialized = false ∧
    (HiddenLayer.set_input s r).initialized = false ∧ (HiddenLayer.set_weights s r).initialized = false ∧
    (HiddenLayer.set_bias s r).initialized = false ∧ (HiddenLayer.set_delta s r).initialized = false ∧
    (HiddenLayer.set_lambda s x).initialized = false := ⟨rfl, rfl, rfl, rfl, rfl, rfl, rfl⟩

/-- C103 (no inputs: false): a layer without inputs (such as one made by the constructor without arguments) dereferences null. -/
theorem C103_no_input_fails (gw gb : Utilities.Source) (h : Heap ℝ) (hi : s.initialized = false) (hn : s.input = none) (x : Ref) :
    HiddenLayer.initialize_ gw gb s h = .ub ∧ HiddenLayer.forward_pass gw gb s h = .ub ∧ HiddenLayer.test gw gb s x h = .ub := by
  have e : HiddenLayer.initialize_ gw gb s h = .ub := by
    unfold HiddenLayer.initialize_
    rw [if_neg (by rw [hi]; decide), hn]
    rfl
  exact ⟨e, bind_ub e, bind_ub e⟩

/-- C103 (constructor): a new layer is initialised: its weights are the numbers drawn; nothing that existed changes. Nothing is said about the
biases: they are never written (see C64). -/
theorem C103_create_partial (gw gb : Utilities.Source) (w : h.WF) {a : Ref} (ha : HasM h a X) (f : Activation.Fn) (wi : Utilities.Kind)
    (ht : wi = .default ∨ wi = .uniform) (r : Reg.Kind) (l al : ℝ) :
    Runs (HiddenLayer.create gw gb m f a wi r l al) h fun s h' => ∃ b : Fin m → ℝ, HiddenReady s h' X (drawnM gw wi k m, b) ∧
      Keeps h h' (fun _ => False) ∧ s.initialized = true ∧ s.input = a ∧ s.activation = f ∧ s.weight_init = wi ∧ s.reg = r ∧ s.lambda = l ∧
      s.alpha = al ∧ ∀ q ∈ [s.z, s.a, s.weights, s.bias], NotIn h q := by
  unfold HiddenLayer.create
  refine stepM0 w fun oz h1 Az w1 k1 f1 bz => ?_
  have K1 := k1
  nw f1 k1
  refine stepM0 w1 fun oa h2 Aa w2 k2 f2 ba => ?_
  have g2 := f2.mono K1
  have K2 := K1.trans k2
  nw f2 k2
  refine stepV0 w2 fun o3 h3 v3 w3 k3 f3 b3 => ?_
  have K3 := K2.trans k3
  nw f3 k3
  refine stepV0 w3 fun o4 h4 v4 w4 k4 f4 b4 => ?_
  have K4 := K3.trans k4
  nw f4 k4
  refine stepM0 w4 fun o5 h5 A5 w5 k5 f5 b5 => ?_
  have K5 := K4.trans k5
  nw f5 k5
  refine stepM0 w5 fun ow h6 Aw w6 k6 f6 bw => ?_
  have g6 := f6.mono K5
  have K6 := K5.trans k6
  nw f6 k6
  refine stepV0 w6 fun ob h7 vb w7 k7 f7 bb => ?_
  have g7 := f7.mono K6
  have K7 := K6.trans k7
  nw f7 k7
  unfold HiddenLayer.initialize_
  rw [if_neg Bool.false_ne_true]
  refine Runs.step (Hd.sizem_run ha) ?_
  dsimp only
  refine Runs.bind ((Hd.resizem_run w7 bw k m).mono fun _ h8 ⟨w8, k8, W1, bw1⟩ => ?_)
  have K8 := K7.wr_new k8 g6
  wr k8
  refine Runs.bind ((Hd.resizev_run w8 bb m).mono fun _ h9 ⟨w9, k9, B1, bb1⟩ => ?_)
  have K9 := K8.wr_new k9 g7
  wr k9
  obtain ⟨o, eo, lo, io⟩ := id bw1
  cases eo
  refine Runs.bind (((Utilities.C64_matrix_partial gw h9 w9 ow W1 io wi ht).hasM lo).mono fun _ h10 ⟨w10, k10, bw2⟩ => ?_)
  have K10 := K9.wr_new k10 g6
  wr k10
  refine Runs.step (Utilities.C64_bias_vector_fails gb h10 ob) ?_
  refine Runs.of_eq rfl ⟨B1, ⟨w10, rfl, ha, bw2, bb1, ⟨_, _, _, bz⟩, ?_⟩, K10, rfl, rfl, rfl, rfl, rfl, rfl, rfl, ?_⟩
  · simp only [List.nodup_cons, List.mem_cons, List.not_mem_nil, or_false, not_or, not_false_eq_true, List.nodup_nil, and_true]
    repeat' apply And.intro
    all_goals first | assumption | exact Ne.symm (by assumption)
  · simp only [List.mem_cons, List.not_mem_nil, or_false]
    rintro q (rfl | rfl | rfl | rfl) <;> assumption

end

/-! ## C104: output layers -/

section
variable {s : OutputLayer} {θ : Params k}

/-- C104 (forward pass): the outputs are the activation function of `X · w + b`, in a new vector; nothing that existed changes. Missing: values that do
not fit with adj_softmax (`C104_overflow_fails`). -/
theorem C104_forward_partial (gw gb : Utilities.Source) (R : OutputReady s h X θ) (hi : s.initialized = true)
    (hr : FitsInt s.activation fun i => ∑ j, X i j * θ.1 j + θ.2) :
    Runs (OutputLayer.forward_pass gw gb s) h fun s' h' => s' = { s with z := s'.z, a := s'.a } ∧ Keeps h h' (fun _ => False) ∧
      OutputReady s' h' X θ ∧ HasV h' s'.z (fun i => ∑ j, X i j * θ.1 j + θ.2) ∧
      HasV h' s'.a (applied s.activation fun i => ∑ j, X i j * θ.1 j + θ.2) :=
  (OutputLayer.forward_run_gen gw gb R hi hr).mono fun s' h' ⟨e, k, n1, n2, r, a, b⟩ => ⟨e, k, r, a, b⟩

/-- C104 (a vector): `test(x)` computes the output at `x`, and changes nothing. -/
theorem C104_test (gw gb : Utilities.Source) (R : OutputReady s h X θ) (hi : s.initialized = true) {x : Ref} {v : Fin k → ℝ} (hx : HasV h x v) :
    Runs (OutputLayer.test gw gb s x) h fun s' h' => s' = { s with z_test := s'.z_test, a_test := s'.a_test } ∧ h' = h ∧
      s'.a_test = Activation.normReal s.activation (∑ j, v j * θ.1 j + θ.2) :=
  OutputLayer.test_run gw gb R hi hx

/-- C104 (setters: false): the weights and the bias that are set are lost: the next forward pass draws new ones first. -/
theorem C104_setters_fails (gw gb : Utilities.Source) (v : Ref) (x : ℝ) (W : Fin k → ℝ)
    (R : OutputReady (OutputLayer.set_bias (OutputLayer.set_weights s v) x) h X (W, x))
    (hr : FitsInt s.activation fun i => ∑ j, X i j * drawnV gw s.weight_init k j + gb.u 0) :
    Runs (OutputLayer.forward_pass gw gb (OutputLayer.set_bias (OutputLayer.set_weights s v) x)) h fun s' h' => s'.weights = v ∧
      HasV h' v (drawnV gw s.weight_init k) ∧ s'.bias = gb.u 0 ∧
      HasV h' s'.a (applied s.activation fun i => ∑ j, X i j * drawnV gw s.weight_init k j + gb.u 0) := by
  refine (OutputLayer.forward_new_run_gen gw gb R rfl hr).mono fun s' h' ⟨e, k, n1, n2, r, a, b⟩ => ⟨?_, ?_, r.bias, b⟩
  · rw [e]; rfl
  · have := r.weights
    rw [e] at this
    exact this

/-- C104 (constructor): a new layer is initialised: its weights and its bias are the numbers drawn; nothing that existed changes. -/
theorem C104_create (gw gb : Utilities.Source) (w : h.WF) {a : Ref} (ha : HasM h a X) (f : Activation.Fn) (c : Cost.Kind) (wi : Utilities.Kind)
    (r : Reg.Kind) (l al : ℝ) :
    Runs (OutputLayer.create gw gb k f c a wi r l al) h fun s h' => OutputReady s h' X (drawnV gw wi k, gb.u 0) ∧
      Keeps h h' (fun _ => False) ∧ s.initialized = true ∧ s.input = a ∧ s.activation = f ∧ s.cost = c ∧ s.weight_init = wi ∧ s.reg = r ∧
      s.lambda = l ∧ s.alpha = al ∧ NotIn h s.weights ∧ 0 ≤ s.bias ∧ s.bias < 1 := by
  unfold OutputLayer.create
  refine stepV0 w fun o1 h1 v1 w1 k1 f1 b1 => ?_
  have K1 := k1
  nw f1 k1
  refine stepV0 w1 fun o2 h2 v2 w2 k2 f2 b2 => ?_
  have K2 := K1.trans k2
  nw f2 k2
  refine stepV0 w2 fun o3 h3 v3 w3 k3 f3 b3 => ?_
  have K3 := K2.trans k3
  nw f3 k3
  refine stepV0 w3 fun o4 h4 v4 w4 k4 f4 b4 => ?_
  have g4 := f4.mono K3
  have K4 := K3.trans k4
  nw f4 k4
  refine (OutputLayer.init_run gw gb w4 rfl b4 rfl).mono fun s' h5 ⟨e5, k5, w5, b5⟩ => ?_
  have K5 := K4.wr_new k5 g4
  dsimp only at k5
  wr k5
  subst e5
  exact ⟨⟨w5, rfl, ha, b5, rfl⟩, K5, rfl, rfl, rfl, rfl, rfl, rfl, rfl, rfl, g4, (gb.u_mem 0).1, (gb.u_mem 0).2⟩

end

/-! ## C105: layers with several outputs -/

section
variable {s : MultiOutputLayer} {θ : MParams k m}

/-- C105 (forward pass): the outputs are the activation function of `X · W + b`, in a new matrix; nothing that existed changes. Missing: values
that do not fit with adj_softmax (`C105_overflow_fails`), and the functions whose matrix version does not work (`C105_forward_fails`). -/
theorem C105_forward_partial (R : MultiReady s h X θ) (hf : s.activation ∉ [Activation.Fn.swish, .mish, .softplus, .softsign])
    (hr : ∀ i, FitsInt s.activation fun a => ∑ j, X i j * θ.1 j a + θ.2 a) :
    Runs (MultiOutputLayer.forward_pass s) h fun s' h' => s' = { s with z := s'.z, a := s'.a } ∧ Keeps h h' (fun _ => False) ∧
      MultiReady s' h' X θ ∧ HasM h' s'.z (fun i a => ∑ j, X i j * θ.1 j a + θ.2 a) ∧
      HasM h' s'.a (fun i => applied s.activation fun a => ∑ j, X i j * θ.1 j a + θ.2 a) :=
  (MultiOutputLayer.forward_run_gen R hf hr).mono fun s' h' ⟨e, k, n1, n2, r, a, b⟩ => ⟨e, k, r, a, b⟩

/-- C105 (a vector): `test(x)` computes the outputs at `x`, and changes nothing that existed. -/
theorem C105_test_partial (R : MultiReady s h X θ) {x : Ref} {v : Fin k → ℝ} (hx : HasV h x v)
    (hr : FitsInt s.activation fun a => ∑ j, v j * θ.1 j a + θ.2 a) :
    Runs (MultiOutputLayer.test s x) h fun s' h' => s' = { s with z_test := s'.z_test, a_test := s'.a_test } ∧ Keeps h h' (fun _ => False) ∧
      MultiReady s' h' X θ ∧ HasV h' s'.a_test (applied s.activation fun a => ∑ j, v j * θ.1 j a + θ.2 a) :=
  MultiOutputLayer.test_run_gen R hx hr

/-- C105 (setters): here the weights that are set are those that are used. -/
theorem C105_setters_partial (v : Ref) (R : MultiReady (MultiOutputLayer.set_weights s v) h X θ)
    (hf : s.activation ∉ [Activation.Fn.swish, .mish, .softplus, .softsign]) (hr : ∀ i, FitsInt s.activation fun a => ∑ j, X i j * θ.1 j a + θ.2 a) :
    Runs (MultiOutputLayer.forward_pass (MultiOutputLayer.set_weights s v)) h fun s' h' => s'.weights = v ∧ HasM h' v θ.1 ∧
      HasM h' s'.a (fun i => applied s.activation fun a => ∑ j, X i j * θ.1 j a + θ.2 a) := by
  refine (MultiOutputLayer.forward_run_gen R hf hr).mono fun s' h' ⟨e, k, n1, n2, r, a, b⟩ => ⟨?_, ?_, b⟩
  · rw [e]; rfl
  · have := r.weights
    rw [e] at this
    exact this

theorem MultiOutputLayer.create_run (gw gb : Utilities.Source) (w : h.WF) {a : Ref} (ha : HasM h a X) (f : Activation.Fn) (c : Cost.Kind)
    (wi : Utilities.Kind) (ht : wi = .default ∨ wi = .uniform) (r : Reg.Kind) (l al : ℝ) :
    Runs (MultiOutputLayer.create gw gb m k f c a wi r l al) h fun s h' => ∃ b : Fin m → ℝ, MultiReady s h' X (drawnM gw wi k m, b) ∧
      Keeps h h' (fun _ => False) ∧ NotIn h s.weights ∧ s.input = a ∧ s.activation = f ∧ s.cost = c ∧ s.weight_init = wi ∧ s.reg = r ∧ s.lambda = l ∧ s.alpha = al := by
  unfold MultiOutputLayer.create
  refine stepM0 w fun oz h1 Az w1 k1 f1 bz => ?_
  have K1 := k1
  nw f1 k1
  refine stepM0 w1 fun oa h2 Aa w2 k2 f2 ba => ?_
  have K2 := K1.trans k2
  nw f2 k2
  refine stepV0 w2 fun o3 h3 v3 w3 k3 f3 b3 => ?_
  have K3 := K2.trans k3
  nw f3 k3
  refine stepV0 w3 fun o4 h4 v4 w4 k4 f4 b4 => ?_
  have K4 := K3.trans k4
  nw f4 k4
  refine stepM0 w4 fun o5 h5 A5 w5 k5 f5 b5 => ?_
  have K5 := K4.trans k5
  nw f5 k5
  refine stepM0 w5 fun ow h6 Aw w6 k6 f6 bw => ?_
  have g6 := f6.mono K5
  have K6 := K5.trans k6
  nw f6 k6
  refine stepV0 w6 fun ob h7 vb w7 k7 f7 bb => ?_
  have g7 := f7.mono K6
  have K7 := K6.trans k7
  nw f7 k7
  refine Runs.bind ((Hd.resizem_run w7 bw k m).mono fun _ h8 ⟨w8, k8, W1, bw1⟩ => ?_)
  have K8 := K7.wr_new k8 g6
  wr k8
  refine Runs.bind ((Hd.resizev_run w8 bb m).mono fun _ h9 ⟨w9, k9, B1, bb1⟩ => ?_)
  have K9 := K8.wr_new k9 g7
  wr k9
  obtain ⟨o, eo, lo, io⟩ := id bw1
  cases eo
  refine Runs.bind (((Utilities.C64_matrix_partial gw h9 w9 ow W1 io wi ht).hasM lo).mono fun _ h10 ⟨w10, k10, bw2⟩ => ?_)
  have K10 := K9.wr_new k10 g6
  wr k10
  refine Runs.step (Utilities.C64_bias_vector_fails gb h10 ob) ?_
  exact Runs.of_eq rfl ⟨B1, ⟨w10, ha, bw2, bb1⟩, K10, g6, rfl, rfl, rfl, rfl, rfl, rfl, rfl⟩

/-- C105 (constructor): the weights of a new layer are the numbers drawn; nothing that existed changes. Nothing is said about the biases: they are
never written (see C64). -/
theorem C105_create_partial (gw gb : Utilities.Source) (w : h.WF) {a : Ref} (ha : HasM h a X) (f : Activation.Fn) (c : Cost.Kind)
    (wi : Utilities.Kind) (ht : wi = .default ∨ wi = .uniform) (r : Reg.Kind) (l al : ℝ) :
    Runs (MultiOutputLayer.create gw gb m k f c a wi r l al) h fun s h' => ∃ b : Fin m → ℝ, MultiReady s h' X (drawnM gw wi k m, b) ∧
      Keeps h h' (fun _ => False) ∧ s.input = a ∧ s.activation = f ∧ s.cost = c ∧ s.weight_init = wi ∧ s.reg = r ∧ s.lambda = l ∧ s.alpha = al :=
  (MultiOutputLayer.create_run gw gb w ha f c wi ht r l al).mono fun _ _ ⟨b, R, K, _, q⟩ => ⟨b, R, K, q⟩

end

/-! ## The hypotheses are met -/

/-- Two rows of one column; two units. -/
noncomputable def layHeap : Heap ℝ := Heap.ofLists 0 [[3, 4], [5]] [(1, 2, [5, 6]), (2, 1, [7, 8]), (0, 0, [])]

noncomputable def exHidden (f : Activation.Fn) : HiddenLayer :=
  ⟨2, f, some (.m 0), some (.m 1), some (.v 0), some (.m 2), none, none, none, none, .none, 0, 0, .default, true⟩

noncomputable def exOutput (f : Activation.Fn) : OutputLayer :=
  ⟨1, f, .mse, some (.m 0), some (.v 1), 9, none, none, 0, 0, none, .none, 0, 0, .default, true⟩

example (f : Activation.Fn) : HiddenReady (exHidden f) layHeap !![5; 6] ((!![7, 8], ![3, 4]) : MParams 1 2) ∧
    OutputReady (exOutput f) layHeap !![5; 6] ((![5], 9) : Params 1) := by
  have lv : ∀ i < 3, layHeap.live (.m i) := by intro i hi; simp [layHeap, Heap.ofLists, Heap.live, Loc.id]; omega
  have lw : ∀ i < 2, layHeap.live (.v i) := by intro i hi; simp [layHeap, Heap.ofLists, Heap.live, Loc.id]; omega
  have w : layHeap.WF := Heap.ofLists_wf _ _ _ (by simp)
  have hX : HasM layHeap (some (.m 0)) (!![5; 6] : Matrix (Fin 2) (Fin 1) ℝ) :=
    ⟨0, rfl, lv 0 (by omega), by simp [layHeap, Heap.ofLists], fun i j => by fin_cases i <;> fin_cases j <;> simp [layHeap, Heap.ofLists]⟩
  refine ⟨⟨w, rfl, hX, ⟨1, rfl, lv 1 (by omega), ?_⟩, ⟨0, rfl, lw 0 (by omega), ?_⟩, ⟨0, 0, 0, 2, rfl, lv 2 (by omega), ?_⟩, by simp [exHidden]⟩,
    ⟨w, rfl, hX, ⟨1, rfl, lw 1 (by omega), ?_⟩, rfl⟩⟩
  · exact ⟨by simp [layHeap, Heap.ofLists], fun i j => by fin_cases i; fin_cases j <;> simp [layHeap, Heap.ofLists]⟩
  · exact ⟨by simp [layHeap, Heap.ofLists], fun i => by fin_cases i <;> simp [layHeap, Heap.ofLists]⟩
  · exact ⟨by simp [layHeap, Heap.ofLists], fun i => i.elim0⟩
  · exact ⟨by simp [layHeap, Heap.ofLists], fun i => by fin_cases i; simp [layHeap, Heap.ofLists]⟩

end Verif
