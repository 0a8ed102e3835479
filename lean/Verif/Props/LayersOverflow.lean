import Verif.Props.Layers
import Verif.Props.AutoEncoder
import Verif.Lemmas.SoftmaxUb

/-!
# C103–C105: what layers do with adj_softmax when the values do not fit, and layers with several outputs without a matrix version

Together with `C103_forward_partial`, `C104_forward_partial` and `C105_forward_partial` this settles the forward pass for every activation function.
-/

namespace Verif
open Spec Finset
variable {n k m : Nat} {h : Heap ℝ} {X : Matrix (Fin n) (Fin k) ℝ}

theorem not_fits_vec {f : Activation.Fn} {a : Ref} {v : Fin n → ℝ} (w : h.WF) (ha : HasV h a v) (hr : ¬ FitsInt f v) :
    Activation.normVector f a h = .ub := by
  unfold FitsInt at hr
  push Not at hr
  obtain ⟨rfl, i, hi⟩ := hr
  obtain ⟨o, rfl, l, io⟩ := ha
  exact Activation.adj_softmax_normv_ub w io ⟨i, fun q => absurd q.2 (not_lt.2 (hi q.1))⟩

theorem not_fits_mat {f : Activation.Fn} {a : Ref} {A : Matrix (Fin m) (Fin n) ℝ} (w : h.WF) (ha : HasM h a A) {i : Fin m} (hr : ¬ FitsInt f (A i)) :
    Activation.normMatrix f a h = .ub := by
  unfold FitsInt at hr
  push Not at hr
  obtain ⟨rfl, j, hj⟩ := hr
  obtain ⟨o, rfl, l, io⟩ := ha
  exact Activation.adj_softmax_normm_ub w io l ⟨i, j, fun q => absurd q.2 (not_lt.2 (hj q.1))⟩

section
variable {s : HiddenLayer} {θ : MParams k m}

/-- C103 (adj_softmax: false): one value `X · W + b` outside the range of `int` makes the forward pass undefined, although its softmax is defined; so does
one in `test`. -/
theorem C103_overflow_fails (gw gb : Utilities.Source) (R : HiddenReady s h X θ) (hi : s.initialized = true) :
    (∀ i, ¬ FitsInt s.activation (fun a => ∑ j, X i j * θ.1 j a + θ.2 a) → HiddenLayer.forward_pass gw gb s h = .ub) ∧
    ∀ {x : Ref} {v : Fin k → ℝ}, HasV h x v → ¬ FitsInt s.activation (fun a => ∑ j, v j * θ.1 j a + θ.2 a) → HiddenLayer.test gw gb s x h = .ub := by
  have w := R.wf
  have ux := R.input
  have uw := R.weights
  have ub := R.bias
  obtain ⟨p, q, Z, uz⟩ := R.z
  have d := R.apart
  simp only [List.nodup_cons, List.mem_cons, List.not_mem_nil, or_false, not_or, not_false_eq_true, List.nodup_nil, and_true] at d
  casesm* _ ∧ _
  have n1 : s.z ≠ s.input := by assumption
  have n2 : s.z ≠ s.weights := by assumption
  refine ⟨fun i hr => ?_, fun hx hr => ?_⟩
  · unfold HiddenLayer.forward_pass
    refine ub_step (HiddenLayer.init_skip gw gb hi h) ?_
    refine ub_bind (Hd.multb_run w uz ux uw n1 n2) fun _ h1 ⟨w1, k1, uz1⟩ => ?_
    wr k1
    refine ub_bind (Hd.add_vec_run w1 uz1 ub) fun _ h2 ⟨w2, k2, uz2⟩ => ?_
    exact bind_ub (not_fits_mat w2 uz2 (i := i) hr)
  · rename_i v
    have er : (fun a => (∑ j, θ.1 j a * v j) + θ.2 a) = fun a => ∑ j, v j * θ.1 j a + θ.2 a :=
      funext fun a => by rw [Finset.sum_congr rfl fun j _ => mul_comm (θ.1 j a) (v j)]
    unfold HiddenLayer.test
    refine ub_step (HiddenLayer.init_skip gw gb hi h) ?_
    refine ub_stepM (Hd.transposen_spec w uw) fun t h1 w1 k1 f1 ut => ?_
    nw f1 k1
    refine ub_stepV (Hd.mult_vec_spec w1 ut hx) fun z h2 w2 k2 f2 uv => ?_
    nw f2 k2
    refine ub_bind (Hd.add_run w2 uv ub) fun _ h3 ⟨w3, k3, uv3⟩ => ?_
    exact bind_ub (not_fits_vec w3 uv3 (er ▸ hr))

/-- C103 (a hidden layer with adj_softmax whose values fit): the outputs are the softmax of every row. -/
theorem C103_forward_adj_partial (gw gb : Utilities.Source) (R : HiddenReady s h X θ) (hi : s.initialized = true) (hf : s.activation = .adj_softmax)
    (hr : ∀ i a, -2147483649 < ∑ j, X i j * θ.1 j a + θ.2 a ∧ ∑ j, X i j * θ.1 j a + θ.2 a < 2147483648) :
    Runs (HiddenLayer.forward_pass gw gb s) h fun s' h' => Keeps h h' (some · = s.z) ∧ HasM h' s'.a (fun i => softmax fun a => ∑ j, X i j * θ.1 j a + θ.2 a) := by
  refine (C103_forward_partial gw gb R hi (by rw [hf]; simp) fun i _ => hr i).mono fun s' h' ⟨_, k, _, _, _, a⟩ => ⟨k, ?_⟩
  rw [hf] at a
  exact a

end

section
variable {s : OutputLayer} {θ : Params k}

/-- C104 (adj_softmax: false): one value `X · w + b` outside the range of `int` makes the forward pass undefined. -/
theorem C104_overflow_fails (gw gb : Utilities.Source) (R : OutputReady s h X θ) (hi : s.initialized = true)
    (hr : ¬ FitsInt s.activation fun i => ∑ j, X i j * θ.1 j + θ.2) : OutputLayer.forward_pass gw gb s h = .ub := by
  have w := R.wf
  have ux := R.input
  have uw := R.weights
  unfold OutputLayer.forward_pass
  refine ub_step (OutputLayer.init_skip gw gb hi h) ?_
  refine ub_stepV (Hd.mult_vec_spec w ux uw) fun t h1 w1 k1 f1 ut => ?_
  nw f1 k1
  refine ub_stepV (Hd.scalar_addn_spec w1 ut s.bias) fun z h2 w2 k2 f2 uz => ?_
  refine bind_ub (not_fits_vec w2 uz ?_)
  rw [R.bias]
  exact hr

end

section
variable {s : MultiOutputLayer} {θ : MParams k m}

theorem MultiOutputLayer.body_runs (R : MultiReady s h X θ) {Q : Out (MultiOutputLayer × Heap ℝ) → Prop}
    (next : ∀ z h', h'.WF → HasM h' z (affine X θ) → Q ((do let a ← Activation.normMatrix s.activation z; pure { s with z := z, a := a } : M ℝ MultiOutputLayer) h')) :
    Q (MultiOutputLayer.forward_pass s h) := by
  have w := R.wf
  have ux := R.input
  have uw := R.weights
  have ub := R.bias
  obtain ⟨t, h1, e1, w1, k1, f1, ut⟩ := runs_iff.1 (Hd.multn_spec w ux uw).has
  nw f1 k1
  obtain ⟨z, h2, e2, w2, k2, f2, uz⟩ := runs_iff.1 (Hd.add_vecn_spec w1 ut ub).has
  have := next z h2 w2 uz
  unfold MultiOutputLayer.forward_pass
  rw [bind_ok e1, bind_ok e2]
  exact this

/-- C105 (adj_softmax: false): one value `X · W + b` outside the range of `int` makes the forward pass undefined; so does one in `test`. -/
theorem C105_overflow_fails (R : MultiReady s h X θ) :
    (∀ i, ¬ FitsInt s.activation (fun a => ∑ j, X i j * θ.1 j a + θ.2 a) → MultiOutputLayer.forward_pass s h = .ub) ∧
    ∀ {x : Ref} {v : Fin k → ℝ}, HasV h x v → ¬ FitsInt s.activation (fun a => ∑ j, v j * θ.1 j a + θ.2 a) → MultiOutputLayer.test s x h = .ub := by
  refine ⟨fun i hr => ?_, fun hx hr => ?_⟩
  · exact MultiOutputLayer.body_runs (Q := fun o => o = .ub) R fun z h' w' uz => bind_ub (not_fits_mat w' uz (i := i) hr)
  · rename_i v
    have er : (fun a => (∑ j, θ.1 j a * v j) + θ.2 a) = fun a => ∑ j, v j * θ.1 j a + θ.2 a :=
      funext fun a => by rw [Finset.sum_congr rfl fun j _ => mul_comm (θ.1 j a) (v j)]
    have uw := R.weights
    have ub := R.bias
    unfold MultiOutputLayer.test
    refine ub_stepM (Hd.transposen_spec R.wf uw) fun t h1 w1 k1 f1 ut => ?_
    nw f1 k1
    refine ub_stepV (Hd.mult_vec_spec w1 ut hx) fun z h2 w2 k2 f2 uv => ?_
    nw f2 k2
    refine ub_stepV (Hd.addn_spec w2 uv ub) fun z h3 w3 k3 f3 uz => ?_
    exact bind_ub (not_fits_vec w3 uz (er ▸ hr))

/-- C105 (forward pass: false): with the softplus, softsign and swish functions there are no outputs, with mish the behaviour is undefined. -/
theorem C105_forward_fails (R : MultiReady s h X θ) :
    (s.activation ∈ [Activation.Fn.softplus, .softsign, .swish] → Runs (MultiOutputLayer.forward_pass s) h fun s' _ => s'.a = none) ∧
    (s.activation = .mish → MultiOutputLayer.forward_pass s h = .ub) := by
  constructor
  · intro ha
    refine runs_iff.2 ?_
    refine MultiOutputLayer.body_runs (Q := fun o => ∃ s' h', o = .ok (s', h') ∧ s'.a = none) R fun z h1 w1 uz => ?_
    obtain ⟨o, eo, lo, -⟩ := id uz
    have key : ReturnsVal (Activation.normMatrix s.activation z) h1 none := by
      rw [eo]
      simp only [List.mem_cons, List.not_mem_nil, or_false] at ha
      rcases ha with e | e | e <;> rw [e]
      · exact C45_softplus_normm_fails w1 lo
      · exact C45_softsign_normm_fails w1 lo
      · exact C45_swish_normm_fails w1 lo
    refine runs_iff.1 ?_
    refine Runs.bind (key.mono fun r h2 e => ?_)
    exact Runs.of_eq rfl e.1
  · intro ha
    refine MultiOutputLayer.body_runs (Q := fun o => o = .ub) R fun z h1 w1 uz => bind_ub ?_
    obtain ⟨o, eo, lo, -⟩ := id uz
    rw [eo, ha]
    exact C45_mish_normm_fails w1 lo

end

/-- The hypotheses are met: with the layer of `layHeap`, adj_softmax and inputs 5 and 6 the values fit; with the weight 10⁹ they do not. -/
example : (∀ i, FitsInt Activation.Fn.adj_softmax fun a : Fin 2 => ∑ j, (!![5; 6] : Matrix (Fin 2) (Fin 1) ℝ) i j * (!![7, 8] : Matrix (Fin 1) (Fin 2) ℝ) j a + ![3, 4] a) ∧
    ¬ FitsInt Activation.Fn.adj_softmax fun a : Fin 1 => ∑ j, (!![5; 6] : Matrix (Fin 2) (Fin 1) ℝ) 0 j * (!![1000000000] : Matrix (Fin 1) (Fin 1) ℝ) j a := by
  refine ⟨fun i _ a => ?_, fun H => ?_⟩
  · fin_cases i <;> fin_cases a <;> norm_num
  · have := (H rfl 0).2
    norm_num at this

end Verif
