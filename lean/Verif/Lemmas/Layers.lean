import Verif.Spec.Layers
import Verif.Lemmas.Thread
import Verif.Props.ActivationLift
import Verif.Lemmas.TwoLayer

/-! # The layers of networks run -/

namespace Verif
open Spec Finset

namespace Hd
variable {h : Heap ℝ} {a : Ref} {m n : Nat}

theorem resizev_same (w : h.WF) {v : Fin n → ℝ} (ha : HasV h a v) :
    Runs (resizev a n) h fun _ h' => h'.WF ∧ Keeps h h' (fun _ => False) ∧ HasV h' a v := by
  obtain ⟨x, rfl, l, i⟩ := ha
  obtain ⟨F, eF, c⟩ := i.cells w
  obtain ⟨q, e⟩ := resizeTo_same (.v x) h (w.len _)
  rw [c.1] at e
  have e' : resizev (some (.v x)) n h = .ok ((), { h with clock := q }) := e
  exact Runs.of_eq e' ⟨⟨w.len, w.vec, w.mat⟩, ⟨le_refl _, fun _ _ _ => ⟨rfl, rfl⟩⟩, x, rfl, l, i⟩

end Hd

namespace Layer
variable {h : Heap ℝ} {n k m : Nat} {f : Activation.Fn} {a : Ref}

theorem fits_of {v : Fin n → ℝ} (hf : f ≠ .adj_softmax) : FitsInt f v := fun e => absurd e hf

theorem act_vec_gen {v : Fin n → ℝ} (hr : FitsInt f v) (w : h.WF) (ha : HasV h a v) : ReturnsVec (Activation.normVector f a) h (applied f v) := by
  by_cases e : f = .softmax
  · subst e; exact Hd.softmax_normv_spec w ha
  by_cases hf : f = .adj_softmax
  · subst hf; exact Hd.adj_softmax_normv_spec w ha (hr rfl)
  · have E : Elementwise f := by cases f <;> first | exact True.intro | exact absurd rfl e | exact absurd rfl hf
    have : applied f v = fun i => Activation.normReal f (v i) := by unfold applied; cases f <;> first | rfl | exact absurd rfl e | exact absurd rfl hf
    rw [this]
    exact Hd.lifts_vec (C45_norm_vector f E) w ha

theorem act_vec (hf : f ≠ .adj_softmax) (w : h.WF) {v : Fin n → ℝ} (ha : HasV h a v) : ReturnsVec (Activation.normVector f a) h (applied f v) :=
  act_vec_gen (fits_of hf) w ha

theorem act_mat_gen (hf : f ∉ [Activation.Fn.swish, .mish, .softplus, .softsign]) (w : h.WF) {A : Matrix (Fin m) (Fin n) ℝ} (hr : ∀ i, FitsInt f (A i))
    (ha : HasM h a A) : ReturnsMat (Activation.normMatrix f a) h fun i => applied f (A i) := by
  by_cases e : f = .softmax
  · subst e; exact Hd.softmax_normm_spec w ha
  by_cases e' : f = .adj_softmax
  · subst e'; exact Hd.adj_softmax_normm_spec w ha fun i => hr i rfl
  · have E : Elementwise f := by cases f <;> first | exact True.intro | exact absurd rfl e | exact absurd rfl e'
    have : (fun i => applied f (A i)) = fun i j => Activation.normReal f (A i j) := by
      funext i; unfold applied; cases f <;> first | rfl | exact absurd rfl e | exact absurd rfl e'
    rw [this]
    simp only [List.mem_cons, not_or] at hf
    exact Hd.lifts_mat (C45_norm_matrix_partial f E (by simp; tauto)) w ha

theorem split5 (hf : f ∉ [Activation.Fn.adj_softmax, .swish, .mish, .softplus, .softsign]) :
    f ≠ .adj_softmax ∧ f ∉ [Activation.Fn.swish, .mish, .softplus, .softsign] := by
  rwa [List.mem_cons, not_or] at hf

theorem act_mat (hf : f ∉ [Activation.Fn.adj_softmax, .swish, .mish, .softplus, .softsign]) (w : h.WF) {A : Matrix (Fin m) (Fin n) ℝ} (ha : HasM h a A) :
    ReturnsMat (Activation.normMatrix f a) h fun i => applied f (A i) :=
  act_mat_gen (split5 hf).2 w (fun _ => fits_of (split5 hf).1) ha

end Layer

namespace HiddenLayer
variable {n k m : Nat} {h : Heap ℝ} {s : HiddenLayer} {X : Matrix (Fin n) (Fin k) ℝ} {θ : MParams k m}

theorem init_skip (gw gb : Utilities.Source) (hi : s.initialized = true) (h : Heap ℝ) : initialize_ gw gb s h = .ok (s, h) := by
  unfold initialize_; rw [if_pos hi]; rfl

theorem init_run (gw gb : Utilities.Source) (R : HiddenReady s h X θ) (hi : s.initialized = false)
    (ht : s.weight_init = .default ∨ s.weight_init = .uniform) :
    Runs (initialize_ gw gb s) h fun s' h' => s' = { s with initialized := true } ∧ Keeps h h' (some · = s.weights) ∧
      HiddenReady s' h' X (drawnM gw s.weight_init k m, θ.2) := by
  have hu := R.units
  subst hu
  have w := R.wf
  have ux := R.input
  have uw := R.weights
  have ub := R.bias
  obtain ⟨p, q, Z, uz⟩ := R.z
  have d := R.apart
  simp only [List.nodup_cons, List.mem_cons, List.not_mem_nil, or_false, not_or, not_false_eq_true, List.nodup_nil, and_true] at d
  casesm* _ ∧ _
  unfold initialize_
  rw [if_neg (by rw [hi]; decide)]
  refine Runs.step (Hd.sizem_run ux) ?_
  dsimp only
  refine Runs.bind ((Hd.resizem_run w uw k s.n_hidden).mono fun _ h1 ⟨w1, k1, W1, uw1⟩ => ?_)
  wr k1
  have uW := uw1
  refine Runs.bind ((Hd.resizev_same w1 ub).mono fun _ h2 ⟨w2, k2, ub'⟩ => ?_)
  adv k2
  obtain ⟨o, eo, lo, io⟩ := id uW
  rw [show s.weights.mat = some o by rw [eo]; rfl]
  have K2 : Keeps h h2 (some · = s.weights) := k1.trans (k2.mono fun _ _ e => e.elim)
  refine Runs.bind (((Utilities.C64_matrix_partial gw h2 w2 o W1 io s.weight_init ht).hasM lo).mono fun _ h3 ⟨w3, k3, uw3⟩ => ?_)
  rw [← eo] at k3 uw3
  wr k3
  obtain ⟨b, eb, lb, ib⟩ := id ub'
  rw [show s.bias.vec = some b by rw [eb]; rfl]
  refine Runs.step (Utilities.C64_bias_vector_fails gb h3 b) ?_
  refine Runs.of_eq rfl ⟨rfl, K2.trans k3, ⟨w3, rfl, ux, uw3, ub', ⟨_, _, _, uz⟩, R.apart⟩⟩

theorem body_run_gen (R : HiddenReady s h X θ) (hf : s.activation ∉ [Activation.Fn.swish, .mish, .softplus, .softsign]) (hr : ∀ i, FitsInt s.activation (affine X θ i)) :
    Runs (do Hd.multb s.z s.input s.weights; Hd.add_vec s.z s.bias; let a ← Activation.normMatrix s.activation s.z; pure { s with a := a }) h
      fun s' h' => s' = { s with a := s'.a } ∧ Keeps h h' (some · = s.z) ∧ NotIn h s'.a ∧ HiddenReady s' h' X θ ∧
        HasM h' s.z (affine X θ) ∧ HasM h' s'.a (layerOut s.activation X θ) := by
  have w := R.wf
  have ux := R.input
  have uw := R.weights
  have ub := R.bias
  obtain ⟨p, q, Z, uz⟩ := R.z
  have d := R.apart
  simp only [List.nodup_cons, List.mem_cons, List.not_mem_nil, or_false, not_or, not_false_eq_true, List.nodup_nil, and_true] at d
  casesm* _ ∧ _
  have n1 : s.z ≠ s.input := by assumption
  have n2 : s.z ≠ s.weights := by assumption
  refine Runs.bind ((Hd.multb_run w uz ux uw n1 n2).mono fun _ h1 ⟨w1, k1, uz1⟩ => ?_)
  wr k1
  refine Runs.bind ((Hd.add_vec_run w1 uz1 ub).mono fun _ h2 ⟨w2, k2, uz2⟩ => ?_)
  wr k2
  have K2 := k1.trans k2
  have uz3 : HasM h2 s.z (affine X θ) := uz2
  refine stepM (Layer.act_mat_gen hf w2 hr uz3) fun a h3 w3 k3 f3 ua => ?_
  have g3 := f3.mono K2
  adv k3
  refine Runs.of_eq rfl ⟨rfl, K2.trans (k3.mono fun _ _ e => e.elim), g3, ⟨w3, R.units, ux, uw, ub, ⟨_, _, _, uz3⟩, R.apart⟩, uz3, ua⟩

theorem body_run (R : HiddenReady s h X θ) (hf : s.activation ∉ [Activation.Fn.adj_softmax, .swish, .mish, .softplus, .softsign]) :
    Runs (do Hd.multb s.z s.input s.weights; Hd.add_vec s.z s.bias; let a ← Activation.normMatrix s.activation s.z; pure { s with a := a }) h
      fun s' h' => s' = { s with a := s'.a } ∧ Keeps h h' (some · = s.z) ∧ NotIn h s'.a ∧ HiddenReady s' h' X θ ∧
        HasM h' s.z (affine X θ) ∧ HasM h' s'.a (layerOut s.activation X θ) :=
  body_run_gen R (Layer.split5 hf).2 fun _ => Layer.fits_of (Layer.split5 hf).1

theorem forward_run_gen (gw gb : Utilities.Source) (R : HiddenReady s h X θ) (hi : s.initialized = true)
    (hf : s.activation ∉ [Activation.Fn.swish, .mish, .softplus, .softsign]) (hr : ∀ i, FitsInt s.activation (affine X θ i)) :
    Runs (forward_pass gw gb s) h fun s' h' => s' = { s with a := s'.a } ∧ Keeps h h' (some · = s.z) ∧ NotIn h s'.a ∧ HiddenReady s' h' X θ ∧
        HasM h' s.z (affine X θ) ∧ HasM h' s'.a (layerOut s.activation X θ) := by
  unfold forward_pass
  refine Runs.step (init_skip gw gb hi h) ?_
  exact body_run_gen R hf hr

theorem forward_run (gw gb : Utilities.Source) (R : HiddenReady s h X θ) (hi : s.initialized = true)
    (hf : s.activation ∉ [Activation.Fn.adj_softmax, .swish, .mish, .softplus, .softsign]) :
    Runs (forward_pass gw gb s) h fun s' h' => s' = { s with a := s'.a } ∧ Keeps h h' (some · = s.z) ∧ NotIn h s'.a ∧ HiddenReady s' h' X θ ∧
        HasM h' s.z (affine X θ) ∧ HasM h' s'.a (layerOut s.activation X θ) :=
  forward_run_gen gw gb R hi (Layer.split5 hf).2 fun _ => Layer.fits_of (Layer.split5 hf).1

theorem forward_new_run_gen (gw gb : Utilities.Source) (R : HiddenReady s h X θ) (hi : s.initialized = false)
    (ht : s.weight_init = .default ∨ s.weight_init = .uniform)
    (hf : s.activation ∉ [Activation.Fn.swish, .mish, .softplus, .softsign])
    (hr : ∀ i, FitsInt s.activation (affine X (drawnM gw s.weight_init k m, θ.2) i)) :
    Runs (forward_pass gw gb s) h fun s' h' => s' = { s with a := s'.a, initialized := true } ∧
        Keeps h h' (fun l => some l = s.z ∨ some l = s.weights) ∧ NotIn h s'.a ∧
        HiddenReady s' h' X (drawnM gw s.weight_init k m, θ.2) ∧ HasM h' s.z (affine X (drawnM gw s.weight_init k m, θ.2)) ∧
        HasM h' s'.a (layerOut s.activation X (drawnM gw s.weight_init k m, θ.2)) := by
  unfold forward_pass
  refine Runs.bind ((init_run gw gb R hi ht).mono fun s1 h1 ⟨e1, k1, R1⟩ => ?_)
  subst e1
  refine (body_run_gen R1 hf hr).mono fun s2 h2 ⟨e2, k2, n2, R2, a2, b2⟩ => ?_
  refine ⟨e2, (k1.mono fun _ _ e => Or.inr e).trans (k2.mono fun _ _ e => Or.inl e), n2.mono k1, R2, a2, b2⟩

theorem forward_new_run (gw gb : Utilities.Source) (R : HiddenReady s h X θ) (hi : s.initialized = false)
    (ht : s.weight_init = .default ∨ s.weight_init = .uniform)
    (hf : s.activation ∉ [Activation.Fn.adj_softmax, .swish, .mish, .softplus, .softsign]) :
    Runs (forward_pass gw gb s) h fun s' h' => s' = { s with a := s'.a, initialized := true } ∧
        Keeps h h' (fun l => some l = s.z ∨ some l = s.weights) ∧ NotIn h s'.a ∧
        HiddenReady s' h' X (drawnM gw s.weight_init k m, θ.2) ∧ HasM h' s.z (affine X (drawnM gw s.weight_init k m, θ.2)) ∧
        HasM h' s'.a (layerOut s.activation X (drawnM gw s.weight_init k m, θ.2)) :=
  forward_new_run_gen gw gb R hi ht (Layer.split5 hf).2 fun _ => Layer.fits_of (Layer.split5 hf).1

theorem test_run_gen (gw gb : Utilities.Source) (R : HiddenReady s h X θ) (hi : s.initialized = true)
    {x : Ref} {v : Fin k → ℝ} (hx : HasV h x v) (hr : FitsInt s.activation fun a => ∑ j, v j * θ.1 j a + θ.2 a) :
    Runs (test gw gb s x) h fun s' h' => s' = { s with z_test := s'.z_test, a_test := s'.a_test } ∧ Keeps h h' (fun _ => False) ∧
      HiddenReady s' h' X θ ∧ HasV h' s'.a_test (applied s.activation fun a => ∑ j, v j * θ.1 j a + θ.2 a) := by
  have w := R.wf
  have ux := R.input
  have uw := R.weights
  have ub := R.bias
  obtain ⟨p, q, Z, uz⟩ := R.z
  unfold test
  refine Runs.step (init_skip gw gb hi h) ?_
  refine stepM (Hd.transposen_spec w uw) fun t h1 w1 k1 f1 ut => ?_
  have K1 := k1
  nw f1 k1
  refine stepV (Hd.mult_vec_spec w1 ut hx) fun z h2 w2 k2 f2 uv => ?_
  have K2 := K1.trans k2
  have g2 := f2.mono K1
  nw f2 k2
  refine Runs.bind ((Hd.add_run w2 uv ub).mono fun _ h3 ⟨w3, k3, uv3⟩ => ?_)
  have K3 := K2.wr_new k3 g2
  wr k3
  have er : (fun a => (∑ j, θ.1 j a * v j) + θ.2 a) = fun a => ∑ j, v j * θ.1 j a + θ.2 a :=
    funext fun a => by rw [Finset.sum_congr rfl fun j _ => mul_comm (θ.1 j a) (v j)]
  refine stepV (Layer.act_vec_gen (er ▸ hr) w3 uv3) fun a h4 w4 k4 f4 ua => ?_
  have K4 := K3.trans k4
  adv k4
  refine Runs.of_eq rfl ⟨rfl, K4, ⟨w4, R.units, ux, uw, ub, ⟨_, _, _, uz⟩, R.apart⟩, ?_⟩
  refine cast (congrArg _ ?_) ua
  refine congrArg _ (funext fun a => ?_)
  show (∑ j, θ.1 j a * v j) + θ.2 a = _
  rw [Finset.sum_congr rfl fun j _ => mul_comm (θ.1 j a) (v j)]

theorem test_run (gw gb : Utilities.Source) (R : HiddenReady s h X θ) (hi : s.initialized = true) (hf : s.activation ≠ .adj_softmax)
    {x : Ref} {v : Fin k → ℝ} (hx : HasV h x v) :
    Runs (test gw gb s x) h fun s' h' => s' = { s with z_test := s'.z_test, a_test := s'.a_test } ∧ Keeps h h' (fun _ => False) ∧
      HiddenReady s' h' X θ ∧ HasV h' s'.a_test (applied s.activation fun a => ∑ j, v j * θ.1 j a + θ.2 a) :=
  test_run_gen gw gb R hi hx (Layer.fits_of hf)

end HiddenLayer

namespace OutputLayer
variable {n k : Nat} {h : Heap ℝ} {s : OutputLayer} {X : Matrix (Fin n) (Fin k) ℝ} {θ : Params k}

theorem init_skip (gw gb : Utilities.Source) (hi : s.initialized = true) (h : Heap ℝ) : initialize_ gw gb s h = .ok (s, h) := by
  unfold initialize_; rw [if_pos hi]; rfl

theorem init_run (gw gb : Utilities.Source) (w : h.WF) {p : Nat} {v : Fin p → ℝ} (hu : s.n_hidden = k) (uw : HasV h s.weights v)
    (hi : s.initialized = false) :
    Runs (initialize_ gw gb s) h fun s' h' => s' = { s with bias := gb.u 0, initialized := true } ∧ Keeps h h' (some · = s.weights) ∧ h'.WF ∧
      HasV h' s.weights (drawnV gw s.weight_init k) := by
  unfold initialize_
  rw [if_neg (by rw [hi]; decide), hu]
  refine Runs.bind ((Hd.resizev_run w uw k).mono fun _ h1 ⟨w1, k1, W1, uw1⟩ => ?_)
  obtain ⟨o, eo, lo, io⟩ := id uw1
  rw [show s.weights.vec = some o by rw [eo]; rfl]
  refine Runs.bind (((Utilities.C64_vector gw h1 w1 o W1 io s.weight_init).hasV lo).mono fun _ h2 ⟨w2, k2, uw2⟩ => ?_)
  rw [← eo] at k2 uw2
  refine Runs.step (Utilities.C64_bias (n := 0) gb h2).1 ?_
  exact Runs.of_eq rfl ⟨rfl, k1.trans k2, w2, uw2⟩

theorem body_run_gen (R : OutputReady s h X θ) (hr : FitsInt s.activation (linear X θ)) :
    Runs (do let p ← Hd.mult_vec s.input s.weights; let z ← Hd.scalar_addn p s.bias; let a ← Activation.normVector s.activation z; pure { s with z := z, a := a }) h
      fun s' h' => s' = { s with z := s'.z, a := s'.a } ∧ Keeps h h' (fun _ => False) ∧ NotIn h s'.a ∧ NotIn h s'.z ∧ OutputReady s' h' X θ ∧
        HasV h' s'.z (linear X θ) ∧ HasV h' s'.a (applied s.activation (linear X θ)) := by
  have w := R.wf
  have ux := R.input
  have uw := R.weights
  refine stepV (Hd.mult_vec_spec w ux uw) fun t h1 w1 k1 f1 ut => ?_
  have K1 := k1
  nw f1 k1
  refine stepV (Hd.scalar_addn_spec w1 ut s.bias) fun z h2 w2 k2 f2 uz => ?_
  have K2 := K1.trans k2
  have g2 := f2.mono K1
  nw f2 k2
  have uz' : HasV h2 z (linear X θ) := by
    refine cast (congrArg _ ?_) uz
    funext i
    rw [R.bias]
    rfl
  refine stepV (Layer.act_vec_gen hr w2 uz') fun a h3 w3 k3 f3 ua => ?_
  have g3 := f3.mono K2
  have K3 := K2.trans k3
  adv k3
  exact Runs.of_eq rfl ⟨rfl, K3, g3, g2, ⟨w3, R.units, ux, uw, R.bias⟩, uz', ua⟩

theorem body_run (R : OutputReady s h X θ) (hf : s.activation ≠ .adj_softmax) :
    Runs (do let p ← Hd.mult_vec s.input s.weights; let z ← Hd.scalar_addn p s.bias; let a ← Activation.normVector s.activation z; pure { s with z := z, a := a }) h
      fun s' h' => s' = { s with z := s'.z, a := s'.a } ∧ Keeps h h' (fun _ => False) ∧ NotIn h s'.a ∧ NotIn h s'.z ∧ OutputReady s' h' X θ ∧
        HasV h' s'.z (linear X θ) ∧ HasV h' s'.a (applied s.activation (linear X θ)) :=
  body_run_gen R (Layer.fits_of hf)

theorem forward_run_gen (gw gb : Utilities.Source) (R : OutputReady s h X θ) (hi : s.initialized = true) (hr : FitsInt s.activation (linear X θ)) :
    Runs (forward_pass gw gb s) h fun s' h' => s' = { s with z := s'.z, a := s'.a } ∧ Keeps h h' (fun _ => False) ∧ NotIn h s'.a ∧ NotIn h s'.z ∧
        OutputReady s' h' X θ ∧ HasV h' s'.z (linear X θ) ∧ HasV h' s'.a (applied s.activation (linear X θ)) := by
  unfold forward_pass
  refine Runs.step (init_skip gw gb hi h) ?_
  exact body_run_gen R hr

theorem forward_run (gw gb : Utilities.Source) (R : OutputReady s h X θ) (hi : s.initialized = true) (hf : s.activation ≠ .adj_softmax) :
    Runs (forward_pass gw gb s) h fun s' h' => s' = { s with z := s'.z, a := s'.a } ∧ Keeps h h' (fun _ => False) ∧ NotIn h s'.a ∧ NotIn h s'.z ∧
        OutputReady s' h' X θ ∧ HasV h' s'.z (linear X θ) ∧ HasV h' s'.a (applied s.activation (linear X θ)) :=
  forward_run_gen gw gb R hi (Layer.fits_of hf)

theorem forward_raw_run_gen (gw gb : Utilities.Source) (w : h.WF) (hu : s.n_hidden = k) (ux : HasM h s.input X) {p : Nat} {v : Fin p → ℝ} (uw : HasV h s.weights v)
    (hi : s.initialized = false) (hr : FitsInt s.activation (linear X (drawnV gw s.weight_init k, gb.u 0))) :
    Runs (forward_pass gw gb s) h fun s' h' => s' = { s with z := s'.z, a := s'.a, bias := gb.u 0, initialized := true } ∧
        Keeps h h' (some · = s.weights) ∧ NotIn h s'.a ∧ NotIn h s'.z ∧
        OutputReady s' h' X (drawnV gw s.weight_init k, gb.u 0) ∧ HasV h' s'.z (linear X (drawnV gw s.weight_init k, gb.u 0)) ∧
        HasV h' s'.a (applied s.activation (linear X (drawnV gw s.weight_init k, gb.u 0))) := by
  unfold forward_pass
  refine Runs.bind ((init_run gw gb w hu uw hi).mono fun s1 h1 ⟨e1, k1, w1, uw1⟩ => ?_)
  wr k1
  subst e1
  have R1 : OutputReady { s with bias := gb.u 0, initialized := true } h1 X (drawnV gw s.weight_init k, gb.u 0) := ⟨w1, hu, ux, uw1, rfl⟩
  refine (body_run_gen R1 hr).mono fun s2 h2 ⟨e2, k2, n2, n3, R2, a2, b2⟩ => ?_
  exact ⟨e2, k1.trans (k2.mono fun _ _ e => e.elim), n2.mono k1, n3.mono k1, R2, a2, b2⟩

theorem forward_raw_run (gw gb : Utilities.Source) (w : h.WF) (hu : s.n_hidden = k) (ux : HasM h s.input X) {p : Nat} {v : Fin p → ℝ} (uw : HasV h s.weights v)
    (hi : s.initialized = false) (hf : s.activation ≠ .adj_softmax) :
    Runs (forward_pass gw gb s) h fun s' h' => s' = { s with z := s'.z, a := s'.a, bias := gb.u 0, initialized := true } ∧
        Keeps h h' (some · = s.weights) ∧ NotIn h s'.a ∧ NotIn h s'.z ∧
        OutputReady s' h' X (drawnV gw s.weight_init k, gb.u 0) ∧ HasV h' s'.z (linear X (drawnV gw s.weight_init k, gb.u 0)) ∧
        HasV h' s'.a (applied s.activation (linear X (drawnV gw s.weight_init k, gb.u 0))) :=
  forward_raw_run_gen gw gb w hu ux uw hi (Layer.fits_of hf)

theorem forward_new_run_gen (gw gb : Utilities.Source) (R : OutputReady s h X θ) (hi : s.initialized = false)
    (hr : FitsInt s.activation (linear X (drawnV gw s.weight_init k, gb.u 0))) :
    Runs (forward_pass gw gb s) h fun s' h' => s' = { s with z := s'.z, a := s'.a, bias := gb.u 0, initialized := true } ∧
        Keeps h h' (some · = s.weights) ∧ NotIn h s'.a ∧ NotIn h s'.z ∧
        OutputReady s' h' X (drawnV gw s.weight_init k, gb.u 0) ∧ HasV h' s'.z (linear X (drawnV gw s.weight_init k, gb.u 0)) ∧
        HasV h' s'.a (applied s.activation (linear X (drawnV gw s.weight_init k, gb.u 0))) :=
  forward_raw_run_gen gw gb R.wf R.units R.input R.weights hi hr

theorem forward_new_run (gw gb : Utilities.Source) (R : OutputReady s h X θ) (hi : s.initialized = false) (hf : s.activation ≠ .adj_softmax) :
    Runs (forward_pass gw gb s) h fun s' h' => s' = { s with z := s'.z, a := s'.a, bias := gb.u 0, initialized := true } ∧
        Keeps h h' (some · = s.weights) ∧ NotIn h s'.a ∧ NotIn h s'.z ∧
        OutputReady s' h' X (drawnV gw s.weight_init k, gb.u 0) ∧ HasV h' s'.z (linear X (drawnV gw s.weight_init k, gb.u 0)) ∧
        HasV h' s'.a (applied s.activation (linear X (drawnV gw s.weight_init k, gb.u 0))) :=
  forward_new_run_gen gw gb R hi (Layer.fits_of hf)

theorem test_run (gw gb : Utilities.Source) (R : OutputReady s h X θ) (hi : s.initialized = true) {x : Ref} {v : Fin k → ℝ} (hx : HasV h x v) :
    Runs (test gw gb s x) h fun s' h' => s' = { s with z_test := s'.z_test, a_test := s'.a_test } ∧ h' = h ∧
      s'.a_test = Activation.normReal s.activation (∑ j, v j * θ.1 j + θ.2) := by
  unfold test
  refine Runs.step (init_skip gw gb hi h) ?_
  refine Runs.step (Hd.dot_run R.wf R.weights hx) ?_
  refine Runs.of_eq rfl ⟨rfl, rfl, ?_⟩
  dsimp only
  rw [R.bias]
  congr 2
  exact Finset.sum_congr rfl fun j _ => mul_comm _ _

end OutputLayer

namespace MultiOutputLayer
variable {n k m : Nat} {h : Heap ℝ} {s : MultiOutputLayer} {X : Matrix (Fin n) (Fin k) ℝ} {θ : MParams k m}

theorem forward_run_gen (R : MultiReady s h X θ) (hf : s.activation ∉ [Activation.Fn.swish, .mish, .softplus, .softsign])
    (hr : ∀ i, FitsInt s.activation (affine X θ i)) :
    Runs (forward_pass s) h fun s' h' => s' = { s with z := s'.z, a := s'.a } ∧ Keeps h h' (fun _ => False) ∧ NotIn h s'.a ∧ NotIn h s'.z ∧
        MultiReady s' h' X θ ∧ HasM h' s'.z (affine X θ) ∧ HasM h' s'.a (layerOut s.activation X θ) := by
  have w := R.wf
  have ux := R.input
  have uw := R.weights
  have ub := R.bias
  unfold forward_pass
  refine stepM (Hd.multn_spec w ux uw) fun t h1 w1 k1 f1 ut => ?_
  have K1 := k1
  nw f1 k1
  refine stepM (Hd.add_vecn_spec w1 ut ub) fun z h2 w2 k2 f2 uz => ?_
  have K2 := K1.trans k2
  have g2 := f2.mono K1
  nw f2 k2
  have uz' : HasM h2 z (affine X θ) := uz
  refine stepM (Layer.act_mat_gen hf w2 hr uz') fun a h3 w3 k3 f3 ua => ?_
  have g3 := f3.mono K2
  have K3 := K2.trans k3
  adv k3
  exact Runs.of_eq rfl ⟨rfl, K3, g3, g2, ⟨w3, ux, uw, ub⟩, uz', ua⟩

theorem forward_run (R : MultiReady s h X θ) (hf : s.activation ∉ [Activation.Fn.adj_softmax, .swish, .mish, .softplus, .softsign]) :
    Runs (forward_pass s) h fun s' h' => s' = { s with z := s'.z, a := s'.a } ∧ Keeps h h' (fun _ => False) ∧ NotIn h s'.a ∧ NotIn h s'.z ∧
        MultiReady s' h' X θ ∧ HasM h' s'.z (affine X θ) ∧ HasM h' s'.a (layerOut s.activation X θ) :=
  forward_run_gen R (Layer.split5 hf).2 fun _ => Layer.fits_of (Layer.split5 hf).1

theorem test_run_gen (R : MultiReady s h X θ) {x : Ref} {v : Fin k → ℝ} (hx : HasV h x v)
    (hr : FitsInt s.activation fun a => ∑ j, v j * θ.1 j a + θ.2 a) :
    Runs (test s x) h fun s' h' => s' = { s with z_test := s'.z_test, a_test := s'.a_test } ∧ Keeps h h' (fun _ => False) ∧
      MultiReady s' h' X θ ∧ HasV h' s'.a_test (applied s.activation fun a => ∑ j, v j * θ.1 j a + θ.2 a) := by
  have w := R.wf
  have ux := R.input
  have uw := R.weights
  have ub := R.bias
  unfold test
  refine stepM (Hd.transposen_spec w uw) fun t h1 w1 k1 f1 ut => ?_
  have K1 := k1
  nw f1 k1
  refine stepV (Hd.mult_vec_spec w1 ut hx) fun z h2 w2 k2 f2 uv => ?_
  have K2 := K1.trans k2
  nw f2 k2
  refine stepV (Hd.addn_spec w2 uv ub) fun z h3 w3 k3 f3 uz => ?_
  have K3 := K2.trans k3
  nw f3 k3
  have er : (fun a => (∑ j, θ.1 j a * v j) + θ.2 a) = fun a => ∑ j, v j * θ.1 j a + θ.2 a :=
    funext fun a => by rw [Finset.sum_congr rfl fun j _ => mul_comm (θ.1 j a) (v j)]
  refine stepV (Layer.act_vec_gen (er ▸ hr) w3 uz) fun a h4 w4 k4 f4 ua => ?_
  have K4 := K3.trans k4
  adv k4
  refine Runs.of_eq rfl ⟨rfl, K4, ⟨w4, ux, uw, ub⟩, ?_⟩
  refine cast (congrArg _ ?_) ua
  refine congrArg _ (funext fun a => ?_)
  show (∑ j, θ.1 j a * v j) + θ.2 a = _
  rw [Finset.sum_congr rfl fun j _ => mul_comm (θ.1 j a) (v j)]

theorem test_run (R : MultiReady s h X θ) (hf : s.activation ≠ .adj_softmax) {x : Ref} {v : Fin k → ℝ} (hx : HasV h x v) :
    Runs (test s x) h fun s' h' => s' = { s with z_test := s'.z_test, a_test := s'.a_test } ∧ Keeps h h' (fun _ => False) ∧
      MultiReady s' h' X θ ∧ HasV h' s'.a_test (applied s.activation fun a => ∑ j, v j * θ.1 j a + θ.2 a) :=
  test_run_gen R hx (Layer.fits_of hf)

end MultiOutputLayer
end Verif
