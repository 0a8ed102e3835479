import Verif.Lemmas.GanBuild
import Verif.Lemmas.MultinomialNb
import Verif.Props.Performance

/-!
# C132, C133: `MLPPGAN`

`Duo k gs ds` are the parameters of a generator with `k` inputs and the layers `gs` and of a critic with the layers `ds` and an output layer; `made` is what the
generator makes of noise, `netAt` the opinion of the critic (Spec/Gan.lean, Spec/Ann.lean). The numbers drawn are parameters.
-/

namespace Verif
open Spec hiding Same
open Finset Adversarial

namespace Spec
/-- The biases of the hidden layers are the same. -/
def SameBias : {k : Nat} → (us : List Lay) → Hiddens k us → Hiddens k us → Prop
  | _, [], _, _ => True
  | _, _ :: us, H, H' => H.1.2 = H'.1.2 ∧ SameBias us H.2 H'.2

/-- The GANs a program can have: made with `create` and changed with `add_layer`, `add_output_layer`, `generate_example` and `score`, each of which
returned, while the rest of the program did anything in between. -/
inductive GanReached : Gan → Heap ℝ → Prop
  | create {k : ℝ} {a : Ref} {h h' : Heap ℝ} {s : Gan} : Gan.create k a h = .ok (s, h') → GanReached s h'
  | other {s : Gan} {h h' : Heap ℝ} : GanReached s h → GanReached s h'
  | add_layer {s s' : Gan} {h h' : Heap ℝ} {z gw gb m f wi r l al} : GanReached s h → Gan.add_layer z gw gb s m f wi r l al h = .ok (s', h') → GanReached s' h'
  | add_output_layer {s s' : Gan} {h h' : Heap ℝ} {z gw gb wi r l al} : GanReached s h → Gan.add_output_layer z gw gb s wi r l al h = .ok (s', h') →
      GanReached s' h'
  | generate_example {s s' : Gan} {h h' : Heap ℝ} {z g m x} : GanReached s h → Gan.generate_example z g s m h = .ok ((s', x), h') → GanReached s' h'
  | score {s s' : Gan} {h h' : Heap ℝ} {z g x} : GanReached s h → Gan.score z g s h = .ok ((s', x), h') → GanReached s' h'
end Spec

variable {n k m : Nat} {h : Heap ℝ} {s : Gan} {o : Top} {us gs ds : List Lay} {P : Duo k gs ds}

/-! ## C132: building, samples, score -/

/-- C132 (constructor): a new GAN has no layers; its number of samples is that of the real ones, its number of inputs `k` without the fraction. -/
theorem C132_create (w : h.WF) {q : Nat} {R : Matrix (Fin n) (Fin q) ℝ} {a : Ref} (ha : HasM h a R) {x : ℝ} (h0 : 0 ≤ x) (h1 : x < 2147483648) :
    Runs (Gan.create x a) h fun s h' => h' = h ∧ GanBuilt (k := ⌊x⌋₊) s h' [] n () ∧ s.output_set = a ∧ s.network = [] ∧ s.output_layer = none := by
  unfold Gan.create
  refine Runs.step (Hd.sizem_run ha) ?_
  have e : Activation.toInt x h = .ok (⌊x⌋, h) := by
    unfold Activation.toInt
    rw [if_pos ⟨by linarith, h1⟩, if_pos h0]; rfl
  refine Runs.step e ?_
  exact Runs.of_eq rfl ⟨rfl, ⟨rfl, rfl, ⟨w, rfl, fun ne => absurd rfl ne, fun ne => absurd rfl ne, by simp [written]⟩⟩, rfl, rfl, rfl⟩

theorem Gan.add_layer_eq (z : Noise) (gw gb : Utilities.Source) (s : Gan) (m : Nat) (f : Activation.Fn) (wi : Utilities.Kind) (r : Reg.Kind) (l al : ℝ) :
    Gan.add_layer z gw gb s m f wi r l al = (do
      let x ← source z s.n s.k s.network
      let l ← HiddenLayer.create gw gb m f x wi r l al
      let l ← HiddenLayer.forward_pass gw gb l
      pure { s with network := s.network ++ [l] }) := by
  unfold Gan.add_layer source
  cases e : s.network with
  | nil => rfl
  | cons l ls => simp only [pure_bind]

/-- C132 (hidden layers): `add_layer` puts a layer with drawn weights behind the others, and leaves these and all else as it is. Nothing is said about its
biases: they are never written (see C64). -/
theorem C132_add_layer_partial (z : Noise) (gw gb : Utilities.Source) {H : Hiddens k us} (B : GanBuilt s h us n H) (u : Lay) (hu : u.Works) :
    Runs (Gan.add_layer z gw gb s u.units u.act u.init u.reg u.lambda u.alpha) h fun s' h' => Keeps h h' (fun _ => False) ∧
      s' = { s with network := s'.network } ∧ ∃ b : Fin u.units → ℝ, GanBuilt s' h' (us ++ [u]) n (snoc us H u (drawnM gw u.init (width k us) u.units, b)) := by
  obtain ⟨rfl, rfl, B⟩ := B
  rw [Gan.add_layer_eq]
  have T := create_stacked z gw gb B u hu
  refine Runs.congr ?_ (Runs.bind (k := fun l => pure { s with network := s.network ++ [l] }) (T.mono fun l h1 ⟨K, _, _, b, S⟩ =>
    Runs.of_eq rfl ⟨K, rfl, b, ⟨rfl, rfl, S⟩⟩))
  simp only [bind_assoc]

/-- C132 (output layer): with `add_output_layer`, whose weights and bias are drawn, the GAN is complete: half of the hidden layers and one more are the
generator, the others the critic, whose output is a sigmoid and whose loss is the logistic loss. -/
theorem C132_add_output_layer (z : Noise) (gw gb : Utilities.Source) {G : Hiddens k gs} {D : Hiddens (width k gs) ds} (B : GanBuilt s h (gs ++ ds) n (joinH gs ds G D))
    (hh : gs.length = (gs.length + ds.length) / 2 + 1) (wi : Utilities.Kind) (r : Reg.Kind) (l al : ℝ) :
    Runs (Gan.add_output_layer z gw gb s wi r l al) h fun s' h' => Keeps h h' (fun _ => False) ∧ s' = { s with output_layer := s'.output_layer } ∧
      GanReady s' h' ⟨.sigmoid, .logistic_loss, wi, r, l, al⟩ gs ds n (G, (D, (drawnV gw wi (width (width k gs) ds), gb.u 0))) := by
  have ne : s.network ≠ [] := fun e => by
    have := Ann.layers_length _ B.layers.hidden
    rw [e] at this
    simp only [List.length_nil, List.length_append] at this
    omega
  obtain ⟨z', hz⟩ := B.layers.last ne
  have hz : HasM h _ (made ds D (made gs G (noise z' n k))) := through_join (fun q A => HasM h _ A) gs G D _ hz
  have e : Gan.add_output_layer z gw gb s wi r l al = (do
      let o ← OutputLayer.create gw gb (Ann.lastUnits 0 s.network) .sigmoid .logistic_loss (Ann.lastOut none s.network) wi r l al
      pure { s with output_layer := some o }) := by
    unfold Gan.add_output_layer
    split
    · rename_i e; exact absurd e ne
    · rfl
  rw [e, B.layers.units ne, width_join]
  refine Runs.bind ((C104_create gw gb B.layers.wf hz .sigmoid .logistic_loss wi r l al).mono
    fun t h1 ⟨R1, K1, i1, e1, e2, e3, e4, e5, e6, e7, f1, _, _⟩ => ?_)
  obtain ⟨l1, l2, en, L1, L2⟩ := layers_split gs B.layers.hidden
  refine Runs.of_eq rfl ⟨K1, rfl, B.samples, B.inputs, t, rfl, R1.wf, ⟨l1, l2, en, Ann.LayersAre.keep K1 gs L1 fun _ _ _ _ _ _ => id,
    Ann.LayersAre.keep K1 ds L2 fun _ _ _ _ _ _ => id⟩, hh, ⟨R1.units, e2, e3, e4, e5, e6, e7, R1.weights, R1.bias⟩, bias_new B.layers.hidden f1, B.layers.nodup⟩

/-- C132 (output layer without hidden ones): the output layer of a GAN without hidden layers has a weight for every input, and noise as its input. -/
theorem C132_no_layers (z : Noise) (gw gb : Utilities.Source) (w : h.WF) (hs : s.network = []) (wi : Utilities.Kind) (r : Reg.Kind) (l al : ℝ) :
    Runs (Gan.add_output_layer z gw gb s wi r l al) h fun s' h' => Keeps h h' (fun _ => False) ∧ s' = { s with output_layer := s'.output_layer } ∧
      ∃ t, s'.output_layer = some t ∧ OutputReady t h' (noise z s.n s.k) (drawnV gw wi s.k, gb.u 0) ∧ t.activation = .sigmoid ∧ t.cost = .logistic_loss := by
  unfold Gan.add_output_layer
  rw [hs]
  refine stepM (noise_run z s.n s.k w) fun x h1 w1 k1 f1 hx => ?_
  refine Runs.bind ((C104_create gw gb w1 hx .sigmoid .logistic_loss wi r l al).mono fun t h2 ⟨R2, K2, _, _, e3, e4, _⟩ => ?_)
  exact Runs.of_eq rfl ⟨k1.trans K2, rfl, t, rfl, R2, e3, e4⟩

/-- C132: the hidden layers of every GAN are those of a generator and a critic. -/
theorem C132_split {H : Hiddens k us} (B : GanBuilt s h us n H) (ne : us ≠ []) : ∃ (gs ds : List Lay) (G : Hiddens k gs) (D : Hiddens (width k gs) ds),
    us = gs ++ ds ∧ gs.length = (gs.length + ds.length) / 2 + 1 ∧ GanBuilt s h (gs ++ ds) n (joinH gs ds G D) := by
  have hl := List.length_pos_iff.2 ne
  obtain ⟨gs, ds, G, D, rfl, e, q⟩ := join_exists us H (us.length / 2 + 1) (by omega)
  rw [List.length_append] at e
  exact ⟨gs, ds, G, D, rfl, e, eq_of_heq q ▸ B⟩

/-- C132 (samples, as far as it holds): `generate_example(m)` answers with what the generator makes of `m` samples of noise, after its weights have been drawn
anew. -/
theorem C132_generate_partial (z : Noise) (g : Ann.Draws) (R : GanReady s h o gs ds n P) (hu : ∀ u ∈ gs, u.Works) (m : Nat) :
    Runs (Gan.generate_example z g s m) h fun r h' => HasM h' r.2 (made gs (redrawnH g gs 0 P.1) (noise z m k)) ∧
      r.1 = { s with network := r.1.network } ∧ GanReady r.1 h' o gs ds n ((redrawnH g gs 0 P.1, P.2) : Duo k gs ds) ∧
      Keeps h h' (fun c => some c ∈ written s.network) := by
  obtain ⟨rfl, rfl, l, el, w, ⟨l1, l2, e12, L1, L2⟩, hh, O, nb, nd⟩ := R
  unfold Gan.generate_example
  rw [e12] at nb nd ⊢
  rw [List.map_append, List.mem_append, not_or] at nb
  rw [written_append, List.nodup_append] at nd
  have hl : l1.length = front (l1 ++ l2).length := by rw [List.length_append, Ann.layers_length gs L1, Ann.layers_length ds L2]; exact hh
  refine stepM (noise_run z m s.k w) fun x h1 w1 k1 f1 hx => ?_
  have L1' := Ann.LayersAre.keep k1 gs L1 fun _ _ _ _ _ _ => id
  have L2' := Ann.LayersAre.keep k1 ds L2 fun _ _ _ _ _ _ => id
  have hw' := O.weights.keep k1 fun _ _ => id
  refine Runs.bind ((gen_run g w1 L1' hl hx (Ann.notin_written L1 f1) nd.1 hu).mono fun r h2 ⟨l1', e', A⟩ => ?_)
  obtain ⟨sw, sb, -, -⟩ := Ann.same_written A.sames
  have K := A.keeps
  have L2'' : LayersAre h2 ds P.2.1 l2 := layers_off K ds L2' (fun q hq c e hc => nd.2.2 _ hc _ hq (by rw [e])) (fun q hq c e hc => by
    obtain ⟨l', hl', e1⟩ := List.mem_map.1 hq
    obtain ⟨p, v, hv⟩ := Ann.bias_of ds L2' l' hl'
    exact Ann.vec_written L1' hv (by rw [e1, e]; exact hc))
  have hw2 := hw'.keep K fun c e hc => Ann.vec_written L1' hw' (e ▸ hc)
  refine Runs.of_eq rfl ⟨A.out, rfl, ⟨rfl, rfl, l, el, A.wf, ⟨l1', l2, e', A.hidden, L2''⟩, hh,
    ⟨O.units, O.act, O.cost, O.init, O.reg, O.lambda, O.alpha, hw2, O.bias⟩, ?_, ?_⟩, ?_⟩
  · show l.weights ∉ r.1.map (·.bias)
    rw [e', List.map_append, List.mem_append, not_or, sb]
    exact nb
  · show (written r.1).Nodup
    rw [e', written_append, sw, List.nodup_append]
    exact nd
  · exact (k1.mono fun _ _ e => e.elim).trans (K.mono fun c _ hc => by rw [written_append]; exact List.mem_append_left _ hc)

theorem redrawnH_bias (g : Ann.Draws) : ∀ (us : List Lay) {k : Nat} (i : Nat) {H H' : Hiddens k us}, SameBias us H H' → redrawnH g us i H = redrawnH g us i H'
  | [], _, _, _, _, _ => rfl
  | u :: us, _, i, H, H', e => by
    unfold redrawnH
    rw [e.1, redrawnH_bias g us (i + 1) e.2]

/-- C132 (samples: false): the weights of the generator have no influence on the samples: GANs with different weights, and the same biases of hidden layers,
make the same samples of the same noise. -/
theorem C132_generate_fails (z : Noise) (g : Ann.Draws) {s' : Gan} {h' : Heap ℝ} {P' : Duo k gs ds} (R : GanReady s h o gs ds n P) (R' : GanReady s' h' o gs ds n P')
    (hu : ∀ u ∈ gs, u.Works) (eb : SameBias gs P.1 P'.1) (m : Nat) : ∃ A : Matrix (Fin m) (Fin (width k gs)) ℝ,
    (Runs (Gan.generate_example z g s m) h fun r h1 => HasM h1 r.2 A) ∧ Runs (Gan.generate_example z g s' m) h' fun r h1 => HasM h1 r.2 A :=
  ⟨_, (C132_generate_partial z g R hu m).mono fun _ _ q => q.1, (C132_generate_partial z g R' hu m).mono fun _ _ q => by
    rw [redrawnH_bias g gs 0 eb]; exact q.1⟩

/-- C132 (score, as far as it holds): the score is the fraction of generated samples that the critic takes for real ones, after all weights have been drawn
anew. -/
theorem C132_score_partial (z : Noise) (g : Ann.Draws) (R : GanReady s h o gs ds n P) (hg : ∀ u ∈ gs, u.Works) (hd : ∀ u ∈ ds, u.Works) (ho : o.Works)
    (hn : 0 < n) :
    Runs (Gan.score z g s) h fun r h' => GanReady r.1 h' o gs ds n (redrawnAll g o gs ds P) ∧
      r.2 = fraction fun i : Fin n => Nearest (netAt o ds (redrawnAll g o gs ds P).2 (made gs (redrawnAll g o gs ds P).1 (noise z n k) i)) 1 := by
  obtain ⟨rfl, rfl, l, el, D⟩ := R
  unfold Gan.score Gan.forward_pass
  rw [el]
  simp only [bind_assoc]
  refine Runs.bind ((forward_run z g D hg hd ho).mono fun r h1 ⟨A, D1, hy, _, _, _⟩ => ?_)
  simp only [pure_bind]
  refine stepV (one_run D1.wf s.n) fun one h2 w2 k2 f2 h1' => ?_
  have hy2 := hy.keep k2 fun _ _ => id
  obtain ⟨u, eu, -, iu⟩ := hy2
  obtain ⟨v, ev, -, iv⟩ := h1'
  rw [eu, ev]
  refine Runs.step (Utilities.C62_vec h2 w2 u v _ (fun _ => 1) hn iu (by simpa using iv) (fun i => by norm_num)) ?_
  refine Runs.of_eq rfl ⟨⟨rfl, rfl, r.2, rfl, w2, ?_, D1.half, ?_, D1.apart, D1.nodup⟩, rfl⟩
  · obtain ⟨l1, l2, e12, L1, L2⟩ := D1.split
    exact ⟨l1, l2, e12, Ann.LayersAre.keep k2 gs L1 fun _ _ _ _ _ _ => id, Ann.LayersAre.keep k2 ds L2 fun _ _ _ _ _ _ => id⟩
  · have O := D1.out
    exact ⟨O.units, O.act, O.cost, O.init, O.reg, O.lambda, O.alpha, O.weights.keep k2 fun _ _ => id, O.bias⟩

/-- C132 (no layers: false): a GAN without hidden layers stops the program when it is asked for samples. -/
theorem C132_empty_fails (z : Noise) (g : Ann.Draws) (w : h.WF) (hs : s.network = []) (m : Nat) : Gan.generate_example z g s m h = .crash := by
  unfold Gan.generate_example
  obtain ⟨x, h1, e, -⟩ := runs_iff.1 (noise_run z m s.k w).has
  rw [bind_ok e, hs]
  rfl

/-- C132 (no output layer: false): without an output layer the score dereferences null. -/
theorem C132_no_output_fails (z : Noise) (g : Ann.Draws) (w : h.WF) (hs : s.network = []) (ho : s.output_layer = none) : Gan.score z g s h = .ub := by
  unfold Gan.score Gan.forward_pass
  rw [ho, hs]
  refine bind_ub (bind_ub ?_)
  unfold forward
  obtain ⟨x, h1, e, -⟩ := runs_iff.1 (noise_run z s.n s.k w).has
  rw [bind_ok e]
  rfl

/-! ## C133: training -/

/-- The output layer, if there is one, has the logistic loss. -/
def Gan.Logistic (s : Gan) : Prop := ∀ l, s.output_layer = some l → l.cost = .logistic_loss

theorem OutputLayer.init_cost (gw gb : Utilities.Source) (l : OutputLayer) (h : Heap ℝ) : Ends (OutputLayer.initialize_ gw gb l) h fun l' _ => l'.cost = l.cost := by
  unfold OutputLayer.initialize_
  split
  · exact Ends.pure rfl
  · refine Ends.bind fun _ _ _ => Ends.bind fun _ _ _ => Ends.bind fun _ _ _ => Ends.pure rfl

theorem OutputLayer.pass_cost (gw gb : Utilities.Source) (l : OutputLayer) (h : Heap ℝ) : Ends (OutputLayer.forward_pass gw gb l) h fun l' _ => l'.cost = l.cost := by
  unfold OutputLayer.forward_pass
  refine Ends.bind ((OutputLayer.init_cost gw gb l h).mono fun l1 h1 e1 => ?_)
  exact Ends.bind fun _ _ _ => Ends.bind fun _ _ _ => Ends.bind fun _ _ _ => Ends.pure e1

theorem Gan.pass_cost (z : Noise) (g : Ann.Draws) (hs : s.Logistic) (h : Heap ℝ) : Ends (Gan.forward_pass z g s) h fun s' _ => s'.Logistic ∧ s'.output_layer.isSome := by
  unfold Gan.forward_pass forward
  simp only [bind_assoc]
  refine Ends.bind fun x h1 _ => Ends.bind fun r h2 _ => ?_
  unfold out
  split
  · rename_i l e
    simp only [pure_bind]
    refine Ends.bind ((OutputLayer.pass_cost _ _ _ h2).mono fun l' h3 e3 => Ends.pure ⟨fun l'' e' => ?_, rfl⟩)
    cases e'
    rw [e3]
    exact hs l e
  · exact fun a h' e => by cases e

theorem log_loss_null (y_hat : Ref) (h : Heap ℝ) : Ends (Cost.log_loss_derivv y_hat none) h fun c _ => c = none := by
  have e : Cost.log_loss_derivv y_hat none = (do
      let x ← LinAlg.scalar_addnv (-1) y_hat
      let _ ← LinAlg.scalar_multiplynv (-1) x
      pure none) := by
    unfold Cost.log_loss_derivv app2 app1
    simp only [pure_bind, bind_assoc]
    rfl
  rw [e]
  exact Ends.bind fun _ _ _ => Ends.bind fun _ _ _ => Ends.pure rfl

theorem gradientOut_null {l : OutputLayer} (hl : l.cost = .logistic_loss) (y_hat : Ref) (h : Heap ℝ) : Ends (Ann.gradientOut l y_hat none) h fun _ _ => False := by
  unfold Ann.gradientOut
  rw [hl]
  refine Ends.bind ((log_loss_null y_hat h).mono fun c h1 e => ?_)
  subst e
  refine Ends.bind fun f h2 _ => Ends.bind fun d h3 e => ?_
  cases e

theorem Gan.gd_never (z : Nat → Noise) (g : Nat → Ann.Draws) (hs : s.Logistic) (lr : ℝ) (e : Int) (h : Heap ℝ) :
    Ends (Gan.gradient_descent z g s lr e) h fun _ _ => False := by
  unfold Gan.gradient_descent
  refine Ends.bind ((Gan.pass_cost (z 0) (g 0) hs h).mono fun s1 h1 ⟨hs1, is1⟩ => ?_)
  obtain ⟨l1, el1⟩ := Option.isSome_iff_exists.1 is1
  refine Ends.bind fun _ _ _ => Ends.bind fun _ _ _ => Ends.bind fun _ _ _ => Ends.bind fun r h2 _ => Ends.bind fun _ h3 _ => ?_
  have hp : Ends (discriminator (g 1) r.1 s1.output_layer r.2) h3 fun p _ => p.2.cost = .logistic_loss := by
    unfold discriminator
    rw [el1]
    refine Ends.bind fun r h4 _ => ?_
    simp only [out, pure_bind]
    refine Ends.bind ((OutputLayer.pass_cost _ _ _ h4).mono fun l' h5 e5 => Ends.pure ?_)
    show l'.cost = _
    rw [e5]
    split
    · exact hs1 l1 el1
    · exact hs1 l1 el1
  refine Ends.bind (hp.mono fun p h4 ep => ?_)
  refine Ends.bind fun _ _ _ => Ends.bind fun _ _ _ => Ends.bind fun _ h5 _ => Ends.bind ((gradientOut_null ep _ h5).mono fun _ _ q => q.elim)

theorem Gan.reached_logistic (R : GanReached s h) : s.Logistic := by
  induction R with
  | create e =>
    have : ∀ k a (h : Heap ℝ), Ends (Gan.create k a) h fun s _ => s.Logistic := fun k a h => by
      unfold Gan.create
      exact Ends.bind fun _ _ _ => Ends.bind fun _ _ _ => Ends.pure fun l e => by cases e
    exact this _ _ _ _ _ e
  | other _ ih => exact ih
  | @add_layer s s' h h' z gw gb m f wi r l al _ e ih =>
    have : Ends (Gan.add_layer z gw gb s m f wi r l al) h fun s' _ => s'.Logistic := by
      rw [Gan.add_layer_eq]
      exact Ends.bind fun _ _ _ => Ends.bind fun _ _ _ => Ends.bind fun _ _ _ => Ends.pure ih
    exact this _ _ e
  | @add_output_layer s s' h h' z gw gb wi r l al _ e ih =>
    have c : ∀ m x h, Ends (OutputLayer.create gw gb m .sigmoid .logistic_loss x wi r l al) h fun o _ => o.cost = .logistic_loss := fun m x h => by
      unfold OutputLayer.create
      refine Ends.bind fun _ _ _ => Ends.bind fun _ _ _ => Ends.bind fun _ _ _ => Ends.bind fun _ h1 _ => (OutputLayer.init_cost _ _ _ h1)
    have : Ends (Gan.add_output_layer z gw gb s wi r l al) h fun s' _ => s'.Logistic := by
      unfold Gan.add_output_layer
      split
      · exact Ends.bind fun _ h1 _ => Ends.bind ((c _ _ h1).mono fun o h2 e => Ends.pure fun l' e' => by cases e'; exact e)
      · exact Ends.bind ((c _ _ h).mono fun o h2 e => Ends.pure fun l' e' => by cases e'; exact e)
    exact this _ _ e
  | @generate_example s s' h h' z g m x _ e ih =>
    have : Ends (Gan.generate_example z g s m) h fun r _ => r.1.Logistic := by
      unfold Gan.generate_example
      exact Ends.bind fun _ _ _ => Ends.bind fun _ _ _ => Ends.pure ih
    exact this _ _ e
  | @score s s' h h' z g x _ e ih =>
    have : Ends (Gan.score z g s) h fun r _ => r.1.Logistic := by
      unfold Gan.score
      refine Ends.bind ((Gan.pass_cost z g ih h).mono fun s1 h1 q => ?_)
      exact Ends.bind fun _ _ _ => Ends.bind fun _ _ _ => Ends.pure q.1
    exact this _ _ e

/-- C133 (training: false): `gradient_descent` never returns, whatever has been done with the GAN before, for all data, learning rates, numbers of epochs and
numbers drawn: the program is stopped or dereferences null, at the latest at the first gradients, which take the member `_output_set`, a matrix, for a vector. -/
theorem C133_training_fails (R : GanReached s h) (z : Nat → Noise) (g : Nat → Ann.Draws) (lr : ℝ) (e : Int) : ∀ r, Gan.gradient_descent z g s lr e h ≠ .ok r :=
  fun r er => Gan.gd_never z g (Gan.reached_logistic R) lr e h r.1 r.2 er

/-! ## Examples -/

/-- Three layers with one unit each, an output layer, two real samples and a vector for predictions. -/
noncomputable def duoHeap : Heap ℝ :=
  Heap.ofLists 0 [[1], [2], [3], [4], [0, 0]] [(1, 2, [5, 6]), (1, 1, [7]), (1, 1, [8]), (1, 1, [9]), (1, 1, [0]), (1, 1, [0]), (1, 1, [0])]

noncomputable def duoLay : Lay := ⟨1, .sigmoid, .default, .none, 0, 0⟩

noncomputable def duoLayer (i : Nat) : HiddenLayer :=
  ⟨1, .sigmoid, none, some (.m (1 + i)), some (.v i), some (.m (4 + i)), none, none, none, none, .none, 0, 0, .default, false⟩

noncomputable def duoOut (o : Top) : OutputLayer := ⟨1, o.act, o.cost, none, some (.v 3), 5, none, none, 0, 0, none, o.reg, o.lambda, o.alpha, o.init, false⟩

noncomputable def duoParams : Duo 1 [duoLay, duoLay] [duoLay] :=
  (((fun _ _ => 7, fun _ => 1), ((fun _ _ => 8, fun _ => 2), ())), (((fun _ _ => 9, fun _ => 3), ()), (fun _ => 4, 5)))

theorem duo_vec (x : ℝ) (i : Nat) (hi : i < 12) (e : duoHeap.buf (.v i) = [x]) (e' : duoHeap.size (.v i) = ⟨1, 1, 1⟩) :
    HasV duoHeap (some (.v i)) (fun _ : Fin 1 => x) :=
  ⟨i, rfl, by simpa [duoHeap, Heap.ofLists, Heap.live, Loc.id] using hi, e', fun j => by fin_cases j; simp [e]⟩

theorem duo_mat (x : ℝ) (i : Nat) (hi : i < 12) (e : duoHeap.buf (.m i) = [x]) (e' : duoHeap.size (.m i) = ⟨1, 1, 1⟩) :
    HasM duoHeap (some (.m i)) (fun (_ : Fin 1) (_ : Fin 1) => x) :=
  ⟨i, rfl, by simpa [duoHeap, Heap.ofLists, Heap.live, Loc.id] using hi, e', fun j c => by fin_cases j; fin_cases c; simp [e]⟩

theorem duo_is (o : Top) : DuoIs duoHeap [duoLayer 0, duoLayer 1, duoLayer 2] (duoOut o) o [duoLay, duoLay] [duoLay] duoParams := by
  have w : duoHeap.WF := Heap.ofLists_wf _ _ _ (by simp)
  refine ⟨w, ⟨[duoLayer 0, duoLayer 1], [duoLayer 2], rfl, ⟨_, _, rfl, ?_, ⟨_, _, rfl, ?_, rfl⟩⟩, ⟨_, _, rfl, ?_, rfl⟩⟩, rfl,
    ⟨rfl, rfl, rfl, rfl, rfl, rfl, rfl, duo_vec 4 3 (by omega) rfl rfl, rfl⟩, by simp [duoOut, duoLayer], by simp [written, duoLayer]⟩
  · exact ⟨rfl, rfl, rfl, rfl, rfl, rfl, duo_mat 7 1 (by omega) rfl rfl, duo_vec 1 0 (by omega) rfl rfl, 1, 1, _, duo_mat 0 4 (by omega) rfl rfl⟩
  · exact ⟨rfl, rfl, rfl, rfl, rfl, rfl, duo_mat 8 2 (by omega) rfl rfl, duo_vec 2 1 (by omega) rfl rfl, 1, 1, _, duo_mat 0 5 (by omega) rfl rfl⟩
  · exact ⟨rfl, rfl, rfl, rfl, rfl, rfl, duo_mat 9 3 (by omega) rfl rfl, duo_vec 3 2 (by omega) rfl rfl, 1, 1, _, duo_mat 0 6 (by omega) rfl rfl⟩

noncomputable def ganTop : Top := ⟨.sigmoid, .logistic_loss, .default, .none, 0, 0⟩

noncomputable def exGan : Gan := ⟨some (.m 0), none, [duoLayer 0, duoLayer 1, duoLayer 2], some (duoOut ganTop), 2, 1⟩

/-- A complete GAN with a generator of two layers and a critic of one and an output layer meets the hypotheses of C132. -/
example : GanReady exGan duoHeap ganTop [duoLay, duoLay] [duoLay] 2 duoParams ∧ duoLay.Works ∧ ganTop.Works ∧
    SameBias [duoLay, duoLay] duoParams.1 duoParams.1 :=
  ⟨⟨rfl, rfl, _, rfl, duo_is ganTop⟩, by simp [Lay.Works, duoLay], by simp [Top.Works, ganTop], rfl, rfl, trivial⟩

/-- A GAN can be made from two real samples; one layer and an output layer can be added; then its training does not return (C133). -/
example (z : Noise) (gw gb : Utilities.Source) : ∃ s h, GanReached s h ∧ s.output_layer.isSome ∧ s.network ≠ [] := by
  have w : duoHeap.WF := Heap.ofLists_wf _ _ _ (by simp)
  have hR : HasM duoHeap (some (.m 0)) (fun (i : Fin 2) (_ : Fin 1) => if i = 0 then (5 : ℝ) else 6) :=
    ⟨0, rfl, by simp [duoHeap, Heap.ofLists, Heap.live, Loc.id], by simp [duoHeap, Heap.ofLists], fun i j => by
      fin_cases i <;> fin_cases j <;> simp [duoHeap, Heap.ofLists]⟩
  obtain ⟨s1, h1, e1, -, B1, -⟩ := runs_iff.1 (C132_create w hR (x := 1) (by norm_num) (by norm_num))
  obtain ⟨s2, h2, e2, -, -, b, B2⟩ := runs_iff.1 (C132_add_layer_partial z gw gb B1 duoLay (by simp [Lay.Works, duoLay]))
  obtain ⟨gs, ds, G, D, eu, hh, B3⟩ := C132_split B2 (by simp)
  obtain ⟨s3, h3, e3, -, q, R⟩ := runs_iff.1 (C132_add_output_layer z gw gb B3 hh .default .none 0 0)
  refine ⟨s3, h3, .add_output_layer (.add_layer (.create e1) e2) e3, ?_, ?_⟩
  · obtain ⟨l, el, -⟩ := R.layers
    rw [el]; rfl
  · obtain ⟨l, el, D⟩ := R.layers
    obtain ⟨l1, l2, e12, L1, L2⟩ := D.split
    intro e
    have := Ann.layers_length _ L1
    rw [e] at e12
    have e0 : l1 = [] := by cases l1 with
      | nil => rfl
      | cons a b => cases e12
    rw [e0] at this
    exact nonempty_of_half hh (List.length_eq_zero_iff.1 this.symm)

end Verif
