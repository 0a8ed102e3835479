import Verif.Lemmas.Wgan
import Verif.Props.Gan

/-!
# C134, C135: `MLPPWGAN`

See Props/Gan.lean. `WganRaw` is a complete WGAN whose output layer may still be without weights, `WganReady` one that has made a pass.
-/

namespace Verif
open Spec hiding Same
open Finset Adversarial Glm

variable {n k m q : Nat} {h : Heap ℝ} {s : Wgan} {o : Top} {us gs ds : List Lay} {R : Matrix (Fin n) (Fin q) ℝ} {P : Duo k gs ds}

/-! ## C134: building, samples, score -/

/-- C134 (constructor): a new WGAN has no layers. -/
theorem C134_create (w : h.WF) {a : Ref} (ha : HasM h a R) (k : Nat) :
    Runs (Wgan.create k a) h fun s h' => Keeps h h' (fun _ => False) ∧ WganBuilt (k := k) s h' [] R () ∧ s.output_set = a ∧ s.network = [] ∧
      s.output_layer = none ∧ NotIn h s.y_hat := by
  unfold Wgan.create
  refine stepV0 w fun y h1 v w1 k1 f1 hy => ?_
  exact Runs.of_eq rfl ⟨k1, ⟨rfl, ha.keep k1 fun _ _ => id, ⟨_, _, hy⟩, ⟨w1, rfl, fun ne => absurd rfl ne, fun ne => absurd rfl ne, by simp [written]⟩,
    by simp [written], by simp⟩, rfl, rfl, rfl, f1⟩

/-- C134 (setters): the empty constructor makes a WGAN with no inputs and no samples; with `set_k` and `set_output_set` it is as one made with both. -/
theorem C134_setters (w : h.WF) {a : Ref} (ha : HasM h a R) (k : Nat) :
    Runs Wgan.create_empty h fun s h' => s.k = 0 ∧ s.output_set = none ∧ s.network = [] ∧ s.output_layer = none ∧ Keeps h h' (fun _ => False) ∧
      WganBuilt (k := k) (Wgan.set_k (Wgan.set_output_set s a) k) h' [] R () := by
  unfold Wgan.create_empty Wgan.create
  refine stepV0 w fun y h1 v w1 k1 f1 hy => ?_
  exact Runs.of_eq rfl ⟨rfl, rfl, rfl, rfl, k1, rfl, ha.keep k1 fun _ _ => id, ⟨_, _, hy⟩, ⟨w1, rfl, fun ne => absurd rfl ne, fun ne => absurd rfl ne, by simp [written, Wgan.set_k, Wgan.set_output_set]⟩,
    by simp [written, Wgan.set_k, Wgan.set_output_set], by simp [Wgan.set_k, Wgan.set_output_set]⟩

theorem Wgan.add_layer_eq (z : Noise) (gw gb : Utilities.Source) (s : Wgan) (l : HiddenLayer) (hR : HasM h s.output_set R) :
    Wgan.add_layer z gw gb s (some l) h = (do
      let x ← source z n s.k s.network
      let l ← HiddenLayer.forward_pass gw gb (HiddenLayer.set_input l x)
      pure { s with network := s.network ++ [l] }) h := by
  unfold Wgan.add_layer source
  cases e : s.network with
  | nil => dsimp only; rw [bind_ok (Hd.sizem_run hR)]; rfl
  | cons l' ls => simp only [pure_bind]

/-- The state after a layer with the objects of `l` has been added. -/
theorem Wgan.built_snoc {H : Hiddens k us} (B : WganBuilt s h us R H) {l l' : HiddenLayer} {h' : Heap ℝ} {u : Lay} {θ : MParams (width k us) u.units}
    (hl : Blank h l) (d1 : s.output_set ∉ [l.z, l.weights]) (d2 : s.y_hat ≠ l.bias) (K : Keeps h h' (fun c => some c ∈ [l.z, l.weights, l.bias]))
    (e' : l' = { l with input := l'.input, a := l'.a, initialized := true }) (S : Stacked h' (s.network ++ [l']) (us ++ [u]) n (snoc us H u θ)) :
    WganBuilt { s with network := s.network ++ [l'] } h' (us ++ [u]) R (snoc us H u θ) := by
  obtain ⟨⟨wp, wq, wA, uw⟩, ⟨bp, bv, ub⟩, ⟨zp, zq, zA, uz⟩, na⟩ := hl
  obtain ⟨yp, yv, hy⟩ := B.y_hat
  have hR := B.output_set
  have qz : l'.z = l.z := by rw [e']
  have qw : l'.weights = l.weights := by rw [e']
  have qb : l'.bias = l.bias := by rw [e']
  simp only [List.mem_cons, List.not_mem_nil, or_false, not_or] at d1 K
  refine ⟨B.inputs, hR.keep K fun c e hc => ?_, ⟨_, _, hy.keep K fun c e hc => ?_⟩, S, ?_, ?_⟩
  · rcases hc with hc | hc | hc
    · exact d1.1 (by rw [e, hc])
    · exact d1.2 (by rw [e, hc])
    · exact ub.ne_mat hR (by rw [e, hc])
  · rcases hc with hc | hc | hc
    · exact hy.ne_mat uz (by rw [e, hc])
    · exact hy.ne_mat uw (by rw [e, hc])
    · exact d2 (by rw [e, hc])
  · rw [written_append, List.mem_append, not_or]
    refine ⟨B.apart, ?_⟩
    simp [written, qz, qw, d1.1, d1.2]
  · rw [List.map_append, List.mem_append, not_or]
    refine ⟨B.apart', ?_⟩
    simp [qb, d2]

/-- C134 (hidden layers): `add_layer(l)` draws the weights of the layer for the outputs of the last one and puts it behind the others; of what existed only
objects of the layer change. The layer's objects, of any sizes, must be its own. Nothing is said about its biases: they are never written (see C64). -/
theorem C134_add_layer_partial (z : Noise) (gw gb : Utilities.Source) {H : Hiddens k us} (B : WganBuilt s h us R H) {l : HiddenLayer} (hl : Blank h l)
    (d1 : l.z ∉ s.output_set :: Ann.lastOut none s.network :: written s.network) (d2 : l.weights ∉ s.output_set :: Ann.lastOut none s.network :: written s.network)
    (d3 : l.bias ∉ s.y_hat :: s.network.map (·.bias)) {u : Lay} (hu : u.Works) (e1 : l.n_hidden = u.units) (e2 : l.activation = u.act)
    (e3 : l.weight_init = u.init) (e4 : l.reg = u.reg) (e5 : l.lambda = u.lambda) (e6 : l.alpha = u.alpha) :
    Runs (Wgan.add_layer z gw gb s (some l)) h fun s' h' => Keeps h h' (fun c => some c ∈ [l.z, l.weights, l.bias]) ∧
      s' = { s with network := s'.network } ∧ ∃ b : Fin u.units → ℝ, WganBuilt s' h' (us ++ [u]) R (snoc us H u (drawnM gw u.init (width k us) u.units, b)) := by
  have ek := B.inputs
  subst ek
  refine (show Runs _ h _ from ?_)
  unfold Runs at *
  rw [Wgan.add_layer_eq z gw gb s l B.output_set]
  simp only [List.mem_cons, not_or] at d1 d2 d3
  have T := given_stacked z gw gb B.layers hl d1.2.2 d2.2.2 d3.2 (fun _ => by simp [Ne.symm d1.2.1, Ne.symm d2.2.1]) hu e1 e2 e3 e4 e5 e6
  refine Runs.congr ?_ (Runs.bind (k := fun l => pure { s with network := s.network ++ [l] }) (T.mono fun l' h1 ⟨K, _, el, _, b, S⟩ =>
    Runs.of_eq rfl ⟨K, rfl, b, Wgan.built_snoc B hl (by simp [Ne.symm d1.1, Ne.symm d2.1]) (Ne.symm d3.1) K el S⟩))
  simp only [bind_assoc]

/-- C134 (hidden layers): adding null changes nothing. -/
theorem C134_add_null (z : Noise) (gw gb : Utilities.Source) (s : Wgan) (h : Heap ℝ) : Wgan.add_layer z gw gb s none h = .ok (s, h) := rfl

/-- C134 (hidden layers): `create_layer` puts a new layer with drawn weights behind the others, and leaves these and all else as it is. Nothing is said about
its biases. -/
theorem C134_create_layer_partial (z : Noise) (gw gb : Utilities.Source) (junk : Reg.Kind) {H : Hiddens k us} (B : WganBuilt s h us R H) (u : Lay) (hu : u.Works) :
    Runs (Wgan.create_layer z gw gb junk s u.units u.act u.init u.reg u.lambda u.alpha) h fun s' h' => Keeps h h' (fun _ => False) ∧
      s' = { s with network := s'.network } ∧ ∃ b : Fin u.units → ℝ, WganBuilt s' h' (us ++ [u]) R (snoc us H u (drawnM gw u.init (width k us) u.units, b)) := by
  have ek := B.inputs
  subst ek
  have w := B.layers.wf
  obtain ⟨yp, yv, hy⟩ := B.y_hat
  have hR := B.output_set
  unfold Wgan.create_layer HiddenLayer.create_empty
  simp only [bind_assoc]
  refine stepM0 w fun oz h1 Az w1 k1 f1 bz => ?_
  have K1 := k1
  adv k1
  refine stepM0 w1 fun oa h2 Aa w2 k2 f2 ba => ?_
  have K2 := K1.trans k2
  adv k2
  refine stepV0 w2 fun o3 h3 v3 w3 k3 f3 b3 => ?_
  have K3 := K2.trans k3
  adv k3
  refine stepV0 w3 fun o4 h4 v4 w4 k4 f4 b4 => ?_
  have K4 := K3.trans k4
  adv k4
  refine stepM0 w4 fun o5 h5 A5 w5 k5 f5 b5 => ?_
  have K5 := K4.trans k5
  adv k5
  refine stepM0 w5 fun ow h6 Aw w6 k6 f6 bw => ?_
  have g6 := f6.mono K5
  have K6 := K5.trans k6
  have ne : some (Loc.m oz) ≠ some (Loc.m ow) := (f6.ne_mat bz).symm
  adv k6
  refine stepV0 w6 fun ob h7 vb w7 k7 f7 bb => ?_
  have g7 := f7.mono K6
  have K7 := K6.trans k7
  adv k7
  obtain ⟨l, el⟩ : ∃ l : HiddenLayer, l = HiddenLayer.set_alpha (HiddenLayer.set_lambda (HiddenLayer.set_reg (HiddenLayer.set_weight_init
    (HiddenLayer.set_activation (HiddenLayer.set_n_hidden ⟨0, .linear, none, some (.m ow), some (.v ob), some (.m oz), some (.m oa), some (.v o3), some (.v o4),
      some (.m o5), junk, 0, 0, .default, false⟩ u.units) u.act) u.init) u.reg) u.lambda) u.alpha := ⟨_, rfl⟩
  have B7 : WganBuilt (k := s.k) s h7 us R H := ⟨rfl, B.output_set.keep K7 fun _ _ => id, ⟨_, _, B.y_hat.choose_spec.choose_spec.keep K7 fun _ _ => id⟩,
    ⟨w7, layers_off K7 us B.layers.hidden (fun _ _ _ _ => id) (fun _ _ _ _ => id), fun ne => (B.layers.last ne).imp fun z hz => hz.keep K7 fun _ _ => id,
      B.layers.units, B.layers.nodup⟩, B.apart, B.apart'⟩
  have lz : l.z = some (.m oz) := by rw [el]; rfl
  have lw : l.weights = some (.m ow) := by rw [el]; rfl
  have lb : l.bias = some (.v ob) := by rw [el]; rfl
  have hl : Blank h7 l := ⟨⟨_, _, _, lw ▸ bw⟩, ⟨_, _, lb ▸ bb⟩, ⟨_, _, _, lz ▸ bz⟩, by rw [lz, lw]; exact ne⟩
  have last_ne : ∀ {r : Ref}, NotIn h r → r ≠ Ann.lastOut none s.network ∨ s.network = [] := fun {r} f => by
    by_cases e : s.network = []
    · exact Or.inr e
    · obtain ⟨z', hz⟩ := B.layers.last e
      exact Or.inl (f.ne_mat hz)
  have T := given_stacked z gw gb B7.layers hl (lz ▸ Ann.notin_written B.layers.hidden f1) (lw ▸ Ann.notin_written B.layers.hidden g6)
    (lb ▸ bias_new B.layers.hidden g7) (fun e => by
      obtain ⟨z', hz⟩ := B.layers.last e
      simp [lz, lw, Ne.symm (f1.ne_mat hz), Ne.symm (g6.ne_mat hz)]) hu (by rw [el]; rfl) (by rw [el]; rfl) (by rw [el]; rfl) (by rw [el]; rfl)
    (by rw [el]; rfl) (by rw [el]; rfl)
  simp only [pure_bind]
  rw [← el]
  refine Runs.step (Hd.sizem_run B7.output_set) ?_
  have T2 := Runs.bind (k := fun l => pure { s with network := s.network ++ [l] }) (T.mono fun l' h1 ⟨K, _, el', _, b, S⟩ =>
    (Runs.of_eq (Q := fun s' h' => Keeps h h' (fun _ => False) ∧ s' = { s with network := s'.network } ∧ ∃ b : Fin u.units → ℝ,
      WganBuilt s' h' (us ++ [u]) R (snoc us H u (drawnM gw u.init (width s.k us) u.units, b))) rfl
      ⟨K7.trans_new K fun c hc hl => by
        simp only [lz, lw, lb, List.mem_cons, List.not_mem_nil, or_false] at hc
        rcases hc with hc | hc | hc
        · exact (f1 c hc.symm hl).elim
        · exact (g6 c hc.symm hl).elim
        · exact (g7 c hc.symm hl).elim, rfl, b, Wgan.built_snoc B7 hl (by
          simp only [lz, lw, List.mem_cons, List.not_mem_nil, or_false, not_or]
          exact ⟨(f1.ne_mat B.output_set).symm, (g6.ne_mat B.output_set).symm⟩) (by rw [lb]; exact (g7.ne B.y_hat.choose_spec.choose_spec).symm) K el' S⟩))
  refine Runs.congr ?_ T2
  simp only [bind_assoc]
  unfold source
  cases e : s.network with
  | nil => rfl
  | cons l' ls => simp only [pure_bind]

/-- C134 (layers by number): `get_layer` answers with the layers in the order in which they were added, and with null for numbers that are not those of layers. -/
theorem C134_get_layer (s : Wgan) (i : Int) : (∀ (a : Nat) (ha : a < Wgan.get_layer_count s), i = a → Wgan.get_layer s i = some (s.network[a]'ha)) ∧
    (i < 0 ∨ Wgan.get_layer_count s ≤ i → Wgan.get_layer s i = none) := by
  unfold Wgan.get_layer Wgan.get_layer_count
  refine ⟨fun a ha e => ?_, fun hi => ?_⟩
  · subst e
    simp
  · rcases hi with hi | hi
    · rw [if_neg (by omega)]
    · rw [if_pos (by omega), List.getElem?_eq_none (by omega)]

/-- C134 (layers by number): `remove_layer(i)` takes the layer number `i` out and leaves the order of the others; a number that is not that of a layer changes
nothing. -/
theorem C134_remove_layer (s : Wgan) (i : Int) :
    (∀ (l1 l2 : List HiddenLayer) (l : HiddenLayer), s.network = l1 ++ l :: l2 → i = l1.length → Wgan.remove_layer s i = { s with network := l1 ++ l2 }) ∧
    (i < 0 ∨ Wgan.get_layer_count s ≤ i → Wgan.remove_layer s i = s) := by
  unfold Wgan.remove_layer Wgan.get_layer_count
  refine ⟨fun l1 l2 l e ei => ?_, fun hi => ?_⟩
  · subst ei
    rw [if_pos (by omega), e]
    congr 1
    rw [Int.toNat_natCast, List.eraseIdx_append_of_length_le (le_refl _)]
    simp
  · rcases hi with hi | hi
    · rw [if_neg (by omega)]
    · rw [if_pos (by omega), List.eraseIdx_of_length_le (by omega)]

/-- C134 (output layer, as far as it holds): with `add_output_layer` the WGAN is complete: half of the hidden layers and one more are the generator, the others
the critic, whose output is linear and whose loss is the Wasserstein loss. The weights are drawn in the first pass. The kind of regularisation is not `r`, but
what the memory contained. -/
theorem C134_add_output_layer_partial (junk : Cost.Kind × Reg.Kind) {G : Hiddens k gs} {D : Hiddens (width k gs) ds} (B : WganBuilt s h (gs ++ ds) R (joinH gs ds G D))
    (hh : gs.length = (gs.length + ds.length) / 2 + 1) (hs : s.output_layer = none) (wi : Utilities.Kind) (r : Reg.Kind) (l al : ℝ) :
    Runs (Wgan.add_output_layer junk s wi r l al) h fun s' h' => Keeps h h' (fun _ => False) ∧ s' = { s with output_layer := s'.output_layer } ∧
      ∀ θ, WganRaw s' h' ⟨.linear, .wasserstein_loss, wi, junk.2, l, al⟩ gs ds R ((G, (D, θ)) : Duo k gs ds) := by
  have ne : s.network ≠ [] := fun e => by
    have := Ann.layers_length _ B.layers.hidden
    rw [e] at this
    simp only [List.length_nil, List.length_append] at this
    omega
  have e : Wgan.add_output_layer junk s wi r l al = (do
      let o ← OutputLayer.create_empty junk.1 junk.2
      pure { s with output_layer := some { o with n_hidden := Ann.lastUnits 0 s.network, activation := .linear, cost := .wasserstein_loss,
                                                  input := Ann.lastOut none s.network, weight_init := wi, lambda := l, alpha := al, initialized := false } }) := by
    unfold Wgan.add_output_layer Wgan.someOut
    rw [hs]
    split
    · rename_i e; exact absurd e ne
    · rfl
  rw [e, B.layers.units ne, width_join]
  have w := B.layers.wf
  unfold OutputLayer.create_empty
  simp only [bind_assoc]
  refine stepV0 w fun o1 h1 v1 w1 k1 f1 b1 => ?_
  refine stepV0 w1 fun o2 h2 v2 w2 k2 f2 b2 => ?_
  have K2 := k1.trans k2
  refine stepV0 w2 fun o3 h3 v3 w3 k3 f3 b3 => ?_
  have K3 := K2.trans k3
  refine stepV0 w3 fun o4 h4 v4 w4 k4 f4 b4 => ?_
  have g4 := f4.mono K3
  have K4 := K3.trans k4
  simp only [pure_bind]
  obtain ⟨l1, l2, en, L1, L2⟩ := layers_split gs B.layers.hidden
  obtain ⟨yp, yv, hy⟩ := B.y_hat
  refine Runs.of_eq rfl ⟨K4, rfl, fun θ => ⟨B.inputs, B.output_set.keep K4 fun _ _ => id, ⟨_, _, hy.keep K4 fun _ _ => id⟩, ⟨_, rfl, ⟨w4, ⟨l1, l2, en,
    Ann.LayersAre.keep K4 gs L1 fun _ _ _ _ _ _ => id, Ann.LayersAre.keep K4 ds L2 fun _ _ _ _ _ _ => id⟩, hh,
    ⟨rfl, rfl, rfl, rfl, rfl, rfl, rfl, _, _, b4⟩, bias_new B.layers.hidden g4, B.layers.nodup⟩, (g4.ne hy).symm⟩, B.apart, B.apart'⟩⟩

/-- C134 (output layer: false): the kind of regularisation given to `add_output_layer` has no influence. -/
theorem C134_regularisation_fails (junk : Cost.Kind × Reg.Kind) (s : Wgan) (wi : Utilities.Kind) (r r' : Reg.Kind) (l al : ℝ) :
    Wgan.add_output_layer junk s wi r l al = Wgan.add_output_layer junk s wi r' l al := rfl

/-- C134 (output layer: false): without hidden layers `add_output_layer` adds nothing, and then the score dereferences null. -/
theorem C134_no_layers_fails (junk : Cost.Kind × Reg.Kind) (w : h.WF) (hs : s.network = []) (ho : s.output_layer = none) (hR : HasM h s.output_set R)
    (wi : Utilities.Kind) (r : Reg.Kind) (l al : ℝ) (z : Noise) (g : Ann.Draws) :
    Wgan.add_output_layer junk s wi r l al h = .ok (s, h) ∧ Wgan.score z g s h = .ub := by
  refine ⟨by unfold Wgan.add_output_layer; rw [hs]; rfl, ?_⟩
  unfold Wgan.score Wgan.forward_pass
  refine bind_ub ?_
  rw [bind_ok (Hd.sizem_run hR), ho, hs]
  refine bind_ub ?_
  unfold forward
  obtain ⟨x, h1, e, -⟩ := runs_iff.1 (noise_run z n s.k w).has
  rw [bind_ok e]
  rfl

/-- C134: the hidden layers of every WGAN are those of a generator and a critic. -/
theorem C134_split {H : Hiddens k us} (B : WganBuilt s h us R H) (ne : us ≠ []) : ∃ (gs ds : List Lay) (G : Hiddens k gs) (D : Hiddens (width k gs) ds),
    us = gs ++ ds ∧ gs.length = (gs.length + ds.length) / 2 + 1 ∧ WganBuilt s h (gs ++ ds) R (joinH gs ds G D) := by
  have hl := List.length_pos_iff.2 ne
  obtain ⟨gs, ds, G, D, rfl, e, q⟩ := join_exists us H (us.length / 2 + 1) (by omega)
  rw [List.length_append] at e
  exact ⟨gs, ds, G, D, rfl, e, eq_of_heq q ▸ B⟩

/-- C134 (samples, as far as it holds): `generate_example(m)` answers with what the generator makes of `m` samples of noise, after its weights have been drawn
anew; of what existed only objects of the layers change. -/
theorem C134_generate_partial (z : Noise) (g : Ann.Draws) (I : WganRaw s h o gs ds R P) (hu : ∀ u ∈ gs, u.Works) (m : Nat) :
    Runs (Wgan.generate_example z g s m) h fun r h' => HasM h' r.2 (made gs (redrawnH g gs 0 P.1) (noise z m k)) ∧
      r.1 = { s with network := r.1.network } ∧ WganRaw r.1 h' o gs ds R ((redrawnH g gs 0 P.1, P.2) : Duo k gs ds) ∧
      Keeps h h' (fun c => some c ∈ written s.network) := by
  obtain ⟨rfl, hR, ⟨yp, yv, hy⟩, ⟨l, el, ⟨w, ⟨l1, l2, e12, L1, L2⟩, hh, O, nb, nd⟩, ny⟩, nR, nY⟩ := I
  unfold Wgan.generate_example
  rw [e12] at nb nd nR nY ⊢
  rw [List.map_append, List.mem_append, not_or] at nb
  rw [List.map_append] at nY
  rw [written_append, List.nodup_append] at nd
  have hl : l1.length = front (l1 ++ l2).length := by rw [List.length_append, Ann.layers_length gs L1, Ann.layers_length ds L2]; exact hh
  refine stepM (noise_run z m s.k w) fun x h1 w1 k1 f1 hx => ?_
  have L1' := Ann.LayersAre.keep k1 gs L1 fun _ _ _ _ _ _ => id
  have L2' := Ann.LayersAre.keep k1 ds L2 fun _ _ _ _ _ _ => id
  obtain ⟨wp, wv, hw⟩ := O.weights
  have hw' := hw.keep k1 fun _ _ => id
  have hR' := hR.keep k1 fun _ _ => id
  have hy' := hy.keep k1 fun _ _ => id
  refine Runs.bind ((gen_run g w1 L1' hl hx (Ann.notin_written L1 f1) nd.1 hu).mono fun r h2 ⟨l1', e', A⟩ => ?_)
  obtain ⟨sw, sb, -, -⟩ := Ann.same_written A.sames
  have K := A.keeps
  have L2'' : LayersAre h2 ds P.2.1 l2 := layers_off K ds L2' (fun q hq c e hc => nd.2.2 _ hc _ hq (by rw [e])) (fun q hq c e hc => by
    obtain ⟨l', hl', e1⟩ := List.mem_map.1 hq
    obtain ⟨p, v, hv⟩ := Ann.bias_of ds L2' l' hl'
    exact Ann.vec_written L1' hv (by rw [e1, e]; exact hc))
  have offV : ∀ {p : Nat} {v : Fin p → ℝ} {a : Ref}, HasV h1 a v → HasV h2 a v := fun ha => ha.keep K fun c e hc => Ann.vec_written L1' ha (e ▸ hc)
  have ew : written r.1 = written (l1 ++ l2) := by rw [e', written_append, sw, ← written_append]
  have eb : r.1.map (·.bias) = l1.map (·.bias) ++ l2.map (·.bias) := by rw [e', List.map_append, sb]
  refine Runs.of_eq rfl ⟨A.out, rfl, ⟨rfl, hR'.keep K fun c e hc => nR (by rw [written_append]; exact List.mem_append_left _ (e ▸ hc)), ⟨_, _, offV hy'⟩,
    ⟨l, el, ⟨A.wf, ⟨l1', l2, e', A.hidden, L2''⟩, hh,
    ⟨O.units, O.act, O.cost, O.init, O.reg, O.lambda, O.alpha, _, _, offV hw'⟩, ?_, ?_⟩, ny⟩, ?_, ?_⟩, ?_⟩
  · show l.weights ∉ r.1.map (·.bias)
    rw [eb, List.mem_append, not_or]
    exact nb
  · show (written r.1).Nodup
    rw [ew, written_append, List.nodup_append]
    exact nd
  · show s.output_set ∉ written r.1
    rw [ew]; exact nR
  · show s.y_hat ∉ r.1.map (·.bias)
    rw [eb]; exact nY
  · exact (k1.mono fun _ _ e => e.elim).trans (K.mono fun c _ hc => by rw [written_append]; exact List.mem_append_left _ hc)

/-- C134 (samples: false): the weights of the generator have no influence on the samples: WGANs with different weights, and the same biases of hidden layers,
make the same samples of the same noise. -/
theorem C134_generate_fails (z : Noise) (g : Ann.Draws) {s' : Wgan} {h' : Heap ℝ} {P' : Duo k gs ds} (I : WganRaw s h o gs ds R P) (I' : WganRaw s' h' o gs ds R P')
    (hu : ∀ u ∈ gs, u.Works) (eb : SameBias gs P.1 P'.1) (m : Nat) : ∃ A : Matrix (Fin m) (Fin (width k gs)) ℝ,
    (Runs (Wgan.generate_example z g s m) h fun r h1 => HasM h1 r.2 A) ∧ Runs (Wgan.generate_example z g s' m) h' fun r h1 => HasM h1 r.2 A :=
  ⟨_, (C134_generate_partial z g I hu m).mono fun _ _ q => q.1, (C134_generate_partial z g I' hu m).mono fun _ _ q => by
    rw [redrawnH_bias g gs 0 eb]; exact q.1⟩

/-- C134 (samples: false): a WGAN without hidden layers stops the program when it is asked for samples. -/
theorem C134_empty_fails (z : Noise) (g : Ann.Draws) (w : h.WF) (hs : s.network = []) (m : Nat) : Wgan.generate_example z g s m h = .crash := by
  unfold Wgan.generate_example
  obtain ⟨x, h1, e, -⟩ := runs_iff.1 (noise_run z m s.k w).has
  rw [bind_ok e, hs]
  rfl

/-- C134 (score, as far as it holds): the score is the fraction of generated samples for which the opinion of the critic rounds to 1, after all weights have been
drawn anew; the object shows these opinions. -/
theorem C134_score_partial (z : Noise) (g : Ann.Draws) (I : WganRaw s h o gs ds R P) (hg : ∀ u ∈ gs, u.Works) (hd : ∀ u ∈ ds, u.Works) (ho : o.Works)
    (hn : 0 < n) :
    Runs (Wgan.score z g s) h fun r h' => WganReady r.1 h' o gs ds R (redrawnAll g o gs ds P) ∧
      HasV h' r.1.y_hat (fun i : Fin n => netAt o ds (redrawnAll g o gs ds P).2 (made gs (redrawnAll g o gs ds P).1 (noise z n k) i)) ∧
      r.2 = fraction fun i : Fin n => Nearest (netAt o ds (redrawnAll g o gs ds P).2 (made gs (redrawnAll g o gs ds P).1 (noise z n k) i)) 1 := by
  obtain ⟨l, el, -⟩ := I.layers
  unfold Wgan.score
  refine Runs.bind ((Wgan.forward_raw z g I el hg hd ho).mono fun s1 h1 ⟨l1, N, hy, _⟩ => ?_)
  have I1 := N.ready
  refine Runs.step (Hd.sizem_run I1.output_set) ?_
  obtain ⟨l1', el1, D1, ny1⟩ := I1.layers
  refine stepV (one_run D1.wf n) fun one h2 w2 k2 f2 h1' => ?_
  have hy2 := hy.keep k2 fun _ _ => id
  obtain ⟨u, eu, -, iu⟩ := id hy2
  obtain ⟨v, ev, -, iv⟩ := h1'
  rw [eu, ev]
  refine Runs.step (Utilities.C62_vec h2 w2 u v _ (fun _ => 1) hn iu (by simpa using iv) (fun i => by norm_num)) ?_
  exact Runs.of_eq rfl ⟨⟨I1.inputs, I1.output_set.keep k2 fun _ _ => id, ⟨_, _, hy2⟩, ⟨l1', el1, Wgan.duo_keep D1 w2 k2, ny1⟩, I1.apart, I1.apart'⟩, hy2, rfl⟩

/-! ## C135: training -/

/-- C135 (training, as far as it holds): every epoch makes five steps of gradient descent for the critic, on the loss whose targets are −1 for samples made by the
generator and 1 for the real ones, and one for the generator, on the loss of the critic's opinions with the target 1; the step size is the rate divided by the
number of samples. But before every step all weights are drawn again (`redrawnAll` in `CriticStep`, `GeneratorStep` and `Epoch`). The object shows the opinions
of the last critic on samples of the last generator. The critic must have a hidden layer. -/
theorem C135_gradient_descent_partial {R : Matrix (Fin n) (Fin (width k gs)) ℝ} (fuel : Nat) (w : Nat → Wgan.Rolls) (I : WganRaw s h o gs ds R P)
    (hg : ∀ u ∈ gs, u.Works) (hd : ∀ u ∈ ds, u.Works) (ho : o.Works) (hc : o.cost = .wasserstein_loss) (h2 : ds ≠ []) (hw : 0 < width k gs) (lr : ℝ) (e : Int) :
    Runs (Wgan.gradient_descent fuel w s lr e) h fun s' h' => ∃ Q : Duo k gs ds, WganReady s' h' o gs ds R Q ∧
      Chain (fun i => Epoch o gs ds R (lr / n) (w (i + 1))) (epochCount e) (redrawnAll (w 0 6).2 o gs ds P) Q ∧
      HasV h' s'.y_hat (fun i => netAt o ds Q.2 (made gs Q.1 (noise (w (epochCount e) 6).1 n k) i)) ∧
      s' = { s with network := s'.network, output_layer := s'.output_layer } ∧
      Keeps h h' (fun c => some c ∈ s.y_hat :: (s.output_layer.map (·.weights)).toList ++ written s.network) := by
  obtain ⟨l, el, -⟩ := I.layers
  refine (Wgan.gd_run fuel w I el hg hd ho hc h2 hw lr e).mono fun s' h' ⟨l', Q, N, C, hy, _⟩ => ⟨Q, N.ready, C, hy, ?_, ?_⟩
  · have e' : s'.output_layer = some l' := by rw [N.same]
    rw [e']; exact N.same
  · refine N.advance.keeps.mono fun c _ hc => ?_
    rw [el]
    simpa using hc

/-- C135 (training: false): what has been learned is lost: after training all weights, and the bias of the output, are random numbers drawn in the last pass; only
the biases of hidden layers remain. -/
theorem C135_gradient_descent_fails {R : Matrix (Fin n) (Fin (width k gs)) ℝ} (fuel : Nat) (w : Nat → Wgan.Rolls) (I : WganRaw s h o gs ds R P)
    (hg : ∀ u ∈ gs, u.Works) (hd : ∀ u ∈ ds, u.Works) (ho : o.Works) (hc : o.cost = .wasserstein_loss) (h2 : ds ≠ []) (hw : 0 < width k gs) (lr : ℝ) (e : Int) :
    Runs (Wgan.gradient_descent fuel w s lr e) h fun s' h' => ∃ M : Duo k gs ds, WganReady s' h' o gs ds R (redrawnAll (w (epochCount e) 6).2 o gs ds M) := by
  refine (C135_gradient_descent_partial fuel w I hg hd ho hc h2 hw lr e).mono fun s' h' ⟨Q, Rd, C, _⟩ => ?_
  obtain ⟨E, eE⟩ : ∃ E, epochCount e = E + 1 := ⟨epochCount e - 1, by unfold epochCount; omega⟩
  rw [eE] at C ⊢
  obtain ⟨x, -, xE, hx⟩ := C
  obtain ⟨P1, P2, -, -, eq⟩ := hx E (by omega)
  rw [xE] at eq
  exact ⟨P2, eq ▸ Rd⟩

theorem newM_runs (w : h.WF) : Runs (newMat : M ℝ Loc) h fun l h1 => ∃ (o : Nat) (v : Matrix (Fin 0) (Fin 0) ℝ), l = .m o ∧ h1.WF ∧ Keeps h h1 (fun _ => False) ∧
    NotIn h (some (.m o)) ∧ HasM h1 (some (.m o)) v := by
  have := stepM0 w (c := fun l => (pure l : M ℝ Loc)) (Q := fun l h1 => ∃ (o : Nat) (v : Matrix (Fin 0) (Fin 0) ℝ), l = .m o ∧ h1.WF ∧ Keeps h h1 (fun _ => False) ∧
    NotIn h (some (.m o)) ∧ HasM h1 (some (.m o)) v) fun o h1 v w1 k1 f1 a1 => Runs.of_eq rfl ⟨o, v, rfl, w1, k1, f1, a1⟩
  simpa only [bind_pure] using this

theorem signs_runs (w : h.WF) (n : Nat) : Runs (do
      let one ← Vec.vecn_one n
      let loutput_set ← Hd.scalar_multiplyn one (-1)
      let output_set_real ← Vec.vecn_one n
      Hd.append_mlpp_vector loutput_set output_set_real
      (pure loutput_set : M ℝ Ref)) h fun t h' => h'.WF ∧ Keeps h h' (fun _ => False) ∧ HasV h' t (signs n) :=
  Adversarial.signs_run w n fun _ _ w1 k1 u1 => Runs.of_eq rfl ⟨w1, k1, u1⟩

theorem pass_out {g : Ann.Draws} {i : Nat} {x : Ref} {ls : List HiddenLayer} {r : List HiddenLayer × Ref} {h' : Heap ℝ}
    (e : Ann.layersPass g i x ls h = .ok (r, h')) : r.2 = Ann.lastOut x r.1 := by
  have q := congrFun (Adversarial.pass_last g ls i x pure) h
  rw [bind_ok e, bind_ok e] at q
  have q' : (Out.ok (r, h') : Out (_ × Heap ℝ)) = .ok ((r.1, Ann.lastOut x r.1), h') := q
  injection q' with q'
  exact congrArg (fun z => z.1.2) q'

/-- The gradients of the output layer, if its inputs belong to another number of samples than the targets. -/
theorem gradientOut_ub (w : h.WF) {l : OutputLayer} (hc : l.cost = .wasserstein_loss) (ha : o.Works) (ea : l.activation = o.act) {yh b : Ref} {y : Fin m → ℝ}
    (hb : HasV h b y) {r p q d : Nat} {z : Fin r → ℝ} (hz : HasV h l.z z) (ne : m ≠ r) {A : Matrix (Fin p) (Fin q) ℝ} (hA : HasM h l.input A) {v : Fin d → ℝ}
    (hw : HasV h l.weights v) : Ann.gradientOut l yh b h = .ub := by
  unfold Ann.gradientOut
  rw [hc, ea]
  have e : Cost.run_cost_deriv_vector .wasserstein_loss yh b = Cost.run_cost_deriv_vector .wasserstein_loss b b := rfl
  rw [e]
  refine ub_stepV (Ann.lossDeriv_run (by simp) w hb hb) fun c h1 w1 k1 f1 uc => ?_
  nw f1 k1
  refine ub_stepV (Hd.lifts_vec (Ann.works_top ha) w1 hz) fun f h2 w2 k2 f2 uf => ?_
  nw f2 k2
  have en : Hd.hadamard_productn c f h2 = .ok (none, h2) := by
    obtain ⟨x, rfl, lx, hx⟩ := uc
    obtain ⟨t, rfl, lt, ht⟩ := uf
    unfold Hd.hadamard_productn
    rw [bind_ok (derefV_run x h2)]
    refine binN_mismatch _ _ _ h2 ?_
    rw [hx.1, ht.1]
    intro e
    exact ne (congrArg Size.x e)
  refine ub_step en ?_
  dsimp only [OutputLayer.set_delta]
  refine ub_bind (Hd.transposen_spec w2 hA).has fun t h3 ⟨w3, k3, f3, ut⟩ => ?_
  nw f3 k3
  refine ub_step (mult_vec_null ut) ?_
  refine ub_stepV (Ann.reg_deriv_v w3 hw l.lambda l.alpha l.reg) fun r h4 w4 k4 f4 ur => ?_
  rfl

/-- C135 (small networks: false): with one or two hidden layers there are none left for the critic, which then judges the generated samples alone, whatever it is
given: the first step dereferences null. -/
theorem C135_shallow_fails {P : Duo k gs []} {R : Matrix (Fin n) (Fin (width k gs)) ℝ} (fuel : Nat) (w : Nat → Wgan.Rolls) (I : WganRaw s h o gs [] R P)
    (hg : ∀ u ∈ gs, u.Works) (ho : o.Works) (hc : o.cost = .wasserstein_loss) (hw : 0 < width k gs) (hn : 0 < n) (lr : ℝ) (e : Int) :
    Wgan.gradient_descent fuel w s lr e h = .ub := by
  obtain ⟨l, el, -⟩ := id I.layers
  unfold Wgan.gradient_descent
  refine ub_step (Hd.sizem_run I.output_set) ?_
  refine ub_bind (Wgan.forward_raw (w 0 6).1 (w 0 6).2 I el hg (by simp) ho) fun s h ⟨l, N1, hy, _, _⟩ => ?_
  have I := N1.ready
  have el : s.output_layer = some l := by rw [N1.same]
  clear N1
  refine epochs_ub _ _ _ ?_
  obtain ⟨ei, hR, -, ⟨l0, el0, D, ny⟩, nR, nby⟩ := I
  obtain rfl : l = l0 := Option.some.inj (el.symm.trans el0)
  unfold Wgan.gdBody
  refine ub_stepV (one_run D.wf n) fun t h1 w1 k1 f1 ut => ?_
  have D1 := Wgan.duo_keep D w1 k1
  obtain ⟨x, ex⟩ := Wgan.cost_ok D1 (hy.keep k1 fun _ _ => id) ut
  rw [el]
  refine ub_step ex ?_
  refine ub_bind (newM_runs w1) fun _ h3 ⟨d, dB, ed, w3, k3, f3, ud⟩ => ?_
  subst ed
  have K3 := k1.trans k3
  have D3 := Wgan.duo_keep D w3 K3
  have hR3 := hR.keep K3 fun _ _ => id
  have f0 := f3.mono k1
  have neR := f0.ne_mat hR
  refine bind_ub (fold_first_ub (by omega) _ _ ?_)
  obtain ⟨-, ⟨l1, l2, en, L1, L2⟩, hh, O, nb, nd⟩ := D3
  obtain rfl : l2 = [] := L2
  rw [List.append_nil] at en
  have nB : some (.m d) ∉ written l1 := by
    obtain ⟨-, ⟨m1, m2, em, M1, M2⟩, -⟩ := D
    obtain rfl : m2 = [] := M2
    rw [List.append_nil] at em
    rw [← en, em]; exact Ann.notin_written M1 f0
  clear ex hy hR D1 D ut
  have len1 := Ann.layers_length gs L1
  have hl : l1.length = front (l1 ++ []).length := by rw [List.append_nil, len1]; simpa [front] using hh
  subst ei
  unfold Wgan.critic
  rw [en] at nd nR
  refine ub_bind (noise_run _ n s.k w3).has fun x h4 ⟨w4, k4, f4, ux⟩ => ?_
  have nx := Ann.notin_written L1 f4
  have L4 := Ann.LayersAre.keep k4 gs L1 fun _ _ _ _ _ _ => id
  have O4 := O.weights.keep k4 fun _ _ => id
  have hR4 := hR3.keep k4 fun _ _ => id
  have ud4 := ud.keep k4 fun _ _ => id
  rw [en]
  have G := Adversarial.gen_run (w 1 0).2 (l2 := []) w4 L4 hl ux nx nd hg
  rw [List.append_nil] at G
  obtain ⟨r, h5, er, l1', e1, A⟩ := runs_iff.1 G
  refine ub_step er ?_
  rw [List.append_nil] at e1
  obtain ⟨sw, sb, sl, si⟩ := Ann.same_written A.sames
  have O5 := O4.keep A.keeps fun c e hc => Ann.vec_written L4 O4 (e ▸ hc)
  have hR5 := hR4.keep A.keeps fun c e hc => nR (e ▸ hc)
  have ud5 := ud4.keep A.keeps fun c e hc => nB (e ▸ hc)
  have ny : r.2 ≠ some (.m d) := by
    rcases A.new with q | q
    · rw [q]; exact fun e => f4.ne_mat ud e
    · exact q.ne_mat ud4
  have ne1 : l1 ≠ [] := by
    intro e; rw [e] at hl; simp [front] at hl
  have fl : front l1.length = l1.length := by rw [List.append_nil] at hl; exact hl.symm
  have eo : r.2 = Ann.lastOut none r.1 := by
    have eg : generator (w 1 0).2 l1 x = (do let r ← Ann.layersPass (w 1 0).2 0 x l1; pure (r.1, r.2)) := by
      unfold generator
      split
      · exact absurd rfl ne1
      · rw [fl, List.take_length, List.drop_length]; simp only [List.append_nil]
    rw [eg] at er
    have er' : Ann.layersPass (w 1 0).2 0 x l1 h4 = .ok (r, h5) := by rw [← er]; exact (congrFun (bind_pure _) h4).symm
    rw [pass_out er', e1]
    cases l1' with
    | nil => exact absurd (List.length_eq_zero_iff.1 sl.symm) ne1
    | cons a b => rfl
  obtain ⟨_, h6, e6, w6, k6, ud6⟩ := runs_iff.1 (Hd.set_from_mlpp_matrix_run A.wf ud5 A.out)
  refine ub_step e6 ?_
  have hR6 := hR5.offm k6 neR.symm
  obtain ⟨_, h7, e7, w7, k7, ud7⟩ := runs_iff.1 (rows_add_mat w6 ud6 hR6 hw)
  refine ub_step e7 ?_
  have out7 := (A.out.offm k6 ny).offm k7 ny
  have O7 := (O5.keep k6 fun c e hc => O5.ne_mat ud5 (e.trans hc)).keep k7 fun c e hc => O5.ne_mat ud5 (e.trans hc)
  rw [eo] at out7
  have ed : ∀ f : List HiddenLayer × OutputLayer → M ℝ Wgan, (discriminator (w 1 0).2 r.1 s.output_layer (some (.m d)) >>= f) =
      (OutputLayer.forward_pass ((w 1 0).2 r.1.length).1 ((w 1 0).2 r.1.length).2 (OutputLayer.set_input l (Ann.lastOut none r.1)) >>= fun o => f (r.1, o)) := by
    intro f
    have n1 : r.1.isEmpty = false := by
      rw [e1]
      cases l1' with
      | nil => exact absurd (List.length_eq_zero_iff.1 sl.symm) ne1
      | cons a b => rfl
    have f1 : front r.1.length = r.1.length := by rw [e1, sl, fl]
    unfold discriminator
    rw [el, f1, List.drop_length, List.take_length, n1]
    have e0 : Ann.layersPass (from_ (w 1 0).2 r.1.length) 0 (some (.m d)) [] = pure ([], some (.m d)) := rfl
    have e0' : out (some l) = pure l := rfl
    simp only [e0, e0', bind_assoc, pure_bind, List.append_nil]
    rfl
  rw [ed]
  refine ub_bind (OutputLayer.forward_raw_run (X := made gs _ _) ((w 1 0).2 r.1.length).1 ((w 1 0).2 r.1.length).2 w7 (s := OutputLayer.set_input l (Ann.lastOut none r.1)) O.units
    out7 O7 rfl (by
      show l.activation ≠ _
      rw [O.act]; have := ho.1; simp only [List.mem_cons, List.not_mem_nil, or_false, not_or] at this; tauto)) fun l' h8 ⟨e8, k8, n8, n8', R8, z8, a8⟩ => ?_
  dsimp only
  have q := signs_runs R8.wf n
  obtain ⟨t, h9, e9, w9, k9, u9⟩ := runs_iff.1 q
  have e10 : ∀ f : Ref → M ℝ Wgan, (do
      let one ← Vec.vecn_one n
      let loutput_set ← Hd.scalar_multiplyn one (-1)
      let output_set_real ← Vec.vecn_one n
      Hd.append_mlpp_vector loutput_set output_set_real
      f loutput_set) h8 = f t h9 := by
    intro f
    have := bind_ok (k := f) e9
    simpa only [bind_assoc, pure_bind] using this
  refine (e10 _).trans (bind_ub ?_)
  unfold discriminatorGradients
  refine ub_step (show out (some l') h9 = .ok (l', h9) from rfl) (bind_ub ?_)
  have c8 : l'.cost = .wasserstein_loss := by rw [e8]; exact O.cost.trans hc
  have a8 : l'.activation = o.act := by rw [e8]; exact O.act
  exact gradientOut_ub w9 (o := o) c8 ho a8 u9 (z8.keep k9 fun _ _ => id) (by omega) (R8.input.keep k9 fun _ _ => id) (R8.weights.keep k9 fun _ _ => id)

/-! ## Examples -/

noncomputable def wganTop : Top := ⟨.linear, .wasserstein_loss, .default, .ridge, 1, 0⟩

noncomputable def exWgan : Wgan := ⟨some (.m 0), 1, [duoLayer 0, duoLayer 1, duoLayer 2], some (duoOut wganTop), some (.v 4)⟩

/-- A WGAN with a generator of two layers and a critic of one and an output layer meets the hypotheses of C134 and C135. -/
example : WganReady exWgan duoHeap wganTop [duoLay, duoLay] [duoLay] (fun (i : Fin 2) (_ : Fin 1) => if i = 0 then (5 : ℝ) else 6) duoParams ∧ duoLay.Works ∧
    wganTop.Works ∧ wganTop.cost = .wasserstein_loss ∧ 0 < width 1 [duoLay, duoLay] := by
  refine ⟨⟨rfl, ?_, ⟨2, ![0, 0], ?_⟩, ⟨_, rfl, duo_is wganTop, by simp [exWgan, duoOut]⟩, by simp [exWgan, duoLayer, written], by simp [exWgan, duoLayer]⟩,
    by simp [Lay.Works, duoLay], by simp [Top.Works, wganTop], rfl, by simp [duoLay]⟩
  · exact ⟨0, rfl, by simp [duoHeap, Heap.ofLists, Heap.live, Loc.id], by simp [duoHeap, Heap.ofLists], fun i j => by
      fin_cases i <;> fin_cases j <;> simp [duoHeap, Heap.ofLists]⟩
  · exact ⟨4, rfl, by simp [duoHeap, Heap.ofLists, Heap.live, Loc.id], by simp [duoHeap, Heap.ofLists], fun i => by
      fin_cases i <;> simp [duoHeap, Heap.ofLists]⟩

/-- An unused layer meets the hypotheses of C134_add_layer_partial, with a new WGAN. -/
example : let s : Wgan := ⟨some (.m 0), 1, [], none, some (.v 4)⟩
    WganBuilt s duoHeap [] (fun (i : Fin 2) (_ : Fin 1) => if i = 0 then (5 : ℝ) else 6) (k := 1) () ∧ Blank duoHeap (duoLayer 0) ∧
    (duoLayer 0).z ∉ s.output_set :: Ann.lastOut none s.network :: written s.network ∧
    (duoLayer 0).weights ∉ s.output_set :: Ann.lastOut none s.network :: written s.network ∧ (duoLayer 0).bias ∉ s.y_hat :: s.network.map (·.bias) := by
  refine ⟨⟨rfl, ?_, ⟨2, ![0, 0], ?_⟩, ⟨Heap.ofLists_wf _ _ _ (by simp), rfl, fun e => absurd rfl e, fun e => absurd rfl e, by simp [written]⟩, by simp [written], by simp⟩,
    ⟨⟨_, _, _, duo_mat 7 1 (by omega) rfl rfl⟩, ⟨_, _, duo_vec 1 0 (by omega) rfl rfl⟩, ⟨_, _, _, duo_mat 0 4 (by omega) rfl rfl⟩, by simp [duoLayer]⟩, ?_, ?_, ?_⟩
  · exact ⟨0, rfl, by simp [duoHeap, Heap.ofLists, Heap.live, Loc.id], by simp [duoHeap, Heap.ofLists], fun i j => by
      fin_cases i <;> fin_cases j <;> simp [duoHeap, Heap.ofLists]⟩
  · exact ⟨4, rfl, by simp [duoHeap, Heap.ofLists, Heap.live, Loc.id], by simp [duoHeap, Heap.ofLists], fun i => by
      fin_cases i <;> simp [duoHeap, Heap.ofLists]⟩
  all_goals simp [duoLayer, written, Ann.lastOut]

/-- A WGAN with two hidden layers meets the hypotheses of C135_shallow_fails. -/
example : WganRaw ⟨some (.m 0), 1, [duoLayer 0, duoLayer 1], some (duoOut wganTop), some (.v 4)⟩ duoHeap wganTop [duoLay, duoLay] []
    (fun (i : Fin 2) (_ : Fin 1) => if i = 0 then (5 : ℝ) else 6) (k := 1)
    (((fun _ _ => 7, fun _ => 1), ((fun _ _ => 8, fun _ => 2), ())), ((), (fun _ => 4, 5))) := by
  refine ⟨rfl, ?_, ⟨2, ![0, 0], ?_⟩, ⟨_, rfl, ?_, by simp [duoOut]⟩, by simp [duoLayer, written], by simp [duoLayer]⟩
  · exact ⟨0, rfl, by simp [duoHeap, Heap.ofLists, Heap.live, Loc.id], by simp [duoHeap, Heap.ofLists], fun i j => by
      fin_cases i <;> fin_cases j <;> simp [duoHeap, Heap.ofLists]⟩
  · exact ⟨4, rfl, by simp [duoHeap, Heap.ofLists, Heap.live, Loc.id], by simp [duoHeap, Heap.ofLists], fun i => by
      fin_cases i <;> simp [duoHeap, Heap.ofLists]⟩
  refine Spec.DuoIs.raw ⟨Heap.ofLists_wf _ _ _ (by simp), ⟨[duoLayer 0, duoLayer 1], [], rfl, ⟨_, _, rfl, ?_, ⟨_, _, rfl, ?_, rfl⟩⟩, rfl⟩, rfl,
    ⟨rfl, rfl, rfl, rfl, rfl, rfl, rfl, duo_vec 4 3 (by omega) rfl rfl, rfl⟩, by simp [duoOut, duoLayer], by simp [written, duoLayer]⟩
  · exact ⟨rfl, rfl, rfl, rfl, rfl, rfl, duo_mat 7 1 (by omega) rfl rfl, duo_vec 1 0 (by omega) rfl rfl, 1, 1, _, duo_mat 0 4 (by omega) rfl rfl⟩
  · exact ⟨rfl, rfl, rfl, rfl, rfl, rfl, duo_mat 8 2 (by omega) rfl rfl, duo_vec 2 1 (by omega) rfl rfl, 1, 1, _, duo_mat 0 5 (by omega) rfl rfl⟩

/-- The objective of the generator of such a WGAN is differentiable everywhere, the loss of its critic too. -/
example (D : Net 1 [duoLay]) (Z : Matrix (Fin 2) (Fin 1) ℝ) (G : Hiddens 1 [duoLay, duoLay]) : SmoothDuo wganTop [duoLay, duoLay] [duoLay] D Z G :=
  ⟨fun i => ⟨by simp [duoLay], fun a => Set.mem_univ _, by simp [duoLay], fun a => Set.mem_univ _, trivial⟩,
    ⟨fun i => ⟨⟨by simp [duoLay], fun a => Set.mem_univ _, trivial⟩, Set.mem_univ _, fun q => (by cases q), trivial⟩, by simp [wganTop],
      ⟨fun _ _ => trivial, trivial⟩, fun _ => trivial⟩, ⟨fun _ _ => trivial, fun _ _ => trivial, trivial⟩⟩

end Verif
