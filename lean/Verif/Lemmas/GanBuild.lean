import Verif.Lemmas.Gan
import Verif.Props.Ann

/-! # Adding layers to adversarial networks -/

namespace Verif
open Spec hiding Same
open Finset

namespace HiddenLayer
variable {n k m : Nat} {h : Heap ℝ} {s : HiddenLayer} {X : Matrix (Fin n) (Fin k) ℝ}

/-- The first pass of a layer whose objects have any sizes. -/
theorem blank_run (gw gb : Utilities.Source) (w : h.WF) (B : Blank h s) (hx : HasM h s.input X) (hu : s.n_hidden = m) (hi : s.initialized = false)
    (dz : s.z ≠ s.input) (dw : s.weights ≠ s.input) (ht : s.weight_init = .default ∨ s.weight_init = .uniform)
    (hf : s.activation ∉ [Activation.Fn.adj_softmax, .swish, .mish, .softplus, .softsign]) :
    Runs (forward_pass gw gb s) h fun s' h' => s' = { s with a := s'.a, initialized := true } ∧
        Keeps h h' (fun c => some c ∈ [s.z, s.weights, s.bias]) ∧ NotIn h s'.a ∧ ∃ b : Fin m → ℝ,
        HiddenReady s' h' X (drawnM gw s.weight_init k m, b) ∧ HasM h' s'.a (layerOut s.activation X (drawnM gw s.weight_init k m, b)) := by
  obtain ⟨⟨wp, wq, wA, uw⟩, ⟨bp, bv, ub⟩, ⟨zp, zq, zA, uz⟩, nz⟩ := B
  subst hu
  unfold forward_pass initialize_
  rw [if_neg (by rw [hi]; decide)]
  simp only [bind_assoc]
  refine Runs.step (Hd.sizem_run hx) ?_
  dsimp only
  refine Runs.bind ((Hd.resizem_run w uw k s.n_hidden).mono fun _ h1 ⟨w1, k1, W1, uw1⟩ => ?_)
  have K1 : Keeps h h1 (fun c => some c ∈ [s.z, s.weights, s.bias]) := k1.mono fun _ _ e => by simp [e]
  have uw1' := uw1
  wr k1
  refine Runs.bind ((Hd.resizev_run w1 ub s.n_hidden).mono fun _ h2 ⟨w2, k2, b, ub2⟩ => ?_)
  have K2 : Keeps h h2 (fun c => some c ∈ [s.z, s.weights, s.bias]) := K1.trans (k2.mono fun _ _ e => by simp [e])
  have ub2' := ub2
  wr k2
  obtain ⟨o, eo, lo, io⟩ := id uw1'
  rw [show s.weights.mat = some o by rw [eo]; rfl]
  refine Runs.bind (((Utilities.C64_matrix_partial gw h2 w2 o W1 io s.weight_init ht).hasM lo).mono fun _ h3 ⟨w3, k3, uw3⟩ => ?_)
  rw [← eo] at k3 uw3
  have K3 : Keeps h h3 (fun c => some c ∈ [s.z, s.weights, s.bias]) := K2.trans (k3.mono fun _ _ e => by simp [e])
  wr k3
  obtain ⟨b', eb, lb, ib⟩ := id ub2'
  rw [show s.bias.vec = some b' by rw [eb]; rfl]
  refine Runs.step (Utilities.C64_bias_vector_fails gb h3 b') ?_
  simp only [pure_bind]
  have R : HiddenReady { s with initialized := true } h3 X (drawnM gw s.weight_init k s.n_hidden, b) := by
    refine ⟨w3, rfl, hx, uw3, ub2', ⟨_, _, _, uz⟩, ?_⟩
    simp [nz, dz, dw]
  refine (body_run R hf).mono fun s2 h4 ⟨e2, k4, n4, R4, _, a4⟩ => ?_
  exact ⟨e2, K3.trans (k4.mono fun _ _ e => by simp [e]), n4.mono K3, b, R4, a4⟩

end HiddenLayer

namespace Adversarial
open Ann
variable {n m k : Nat} {us gs ds : List Lay}

/-- The input of a new layer. -/
def source (z : Noise) (n k : Nat) (ls : List HiddenLayer) : M ℝ Ref :=
  match ls with
  | [] => create_gaussian_noise z n k
  | ls => pure (lastOut none ls)

theorem source_run (z : Noise) {h : Heap ℝ} {ls : List HiddenLayer} {H : Hiddens k us} (B : Stacked h ls us n H) :
    Runs (source z n k ls) h fun x h1 => h1.WF ∧ Keeps h h1 (fun _ => False) ∧ (∃ z, HasM h1 x (made us H (noise z n k))) ∧
      (NotIn h x ∨ (ls ≠ [] ∧ x = lastOut none ls)) := by
  unfold source
  cases ls with
  | nil =>
    have e : us = [] := by
      have := layers_length us B.hidden
      exact List.length_eq_zero_iff.1 this.symm
    subst e
    refine (noise_run z n k B.wf).has.mono fun x h1 ⟨w1, k1, f1, a1⟩ => ⟨w1, k1, ⟨z, a1⟩, Or.inl f1⟩
  | cons l ls =>
    obtain ⟨z', hz⟩ := B.last (by simp)
    exact Runs.of_eq rfl ⟨B.wf, Keeps.refl h _, ⟨z', hz⟩, Or.inr ⟨by simp, rfl⟩⟩

theorem stacked_snoc {h h2 : Heap ℝ} {S : Loc → Prop} {ls : List HiddenLayer} {l : HiddenLayer} {H : Hiddens k us} {u : Lay} {θ : MParams (width k us) u.units}
    (B : Stacked h ls us n H) (K : Keeps h h2 S) (s1 : ∀ q ∈ written ls, ∀ c, q = some c → ¬ S c) (s2 : ∀ q ∈ ls.map (·.bias), ∀ c, q = some c → ¬ S c)
    (w2 : h2.WF) (L : LayerIs h2 l u θ) {z : Noise} (a2 : HasM h2 l.a (layerOut u.act (made us H (noise z n k)) θ)) (nz : l.z ≠ l.weights)
    (d1 : l.z ∉ written ls) (d2 : l.weights ∉ written ls) : Stacked h2 (ls ++ [l]) (us ++ [u]) n (snoc us H u θ) := by
  refine ⟨w2, layers_snoc (Keeps.refl h2 _) l u us (layers_off K us B.hidden s1 s2) L, fun _ => ⟨z, ?_⟩, fun _ => ?_, ?_⟩
  · rw [lastOut_append]
    exact through_snoc (fun q A => HasM h2 l.a A) u us H _ (noise z n k) a2
  · rw [lastUnits_append, width_append, L.units]
  · rw [written_append]
    refine List.Nodup.append B.nodup (by simp [written, nz]) ?_
    intro r hr hr'
    have hr' : r = l.z ∨ r = l.weights := by simpa [written] using hr'
    rcases hr' with rfl | rfl
    · exact d1 hr
    · exact d2 hr

theorem bias_new {h : Heap ℝ} {H : Hiddens k us} {ls : List HiddenLayer} (L : LayersAre h us H ls) {r : Ref} (f : NotIn h r) : r ∉ ls.map (·.bias) := fun hm => by
  obtain ⟨l', hl, e⟩ := List.mem_map.1 hm
  obtain ⟨p, v, hv⟩ := bias_of us L l' hl
  exact f.ne hv e.symm

/-- A layer made with `create`, with its first pass. -/
theorem create_stacked (z : Noise) (gw gb : Utilities.Source) {h : Heap ℝ} {ls : List HiddenLayer} {H : Hiddens k us} (B : Stacked h ls us n H) (u : Lay)
    (hu : u.Works) :
    Runs (do
      let x ← source z n k ls
      let l ← HiddenLayer.create gw gb u.units u.act x u.init u.reg u.lambda u.alpha
      HiddenLayer.forward_pass gw gb l) h fun l h' => Keeps h h' (fun _ => False) ∧ l.initialized = true ∧ NotIn h l.bias ∧
        ∃ b : Fin u.units → ℝ, Stacked h' (ls ++ [l]) (us ++ [u]) n (snoc us H u (drawnM gw u.init (width k us) u.units, b)) := by
  refine Runs.bind ((source_run z B).mono fun x h0 ⟨w0, k0, ⟨z', hx⟩, _⟩ => ?_)
  refine Runs.bind ((C103_create_partial gw gb w0 hx u.act u.init hu.2 u.reg u.lambda u.alpha).mono
    fun l h1 ⟨b, R1, K1, i1, e1, e2, e3, e4, e5, e6, f1⟩ => ?_)
  refine (HiddenLayer.forward_run gw gb R1 i1 (e2 ▸ works_forward hu)).mono fun l2 h2 ⟨q2, K2, n2, R2, z2, a2⟩ => ?_
  have fz : NotIn h l.z := (f1 _ (by simp)).mono k0
  have fw : NotIn h l.weights := (f1 _ (by simp)).mono k0
  have fb : NotIn h l.bias := (f1 _ (by simp)).mono k0
  have K : Keeps h h2 (fun _ => False) := (k0.trans K1).wr_new K2 fz
  have qz : l2.z = l.z := by rw [q2]
  have qw : l2.weights = l.weights := by rw [q2]
  have qb : l2.bias = l.bias := by rw [q2]
  have nz : l2.z ≠ l2.weights := by
    have := R2.apart
    simp only [List.nodup_cons, List.mem_cons, not_or] at this
    exact this.1.1
  have L : LayerIs h2 l2 u (drawnM gw u.init (width k us) u.units, b) := by
    refine ⟨R2.units, ?_, ?_, ?_, ?_, ?_, R2.weights, R2.bias, R2.z⟩
    · rw [q2]; exact e2
    · rw [q2]; exact e3
    · rw [q2]; exact e4
    · rw [q2]; exact e5
    · rw [q2]; exact e6
  rw [e2] at a2
  exact ⟨K, by rw [q2]; exact i1, qb ▸ fb, b, stacked_snoc B K (fun _ _ _ _ => id) (fun _ _ _ _ => id) R2.wf L a2 nz (notin_written B.hidden (qz ▸ fz))
    (notin_written B.hidden (qw ▸ fw))⟩

/-- A layer that exists already, with its first pass. -/
theorem given_stacked (z : Noise) (gw gb : Utilities.Source) {h : Heap ℝ} {ls : List HiddenLayer} {H : Hiddens k us} (B : Stacked h ls us n H) {l : HiddenLayer}
    (hl : Blank h l) (fz : l.z ∉ written ls) (fw : l.weights ∉ written ls) (fb : l.bias ∉ ls.map (·.bias)) (nz : ls ≠ [] → lastOut none ls ∉ [l.z, l.weights])
    {u : Lay} (hu : u.Works) (e1 : l.n_hidden = u.units) (e2 : l.activation = u.act) (e3 : l.weight_init = u.init) (e4 : l.reg = u.reg)
    (e5 : l.lambda = u.lambda) (e6 : l.alpha = u.alpha) :
    Runs (do
      let x ← source z n k ls
      HiddenLayer.forward_pass gw gb (HiddenLayer.set_input l x)) h fun l' h' => Keeps h h' (fun c => some c ∈ [l.z, l.weights, l.bias]) ∧ l'.initialized = true ∧
        l' = { l with input := l'.input, a := l'.a, initialized := true } ∧ NotIn h l'.a ∧
        ∃ b : Fin u.units → ℝ, Stacked h' (ls ++ [l']) (us ++ [u]) n (snoc us H u (drawnM gw u.init (width k us) u.units, b)) := by
  refine Runs.bind ((source_run z B).mono fun x h0 ⟨w0, k0, ⟨z', hx⟩, nx⟩ => ?_)
  obtain ⟨⟨wp, wq, wA, uw⟩, ⟨bp, bv, ub⟩, ⟨zp, zq, zA, uz⟩, na⟩ := hl
  have dz : l.z ≠ x := by
    rcases nx with f | ⟨ne, rfl⟩
    · exact (f.ne_mat uz).symm
    · exact fun e => nz ne (by simp [e])
  have dw : l.weights ≠ x := by
    rcases nx with f | ⟨ne, rfl⟩
    · exact (f.ne_mat uw).symm
    · exact fun e => nz ne (by simp [e])
  have B1 : Stacked h0 ls us n H := ⟨w0, layers_off k0 us B.hidden (fun _ _ _ _ => id) (fun _ _ _ _ => id),
    fun ne => (B.last ne).imp fun z hz => hz.keep k0 fun _ _ => id, B.units, B.nodup⟩
  have uz0 := uz.keep k0 fun _ _ => id
  have uw0 := uw.keep k0 fun _ _ => id
  have ub0 := ub.keep k0 fun _ _ => id
  refine (HiddenLayer.blank_run (s := HiddenLayer.set_input l x) (m := u.units) gw gb w0
    ⟨⟨_, _, _, uw0⟩, ⟨_, _, ub0⟩, ⟨_, _, _, uz0⟩, na⟩ hx e1 rfl dz dw (e3 ▸ hu.2) (by
      show l.activation ∉ _
      rw [e2]; exact works_forward hu)).mono fun l2 h2 ⟨q2, K2, n2, b, R2, a2⟩ => ?_
  have K2' : Keeps h0 h2 (fun c => some c ∈ [l.z, l.weights, l.bias]) := K2
  have qz : l2.z = l.z := by rw [q2]; rfl
  have qw : l2.weights = l.weights := by rw [q2]; rfl
  have qb : l2.bias = l.bias := by rw [q2]; rfl
  have L : LayerIs h2 l2 u (drawnM gw u.init (width k us) u.units, b) := by
    refine ⟨R2.units, ?_, ?_, ?_, ?_, ?_, e3 ▸ R2.weights, R2.bias, R2.z⟩
    · rw [q2]; exact e2
    · rw [q2]; exact e3
    · rw [q2]; exact e4
    · rw [q2]; exact e5
    · rw [q2]; exact e6
  have a2' : HasM h2 l2.a (layerOut u.act (made us H (noise z' n k)) (drawnM gw u.init (width k us) u.units, b)) := by
    rw [← e2, ← e3]; exact a2
  have K : Keeps h h2 (fun c => some c ∈ [l.z, l.weights, l.bias]) := (k0.mono fun _ _ e => e.elim).trans K2'
  refine ⟨K, by rw [q2], by rw [q2]; rfl, n2.mono k0, b, stacked_snoc B1 K2' ?_ ?_ R2.wf L a2' (qz ▸ qw ▸ na) (qz ▸ fz) (qw ▸ fw)⟩
  · intro q hq c hc hS
    subst hc
    obtain ⟨p1, q1, A1, hA⟩ := written_mat us B.hidden _ hq
    simp only [List.mem_cons, List.not_mem_nil, or_false] at hS
    rcases hS with e | e | e
    · exact fz (e ▸ hq)
    · exact fw (e ▸ hq)
    · exact ub.ne_mat hA e.symm
  · intro q hq c hc hS
    subst hc
    obtain ⟨l', hl, e'⟩ := List.mem_map.1 hq
    obtain ⟨p1, v1, hv⟩ := bias_of us B.hidden l' hl
    simp only [List.mem_cons, List.not_mem_nil, or_false] at hS
    rw [e'] at hv
    rcases hS with e | e | e
    · exact hv.ne_mat uz e
    · exact hv.ne_mat uw e
    · exact fb (e ▸ hq)

theorem layers_split {h : Heap ℝ} : ∀ (gs : List Lay) {k : Nat} {G : Hiddens k gs} {D : Hiddens (width k gs) ds} {ls : List HiddenLayer},
    LayersAre h (gs ++ ds) (joinH gs ds G D) ls → ∃ l1 l2, ls = l1 ++ l2 ∧ LayersAre h gs G l1 ∧ LayersAre h ds D l2
  | [], _, _, _, ls, L => ⟨[], ls, rfl, rfl, L⟩
  | _ :: gs, _, _, _, _, L => by
    obtain ⟨l, ls, rfl, L1, L2⟩ := L
    obtain ⟨l1, l2, rfl, A, B⟩ := layers_split gs L2
    exact ⟨l :: l1, l2, rfl, ⟨l, l1, rfl, L1, A⟩, B⟩

theorem through_join (P : (q : Nat) → Matrix (Fin n) (Fin q) ℝ → Prop) : ∀ (gs : List Lay) {k : Nat} (G : Hiddens k gs) (D : Hiddens (width k gs) ds)
    (X : Matrix (Fin n) (Fin k) ℝ), P _ (made (gs ++ ds) (joinH gs ds G D) X) → P _ (made ds D (made gs G X))
  | [], _, _, _, _, h => h
  | _ :: gs, _, G, D, X, h => through_join P gs G.2 D (fun i => applied _ fun a => ∑ j, X i j * G.1.1 j a + G.1.2 a) h

theorem width_join : ∀ (gs : List Lay) (k : Nat), width k (gs ++ ds) = width (width k gs) ds
  | [], _ => rfl
  | u :: gs, _ => width_join gs u.units

/-- Every chain of layers is that of a generator and a critic. -/
theorem join_exists : ∀ (us : List Lay) {k : Nat} (H : Hiddens k us) (m : Nat), m ≤ us.length →
    ∃ (gs ds : List Lay) (G : Hiddens k gs) (D : Hiddens (width k gs) ds), us = gs ++ ds ∧ gs.length = m ∧ H ≍ joinH gs ds G D
  | us, _, H, 0, _ => ⟨[], us, (), H, rfl, rfl, HEq.rfl⟩
  | u :: us, k, H, m + 1, hm => by
    obtain ⟨gs, ds, G, D, rfl, e, q⟩ := join_exists us H.2 m (by simpa using hm)
    exact ⟨u :: gs, ds, (H.1, G), D, rfl, by simp [e], by show H ≍ (H.1, joinH gs ds G D); rw [← eq_of_heq q]⟩

end Adversarial
end Verif
