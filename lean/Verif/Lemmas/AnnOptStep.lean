import Verif.Lemmas.AnnOpt

/-! # Steps of the adaptive training methods of networks -/

namespace Verif
open Spec Finset

namespace Ann
open Glm (epochs walk roundStep walk_round batchAt)
variable {n k : Nat} {τ : Type}

theorem hasL_get {h : Heap ℝ} {rs : List Ref} {L E : List (HidS ℝ)} {A : HidS ℝ} (F : HasL h id rs (L ++ A :: E)) {i : Nat} (e : i = L.length) :
    ∃ r, rs[i]? = some r ∧ HasM h r A.2.2 := by
  subst e
  have hl := F.length_eq
  have lt : L.length < rs.length := by rw [hl, List.length_append]; simp
  refine ⟨rs[L.length], List.getElem?_eq_getElem lt, ?_⟩
  have := F.get lt (by rw [← hl]; exact lt)
  simp only [List.get_eq_getElem, List.getElem_append_right (le_refl _), Nat.sub_self, List.getElem_cons_zero] at this
  exact this

/-- The parameters are `M`; the gradients have been computed at `H`. -/
theorem layersUpdate_gen (N : Nat) (lr : ℝ) {updations : List Ref} : ∀ (us : List Lay) {k : Nat} {h : Heap ℝ} {H M : Hiddens k us} {U : Hid ℝ k us}
    {ls : List HiddenLayer}
    {X : Matrix (Fin n) (Fin k) ℝ} {S : Matrix (Fin n) (Fin (width k us)) ℝ} {extra : List (HidS ℝ)}, h.WF → LayersAre h us M ls → Backed h us H ls X S →
    HasL h id updations ((hidList us U).reverse ++ extra) → (written ls).Nodup →
    Runs (layersUpdate N updations lr ls) h fun r h' => h'.WF ∧ Keeps h h' (fun _ => False) ∧ LayersAre h' us (takeH (lr / N) us M U (gradsH us H X S)) r ∧
      Backed h' us H r X S ∧ (written r).Nodup ∧ (∀ q ∈ written r, q ∈ written ls ∨ NotIn h q) ∧ (∀ l ∈ r, NotIn h l.bias)
  | [], _, h, _, _, _, _, X, S, extra, w, L, B, U, d => by
    cases L
    exact Runs.of_eq rfl ⟨w, Keeps.refl _ _, rfl, trivial, .nil, by simp [written], by simp⟩
  | u :: us, k, h, H, M, U0, _, X, S, extra, w, L, B, U, d => by
    obtain ⟨l, ls, rfl, L1, L2⟩ := L
    obtain ⟨l', ls', e, B1, B2⟩ := B
    cases e
    have d' : (l.z :: l.weights :: written ls).Nodup := d
    simp only [List.nodup_cons, List.mem_cons, not_or] at d'
    obtain ⟨⟨n4, n5⟩, n6, n7⟩ := d'
    have U' : HasL h id updations ((hidList us U0.2).reverse ++ (⟨k, u.units, U0.1⟩ :: extra)) := by
      rw [show hidList (u :: us) U0 = ⟨k, u.units, U0.1⟩ :: hidList us U0.2 from rfl, List.reverse_cons, List.append_assoc] at U
      exact U
    unfold layersUpdate
    refine Runs.bind ((layersUpdate_gen N lr us w L2 B2 U' n7).mono fun r h1 ⟨w1, K1, M1, B1', D1, W1, C1⟩ => ?_)
    have L1' := LayerIs.keep L1 K1 fun _ _ _ _ => id
    have len : r.length = us.length := layers_length us M1
    obtain ⟨sl, es, hs⟩ := hasL_get (U'.adv K1) (i := r.length) (by rw [len, List.length_reverse, hidList_length])
    have eb : Glm.batchAt updations r.length h1 = .ok (sl, h1) := by unfold Glm.batchAt; rw [es]; rfl
    refine Runs.step eb ?_
    have lw := L1'.weights
    have lb := L1'.bias
    obtain ⟨zp, zq, Z, lz⟩ := L1'.z
    have ld := B1.keep K1 fun _ _ => id
    refine Verif.stepM (Hd.subnm_spec w1 lw hs) fun wn h2 w2 k2 f2 uw => ?_
    have K2 := K1.trans k2
    have g2 := f2.mono K1
    have M2 := LayersAre.keep k2 us M1 fun _ _ _ _ _ _ => id
    have B2' := Backed.keep k2 us B1'
    have nz : wn ≠ l.z := f2.ne_mat lz
    have nwr : wn ∉ written r := notin_written M1 f2
    nw f2 k2
    dsimp only [HiddenLayer.set_weights]
    refine Verif.stepM (Hd.scalar_multiplynm_spec w2 ld (lr / N)) fun dn h3 w3 k3 f3 ud => ?_
    have K3 := K2.trans k3
    have M3 := LayersAre.keep k3 us M2 fun _ _ _ _ _ _ => id
    have B3' := Backed.keep k3 us B2'
    nw f3 k3
    refine Verif.stepV (rows_run w3 lb ud) fun bn h4 w4 k4 f4 ub => ?_
    have K4 := K3.trans k4
    have M4 := LayersAre.keep k4 us M3 fun _ _ _ _ _ _ => id
    have B4' := Backed.keep k4 us B3'
    have g4 := f4.mono K3
    adv k4
    refine Runs.of_eq rfl ⟨w4, K4, ⟨_, _, rfl, ⟨L1.units, L1.act, L1.init, L1.reg, L1.lambda, L1.alpha, uw, ?_, ⟨_, _, _, lz⟩⟩, M4⟩, ⟨_, _, rfl, ld, B4'⟩, ?_, ?_, ?_⟩
    · refine cast (congrArg _ ?_) ub
      funext j
      show M.1.2 j - ∑ i, deltaOf u us H X S i j * (lr / N) = M.1.2 j - (∑ i, deltaOf u us H X S i j) * (lr / N)
      rw [Finset.sum_mul]
    · show (l.z :: wn :: written r).Nodup
      have : l.z ∉ written r := fun hm => by
        rcases W1 _ hm with q | q
        · exact n5 q
        · obtain ⟨_, _, _, lz0⟩ := L1.z
          exact q.ne_mat lz0 rfl
      simp only [List.nodup_cons, List.mem_cons, not_or]
      exact ⟨⟨Ne.symm nz, this⟩, nwr, D1⟩
    · intro q hq
      have hq : q ∈ l.z :: wn :: written r := hq
      simp only [List.mem_cons] at hq
      rcases hq with rfl | rfl | hq
      · left; show l.z ∈ l.z :: l.weights :: written ls; simp
      · exact Or.inr g2
      · rcases W1 _ hq with q | q
        · left; show _ ∈ l.z :: l.weights :: written ls; simp [q]
        · exact Or.inr q
    · intro q hq
      rcases List.mem_cons.1 hq with rfl | hq
      · exact g4
      · exact C1 q hq

/-- The network after the gradients at `N` have been computed; its parameters may have changed to `M` since. -/
structure Mid (h : Heap ℝ) (s : Ann) (l : OutputLayer) (o : Top) (us : List Lay) (X : Matrix (Fin n) (Fin k) ℝ) (y : Fin n → ℝ) (N M : Net k us) : Prop where
  wf : h.WF
  el : s.output_layer = some l
  out : OutputIs h l o M.2
  hidden : LayersAre h us M.1 s.network
  backed : Backed h us N.1 s.network X (fun i j => topDelta o us X y N i * N.2.1 j)
  delta : HasV h l.delta (topDelta o us X y N)
  nodup : (written s.network).Nodup
  nb : l.weights ∉ s.network.map (·.bias)

/-- What the changes of the parameters leave alone. -/
structure Moves (h h' : Heap ℝ) (s s' : Ann) (l l' : OutputLayer) : Prop where
  keeps : Keeps h h' (fun _ => False)
  same : s' = { s with network := s'.network, output_layer := s'.output_layer }
  weights : l'.weights = l.weights ∨ NotIn h l'.weights
  delta : l'.delta = l.delta
  olds : ∀ q ∈ written s'.network, q ∈ written s.network ∨ NotIn h q
  biases : ∀ q ∈ s'.network.map (·.bias), q ∈ s.network.map (·.bias) ∨ NotIn h q

theorem update_gen {h : Heap ℝ} {s : Ann} {l : OutputLayer} {o : Top} {us : List Lay} {X : Matrix (Fin n) (Fin k) ℝ} {N M : Net k us} {y : Fin n → ℝ} {lr : ℝ}
    (I : Mid h s l o us X y N M) {gs : List Ref} {g : Ref} {U : Wts ℝ k us} (G : HasH h id us gs U.1) (hg : HasV h g U.2) :
    Runs (update_parameters s gs g lr) h fun s' h' => ∃ l', Mid h' s' l' o us X y N (take (lr / s.n) us M U (grads o us X y N)) ∧ Moves h h' s s' l l' := by
  unfold update_parameters
  have O := I.out
  have eo : output s h = .ok (l, h) := by unfold output; rw [I.el]; rfl
  refine Runs.step eo ?_
  refine Verif.stepV (Hd.subn_spec I.wf O.weights hg) fun wn h4 w4 k4 f4 uw => ?_
  have M4 := LayersAre.keep k4 us I.hidden fun _ _ _ _ _ _ => id
  have B4 := Backed.keep k4 us I.backed
  have G4 : HasL h4 id gs ((hidList us U.1).reverse ++ []) := by
    rw [List.append_nil]
    exact HasL.adv k4 G
  have d4 := I.delta.keep k4 fun _ _ => id
  dsimp only [OutputLayer.set_weights, OutputLayer.set_bias]
  refine Runs.step (Hd.sum_elements_run w4 d4) ?_
  refine Runs.bind ((layersUpdate_gen s.n lr us w4 M4 B4 G4 I.nodup).mono fun ls' h5 ⟨w5, K5, M5, B5, D5, W5, C5⟩ => ?_)
  refine Runs.of_eq rfl ⟨_, ⟨w5, rfl, ⟨O.units, O.act, O.cost, O.init, O.reg, O.lambda, O.alpha,
    uw.keep K5 fun _ _ => id, ?_⟩, M5, B5, d4.keep K5 fun _ _ => id, D5, ?_⟩, ⟨k4.trans K5, rfl, Or.inr f4, rfl, ?_, ?_⟩⟩
  · dsimp only
    rw [O.bias]
    show _ = M.2.2 - (∑ i, topDelta o us X y N i) * (lr / s.n)
    ring
  · intro hm
    obtain ⟨q, hq, e⟩ := List.mem_map.1 hm
    obtain ⟨y, ey, ly, -⟩ := uw
    exact C5 q hq _ (e.trans ey) ly
  · intro q hq
    rcases W5 q hq with a | a
    · exact Or.inl a
    · exact Or.inr (a.mono k4)
  · intro q hq
    obtain ⟨p, hp, rfl⟩ := List.mem_map.1 hq
    exact Or.inr ((C5 p hp).mono k4)

end Ann
end Verif
