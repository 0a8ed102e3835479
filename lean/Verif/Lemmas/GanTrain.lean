import Verif.Lemmas.Gan
import Verif.Lemmas.GanMath

/-! # Training of a generator and a critic -/

namespace Verif
open Spec hiding Same
open Finset

namespace Adversarial
open Ann
variable {n m k : Nat} {o : Top} {gs ds : List Lay}

theorem back_eq {l1 l2 : List HiddenLayer} (hl : l1.length = front (l1 ++ l2).length) (h2 : l2 ≠ []) : back (l1 ++ l2).length = l1.length := by
  unfold back
  rw [← hl, List.length_append]
  have := List.length_pos_iff.2 h2
  omega

theorem discGrad_eq (fuel : Nat) {l1 l2 : List HiddenLayer} (hb : back (l1 ++ l2).length = l1.length) (l : OutputLayer) (n : Nat) (yh y : Ref) :
    discriminatorGradients fuel (l1 ++ l2) (some l) yh y = (do
      let q ← compute_gradients fuel (asAnn l2 l n) yh y
      pure ((l1 ++ q.1.network, q.1.output_layer.getD l), q.2)) := by
  unfold discriminatorGradients compute_gradients
  rw [hb, List.drop_left, List.take_left]
  simp only [bind_assoc, pure_bind]
  rfl

theorem update_eq {l1 l2 : List HiddenLayer} (hb : back (l1 ++ l2).length = l1.length) (l : OutputLayer) (n : Nat) (us : List Ref) (u : Ref) (lr : ℝ) :
    updateDiscriminator n (l1 ++ l2) l us u lr = (do
      let q ← update_parameters (asAnn l2 l n) us u lr
      pure (l1 ++ q.network, q.output_layer.getD l)) := by
  unfold updateDiscriminator update_parameters
  rw [hb, List.drop_left, List.take_left]
  simp only [bind_assoc, pure_bind]
  rfl

theorem passed_keep {h h' : Heap ℝ} {ls : List HiddenLayer} {l : OutputLayer} {us : List Lay} {X : Matrix (Fin n) (Fin k) ℝ} {N : Net k us}
    (P : Passed h ls l o us X N) (w : h'.WF) (K : Keeps h h' (fun _ => False)) : Passed h' ls l o us X N := by
  have O := P.out
  exact ⟨w, LayersAre.keep K us P.hidden fun _ _ _ _ _ _ => id, Fed.keep K us P.fed,
    ⟨O.units, O.act, O.cost, O.init, O.reg, O.lambda, O.alpha, O.weights.keep K fun _ _ => id, O.bias⟩, P.input.keep K fun _ _ => id, P.z.keep K fun _ _ => id,
    P.a.keep K fun _ _ => id, P.init⟩

/-- The layers of the critic after a step. -/
theorem critic_tail (fuel : Nat) {l1 l2 : List HiddenLayer} {l : OutputLayer} {h : Heap ℝ} {us : List Lay} {X : Matrix (Fin m) (Fin k) ℝ} {y : Fin m → ℝ}
    {N : Net k us} (hl : l1.length = front (l1 ++ l2).length) (h2 : l2 ≠ []) (P : Passed h l2 l o us X N) (nd : (written l2).Nodup)
    (hu : ∀ u ∈ us, u.Works) (ho : o.Works) {t : Ref} (ht : HasV h t y) (n : Nat) (lr : ℝ) :
    Runs (do
      let d ← discriminatorGradients fuel (l1 ++ l2) (some l) l.a t
      scaleAll (lr / n) d.2.1
      Hd.scalar_multiply d.2.2 (lr / n)
      updateDiscriminator n d.1.1 d.1.2 d.2.1 d.2.2 lr) h fun u h' => ∃ l2' l', u = (l1 ++ l2', l') ∧
        Stepped h h' (asAnn l2 l n) (asAnn l2' l' n) o us (stepN (lr / n) us N (grads o us X y N)) := by
  have hb := back_eq hl h2
  rw [discGrad_eq fuel hb l n, bind_assoc]
  refine Runs.bind ((compute_gradients_run fuel (s := asAnn l2 l n) P rfl hu ho P.a (fun _ => rfl) ht).mono fun r h1 ⟨ls, l', A⟩ => ?_)
  rw [pure_bind]
  have S1 : List.Forall₂ SameB l2 ls := A.sames
  have eL : ls.length = l2.length := (S1.length_eq).symm
  have el : back (l1 ++ ls).length = l1.length := by rw [List.length_append, eL, ← List.length_append]; exact hb
  have e1 : (l1 ++ r.1.network, r.1.output_layer.getD l) = (l1 ++ ls, l') := by rw [A.same]; rfl
  rw [e1]
  dsimp only
  refine Runs.bind ((scaleAll_run (lr / n) A.wf A.grads A.apart.nodup).mono fun _ h2 ⟨w2, K2, G2⟩ => ?_)
  have KA := A.keeps.trans_new K2 fun c hc hl => A.apart.new _ hc _ rfl hl
  have gm : ∀ q ∈ r.2.1, ∃ (a b : Nat) (B : Matrix (Fin a) (Fin b) ℝ), HasM h1 q B := fun q hq => by
    obtain ⟨i, hi, e⟩ := List.getElem_of_mem hq
    have := A.grads.get hi (by rw [← A.grads.length_eq]; exact hi)
    subst e
    exact ⟨_, _, _, this⟩
  have offV : ∀ {a : Ref} {p : Nat} {v : Fin p → ℝ}, HasV h1 a v → HasV h2 a v := fun ha => ha.keep K2 fun c e hc => by
    obtain ⟨_, _, _, hm⟩ := gm _ hc
    exact ha.ne_mat hm e
  have M2 : LayersAre h2 us N.1 ls := layers_off K2 us A.hidden (fun q hq c e hc => by
    have hq' : q ∈ written l2 := sameB_written S1 ▸ hq
    exact notin_written P.hidden (A.apart.new _ hc) (e ▸ hq')) fun q hq c e hc => by
      obtain ⟨x, hx, ex⟩ := List.mem_map.1 hq
      obtain ⟨p, v, b⟩ := bias_of us A.hidden x hx
      obtain ⟨_, _, _, hm⟩ := gm _ hc
      exact b.ne_mat hm (ex.trans e)
  have B2 : Backed h2 us N.1 ls X (fun i j => topDelta o us X y N i * N.2.1 j) := backed_keep K2 us A.backed fun x hx c e hc => (A.apart.deltas x hx).2 (e ▸ hc)
  have g2 := offV A.grad
  have d2 := offV A.delta
  have o2 := offV A.out.weights
  refine Runs.bind ((scale_run w2 g2 (lr / n)).mono fun _ h3 ⟨w3, k3, g3⟩ => ?_)
  have K3 := KA.wr_new k3 A.new
  have nb : r.2.2 ∉ ls.map (·.bias) := by rw [sameB_bias S1]; exact notin_bias P.hidden A.new
  have M3 := LayersAre.keepV g2 k3 us M2 nb
  have B3 := Backed.keepV g2 k3 us B2
  have G3 : List.Forall₂ (HasS h3) r.2.1 ((gradList us (grads o us X y N).1).reverse.map (scaled (lr / n))) :=
    G2.imp fun q A a => HasM.keep a k3 fun _ e e' => g2.ne_mat a (e' ▸ e.symm)
  have d3 := d2.keep k3 fun _ e e' => A.ne1 (e.trans e')
  have o3 := o2.keep k3 fun _ e e' => A.ne2 (e.trans e')
  have D : (written ls).Nodup := by rw [sameB_written S1]; exact nd
  have O1 := A.out
  have O3 : OutputIs h3 l' o N.2 := ⟨O1.units, O1.act, O1.cost, O1.init, O1.reg, O1.lambda, O1.alpha, o3, O1.bias⟩
  rw [update_eq el l' n]
  refine Runs.bind ((update_run (s := asAnn ls l' n) w3 rfl O3 M3 B3 G3 d3 g3 D).mono fun s' h' R => ?_)
  obtain ⟨lf, el2, O2, n2, nb2⟩ := R.out
  refine Runs.of_eq rfl ⟨s'.network, lf, by rw [el2]; rfl, ?_⟩
  refine ⟨R.wf, K3.trans R.keeps, rfl, R.hidden, ⟨lf, rfl, O2, n2.mono K3, nb2⟩, R.nodup, fun q hq => ?_, fun x hx => (R.biases x hx).mono K3⟩
  rcases R.olds q hq with a | a
  · left; show q ∈ written l2; rw [← sameB_written S1]; exact a
  · exact Or.inr (a.mono K3)

/-- The targets of the critic. -/
theorem signs_run {h : Heap ℝ} (w : h.WF) (n : Nat) {β : Type} {f : Ref → M ℝ β} {Q : β → Heap ℝ → Prop}
    (next : ∀ t h', h'.WF → Keeps h h' (fun _ => False) → HasV h' t (signs n) → Runs (f t) h' Q) :
    Runs (do
      let one ← Vec.vecn_one n
      let loutput_set ← Hd.scalar_multiplyn one (-1)
      let output_set_real ← Vec.vecn_one n
      Hd.append_mlpp_vector loutput_set output_set_real
      f loutput_set) h Q := by
  refine Verif.stepV (one_run w n) fun a h1 w1 k1 f1 ua => ?_
  refine Verif.stepV (Hd.scalar_multiplyn_spec w1 ua (-1)) fun b h2 w2 k2 f2 ub => ?_
  refine Verif.stepV (one_run w2 n) fun c h3 w3 k3 f3 uc => ?_
  have ub3 := ub.keep k3 fun _ _ => id
  refine Runs.bind ((append_vec_run w3 ub3 uc).mono fun _ h4 ⟨w4, k4, ut⟩ => ?_)
  refine next _ _ w4 (((k1.trans k2).trans k3).wr_new k4 (f2.mono k1)) ?_
  refine cast (congrArg _ ?_) ut
  unfold signs
  congr 1
  funext i
  ring

/-- What the training steps need. -/
structure Stage (s : Wgan) (h : Heap ℝ) (l : OutputLayer) (o : Top) (gs ds : List Lay) (R : Matrix (Fin n) (Fin (width k gs)) ℝ) (P : Duo k gs ds) (d : Ref) : Prop where
  inputs : s.k = k
  el : s.output_layer = some l
  layers : DuoIs h s.network l o gs ds P
  real : HasM h s.output_set R
  real' : s.output_set ∉ written s.network
  room : ∃ (a b : Nat) (B : Matrix (Fin a) (Fin b) ℝ), HasM h d B
  room' : d ∉ written s.network
  ne : d ≠ s.output_set

theorem critic_run (fuel : Nat) (z : Noise) (g : Draws) {s : Wgan} {h : Heap ℝ} {l : OutputLayer} {R : Matrix (Fin n) (Fin (width k gs)) ℝ} {P : Duo k gs ds} {d : Ref}
    (T : Stage s h l o gs ds R P d) (hg : ∀ u ∈ gs, u.Works) (hd : ∀ u ∈ ds, u.Works) (ho : o.Works) (h2 : ds ≠ []) (hw : 0 < width k gs) (lr : ℝ) :
    Runs (Wgan.critic fuel z g n lr d s) h fun s' h' => ∃ l' Q, s' = { s with network := s'.network, output_layer := some l' } ∧
      Advance h h' s.network s'.network l l' [d] ∧ Stage s' h' l' o gs ds R Q d ∧ CriticStep o gs ds R (lr / n) (z, g) P Q := by
  obtain ⟨ei, el, ⟨w, ⟨l1, l2, en, L1, L2⟩, hh, O, nb, nd⟩, hR, nR, ⟨da, db, dB, hB⟩, nB, neB⟩ := T
  have len1 := layers_length gs L1
  have len2 := layers_length ds L2
  have hl : l1.length = front (l1 ++ l2).length := by rw [List.length_append, len1, len2]; exact hh
  have h2' : l2 ≠ [] := by intro e; rw [e] at len2; exact h2 (List.length_eq_zero_iff.1 len2.symm)
  subst ei
  unfold Wgan.critic
  have na := nd
  rw [en] at nb na nR nB
  rw [List.map_append, List.mem_append, not_or] at nb
  rw [written_append, List.nodup_append] at na
  rw [written_append, List.mem_append, not_or] at nR nB
  refine Verif.stepM (noise_run z n s.k w) fun x h1 w1 k1 f1 ux => ?_
  have L1' := LayersAre.keep k1 gs L1 fun _ _ _ _ _ _ => id
  have L2' := LayersAre.keep k1 ds L2 fun _ _ _ _ _ _ => id
  have O1 := O.weights.keep k1 fun _ _ => id
  have hR1 := hR.keep k1 fun _ _ => id
  have hB1 := hB.keep k1 fun _ _ => id
  rw [en]
  refine Runs.bind ((gen_run g w1 L1' hl ux (notin_written L1 f1) na.1 hg).mono fun r h2 ⟨l1', e1, A⟩ => ?_)
  obtain ⟨sw, sb, sl, si⟩ := same_written A.sames
  have k2 := A.keeps
  have L2'' : LayersAre h2 ds P.2.1 l2 := layers_off k2 ds L2' (fun q hq c e hc => na.2.2 _ hc _ hq e.symm) fun q hq c e hc => bias_written L2' L1' hq (e ▸ hc)
  have O2 := O1.keep k2 fun c e hc => vec_written L1' O1 (e ▸ hc)
  have hR2 := hR1.keep k2 fun c e hc => nR.1 (e ▸ hc)
  have hB2 := hB1.keep k2 fun c e hc => nB.1 (e ▸ hc)
  -- the samples of the critic
  refine Runs.bind ((Hd.set_from_mlpp_matrix_run A.wf hB2 A.out).mono fun _ h3 ⟨w3, k3, hB3⟩ => ?_)
  have hR3 := hR2.offm k3 (Ne.symm neB)
  refine Runs.bind ((rows_add_mat w3 hB3 hR3 hw).mono fun _ h4 ⟨w4, k4, hB4⟩ => ?_)
  have k34 := k3.trans k4
  have L24 : LayersAre h4 ds P.2.1 l2 := layers_off k34 ds L2'' (fun q hq c e hc => nB.2 (hc ▸ e ▸ hq)) fun q hq c e hc => by
    obtain ⟨x, hx, ex⟩ := List.mem_map.1 hq
    obtain ⟨p, v, b⟩ := bias_of ds L2'' x hx
    exact b.ne_mat hB2 (by rw [ex, e, hc])
  have O4 := O2.keep k34 fun c e hc => O2.ne_mat hB2 (e.trans hc)
  have hR4 := hR3.offm k4 (Ne.symm neB)
  have eo : r.1 = l1' ++ l2 := e1
  rw [el, eo]
  have hl' : l1'.length = front (l1' ++ l2).length := by rw [List.length_append, sl, ← List.length_append]; exact hl
  refine Runs.bind ((disc_run g (k := s.k) (gs := gs) (D := P.2) w4 L24 hl' h2' ⟨O.units, O.act, O.cost, O.init, O.reg, O.lambda, O.alpha, O4, O.bias⟩ nb.2 hB4 nB.2
    na.2.1 hd ho).mono fun p h5 ⟨l2', l', e5, k5, S5, ew, n5, Q⟩ => ?_)
  subst e5
  obtain ⟨tw, tb, tl, ti⟩ := same_written S5
  rw [sl, len1] at Q
  have kd : Keeps h2 h5 (fun c => some c ∈ l.weights :: (d :: written l2)) := (k34.mono fun c _ hc => by simp [hc]).trans (k5.mono fun c _ hc => by
    rcases List.mem_cons.1 hc with hc | hc <;> simp [hc])
  have M5 := (gen_keep A L1' O1 nb.1 (fun q hq => by
    rcases List.mem_cons.1 hq with rfl | hq
    · exact ⟨⟨_, _, _, hB1⟩, nB.1, fun e => f1.ne_mat hB e.symm⟩
    · exact ⟨written_mat ds L2' q hq, fun hq' => na.2.2 _ hq' _ hq rfl, fun e => notin_written L2 f1 (e ▸ hq)⟩) kd).1
  have hR5 := hR4.keep k5 fun c e hc => by
    rcases List.mem_cons.1 hc with hc | hc
    · exact O4.ne_mat hR4 (by rw [e, hc])
    · exact nR.2 (e ▸ hc)
  have hB5 := hB4.keep k5 fun c e hc => by
    rcases List.mem_cons.1 hc with hc | hc
    · exact O4.ne_mat hB4 (by rw [e, hc])
    · exact nB.2 (e ▸ hc)
  refine signs_run Q.wf n fun t h6 w6 k6 ut => ?_
  have Q6 := passed_keep Q w6 k6
  have M6 := LayersAre.keep k6 gs M5 fun _ _ _ _ _ _ => id
  have hR6 := hR5.keep k6 fun _ _ => id
  have hB6 := hB5.keep k6 fun _ _ => id
  have h2'' : l2' ≠ [] := by intro e; rw [e] at tl; exact h2' (List.length_eq_zero_iff.1 tl.symm)
  have hl6 : l1'.length = front (l1' ++ l2').length := by rw [List.length_append, tl, ← List.length_append]; exact hl'
  have tail := critic_tail fuel hl6 h2'' Q6 (by rw [tw]; exact na.2.1) hd ho ut n lr
  refine Runs.congr ?_ (Runs.bind (m := _) (k := fun u => pure { s with network := u.1, output_layer := some u.2 }) (tail.mono fun u h7 ⟨l2f, lf, eu, F⟩ => ?_))
  · simp only [bind_assoc]
  subst eu
  have k7 := F.keeps
  have M7 := LayersAre.keep k7 gs M6 fun _ _ _ _ _ _ => id
  obtain ⟨lx, ex, Of, nf, nbf⟩ := F.out
  have ex : lf = lx := Option.some.inj ex
  subst ex
  have K0 : Keeps h h2 (fun c => some c ∈ written l1) := (k1.mono fun _ _ => False.elim).trans k2
  have Kall : Keeps h h6 (fun c => some c ∈ [d] ++ l.weights :: written (l1 ++ l2)) := by
    rw [written_append]
    refine (K0.mono fun c _ hc => by simp [hc]).trans ((kd.mono fun c _ hc => ?_).trans (k6.mono fun _ _ => False.elim))
    simp only [List.mem_cons, List.mem_append] at hc ⊢
    tauto
  have KF : Keeps h h7 (fun c => some c ∈ [d] ++ l.weights :: written (l1 ++ l2)) := Kall.trans (k7.mono fun _ _ => False.elim)
  have nf' : NotIn h lf.weights := fun c e hc => nf c e (Kall.live hc)
  have WF : ∀ q ∈ written (l1' ++ l2f), q ∈ written (l1 ++ l2) ∨ NotIn h6 q := fun q hq => by
    rw [written_append, List.mem_append] at hq
    rw [written_append, List.mem_append]
    rcases hq with hq | hq
    · exact Or.inl (Or.inl (sw ▸ hq))
    · rcases F.olds q hq with a | a
      · exact Or.inl (Or.inr (tw ▸ a))
      · exact Or.inr a
  refine Runs.of_eq rfl ⟨lf, (redrawnH g gs 0 P.1, stepN (lr / n) ds _ (grads o ds _ (signs n) _)), rfl, ⟨KF, ?_, ?_⟩, ⟨rfl, rfl, ⟨F.wf, ⟨l1', l2f, rfl, M7, F.hidden⟩, hh, Of, ?_, ?_⟩,
    hR6.keep k7 fun _ _ => id, ?_, ⟨_, _, _, hB6.keep k7 fun _ _ => id⟩, ?_, neB⟩, rfl, ?_⟩
  · intro q hq
    rcases List.mem_cons.1 hq with rfl | hq
    · exact Or.inr nf'
    · rcases WF q hq with a | a
      · exact Or.inl (List.mem_cons_of_mem _ a)
      · exact Or.inr fun c e hc => a c e (Kall.live hc)
  · intro q hq
    rw [List.map_append, List.mem_append] at hq
    rw [List.map_append, List.mem_append]
    rcases hq with hq | hq
    · exact Or.inl (Or.inl (sb ▸ hq))
    · obtain ⟨x, hx, ex⟩ := List.mem_map.1 hq
      exact Or.inr fun c e hc => F.biases x hx c (ex.trans e) (Kall.live hc)
  · rw [List.map_append, List.mem_append, not_or]
    exact ⟨notin_bias M6 nf, nbf⟩
  · show (written (l1' ++ l2f)).Nodup
    rw [written_append, List.nodup_append]
    refine ⟨by rw [sw]; exact na.1, F.nodup, fun a ha b hb e => ?_⟩
    rcases F.olds b hb with q | q
    · have q : b ∈ written l2' := q
      rw [tw] at q; rw [sw] at ha
      exact na.2.2 a ha b q e
    · exact notin_written M6 q (e ▸ ha)
  · intro hm
    rcases WF _ hm with a | a
    · rw [written_append, List.mem_append] at a
      rcases a with a | a
      · exact nR.1 a
      · exact nR.2 a
    · exact a.ne_mat hR6 rfl
  · intro hm
    rcases WF _ hm with a | a
    · rw [written_append, List.mem_append] at a
      rcases a with a | a
      · exact nB.1 a
      · exact nB.2 a
    · exact a.ne_mat hB6 rfl
  · exact ⟨grads o ds _ (signs n) _, fun sm => objective_gradient sm hd ho, stepN_move _ _ _⟩

theorem stepH_move (c : ℝ) : ∀ (us : List Lay) {k : Nat} (H G : Hiddens k us), stepH c us H G = moveH us H (-c) G
  | [], _, _, _ => rfl
  | u :: us, _, H, G => by
    simp only [stepH, moveH, stepH_move c us]
    congr 2
    · funext i j; ring
    · funext j; ring

/-- The gradients of all layers, and the update of those of the generator. -/
theorem generator_tail (fuel : Nat) {l1 l2 : List HiddenLayer} {l : OutputLayer} {h : Heap ℝ} {G : Hiddens k gs} {D : Net (width k gs) ds} {Z : Matrix (Fin n) (Fin k) ℝ}
    (hl : l1.length = front (l1 ++ l2).length) (w : h.WF) (L1 : LayersAre h gs G l1) (F1 : Fed h gs G l1 Z) (P : Passed h l2 l o ds (made gs G Z) D)
    (nd : (written (l1 ++ l2)).Nodup) (hg : ∀ u ∈ gs, u.Works) (hd : ∀ u ∈ ds, u.Works) (ho : o.Works) (hc : o.cost = .wasserstein_loss) {yh t : Ref} {p : Fin n → ℝ}
    (hy : HasV h yh p) (ht : HasV h t (fun _ : Fin n => (1 : ℝ))) (lr : ℝ) :
    Runs (do
      let d ← generatorGradients fuel (l1 ++ l2) (some l) yh t
      scaleAll (lr / n) d.2
      let u ← updateGenerator n d.1.1 d.2 lr
      pure (u, d.1.2)) h fun u h' => ∃ l1' l2' l', u = (l1' ++ l2', l') ∧ h'.WF ∧ Keeps h h' (fun _ => False) ∧
        LayersAre h' gs (stepH (lr / n) gs G (gradsH gs G Z (fooled o gs ds D Z G))) l1' ∧ LayersAre h' ds D.1 l2' ∧ OutputIs h' l' o D.2 ∧
        l'.weights = l.weights ∧ List.Forall₂ SameB l2 l2' ∧ (written l1').Nodup ∧ (∀ q ∈ written l1', q ∈ written l1 ∨ NotIn h q) ∧ (∀ l ∈ l1', NotIn h l.bias) := by
  unfold generatorGradients
  simp only [bind_assoc, pure_bind]
  refine Runs.step (show out (some l) h = .ok (l, h) from rfl) ?_
  refine Runs.bind ((gradientOut_run P ho hy (y := fun _ => 1) (fun i => by rw [hc]; rfl) ht).mono fun q h1 ⟨w1, K1, e1, d1, g1, n1, ne1, _⟩ => ?_)
  have L1' := LayersAre.keep K1 gs L1 fun _ _ _ _ _ _ => id
  have F1' := Fed.keep K1 gs F1
  have L2' := LayersAre.keep K1 ds P.hidden fun _ _ _ _ _ _ => id
  have F2' := Fed.keep K1 ds P.fed
  have ew : q.1.weights = l.weights := by rw [e1]
  have ow : HasV h1 q.1.weights D.2.1 := ew ▸ P.out.weights.keep K1 fun _ _ => id
  set S := fun (i : Fin n) j => topDelta o ds (made gs G Z) (fun _ => 1) D i * D.2.1 j with hS
  refine Runs.bind ((layersBack_front fuel (o := q.1) (rest := l2) (P := fun r h' => h'.WF ∧ LayersAre h' ds D.1 r.1 ∧ Backed h' ds D.1 r.1 (made gs G Z) S ∧
      HasV h' q.1.delta (topDelta o ds (made gs G Z) (fun _ => 1) D) ∧ HasV h' q.1.weights D.2.1 ∧ List.Forall₂ SameB l2 r.1 ∧
      List.Forall₂ (HasS h') r.2 (gradList ds (gradsH ds D.1 (made gs G Z) S)).reverse)
    (fun r h h' w k ⟨_, a, b, c, d, e, f⟩ => ⟨w, LayersAre.keep k ds a fun _ _ _ _ _ _ => id, Backed.keep k ds b, c.keep k fun _ _ => id, d.keep k fun _ _ => id, e, hasS_keep k f⟩)
    gs (h := h1) (H := G) (ls := l1) (X := Z) (S := fooled o gs ds D Z G) ?_
    (fun r h' ⟨w, a, b, c, d, _, _⟩ => signal_run w ds a c d b) L1' F1' hg).mono ?_)
  · refine (layersBack_run fuel ds w1 L2' d1 ow F2' hd).mono fun r h2 ⟨w2, K2, S2, M2, B2, G2, A2⟩ => ?_
    refine ⟨w2, K2, A2, ⟨w2, M2, B2, d1.keep K2 fun _ _ => id, ow.keep K2 fun _ _ => id, S2, G2⟩, Backed.deltas ds M2 B2, fun x hx => ?_⟩
    obtain ⟨i, hi, e⟩ := List.getElem_of_mem hx
    have := G2.get hi (by rw [← G2.length_eq]; exact hi)
    subst e
    exact ⟨_, _, _, this⟩
  intro r h2 ⟨w2, K2, A2, r1, r2, q1, q2, er, eq, ⟨_, M2, B2, dd2, ow2, S2, G2⟩, S1, M1, B1, G1, D1, Q1⟩
  dsimp only at M2 B2 S2 G2 ⊢
  rw [er]
  have K12 := K1.trans K2
  have A := A2.mono K1
  rw [er, eq] at A
  rw [eq] at Q1
  rw [eq]
  have GA : List.Forall₂ (HasS h2) (q2 ++ q1) ((gradList ds (gradsH ds D.1 (made gs G Z) S)).reverse ++ (gradList gs (gradsH gs G Z (fooled o gs ds D Z G))).reverse) :=
    List.rel_append G2 G1
  refine Runs.bind ((scaleAll_run (lr / n) w2 GA A.nodup).mono fun _ h3 ⟨w3, K3, G3⟩ => ?_)
  have K13 := K12.trans_new K3 fun c hc hl => A.new _ hc _ rfl hl
  have off : ∀ {us : List Lay} {k : Nat} {H : Hiddens k us} {ls ls' : List HiddenLayer}, LayersAre h us H ls → List.Forall₂ SameB ls ls' → LayersAre h2 us H ls' → LayersAre h3 us H ls' :=
    fun {us k H ls ls'} L0 S L => layers_off K3 us L (fun x hx c e hc => by
      rw [sameB_written S] at hx
      exact notin_written L0 (A.new _ hc) (e ▸ hx)) fun x hx c e hc => by
        obtain ⟨y, hy, ey⟩ := List.mem_map.1 hx
        obtain ⟨_, v, b⟩ := bias_of us L y hy
        obtain ⟨_, _, _, hm⟩ := Q1 _ hc
        exact b.ne_mat hm (ey.trans e)
  have M1' := off L1 S1 M1
  have M2' := off P.hidden S2 M2
  have ow3 : HasV h3 q.1.weights D.2.1 := ow2.keep K3 fun c e hc => by
    obtain ⟨_, _, _, hm⟩ := Q1 _ hc
    exact ow2.ne_mat hm e
  have B1' := backed_keep K3 gs B1 fun x hx c e hc => (A.deltas x (List.mem_append_left _ hx)).2 (e ▸ hc)
  have e2 : q2.length = l2.length := by rw [G2.length_eq, List.length_reverse, gradList_length, ← layers_length ds P.hidden]
  have len1 : r1.length = l1.length := S1.length_eq.symm
  have len2 : r2.length = l2.length := S2.length_eq.symm
  have ef : front (r1 ++ r2).length = r1.length := by rw [List.length_append, len1, len2, ← List.length_append]; exact hl.symm
  unfold updateGenerator
  rw [ef, List.take_left, List.drop_left, show (r1 ++ r2).length - r1.length = q2.length by rw [List.length_append, e2, len2]; omega, List.drop_left]
  have G4 : List.Forall₂ (HasS h3) q1 ((gradList gs (gradsH gs G Z (fooled o gs ds D Z G))).reverse.map (scaled (lr / n)) ++ []) := by
    rw [List.append_nil]
    rw [List.map_append] at G3
    have := List.forall₂_drop q2.length G3
    rw [List.drop_left] at this
    rw [show q2.length = ((gradList ds (gradsH ds D.1 (made gs G Z) S)).reverse.map (scaled (lr / n))).length by rw [List.length_map, G2.length_eq], List.drop_left] at this
    exact this
  have nd1 : (written r1).Nodup := by
    rw [sameB_written S1]
    rw [written_append, List.nodup_append] at nd
    exact nd.1
  simp only [bind_assoc, pure_bind]
  refine Runs.bind ((layersUpdate_run n lr gs w3 M1' B1' G4 nd1).mono fun u h4 ⟨w4, K4, M4, N4, W4, C4⟩ => ?_)
  have O := P.out
  refine Runs.of_eq rfl ⟨u, r2, q.1, rfl, w4, K13.trans K4, M4, LayersAre.keep K4 ds M2' fun _ _ _ _ _ _ => id, ⟨?_, ?_, ?_, ?_, ?_, ?_, ?_, ow3.keep K4 fun _ _ => id, ?_⟩, ew, S2, N4, ?_,
    fun x hx => (C4 x hx).mono K13⟩
  · rw [e1]; exact O.units
  · rw [e1]; exact O.act
  · rw [e1]; exact O.cost
  · rw [e1]; exact O.init
  · rw [e1]; exact O.reg
  · rw [e1]; exact O.lambda
  · rw [e1]; exact O.alpha
  · rw [e1]; exact O.bias
  · intro x hx
    rcases W4 x hx with a | a
    · exact Or.inl (sameB_written S1 ▸ a)
    · exact Or.inr (a.mono K13)

theorem generate_run (fuel : Nat) (z : Noise) (g : Draws) {s : Wgan} {h : Heap ℝ} {l : OutputLayer} {R : Matrix (Fin n) (Fin (width k gs)) ℝ} {P : Duo k gs ds} {d : Ref}
    (T : Stage s h l o gs ds R P d) (hg : ∀ u ∈ gs, u.Works) (hd : ∀ u ∈ ds, u.Works) (ho : o.Works) (hc : o.cost = .wasserstein_loss) (h2 : ds ≠ [])
    {p : Fin n → ℝ} (hy : HasV h s.y_hat p) (ny : s.y_hat ≠ l.weights) (lr : ℝ) :
    Runs (Wgan.generate fuel z g n lr d s) h fun s' h' => ∃ l' Q, s' = { s with network := s'.network, output_layer := some l' } ∧
      Advance h h' s.network s'.network l l' [d] ∧ Stage s' h' l' o gs ds R Q d ∧ GeneratorStep o gs ds n (lr / n) (z, g) P Q := by
  obtain ⟨ei, el, ⟨w, ⟨l1, l2, en, L1, L2⟩, hh, O, nb, nd⟩, hR, nR, ⟨da, db, dB, hB⟩, nB, neB⟩ := T
  have len1 := layers_length gs L1
  have len2 := layers_length ds L2
  have hl : l1.length = front (l1 ++ l2).length := by rw [List.length_append, len1, len2]; exact hh
  have h2' : l2 ≠ [] := by intro e; rw [e] at len2; exact h2 (List.length_eq_zero_iff.1 len2.symm)
  subst ei
  unfold Wgan.generate
  have na := nd
  rw [en] at nb na nR nB
  rw [List.map_append, List.mem_append, not_or] at nb
  rw [written_append, List.nodup_append] at na
  rw [written_append, List.mem_append, not_or] at nR nB
  refine Verif.stepM (noise_run z n s.k w) fun x h1 w1 k1 f1 ux => ?_
  have L1' := LayersAre.keep k1 gs L1 fun _ _ _ _ _ _ => id
  have L2' := LayersAre.keep k1 ds L2 fun _ _ _ _ _ _ => id
  have O1 := O.weights.keep k1 fun _ _ => id
  have hR1 := hR.keep k1 fun _ _ => id
  have hB1 := hB.keep k1 fun _ _ => id
  have hy1 := hy.keep k1 fun _ _ => id
  rw [en]
  refine Runs.bind ((gen_run g w1 L1' hl ux (notin_written L1 f1) na.1 hg).mono fun r h2 ⟨l1', e1, A⟩ => ?_)
  obtain ⟨sw, sb, sl, si⟩ := same_written A.sames
  have k2 := A.keeps
  have L2'' : LayersAre h2 ds P.2.1 l2 := layers_off k2 ds L2' (fun q hq c e hc => na.2.2 _ hc _ hq e.symm) fun q hq c e hc => bias_written L2' L1' hq (e ▸ hc)
  have O2 := O1.keep k2 fun c e hc => vec_written L1' O1 (e ▸ hc)
  have hR2 := hR1.keep k2 fun c e hc => nR.1 (e ▸ hc)
  have hB2 := hB1.keep k2 fun c e hc => nB.1 (e ▸ hc)
  have hy2 := hy1.keep k2 fun c e hc => vec_written L1' hy1 (e ▸ hc)
  refine Runs.bind ((Hd.set_from_mlpp_matrix_run A.wf hB2 A.out).mono fun _ h4 ⟨w4, k34, hB4⟩ => ?_)
  have hR4 := hR2.offm k34 (Ne.symm neB)
  have hy4 := hy2.offm k34 hB2
  have L24 : LayersAre h4 ds P.2.1 l2 := layers_off k34 ds L2'' (fun q hq c e hc => nB.2 (hc ▸ e ▸ hq)) fun q hq c e hc => by
    obtain ⟨x, hx, ex⟩ := List.mem_map.1 hq
    obtain ⟨p, v, b⟩ := bias_of ds L2'' x hx
    exact b.ne_mat hB2 (by rw [ex, e, hc])
  have O4 := O2.keep k34 fun c e hc => O2.ne_mat hB2 (e.trans hc)
  have eo : r.1 = l1' ++ l2 := e1
  rw [el, eo]
  have hl' : l1'.length = front (l1' ++ l2).length := by rw [List.length_append, sl, ← List.length_append]; exact hl
  refine Runs.bind ((disc_run g (k := s.k) (gs := gs) (D := P.2) w4 L24 hl' h2' ⟨O.units, O.act, O.cost, O.init, O.reg, O.lambda, O.alpha, O4, O.bias⟩ nb.2 hB4 nB.2
    na.2.1 hd ho).mono fun q h5 ⟨l2', l', e5, k5, S5, ew, n5, Q⟩ => ?_)
  subst e5
  obtain ⟨tw, tb, tl, ti⟩ := same_written S5
  rw [sl, len1] at Q
  have kd : Keeps h2 h5 (fun c => some c ∈ l.weights :: (d :: written l2)) := (k34.mono fun c _ hc => by simp [hc]).trans (k5.mono fun c _ hc => by
    rcases List.mem_cons.1 hc with hc | hc <;> simp [hc])
  obtain ⟨M5, F5⟩ := gen_keep A L1' O1 nb.1 (fun q hq => by
    rcases List.mem_cons.1 hq with rfl | hq
    · exact ⟨⟨_, _, _, hB1⟩, nB.1, fun e => f1.ne_mat hB e.symm⟩
    · exact ⟨written_mat ds L2' q hq, fun hq' => na.2.2 _ hq' _ hq rfl, fun e => notin_written L2 f1 (e ▸ hq)⟩) kd
  have hR5 := hR4.keep k5 fun c e hc => by
    rcases List.mem_cons.1 hc with hc | hc
    · exact O4.ne_mat hR4 (by rw [e, hc])
    · exact nR.2 (e ▸ hc)
  have hB5 := hB4.keep k5 fun c e hc => by
    rcases List.mem_cons.1 hc with hc | hc
    · exact O4.ne_mat hB4 (by rw [e, hc])
    · exact nB.2 (e ▸ hc)
  have hy5 := hy4.keep k5 fun c e hc => by
    rcases List.mem_cons.1 hc with hc | hc
    · exact ny (e.trans hc)
    · exact vec_written L24 hy4 (e ▸ hc)
  refine Verif.stepV (one_run Q.wf n) fun t h6 w6 k6 f6 ut => ?_
  have Q6 := passed_keep Q w6 k6
  have M6 := LayersAre.keep k6 gs M5 fun _ _ _ _ _ _ => id
  have F6 := Fed.keep k6 gs F5
  have hR6 := hR5.keep k6 fun _ _ => id
  have hB6 := hB5.keep k6 fun _ _ => id
  have hy6 := hy5.keep k6 fun _ _ => id
  have hl6 : l1'.length = front (l1' ++ l2').length := by rw [List.length_append, tl, ← List.length_append]; exact hl'
  have nd6 : (written (l1' ++ l2')).Nodup := by rw [written_append, sw, tw, ← written_append, ← en]; exact nd
  have tail := generator_tail fuel hl6 w6 M6 F6 Q6 nd6 hg hd ho hc hy6 ut lr
  refine Runs.congr ?_ (Runs.bind (m := _) (k := fun u => pure { s with network := u.1, output_layer := some u.2 }) (tail.mono
    fun u h7 ⟨l1f, l2f, lf, eu, w7, k7, X1, X2, Of, wf', Sf, N1, W1, C1⟩ => ?_))
  · simp only [bind_assoc, pure_bind]
  subst eu
  have sfw := sameB_written Sf
  have sfb := sameB_bias Sf
  have K0 : Keeps h h2 (fun c => some c ∈ written l1) := (k1.mono fun _ _ => False.elim).trans k2
  have Kall : Keeps h h6 (fun c => some c ∈ [d] ++ l.weights :: written (l1 ++ l2)) := by
    rw [written_append]
    refine (K0.mono fun c _ hc => by simp [hc]).trans ((kd.mono fun c _ hc => ?_).trans (k6.mono fun _ _ => False.elim))
    simp only [List.mem_cons, List.mem_append] at hc ⊢
    tauto
  have KF : Keeps h h7 (fun c => some c ∈ [d] ++ l.weights :: written (l1 ++ l2)) := Kall.trans (k7.mono fun _ _ => False.elim)
  have nf' : lf.weights = l.weights := wf'.trans ew
  have WF : ∀ q ∈ written (l1f ++ l2f), q ∈ written (l1 ++ l2) ∨ NotIn h6 q := fun q hq => by
    rw [written_append, List.mem_append] at hq
    rw [written_append, List.mem_append]
    rcases hq with hq | hq
    · rcases W1 q hq with a | a
      · exact Or.inl (Or.inl (sw ▸ a))
      · exact Or.inr a
    · rw [sfw, tw] at hq
      exact Or.inl (Or.inr hq)
  refine Runs.of_eq rfl ⟨lf, (stepH (lr / n) gs (redrawnH g gs 0 P.1) (gradsH gs _ _ (fooled o gs ds _ _ _)), redrawn (from_ g gs.length) o ds P.2), rfl,
    ⟨KF, ?_, ?_⟩, ⟨rfl, rfl, ⟨w7, ⟨l1f, l2f, rfl, X1, X2⟩, hh, Of, ?_, ?_⟩,
    hR6.keep k7 fun _ _ => id, ?_, ⟨_, _, _, hB6.keep k7 fun _ _ => id⟩, ?_, neB⟩, rfl, ?_⟩
  · intro q hq
    rw [nf'] at hq
    rcases List.mem_cons.1 hq with rfl | hq
    · exact Or.inl (by simp)
    · rcases WF q hq with a | a
      · exact Or.inl (List.mem_cons_of_mem _ a)
      · exact Or.inr fun c e hc => a c e (Kall.live hc)
  · intro q hq
    rw [List.map_append, List.mem_append] at hq
    rw [List.map_append, List.mem_append]
    rcases hq with hq | hq
    · obtain ⟨x, hx, ex⟩ := List.mem_map.1 hq
      exact Or.inr fun c e hc => C1 x hx c (ex.trans e) (Kall.live hc)
    · rw [sfb, tb] at hq
      exact Or.inl (Or.inr hq)
  · rw [List.map_append, List.mem_append, not_or, nf']
    refine ⟨fun hm => ?_, by rw [sfb, tb]; exact nb.2⟩
    obtain ⟨x, hx, ex⟩ := List.mem_map.1 hm
    obtain ⟨y, ey, ly, -⟩ := O.weights
    exact C1 x hx _ (ex.trans ey) (Kall.live ly)
  · show (written (l1f ++ l2f)).Nodup
    rw [written_append, List.nodup_append, sfw, tw]
    refine ⟨N1, na.2.1, fun a ha b hb e => ?_⟩
    rcases W1 a ha with q | q
    · rw [sw] at q
      exact na.2.2 a q b hb e
    · rw [← tw] at hb
      exact notin_written Q6.hidden q (e ▸ hb)
  · intro hm
    rcases WF _ hm with a | a
    · rw [written_append, List.mem_append] at a
      rcases a with a | a
      · exact nR.1 a
      · exact nR.2 a
    · exact a.ne_mat hR6 rfl
  · intro hm
    rcases WF _ hm with a | a
    · rw [written_append, List.mem_append] at a
      rcases a with a | a
      · exact nB.1 a
      · exact nB.2 a
    · exact a.ne_mat hB6 rfl
  · exact ⟨gradsH gs _ _ (fooled o gs ds _ _ _), fun sm V => deceit_gradient sm hg hd ho V, stepH_move _ gs _ _⟩

/-! ## Epochs -/

theorem Advance.trans {h0 h1 h2 : Heap ℝ} {a b c : List HiddenLayer} {l l' l'' : OutputLayer} {E : List Ref} (A : Advance h0 h1 a b l l' E) (B : Advance h1 h2 b c l' l'' E) :
    Advance h0 h2 a c l l'' E := by
  have up : ∀ q, NotIn h1 q → NotIn h0 q := fun q f c e hc => f c e (A.keeps.live hc)
  refine ⟨⟨A.keeps.1.trans B.keeps.1, fun q lq nq => ?_⟩, fun q hq => ?_, fun q hq => ?_⟩
  · have x := A.keeps.2 q lq nq
    have : some q ∉ E ++ l'.weights :: written b := fun hm => by
      rcases List.mem_append.1 hm with hm | hm
      · exact nq (List.mem_append_left _ hm)
      · rcases A.olds _ hm with r | r
        · exact nq (List.mem_append_right _ r)
        · exact r q rfl lq
    have y := B.keeps.2 q (A.keeps.live lq) this
    exact ⟨y.1.trans x.1, y.2.trans x.2⟩
  · rcases B.olds q hq with r | r
    · exact A.olds q r
    · exact Or.inr (up q r)
  · rcases B.biases q hq with r | r
    · exact A.biases q r
    · exact Or.inr (up q r)

theorem Advance.refl (h : Heap ℝ) (ls : List HiddenLayer) (l : OutputLayer) (E : List Ref) : Advance h h ls ls l l E :=
  ⟨Keeps.refl _ _, fun _ => Or.inl, fun _ => Or.inl⟩

theorem Advance.more {h h' : Heap ℝ} {a b : List HiddenLayer} {l l' : OutputLayer} {E F : List Ref} (A : Advance h h' a b l l' E) (hF : ∀ q ∈ E, q ∈ F) :
    Advance h h' a b l l' F :=
  ⟨A.keeps.mono fun c _ hc => by
    rcases List.mem_append.1 hc with hc | hc
    · exact List.mem_append_left _ (hF _ hc)
    · exact List.mem_append_right _ hc, A.olds, A.biases⟩

end Adversarial
end Verif
