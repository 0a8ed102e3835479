import Verif.Lemmas.GanTrain

/-! # Training of a WGAN -/

namespace Verif
open Spec hiding Same
open Finset

theorem chain_snoc {α : Type} {R : Nat → α → α → Prop} {N : Nat} {a b c : α} (C : Chain R N a b) (r : R N b c) : Chain R (N + 1) a c := by
  obtain ⟨x, x0, xN, hx⟩ := C
  refine ⟨fun i => if i ≤ N then x i else c, by simp [x0], by simp, fun i hi => ?_⟩
  by_cases e : i = N
  · subst e; simp [xN, r]
  · have : i < N := by omega
    have h1 : i ≤ N := by omega
    have h2 : i + 1 ≤ N := by omega
    simp [h1, h2, hx i this]

namespace Wgan
open Ann Adversarial
variable {n m k : Nat} {o : Top} {gs ds : List Lay}

/-- A vector that the layers do not own. -/
theorem vec_off {h h' : Heap ℝ} {ls ls' : List HiddenLayer} {l l' : OutputLayer} {P : Duo k gs ds} {E : List Ref} (I : DuoRaw h ls l o gs ds P)
    (A : Advance h h' ls ls' l l' E) {a : Ref} {p : Fin n → ℝ} (ha : HasV h a p) (na : a ≠ l.weights) (nE : a ∉ E) :
    HasV h' a p ∧ a ≠ l'.weights ∧ (a ∉ ls.map (·.bias) → a ∉ ls'.map (·.bias)) := by
  obtain ⟨w, ⟨l1, l2, rfl, L1, L2⟩, -, -, -, -⟩ := I
  have nw : a ∉ l.weights :: written (l1 ++ l2) := fun hm => by
    rcases List.mem_cons.1 hm with hm | hm
    · exact na hm
    · rw [written_append, List.mem_append] at hm
      rcases hm with hm | hm
      · exact vec_written L1 ha hm
      · exact vec_written L2 ha hm
  refine ⟨ha.keep A.keeps fun c e hc => ?_, fun e => ?_, fun nb hm => ?_⟩
  · rcases List.mem_append.1 hc with hc | hc
    · exact nE (e ▸ hc)
    · exact nw (e ▸ hc)
  · rcases A.olds l'.weights (by simp) with r | r
    · exact nw (e ▸ r)
    · exact r.ne ha e.symm
  · rcases A.biases a hm with r | r
    · exact nb r
    · exact r.ne ha rfl

theorem mat_off {h h' : Heap ℝ} {ls ls' : List HiddenLayer} {l l' : OutputLayer} {P : Duo k gs ds} {E : List Ref} (I : DuoRaw h ls l o gs ds P)
    (A : Advance h h' ls ls' l l' E) {a : Ref} {q : Nat} {B : Matrix (Fin n) (Fin q) ℝ} (ha : HasM h a B) (na : a ∉ written ls) (nE : a ∉ E) :
    HasM h' a B ∧ a ∉ written ls' := by
  have nw : a ∉ l.weights :: written ls := fun hm => by
    rcases List.mem_cons.1 hm with hm | hm
    · exact I.out.weights.choose_spec.choose_spec.ne_mat ha hm.symm
    · exact na hm
  refine ⟨ha.keep A.keeps fun c e hc => ?_, fun hm => ?_⟩
  · rcases List.mem_append.1 hc with hc | hc
    · exact nE (e ▸ hc)
    · exact nw (e ▸ hc)
  · rcases A.olds a (List.mem_cons_of_mem _ hm) with r | r
    · exact nw r
    · exact r.ne_mat ha rfl

/-- What a method leaves of the object. -/
structure Next {q : Nat} (s : Wgan) (h : Heap ℝ) (l : OutputLayer) (s' : Wgan) (h' : Heap ℝ) (l' : OutputLayer) (o : Top) (gs ds : List Lay)
    (R : Matrix (Fin n) (Fin q) ℝ) (Q : Duo k gs ds) : Prop where
  same : s' = { s with network := s'.network, output_layer := some l' }
  advance : Advance h h' s.network s'.network l l' [s.y_hat]
  ready : WganReady s' h' o gs ds R Q

theorem _root_.Verif.Spec.WganReady.raw {s : Wgan} {h : Heap ℝ} {q : Nat} {R : Matrix (Fin n) (Fin q) ℝ} {P : Duo k gs ds} (I : WganReady s h o gs ds R P) :
    WganRaw s h o gs ds R P := ⟨I.inputs, I.output_set, I.y_hat, I.layers.imp fun _ ⟨a, b, c⟩ => ⟨a, b.raw, c⟩, I.apart, I.apart'⟩

theorem forward_raw (z : Noise) (g : Draws) {s : Wgan} {h : Heap ℝ} {q : Nat} {R : Matrix (Fin n) (Fin q) ℝ} {P : Duo k gs ds} (I : WganRaw s h o gs ds R P)
    {l : OutputLayer} (el : s.output_layer = some l) (hg : ∀ u ∈ gs, u.Works) (hd : ∀ u ∈ ds, u.Works) (ho : o.Works) :
    Runs (forward_pass z g s) h fun s' h' => ∃ l', Next s h l s' h' l' o gs ds R (redrawnAll g o gs ds P) ∧
      HasV h' s'.y_hat (fun i => netAt o ds (redrawnAll g o gs ds P).2 (made gs (redrawnAll g o gs ds P).1 (noise z n k) i)) ∧
      (∀ l ∈ s'.network, l.initialized = true) ∧ l'.initialized = true := by
  obtain ⟨ei, hR, ⟨yn, yv, hy⟩, ⟨l0, el0, D, ny⟩, nR, nby⟩ := I
  obtain rfl : l = l0 := Option.some.inj (el.symm.trans el0)
  subst ei
  unfold forward_pass
  refine Runs.step (Hd.sizem_run hR) ?_
  rw [el]
  refine Runs.bind ((Adversarial.forward_raw (n := n) z g D hg hd ho).mono fun r h1 ⟨A, D1, ua, na, i1, i2⟩ => ?_)
  obtain ⟨hR1, nR1⟩ := mat_off D A hR nR (by simp)
  obtain ⟨hy1, ny1, nby1⟩ := vec_off D A hy ny (by simp)
  refine Runs.bind ((Hd.set_from_mlpp_vector_run D1.wf hy1 ua).mono fun _ h2 ⟨w2, k2, hy2⟩ => ?_)
  obtain ⟨w1, ⟨l1, l2, e1, L1, L2⟩, hh, O1, nb1, nd1⟩ := D1
  have X := nby1 nby
  have nb := X
  rw [e1, List.map_append, List.mem_append, not_or] at nb
  have D2 : DuoIs h2 r.1 r.2 o gs ds (redrawnAll g o gs ds P) :=
    ⟨w2, ⟨l1, l2, e1, LayersAre.keepV hy1 k2 gs L1 nb.1, LayersAre.keepV hy1 k2 ds L2 nb.2⟩, hh, ⟨O1.units, O1.act, O1.cost, O1.init, O1.reg, O1.lambda, O1.alpha,
      O1.weights.keep k2 fun c e hc => ny1 (by rw [e, hc]), O1.bias⟩, nb1, nd1⟩
  refine Runs.of_eq rfl ⟨r.2, ⟨rfl, ⟨?_, A.olds, A.biases⟩, ⟨rfl, hR1.keep k2 fun c e hc => hy1.ne_mat hR1 (by rw [e, ← hc]), ⟨_, _, hy2⟩, ⟨r.2, rfl, D2, ny1⟩, nR1, X⟩⟩, hy2, i1, i2⟩
  exact (A.keeps.mono fun c _ hc => List.mem_append_right _ hc).trans (k2.mono fun c _ hc => by simp [hc])

theorem forward_run (z : Noise) (g : Draws) {s : Wgan} {h : Heap ℝ} {q : Nat} {R : Matrix (Fin n) (Fin q) ℝ} {P : Duo k gs ds} (I : WganReady s h o gs ds R P)
    {l : OutputLayer} (el : s.output_layer = some l) (hg : ∀ u ∈ gs, u.Works) (hd : ∀ u ∈ ds, u.Works) (ho : o.Works) :
    Runs (forward_pass z g s) h fun s' h' => ∃ l', Next s h l s' h' l' o gs ds R (redrawnAll g o gs ds P) ∧
      HasV h' s'.y_hat (fun i => netAt o ds (redrawnAll g o gs ds P).2 (made gs (redrawnAll g o gs ds P).1 (noise z n k) i)) ∧
      (∀ l ∈ s'.network, l.initialized = true) ∧ l'.initialized = true :=
  forward_raw z g I.raw el hg hd ho

theorem regTerms_ok {h : Heap ℝ} (w : h.WF) : ∀ (ls : List HiddenLayer) (t : ℝ), (∀ l ∈ ls, ∃ (p q : Nat) (A : Matrix (Fin p) (Fin q) ℝ), HasM h l.weights A) →
    ∃ x, regTerms ls t h = .ok (x, h)
  | [], t, _ => ⟨t, rfl⟩
  | [_], t, _ => ⟨t, rfl⟩
  | l :: l' :: ls, t, L => by
    obtain ⟨_, _, _, a⟩ := L l (by simp)
    obtain ⟨x, e⟩ := Hd.reg_termm_ok w a l.lambda l.alpha l.reg
    obtain ⟨y, e'⟩ := regTerms_ok w (l' :: ls) (t + x) fun x hx => L x (by simp [hx])
    refine ⟨y, ?_⟩
    show (do let r ← Reg.reg_termm l.weights l.lambda l.alpha l.reg; regTerms (l' :: ls) (t + r)) h = _
    rw [bind_ok e]; exact e'

theorem cost_ok {h : Heap ℝ} {ls : List HiddenLayer} {l : OutputLayer} {P : Duo k gs ds} (I : DuoIs h ls l o gs ds P) {a b : Ref} {p y : Fin n → ℝ}
    (ha : HasV h a p) (hb : HasV h b y) : ∃ x, Adversarial.cost ls (some l) a b h = .ok (x, h) := by
  obtain ⟨w, ⟨l1, l2, rfl, L1, L2⟩, -, O, -, -⟩ := I
  obtain ⟨t, et⟩ := regTerms_ok w (l1 ++ l2) 0 fun l hl => by
    rcases List.mem_append.1 hl with hl | hl
    · exact written_mat gs L1 _ (z_written hl).2
    · exact written_mat ds L2 _ (z_written hl).2
  obtain ⟨c, ec⟩ := costV_ok l.cost w ha hb
  obtain ⟨r, er⟩ := Hd.reg_termv_ok w O.weights l.lambda l.alpha l.reg
  unfold Adversarial.cost
  rw [bind_ok et, bind_ok (show out (some l) h = .ok (l, h) from rfl), bind_ok ec, bind_ok er]
  exact ⟨_, rfl⟩

theorem duo_keep {h h' : Heap ℝ} {ls : List HiddenLayer} {l : OutputLayer} {P : Duo k gs ds} (I : DuoIs h ls l o gs ds P) (w : h'.WF) (K : Keeps h h' (fun _ => False)) :
    DuoIs h' ls l o gs ds P := by
  obtain ⟨-, ⟨l1, l2, e, L1, L2⟩, hh, O, nb, nd⟩ := I
  exact ⟨w, ⟨l1, l2, e, LayersAre.keep K gs L1 fun _ _ _ _ _ _ => id, LayersAre.keep K ds L2 fun _ _ _ _ _ _ => id⟩, hh,
    ⟨O.units, O.act, O.cost, O.init, O.reg, O.lambda, O.alpha, O.weights.keep K fun _ _ => id, O.bias⟩, nb, nd⟩

theorem epoch_run (fuel : Nat) (w : Nat → Rolls) {s : Wgan} {h : Heap ℝ} {R : Matrix (Fin n) (Fin (width k gs)) ℝ} {P : Duo k gs ds} (I : WganReady s h o gs ds R P)
    {l : OutputLayer} (el : s.output_layer = some l) {p : Fin n → ℝ} (hy : HasV h s.y_hat p) (hg : ∀ u ∈ gs, u.Works) (hd : ∀ u ∈ ds, u.Works) (ho : o.Works)
    (hc : o.cost = .wasserstein_loss) (h2 : ds ≠ []) (hw : 0 < width k gs) (lr : ℝ) (e : Nat) :
    Runs (gdBody fuel w n lr e s) h fun s' h' => ∃ l' Q, Next s h l s' h' l' o gs ds R Q ∧ Epoch o gs ds R (lr / n) (w e) P Q ∧
      HasV h' s'.y_hat (fun i => netAt o ds Q.2 (made gs Q.1 (noise (w e 6).1 n k) i)) ∧ (∀ l ∈ s'.network, l.initialized = true) ∧ l'.initialized = true := by
  obtain ⟨ei, hR, -, ⟨l0, el0, D, ny⟩, nR, nby⟩ := I
  obtain rfl : l = l0 := Option.some.inj (el.symm.trans el0)
  unfold gdBody
  refine Verif.stepV (one_run D.wf n) fun t h1 w1 k1 f1 ut => ?_
  have D1 := duo_keep D w1 k1
  obtain ⟨x, ex⟩ := cost_ok D1 (hy.keep k1 fun _ _ => id) ut
  rw [el]
  refine Runs.step ex ?_
  refine stepM0 w1 fun d h3 dB w3 k3 f3 ud => ?_
  have K3 := k1.trans k3
  have D3 := duo_keep D w3 K3
  have hR3 := hR.keep K3 fun _ _ => id
  have hy3 := hy.keep K3 fun _ _ => id
  have f0 := f3.mono k1
  obtain ⟨-, ⟨l1, l2, en, L1, L2⟩, -⟩ := id D
  have T3 : Stage s h3 l o gs ds R P (some (.m d)) := ⟨ei, el, D3, hR3, nR, ⟨_, _, _, ud⟩, by
    rw [en, written_append, List.mem_append, not_or]
    exact ⟨notin_written L1 f0, notin_written L2 f0⟩, f0.ne_mat hR⟩
  refine Runs.bind ((Runs.foldN 5 (fun i s' h' => ∃ l' Q, s' = { s with network := s'.network, output_layer := some l' } ∧
      Advance h3 h' s.network s'.network l l' [some (.m d)] ∧ Stage s' h' l' o gs ds R Q (some (.m d)) ∧
      Chain (fun i => CriticStep o gs ds R (lr / n) (w e i)) i P Q) _ s h3 ⟨l, P, by rw [← el], Advance.refl _ _ _ _, T3, ⟨fun _ => P, rfl, rfl, by intro i hi; omega⟩⟩ ?_).mono ?_)
  · intro i s1 h1 hi ⟨l1, Q1, e1, A1, T1, C1⟩
    refine (critic_run fuel (w e i).1 (w e i).2 T1 hg hd ho h2 hw lr).mono fun s2 h2 ⟨l2, Q2, e2, A2, T2, C2⟩ => ⟨l2, Q2, ?_, A1.trans A2, T2, chain_snoc C1 C2⟩
    rw [e2, e1]
  intro s1 h4 ⟨l4, Q4, e4, A4, T4, C4⟩
  have ey : s1.y_hat = s.y_hat := by rw [e4]
  obtain ⟨hy4, ny4, nby4⟩ := vec_off D3.raw A4 hy3 ny (by
    rw [List.mem_singleton]; intro e; exact f0.ne hy e.symm)
  refine Runs.bind ((generate_run fuel (w e 5).1 (w e 5).2 T4 hg hd ho hc h2 (ey ▸ hy4) (ey ▸ ny4) lr).mono fun s2 h5 ⟨l5, Q5, e5, A5, T5, C5⟩ => ?_)
  have ey5 : s2.y_hat = s.y_hat := by rw [e5]; exact ey
  have A35 := A4.trans A5
  obtain ⟨hy5, ny5, nby5⟩ := vec_off D3.raw A35 hy3 ny (by
    rw [List.mem_singleton]; intro e; exact f0.ne hy e.symm)
  have I5 : WganReady s2 h5 o gs ds R Q5 := ⟨T5.inputs, T5.real, ⟨_, _, ey5 ▸ hy5⟩, ⟨l5, T5.el, T5.layers, ey5 ▸ ny5⟩, T5.real', ey5 ▸ nby5 nby⟩
  refine (forward_run (w e 6).1 (w e 6).2 I5 T5.el hg hd ho).mono fun s3 h6 ⟨l6, N6, hy6, i6⟩ => ?_
  have A6 := N6.advance
  rw [ey5] at A6
  have AA := (A35.more (F := [some (.m d), s.y_hat]) (by simp)).trans (A6.more (F := [some (.m d), s.y_hat]) (by simp))
  refine ⟨l6, _, ⟨?_, ⟨?_, fun q hq => ?_, fun q hq => ?_⟩, N6.ready⟩, ⟨Q4, Q5, C4, C5, rfl⟩, hy6, i6⟩
  · have e6 := N6.same
    rw [e6, e5, e4]
  · refine ⟨K3.1.trans AA.keeps.1, fun q lq nq => ?_⟩
    have a := K3.2 q lq id
    have b := AA.keeps.2 q (K3.live lq) fun hm => by
      simp only [List.cons_append, List.nil_append, List.mem_cons, List.mem_append] at hm nq
      rcases hm with hm | hm
      · exact f0 q hm.symm lq
      · exact nq hm
    exact ⟨b.1.trans a.1, b.2.trans a.2⟩
  · rcases AA.olds q hq with a | a
    · exact Or.inl a
    · exact Or.inr (a.mono K3)
  · rcases AA.biases q hq with a | a
    · exact Or.inl a
    · exact Or.inr (a.mono K3)

theorem Next.trans {q : Nat} {s s1 s2 : Wgan} {h h1 h2 : Heap ℝ} {l l1 l2 : OutputLayer} {R : Matrix (Fin n) (Fin q) ℝ} {P Q : Duo k gs ds}
    (A : Next s h l s1 h1 l1 o gs ds R P) (B : Next s1 h1 l1 s2 h2 l2 o gs ds R Q) : Next s h l s2 h2 l2 o gs ds R Q := by
  have ey : s1.y_hat = s.y_hat := by rw [A.same]
  have := B.advance
  rw [ey] at this
  refine ⟨?_, A.advance.trans this, B.ready⟩
  rw [B.same, A.same]

theorem gd_run (fuel : Nat) (w : Nat → Rolls) {s : Wgan} {h : Heap ℝ} {R : Matrix (Fin n) (Fin (width k gs)) ℝ} {P : Duo k gs ds} (I : WganRaw s h o gs ds R P)
    {l : OutputLayer} (el : s.output_layer = some l) (hg : ∀ u ∈ gs, u.Works) (hd : ∀ u ∈ ds, u.Works) (ho : o.Works)
    (hc : o.cost = .wasserstein_loss) (h2 : ds ≠ []) (hw : 0 < width k gs) (lr : ℝ) (e : Int) :
    Runs (gradient_descent fuel w s lr e) h fun s' h' => ∃ l' Q, Next s h l s' h' l' o gs ds R Q ∧
      Chain (fun i => Epoch o gs ds R (lr / n) (w (i + 1))) (epochCount e) (redrawnAll (w 0 6).2 o gs ds P) Q ∧
      HasV h' s'.y_hat (fun i => netAt o ds Q.2 (made gs Q.1 (noise (w (epochCount e) 6).1 n k) i)) ∧ (∀ l ∈ s'.network, l.initialized = true) ∧ l'.initialized = true := by
  unfold gradient_descent
  refine Runs.step (Hd.sizem_run I.output_set) ?_
  refine Runs.bind ((forward_raw (w 0 6).1 (w 0 6).2 I el hg hd ho).mono fun s1 h1 ⟨l1, N1, hy1, i1⟩ => ?_)
  refine (Glm.epochs_run e s1 _ (fun i s' h' => ∃ l' Q, Next s h l s' h' l' o gs ds R Q ∧
      Chain (fun i => Epoch o gs ds R (lr / n) (w (i + 1))) i (redrawnAll (w 0 6).2 o gs ds P) Q ∧
      HasV h' s'.y_hat (fun a => netAt o ds Q.2 (made gs Q.1 (noise (w i 6).1 n k) a)) ∧ (∀ l ∈ s'.network, l.initialized = true) ∧ l'.initialized = true)
    ⟨l1, _, N1, ⟨fun _ => _, rfl, rfl, by intro i hi; omega⟩, hy1, i1⟩ ?_)
  intro i s2 h2 ⟨l2, Q2, N2, C2, hy2, i2⟩
  have e2 : s2.output_layer = some l2 := by rw [N2.same]
  exact (epoch_run fuel w N2.ready e2 hy2 hg hd ho hc ‹ds ≠ []› hw lr (i + 1)).mono fun s3 h3 ⟨l3, Q3, N3, C3, hy3, i3⟩ =>
    ⟨l3, Q3, N2.trans N3, chain_snoc C2 C3, hy3, i3⟩

end Wgan
end Verif
