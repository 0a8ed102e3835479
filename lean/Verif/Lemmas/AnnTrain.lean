import Verif.Lemmas.AnnMath
import Verif.Lemmas.GlmBatch
import Verif.Lemmas.SoftmaxReg

/-! # Training of a network -/

namespace Verif
open Spec Finset

namespace Ann
open Glm (epochs epochs_run walk roundStep rounds_run walk_round batchAt)
variable {n m k : Nat} {o : Top} {us : List Lay} {X : Matrix (Fin n) (Fin k) ℝ} {y : Fin n → ℝ} {N : Net k us}

theorem stepN_move (c : ℝ) (N G : Net k us) : stepN c us N G = move us N (-c) G := by
  have : ∀ (us : List Lay) {k : Nat} (H G : Hiddens k us), stepH c us H G = moveH us H (-c) G := by
    intro us
    induction us with
    | nil => intros; rfl
    | cons u us ih =>
      intro k H G
      simp only [stepH, moveH, ih]
      congr 2
      · funext i j; ring
      · funext j; ring
  unfold stepN move
  rw [this]
  congr 2
  · funext j; ring
  · ring

/-- The layers during training, which began in the state `s0`, `h0`. -/
structure Core (s0 : Ann) (h0 : Heap ℝ) (o : Top) (us : List Lay) (s : Ann) (h : Heap ℝ) (l : OutputLayer) (N : Net k us) : Prop where
  wf : h.WF
  hidden : LayersAre h us N.1 s.network
  el : s.output_layer = some l
  out : OutputIs h l o N.2
  nb : l.weights ∉ s.network.map (·.bias)
  nodup : (written s.network).Nodup
  same : s = { s0 with network := s.network, output_layer := s.output_layer, y_hat := s.y_hat }
  keeps : Keeps h0 h (fun c => some c ∈ owned s0)
  olds : ∀ q ∈ l.weights :: written s.network, q ∈ owned s0 ∨ NotIn h0 q

theorem Core.frameM {s0 s : Ann} {h0 h : Heap ℝ} {l : OutputLayer} (C : Core s0 h0 o us s h l N) {a : Ref} {p q : Nat} {A : Matrix (Fin p) (Fin q) ℝ}
    (ha : HasM h0 a A) (na : a ∉ owned s0) : HasM h a A ∧ a ∉ l.weights :: written s.network := by
  refine ⟨ha.keep C.keeps fun c e hc => na (e ▸ hc), fun hm => ?_⟩
  rcases C.olds a hm with q | q
  · exact na q
  · exact q.ne_mat ha rfl

theorem Core.frameV {s0 s : Ann} {h0 h : Heap ℝ} {l : OutputLayer} (C : Core s0 h0 o us s h l N) {a : Ref} {p : Nat} {v : Fin p → ℝ}
    (ha : HasV h0 a v) (na : a ∉ owned s0) : HasV h a v ∧ a ∉ l.weights :: written s.network := by
  refine ⟨ha.keep C.keeps fun c e hc => na (e ▸ hc), fun hm => ?_⟩
  rcases C.olds a hm with q | q
  · exact na q
  · exact q.ne ha rfl

theorem core_pass (g : Draws) {s0 s : Ann} {h0 h : Heap ℝ} {l : OutputLayer} (C : Core s0 h0 o us s h l N) (hu : ∀ u ∈ us, u.Works) (ho : o.Works)
    {x : Ref} {X : Matrix (Fin m) (Fin k) ℝ} (hx : HasM h x X) (nx : x ∉ written s.network) {β : Type} {f : List HiddenLayer → OutputLayer → β} :
    Runs (do
      let r ← layersPass g 0 x s.network
      let o ← output s
      let o ← OutputLayer.forward_pass (g s.network.length).1 (g s.network.length).2 (OutputLayer.set_input o r.2)
      pure (f r.1 o)) h fun r h' => ∃ ls l', r = f ls l' ∧ Passed h' ls l' o us X (redrawn g o us N) ∧
        ∀ yh, Core s0 h0 o us { s with network := ls, output_layer := some l', y_hat := yh } h' l' (redrawn g o us N) := by
  refine (pass_run g C.wf C.hidden C.el C.out C.nb hx (List.nodup_cons.2 ⟨nx, C.nodup⟩) hu ho (f := f)).mono
    fun r h1 ⟨ls, l', e, K1, S1, ew, na, P⟩ => ?_
  obtain ⟨sw, sb, -, -⟩ := same_written S1
  refine ⟨ls, l', e, P, fun yh => ⟨P.wf, P.hidden, rfl, P.out, ?_, ?_, ?_, ?_, ?_⟩⟩
  · show l'.weights ∉ ls.map _
    rw [sb, ew]; exact C.nb
  · show (written ls).Nodup
    rw [sw]; exact C.nodup
  · rw [C.same]
  · refine ⟨C.keeps.1.trans K1.1, fun q lq nq => ?_⟩
    have a := C.keeps.2 q lq nq
    have : some q ∉ l.weights :: written s.network := fun hm => by
      rcases C.olds _ hm with b | b
      · exact nq b
      · exact b q rfl lq
    have b := K1.2 q (C.keeps.live lq) this
    exact ⟨b.1.trans a.1, b.2.trans a.2⟩
  · show ∀ q ∈ l'.weights :: written ls, _
    rw [sw, ew]; exact C.olds

theorem core_step (fuel : Nat) {s0 s : Ann} {h0 h : Heap ℝ} {l : OutputLayer} (C : Core s0 h0 o us s h l N) (hu : ∀ u ∈ us, u.Works) (ho : o.Works)
    {X : Matrix (Fin m) (Fin k) ℝ} {y : Fin m → ℝ} (P : Passed h s.network l o us X N) {yh b : Ref} (hy : HasV h yh (fun i => netAt o us N (X i)))
    (hb : HasV h b y) (lr : ℝ) :
    Runs (step fuel s yh b lr) h fun s' h' => ∃ l', Core s0 h0 o us s' h' l' (stepN (lr / s.n) us N (grads o us X y N)) := by
  refine (step_run fuel P C.el C.nodup hu ho hy hb lr).mono fun s1 h1 S => ?_
  obtain ⟨l1, e1, O1, f1, nb1⟩ := S.out
  refine ⟨l1, S.wf, S.hidden, e1, O1, nb1, S.nodup, ?_, ?_, ?_⟩
  · have := S.same
    rw [this, C.same]
  · exact C.keeps.trans (S.keeps.mono fun _ _ => False.elim)
  · have fr : ∀ q, NotIn h q → NotIn h0 q := fun q a c e hc => a c e (C.keeps.live hc)
    intro q hq
    rcases List.mem_cons.1 hq with rfl | hq
    · exact Or.inr (fr _ f1)
    · rcases S.olds q hq with a | a
      · exact C.olds q (List.mem_cons_of_mem _ a)
      · exact Or.inr (fr _ a)

theorem core_of {s : Ann} {h : Heap ℝ} (R : AnnReady s h o us X y N) : ∃ l, Core s h o us s h l N ∧ s.input_set ∉ owned s ∧ s.output_set ∉ owned s := by
  obtain ⟨l, el, O, nb⟩ := R.top
  have d := R.apart
  rw [List.nodup_cons] at d
  have eo : owned s = l.weights :: written s.network := by unfold owned; rw [el]; rfl
  have nb' : l.weights ≠ s.output_set ∧ l.weights ∉ s.network.map (·.bias) := by simpa only [List.mem_cons, not_or] using nb
  refine ⟨l, ⟨R.wf, R.hidden, el, O, nb'.2, d.2, rfl, Keeps.refl _ _, fun q hq => Or.inl (eo ▸ hq)⟩, ?_, ?_⟩
  · rw [eo, List.mem_cons, not_or]
    exact ⟨fun e => O.weights.ne_mat R.input_set e.symm, d.1⟩
  · rw [eo, List.mem_cons, not_or]
    exact ⟨Ne.symm nb'.1, vec_written R.hidden R.output_set⟩

theorem Core.ready {s0 s : Ann} {h0 h : Heap ℝ} {l : OutputLayer} (C : Core s0 h0 o us s h l N) {N0 : Net k us} (R0 : AnnReady s0 h0 o us X y N0) :
    AnnReady s h o us X y N := by
  obtain ⟨-, -, n1, n2⟩ := core_of R0
  obtain ⟨a1, a2⟩ := C.frameM R0.input_set n1
  obtain ⟨b1, b2⟩ := C.frameV R0.output_set n2
  have e1 : s.input_set = s0.input_set := by rw [C.same]
  have e2 : s.output_set = s0.output_set := by rw [C.same]
  have e3 : s.n = s0.n := by rw [C.same]
  have e4 : s.k = s0.k := by rw [C.same]
  rw [List.mem_cons, not_or] at a2 b2
  refine ⟨C.wf, e3.trans R0.samples, e4.trans R0.inputs, e1 ▸ a1, e2 ▸ b1, C.hidden, ⟨l, C.el, C.out, ?_⟩, List.nodup_cons.2 ⟨e1 ▸ a2.2, C.nodup⟩⟩
  rw [List.mem_cons, not_or, e2]
  exact ⟨Ne.symm b2.1, C.nb⟩

theorem forward_core (g : Draws) {s0 s : Ann} {h0 h : Heap ℝ} {l : OutputLayer} (C : Core s0 h0 o us s h l N) {N0 : Net k us} (R0 : AnnReady s0 h0 o us X y N0)
    (hu : ∀ u ∈ us, u.Works) (ho : o.Works) :
    Runs (forward_pass g s) h fun s' h' => ∃ l', Core s0 h0 o us s' h' l' (redrawn g o us N) ∧ Passed h' s'.network l' o us X (redrawn g o us N) ∧ s'.y_hat = l'.a := by
  have R := C.ready R0
  refine (core_pass g C hu ho R.input_set (List.nodup_cons.1 R.apart).1
    (f := fun ls l => { s with network := ls, output_layer := some l, y_hat := l.a })).mono fun r h1 ⟨ls, l', e, P, D⟩ => ?_
  subst e
  exact ⟨l', D _, P, rfl⟩

theorem set_core (g : Draws) {s0 s : Ann} {h0 h : Heap ℝ} {l : OutputLayer} (C : Core s0 h0 o us s h l N) {x : Ref} {X : Matrix (Fin m) (Fin k) ℝ}
    (hx : HasM h x X) (nx : x ∉ written s.network) (hu : ∀ u ∈ us, u.Works) (ho : o.Works) :
    Runs (model_set_test g s x) h fun r h' => ∃ l', Core s0 h0 o us r.1 h' l' (redrawn g o us N) ∧ Passed h' r.1.network l' o us X (redrawn g o us N) ∧ r.2 = l'.a := by
  refine (core_pass g C hu ho hx nx (f := fun ls l => ({ s with network := ls, output_layer := some l }, l.a))).mono fun r h1 ⟨ls, l', e, P, D⟩ => ?_
  subst e
  exact ⟨l', D _, P, rfl⟩

theorem Core.trained {s0 s : Ann} {h0 h : Heap ℝ} {l : OutputLayer} (C : Core s0 h0 o us s h l N) {N0 : Net k us} (R0 : AnnReady s0 h0 o us X y N0)
    (P : Passed h s.network l o us X N) (e : s.y_hat = l.a) : AnnTrained s0 h0 s h o us X y N :=
  ⟨C.ready R0, e ▸ P.a, C.same, ⟨P.init.1, fun l' e' => by rw [C.el] at e'; cases e'; exact P.init.2⟩, C.keeps⟩

/-! ## Learning rates -/

theorem rate_run {s : Ann} {E e : Nat} (hr : RateOk s E) (he : e ≤ E) (lr : ℝ) (h : Heap ℝ) :
    apply_learning_rate_scheduler s lr s.decay_constant e s.drop_rate h = .ok (rateAt s lr e, h) := by
  unfold apply_learning_rate_scheduler rateAt
  cases es : s.lr_scheduler with
  | none => rfl
  | time => rfl
  | epoch => exact congrArg (fun x => Out.ok (x, h)) (mul_div_assoc _ _ _).symm
  | exponential => dsimp only; rw [← neg_mul]; rfl
  | step =>
    obtain ⟨hd, hi⟩ := hr es
    have h0 : 0 ≤ (1 + (e : ℝ)) / s.drop_rate := by positivity
    have h1 : (1 + (e : ℝ)) / s.drop_rate < 2147483648 := lt_of_le_of_lt (by gcongr) hi
    have et : Activation.toInt ((1 + (e : ℝ)) / s.drop_rate) h = .ok (⌊(1 + (e : ℝ)) / s.drop_rate⌋, h) := by
      unfold Activation.toInt
      rw [if_pos ⟨by linarith, h1⟩, if_pos h0]; rfl
    dsimp only
    rw [bind_ok et]
    refine congrArg (fun x => Out.ok (x, h)) ?_
    exact congrArg (lr * ·) (Real.rpow_intCast _ _)

/-! ## The training methods -/

theorem gd_run (fuel : Nat) (g : Nat → Draws) {s : Ann} {h : Heap ℝ} (R : AnnReady s h o us X y N) (hu : ∀ u ∈ us, u.Works) (ho : o.Works)
    (lr : ℝ) (e : Int) (hr : RateOk s (epochCount e)) :
    Runs (gradient_descent fuel g s lr e) h fun s' h' => AnnTrained s h s' h' o us X y
      (walk (fun i N => redrawn (g (i + 1)) o us (stepN (rateAt s lr (i + 1) / n) us N (grads o us X y N))) (redrawn (g 0) o us N) (epochCount e)) := by
  obtain ⟨l, C, -, -⟩ := core_of R
  unfold gradient_descent
  refine Runs.bind ((forward_core (g 0) C R hu ho).mono fun s1 h1 ⟨l1, C1, P1, y1⟩ => ?_)
  set F := walk (fun i N => redrawn (g (i + 1)) o us (stepN (rateAt s lr (i + 1) / n) us N (grads o us X y N))) (redrawn (g 0) o us N) with hF
  refine Runs.mono (Runs.foldN (epochCount e) (fun i s' h' => ∃ l', Core s h o us s' h' l' (F i) ∧ Passed h' s'.network l' o us X (F i) ∧ s'.y_hat = l'.a) _ s1 h1
    ⟨l1, C1, P1, y1⟩ ?_) fun s' h' ⟨l', C', P', y'⟩ => C'.trained R P' y'
  intro i s2 h2 hi ⟨l2, C2, P2, y2⟩
  unfold gdBody
  have es : apply_learning_rate_scheduler s2 lr s2.decay_constant ((i + 1 : Nat) : ℝ) s2.drop_rate h2 = .ok (rateAt s lr (i + 1), h2) := by
    have := rate_run (E := epochCount e) (e := i + 1) (s := s2) (by rw [C2.same]; exact hr) hi lr h2
    rw [this]
    refine congrArg (fun x => Out.ok (x, h2)) ?_
    unfold rateAt
    rw [C2.same]
  refine Runs.step es ?_
  have R2 := C2.ready R
  have en : s2.n = n := R2.samples
  refine Runs.bind ((core_step fuel C2 hu ho P2 (y2 ▸ P2.a) R2.output_set _).mono fun s3 h3 ⟨l3, C3⟩ => ?_)
  rw [en] at C3
  exact forward_core (g (i + 1)) C3 R hu ho

theorem rateAt_same {s s' : Ann} (e : s' = { s with network := s'.network, output_layer := s'.output_layer, y_hat := s'.y_hat }) (lr : ℝ) (ep : Nat) :
    rateAt s' lr ep = rateAt s lr ep := by unfold rateAt; rw [e]

theorem AnnReady.new {s : Ann} {h h' : Heap ℝ} (R : AnnReady s h o us X y N) (w : h'.WF) (K : Keeps h h' (fun _ => False)) : AnnReady s h' o us X y N := by
  obtain ⟨l, el, O, nb⟩ := R.top
  refine ⟨w, R.samples, R.inputs, R.input_set.keep K (fun _ _ => id), R.output_set.keep K (fun _ _ => id), LayersAre.keep K us R.hidden (fun _ _ _ _ _ _ => id),
    ⟨l, el, ⟨O.units, O.act, O.cost, O.init, O.reg, O.lambda, O.alpha, O.weights.keep K (fun _ _ => id), O.bias⟩, nb⟩, R.apart⟩

theorem AnnReady.notin {s : Ann} {h : Heap ℝ} (R : AnnReady s h o us X y N) {r : Ref} (f : NotIn h r) : r ∉ owned s := by
  obtain ⟨l, el, O, nb⟩ := R.top
  have eo : owned s = l.weights :: written s.network := by unfold owned; rw [el]; rfl
  rw [eo, List.mem_cons, not_or]
  exact ⟨f.ne O.weights, notin_written R.hidden f⟩

/-- One round of mini-batch training. -/
noncomputable def batchStep (o : Top) (us : List Lay) (g : Draws × Draws) (c : ℝ) (X : Matrix (Fin m) (Fin k) ℝ) (y : Fin m → ℝ) (N : Net k us) : Net k us :=
  redrawn g.2 o us (stepN c us (redrawn g.1 o us N) (grads o us X y (redrawn g.1 o us N)))

theorem mbgd_run (fuel : Nat) (g : Nat → Nat → Draws × Draws) (last : Draws) {s : Ann} {h : Heap ℝ} (R : AnnReady s h o us X y N) (hu : ∀ u ∈ us, u.Works)
    (ho : o.Works) (lr : ℝ) (e : Int) (hr : RateOk s (epochCount e)) {b K : Nat} (hb : 0 < b) (eK : n / b = K) (hK : 0 < K) :
    Runs (mbgd fuel g last s lr e b) h fun s' h' => AnnTrained s h s' h' o us X y (redrawn last o us
      (walk (roundStep hK fun ep i => batchStep o us (g ep i) (rateAt s lr ep / n) (batchX X K i) (firstY y K)) N (epochCount e * K))) := by
  unfold mbgd
  have hb' : (b : Int) ≠ 0 := by exact_mod_cast hb.ne'
  rw [if_neg hb', R.samples]
  have ek : (n : Int).tdiv (b : Int) = ((n / b : Nat) : Int) := by
    rw [Int.tdiv_eq_ediv_of_nonneg (Int.natCast_nonneg n)]; rfl
  dsimp only
  rw [ek, Int.toNat_natCast, eK]
  obtain ⟨ia, eia, lia, hia⟩ := R.input_set
  obtain ⟨oa, eoa, loa, hoa⟩ := R.output_set
  rw [eia, eoa]
  refine Runs.bind ((Utilities.create_mini_batchesmv_run R.wf lia loa hia hoa hK (Utilities.batch_row n K)).mono
    fun bs h1 ⟨w1, k1, ⟨lm, _, nm⟩, ⟨lv, _, nv⟩⟩ => ?_)
  have R1 := AnnReady.new R w1 k1
  obtain ⟨l, C, -, -⟩ := core_of R1
  set stp := fun (ep : Nat) (i : Fin K) => batchStep o us (g ep i) (rateAt s lr ep / n) (batchX X K i) (firstY y K) with hstp
  have B : ∀ i : Fin K, ∃ a b, bs.1[i.val]? = some a ∧ bs.2[i.val]? = some b ∧
      HasM h1 a (batchX X K i) ∧ HasV h1 b (firstY y K) ∧ a ∉ owned s ∧ b ∉ owned s := by
    intro i
    obtain ⟨a, ea, fa, la, ha⟩ := nm i
    obtain ⟨o, eo, fo, lo, ho⟩ := nv i
    have fa' : NotIn h (some (.m a)) := fun l e => by cases e; exact fa
    have fo' : NotIn h (some (.v o)) := fun l e => by cases e; exact fo
    exact ⟨_, _, ea, eo, ⟨a, rfl, la, ha⟩, ⟨o, rfl, lo, ho⟩, AnnReady.notin R fa', AnnReady.notin R fo'⟩
  have main : Runs (epochs e s fun e s => do
      let lr ← apply_learning_rate_scheduler s lr s.decay_constant e s.drop_rate
      foldN K s fun i s => do
        let X ← batchAt bs.1 i
        let y ← batchAt bs.2 i
        mbgdBody fuel lr (g e i).1 (g e i).2 X y s) h1 fun s' h' => ∃ l', Core s h1 o us s' h' l' (walk (roundStep hK stp) N (epochCount e * K)) := by
    refine Runs.mono (Runs.foldN (epochCount e) (fun ep s' h' => ∃ l', Core s h1 o us s' h' l' (walk (roundStep hK stp) N (ep * K))) _ s h1
      ⟨l, by rw [Nat.zero_mul]; exact C⟩ ?_) fun s' h' a => a
    intro ep s2 h2 hep ⟨l2, C2⟩
    have es : apply_learning_rate_scheduler s2 lr s2.decay_constant ((ep + 1 : Nat) : ℝ) s2.drop_rate h2 = .ok (rateAt s lr (ep + 1), h2) := by
      have := rate_run (E := epochCount e) (e := ep + 1) (s := s2) (by rw [C2.same]; exact hr) hep lr h2
      rw [this, rateAt_same C2.same]
    refine Runs.step es ?_
    rw [Nat.succ_mul]
    refine Runs.foldN K (fun i s' h' => ∃ l', Core s h1 o us s' h' l' (walk (roundStep hK stp) N (ep * K + i))) _ s2 h2 ⟨l2, C2⟩ ?_
    intro i s3 h3 hi ⟨l3, C3⟩
    obtain ⟨a, q, ea, eq, ha, hq, na, nq⟩ := B ⟨i, hi⟩
    have r1 : batchAt bs.1 i h3 = .ok (a, h3) := by unfold batchAt; rw [show bs.1[i]? = some a from ea]; rfl
    have r2 : batchAt bs.2 i h3 = .ok (q, h3) := by unfold batchAt; rw [show bs.2[i]? = some q from eq]; rfl
    refine Runs.step r1 (Runs.step r2 ?_)
    unfold mbgdBody
    obtain ⟨a3, m3⟩ := C3.frameM ha na
    refine Runs.bind ((set_core (g (ep + 1) i).1 C3 a3 (fun hm => m3 (List.mem_cons_of_mem _ hm)) hu ho).mono fun r h4 ⟨l4, C4, P4, y4⟩ => ?_)
    refine Runs.bind ((core_step fuel C4 hu ho P4 (y4 ▸ P4.a) (C4.frameV hq nq).1 _).mono fun s5 h5 ⟨l5, C5⟩ => ?_)
    obtain ⟨a5, m5⟩ := C5.frameM ha na
    refine Runs.bind ((set_core (g (ep + 1) i).2 C5 a5 (fun hm => m5 (List.mem_cons_of_mem _ hm)) hu ho).mono fun r6 h6 ⟨l6, C6, P6, y6⟩ => ?_)
    refine Runs.of_eq rfl ⟨l6, ?_⟩
    rw [walk_round hK stp N ep i hi, hstp]
    rw [(C4.ready R1).samples] at C6
    exact C6
  refine Runs.bind (main.mono fun s2 h2 ⟨l2, C2⟩ => (forward_core last C2 R1 hu ho).mono fun s3 h3 ⟨l3, C3, P3, y3⟩ => ?_)
  have T := C3.trained R1 P3 y3
  exact ⟨T.ready, T.shows, T.same, T.settled, (k1.mono fun _ _ => False.elim).trans T.keeps⟩

end Ann
end Verif
