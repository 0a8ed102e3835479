import Verif.Lemmas.AnnOptTrain
import Verif.Props.Ann

/-!
# C136: the adaptive training methods of networks, `MLPPANN`

The rules and what is remembered are described in Spec/AnnOpt.lean.
-/

namespace Verif
open Spec Finset Glm
variable {n k m : Nat} {h : Heap ℝ} {s : Ann} {o : Top} {us : List Lay} {X : Matrix (Fin n) (Fin k) ℝ} {y : Fin n → ℝ} {N : Net k us}

/-! ## The rules -/

/-- C136 (the rule): momentum. From moments that hold `S` and gradients `G` the code of an epoch `e` with step size `c` makes the moments and the updates of the
rule, for every weight; nothing else changes. -/
theorem C136_momentum_rule (γ : ℝ) (e : Nat) (c : ℝ) :
    Ann.RuleOk (fun v : Moment => [v]) [id] (Ann.momentumRule γ e c) (heavyBall γ c) (heavyBall γ c) :=
  Ann.momentum_ok γ e c

/-- C136 (the rule): adagrad. From moments that hold `S` and gradients `G` the code of an epoch `e` with step size `c` makes the moments and the updates of the
rule, for every weight; nothing else changes. -/
theorem C136_adagrad_rule (ε : ℝ) (e : Nat) (c : ℝ) :
    Ann.RuleOk (fun v : Moment => [v]) [id] (Ann.adagradRule ε e c) (sumSquares ε c) (sumSquares ε c) :=
  Ann.adagrad_ok ε e c

/-- C136 (the rule): adadelta. As far as it holds: the moments of the output layer are those of adagrad. From moments that hold `S` and gradients `G` the code of an epoch `e` with step size `c` makes the moments and the updates of the
rule, for every weight; nothing else changes. -/
theorem C136_adadelta_rule_partial (b1 ε : ℝ) (e : Nat) (c : ℝ) :
    Ann.RuleOk (fun v : Moment => [v]) [id] (Ann.adadeltaRule b1 ε e c) (meanSquares b1 ε c) (sumSquares ε c) :=
  Ann.adadelta_ok b1 ε e c

/-- C136 (the rule): adamax. As far as it holds: the maximum in the hidden layers is that of the gradients themselves, because `absnvt` gives its argument back (see C50). From moments that hold `S` and gradients `G` the code of an epoch `e` with step size `c` makes the moments and the updates of the
rule, for every weight; nothing else changes. -/
theorem C136_adamax_rule_partial (b1 b2 ε : ℝ) (e : Nat) (c : ℝ) :
    Ann.RuleOk (fun p : Moment × Moment => [p.1, p.2]) [Prod.fst, Prod.snd] (Ann.adamaxRule b1 b2 ε e c) (maxNorm id b1 b2 ε c e) (maxNorm abs b1 b2 ε c e) :=
  Ann.adamax_ok b1 b2 ε e c

/-- C136 (the rule): nadam. From moments that hold `S` and gradients `G` the code of an epoch `e` with step size `c` makes the moments and the updates of the
rule, for every weight; nothing else changes. -/
theorem C136_nadam_rule (b1 b2 ε : ℝ) (e : Nat) (c : ℝ) :
    Ann.RuleOk (fun p : Moment × Moment => [p.1, p.2]) [Prod.fst, Prod.snd] (Ann.nadamRule b1 b2 ε e c) (nesterov b1 b2 ε c e) (nesterov b1 b2 ε c e) :=
  Ann.nadam_ok b1 b2 ε e c

/-- C136 (the rule): amsgrad. From moments that hold `S` and gradients `G` the code of an epoch `e` with step size `c` makes the moments and the updates of the
rule, for every weight; nothing else changes. -/
theorem C136_amsgrad_rule (b1 b2 ε : ℝ) (e : Nat) (c : ℝ) :
    Ann.RuleOk (fun p : Moment × Moment × Moment => [p.1, p.2.1, p.2.2]) Ann.three (Ann.amsgradRule b1 b2 ε e c) (largest b1 b2 ε c) (largest b1 b2 ε c) :=
  Ann.amsgrad_ok b1 b2 ε e c

/-! ## The methods -/

theorem improves_step {τ : Type} (hu : ∀ u ∈ us, u.Works) (ho : o.Works) (g : Ann.Draws × Ann.Draws) (X : Matrix (Fin n) (Fin k) ℝ) (y : Fin n → ℝ) (c : ℝ)
    (hid out : Rule τ) (A : Net k us × Wts τ k us) :
    ∃ M, Improves o us X y c hid out (redrawn g.1 o us A.1) A.2 M (Ann.optStep o us g c hid out X y A).2 ∧
      (Ann.optStep o us g c hid out X y A).1 = redrawn g.2 o us M :=
  ⟨_, ⟨_, fun hs => Ann.objective_gradient hs hu ho, rfl, rfl⟩, rfl⟩

theorem look_zero {τ : Type} (r : Rule τ) : Ann.withLook (fun _ => 0) r = r := by
  funext s g; simp [Ann.withLook]

/-- The steps of a training method with the rules `hid` and `out`, for an epoch and a step size: on the consecutive mini-batches of the inputs, with the outputs of
the first samples (see C61), divided by the number of all samples; weights are drawn again before and after every step. -/
def OptRounds {τ : Type} (s : Ann) (o : Top) (us : List Lay) (X : Matrix (Fin n) (Fin k) ℝ) (y : Fin n → ℝ) (lr : ℝ) (g : Nat → Nat → Ann.Draws × Ann.Draws)
    {K : Nat} (hK : 0 < K) (hid out : Nat → ℝ → Rule τ) (E : Nat) (A B : Net k us × Wts τ k us) : Prop :=
  Rounds hK (fun ep i A B => ∃ M, Improves o us (batchX X K i) (firstY y K) (rateAt s lr ep / n) (hid ep (rateAt s lr ep / n)) (out ep (rateAt s lr ep / n))
    (redrawn (g ep i).1 o us A.1) A.2 M B.2 ∧ B.1 = redrawn (g ep i).2 o us M) E A B

section
variable (fuel : Nat) (g : Nat → Nat → Ann.Draws × Ann.Draws) (last : Ann.Draws) (R : AnnReady s h o us X y N) (hu : ∀ u ∈ us, u.Works)
    (ho : o.Works) (lr : ℝ) (e : Int) (hr : RateOk s (epochCount e)) {b K : Nat} (hb : 0 < b) (eK : n / b = K) (hK : 0 < K)
include R hu ho hr hb eK

/-- C136 (momentum): as far as it holds. -/
theorem C136_momentum_partial (γ : ℝ) :
    Runs (Ann.momentum fuel g last s lr e b γ false) h fun s' h' => ∃ (S : Wts (ℝ) k us) (P : Net k us × Wts (ℝ) k us),
      AnnTrained s h s' h' o us X y (redrawn last o us P.1) ∧
      OptRounds s o us X y lr g hK (fun e c => heavyBall γ c) (fun e c => heavyBall γ c) (epochCount e) (N, S) P :=
  (Ann.optimise_run fuel Ann.init1_ok Ann.start1_ok (Ann.nagLook_ok false) (Ann.momentum_ok γ) g last R hu ho lr e hr hb eK hK).mono fun s' h' ⟨S, T⟩ =>
    ⟨S, _, T, rounds_walk hK (fun ep i A => by
      simp only [Bool.false_eq_true, if_false, look_zero]
      exact improves_step hu ho (g ep i) (batchX X K i) (firstY y K) _ _ _ A) _ _⟩

/-- C136 (Nesterov accelerated momentum): as far as it holds. -/
theorem C136_nag_partial (γ : ℝ) :
    Runs (Ann.momentum fuel g last s lr e b γ true) h fun s' h' => ∃ (S : Wts (ℝ) k us) (P : Net k us × Wts (ℝ) k us),
      AnnTrained s h s' h' o us X y (redrawn last o us P.1) ∧
      OptRounds s o us X y lr g hK (fun e c => lookAhead γ c) (fun e c => lookAhead γ c) (epochCount e) (N, S) P :=
  (Ann.optimise_run fuel Ann.init1_ok Ann.start1_ok (Ann.nagLook_ok true) (Ann.momentum_ok γ) g last R hu ho lr e hr hb eK hK).mono fun s' h' ⟨S, T⟩ =>
    ⟨S, _, T, rounds_walk hK (fun ep i A => by
      exact improves_step hu ho (g ep i) (batchX X K i) (firstY y K) _ _ _ A) _ _⟩

/-- C136 (adagrad): as far as it holds. -/
theorem C136_adagrad_partial (ε : ℝ) :
    Runs (Ann.adagrad fuel g last s lr e b ε) h fun s' h' => ∃ (S : Wts (ℝ) k us) (P : Net k us × Wts (ℝ) k us),
      AnnTrained s h s' h' o us X y (redrawn last o us P.1) ∧
      OptRounds s o us X y lr g hK (fun e c => sumSquares ε c) (fun e c => sumSquares ε c) (epochCount e) (N, S) P :=
  (Ann.optimise_run fuel Ann.init1_ok Ann.start1_ok (Ann.noLook_ok _ _) (Ann.adagrad_ok ε) g last R hu ho lr e hr hb eK hK).mono fun s' h' ⟨S, T⟩ =>
    ⟨S, _, T, rounds_walk hK (fun ep i A => by
      simp only [look_zero]
      exact improves_step hu ho (g ep i) (batchX X K i) (firstY y K) _ _ _ A) _ _⟩

/-- C136 (adadelta): as far as it holds. -/
theorem C136_adadelta_partial (b1 ε : ℝ) :
    Runs (Ann.adadelta fuel g last s lr e b b1 ε) h fun s' h' => ∃ (S : Wts (ℝ) k us) (P : Net k us × Wts (ℝ) k us),
      AnnTrained s h s' h' o us X y (redrawn last o us P.1) ∧
      OptRounds s o us X y lr g hK (fun e c => meanSquares b1 ε c) (fun e c => sumSquares ε c) (epochCount e) (N, S) P :=
  (Ann.optimise_run fuel Ann.init1_ok Ann.start1_ok (Ann.noLook_ok _ _) (Ann.adadelta_ok b1 ε) g last R hu ho lr e hr hb eK hK).mono fun s' h' ⟨S, T⟩ =>
    ⟨S, _, T, rounds_walk hK (fun ep i A => by
      simp only [look_zero]
      exact improves_step hu ho (g ep i) (batchX X K i) (firstY y K) _ _ _ A) _ _⟩

/-- C136 (adamax): as far as it holds. -/
theorem C136_adamax_partial (b1 b2 ε : ℝ) :
    Runs (Ann.adamax fuel g last s lr e b b1 b2 ε) h fun s' h' => ∃ (S : Wts (ℝ × ℝ) k us) (P : Net k us × Wts (ℝ × ℝ) k us),
      AnnTrained s h s' h' o us X y (redrawn last o us P.1) ∧
      OptRounds s o us X y lr g hK (fun e c => maxNorm id b1 b2 ε c e) (fun e c => maxNorm abs b1 b2 ε c e) (epochCount e) (N, S) P :=
  (Ann.optimise_run fuel Ann.init2_ok Ann.start2_ok (Ann.noLook_ok _ _) (Ann.adamax_ok b1 b2 ε) g last R hu ho lr e hr hb eK hK).mono fun s' h' ⟨S, T⟩ =>
    ⟨S, _, T, rounds_walk hK (fun ep i A => by
      simp only [look_zero]
      exact improves_step hu ho (g ep i) (batchX X K i) (firstY y K) _ _ _ A) _ _⟩

/-- C136 (nadam): as far as it holds. -/
theorem C136_nadam_partial (b1 b2 ε : ℝ) :
    Runs (Ann.nadam fuel g last s lr e b b1 b2 ε) h fun s' h' => ∃ (S : Wts (ℝ × ℝ) k us) (P : Net k us × Wts (ℝ × ℝ) k us),
      AnnTrained s h s' h' o us X y (redrawn last o us P.1) ∧
      OptRounds s o us X y lr g hK (fun e c => nesterov b1 b2 ε c e) (fun e c => nesterov b1 b2 ε c e) (epochCount e) (N, S) P :=
  (Ann.optimise_run fuel Ann.init2_ok Ann.start2_ok (Ann.noLook_ok _ _) (Ann.nadam_ok b1 b2 ε) g last R hu ho lr e hr hb eK hK).mono fun s' h' ⟨S, T⟩ =>
    ⟨S, _, T, rounds_walk hK (fun ep i A => by
      simp only [look_zero]
      exact improves_step hu ho (g ep i) (batchX X K i) (firstY y K) _ _ _ A) _ _⟩

/-- C136 (amsgrad): as far as it holds. -/
theorem C136_amsgrad_partial (b1 b2 ε : ℝ) :
    Runs (Ann.amsgrad fuel g last s lr e b b1 b2 ε) h fun s' h' => ∃ (S : Wts (ℝ × ℝ × ℝ) k us) (P : Net k us × Wts (ℝ × ℝ × ℝ) k us),
      AnnTrained s h s' h' o us X y (redrawn last o us P.1) ∧
      OptRounds s o us X y lr g hK (fun e c => largest b1 b2 ε c) (fun e c => largest b1 b2 ε c) (epochCount e) (N, S) P :=
  (Ann.optimise_run fuel Ann.init3_ok Ann.start3_ok (Ann.noLook_ok _ _) (Ann.amsgrad_ok b1 b2 ε) g last R hu ho lr e hr hb eK hK).mono fun s' h' ⟨S, T⟩ =>
    ⟨S, _, T, rounds_walk hK (fun ep i A => by
      simp only [look_zero]
      exact improves_step hu ho (g ep i) (batchX X K i) (firstY y K) _ _ _ A) _ _⟩

end

/-! ## What is false -/

theorem redrawnH_take (g : Ann.Draws) (c : ℝ) : ∀ (us : List Lay) {k : Nat} (i : Nat) (H : Hiddens k us) (U : Hid ℝ k us) (G : Hiddens k us),
    redrawnH g us i (takeH c us H U G) = redrawnH g us i (Ann.stepH c us H G)
  | [], _, _, _, _, _ => rfl
  | _ :: us, _, i, H, U, G => by
    show (_, redrawnH g us (i + 1) _) = (_, redrawnH g us (i + 1) _)
    exact congrArg (Prod.mk _) (redrawnH_take g c us (i + 1) H.2 U.2 G.2)

theorem walk_same {τ : Type} {g : Nat → Nat → Ann.Draws × Ann.Draws} {lr : ℝ} {K : Nat} (hK : 0 < K) (hid out : Nat → Rule τ) (N : Net k us) (S : Wts τ k us) (t : Nat) :
    (walk (roundStep hK fun ep i => Ann.optStep o us (g ep i) (rateAt s lr ep / n) (hid ep) (out ep) (batchX X K i) (firstY y K)) (N, S) t).1 =
      walk (roundStep hK fun ep i => Ann.batchStep o us (g ep i) (rateAt s lr ep / n) (batchX X K i) (firstY y K)) N t := by
  induction t with
  | zero => rfl
  | succ t ih =>
    show (Ann.optStep _ _ _ _ _ _ _ _ (walk _ _ t)).1 = Ann.batchStep _ _ _ _ _ _ (walk _ _ t)
    rw [← ih]
    unfold Ann.optStep Ann.batchStep redrawn take
    dsimp only
    rw [redrawnH_take]
    rfl

section
variable (fuel : Nat) (g : Nat → Nat → Ann.Draws × Ann.Draws) (last : Ann.Draws) (R : AnnReady s h o us X y N) (hu : ∀ u ∈ us, u.Works)
    (ho : o.Works) (lr : ℝ) (e : Int) (hr : RateOk s (epochCount e)) {b K : Nat} (hb : 0 < b) (eK : n / b = K) (hK : 0 < K)
include R hu ho hr hb eK hK

/-- C136 (false): none of the methods has any influence. With the same random numbers the trained network is that of `mbgd`, whatever the rule and its
parameters: the weights it has changed are drawn again in the next pass, and the biases follow plain gradient descent. -/
theorem C136_no_influence_fails (γ ε b1 b2 : ℝ) (nag : Bool) {train : M ℝ Ann} (ht : train ∈ [Ann.momentum fuel g last s lr e b γ nag,
    Ann.adagrad fuel g last s lr e b ε, Ann.adadelta fuel g last s lr e b b1 ε, Ann.adamax fuel g last s lr e b b1 b2 ε,
    Ann.nadam fuel g last s lr e b b1 b2 ε, Ann.amsgrad fuel g last s lr e b b1 b2 ε]) :
    ∃ N' : Net k us, Runs (Ann.mbgd fuel g last s lr e b) h (fun s' h' => AnnTrained s h s' h' o us X y N') ∧
      Runs train h (fun s' h' => AnnTrained s h s' h' o us X y N') := by
  refine ⟨_, Ann.mbgd_run fuel g last R hu ho lr e hr hb eK hK, ?_⟩
  simp only [List.mem_cons, List.not_mem_nil, or_false] at ht
  rcases ht with rfl | rfl | rfl | rfl | rfl | rfl
  · refine (Ann.optimise_run fuel Ann.init1_ok Ann.start1_ok (Ann.nagLook_ok nag) (Ann.momentum_ok γ) g last R hu ho lr e hr hb eK hK).mono fun s' h' ⟨S, T⟩ => ?_
    rwa [walk_same] at T
  · refine (Ann.optimise_run fuel Ann.init1_ok Ann.start1_ok (Ann.noLook_ok _ _) (Ann.adagrad_ok ε) g last R hu ho lr e hr hb eK hK).mono fun s' h' ⟨S, T⟩ => ?_
    rwa [walk_same] at T
  · refine (Ann.optimise_run fuel Ann.init1_ok Ann.start1_ok (Ann.noLook_ok _ _) (Ann.adadelta_ok b1 ε) g last R hu ho lr e hr hb eK hK).mono fun s' h' ⟨S, T⟩ => ?_
    rwa [walk_same] at T
  · refine (Ann.optimise_run fuel Ann.init2_ok Ann.start2_ok (Ann.noLook_ok _ _) (Ann.adamax_ok b1 b2 ε) g last R hu ho lr e hr hb eK hK).mono fun s' h' ⟨S, T⟩ => ?_
    rwa [walk_same] at T
  · refine (Ann.optimise_run fuel Ann.init2_ok Ann.start2_ok (Ann.noLook_ok _ _) (Ann.nadam_ok b1 b2 ε) g last R hu ho lr e hr hb eK hK).mono fun s' h' ⟨S, T⟩ => ?_
    rwa [walk_same] at T
  · refine (Ann.optimise_run fuel Ann.init3_ok Ann.start3_ok (Ann.noLook_ok _ _) (Ann.amsgrad_ok b1 b2 ε) g last R hu ho lr e hr hb eK hK).mono fun s' h' ⟨S, T⟩ => ?_
    rwa [walk_same] at T
end

theorem addn_mismatch {p : Nat} {a b : Ref} {u : Fin m → ℝ} {v : Fin p → ℝ} (ne : m ≠ p) (ha : HasV h a u) (hb : HasV h b v) :
    Hd.addn a b h = .ok (none, h) := by
  obtain ⟨x, rfl, lx, hx⟩ := ha
  obtain ⟨t, rfl, lt, ht⟩ := hb
  unfold Hd.addn
  rw [bind_ok (derefV_run x h)]
  refine binN_mismatch _ _ _ h ?_
  rw [hx.1, ht.1]
  exact fun e => ne (congrArg Size.x e)

theorem adamRule_ub (w : h.WF) {p : Moment × Moment} {gs : List Ref} {gr : Ref} {A B G : Hid ℝ k us} {G' : Fin m → ℝ} {u v : Fin 0 → ℝ}
    (a1 : Ann.HasH h id us p.1.hidden A) (a2 : Ann.HasH h id us p.2.hidden B) (hG : Ann.HasH h id us gs G) (hg : HasV h gr G') (o1 : HasV h p.1.output u)
    (o2 : HasV h p.2.output v) (hm : 0 < m) (b1 b2 ε : ℝ) (e : Nat) (c : ℝ) : Ann.adamRule b1 b2 ε e c gs gr p h = .ub := by
  have a1 := (Ann.hasH_fst us G).1 ((Ann.hasH_fst us B).1 a1)
  have a2 := (Ann.hasH_fst us G).1 ((Ann.hasH_snd us A).1 a2)
  have a3 := (Ann.hasH_snd us (zipH Prod.mk us A B)).1 hG
  clear hG
  unfold Ann.HasH at a1 a2 a3
  unfold Ann.adamRule
  refine ub_bind (Ann.first_L (b1 := b1) w a1 a3) fun q1 h1 ⟨w1, k1, u1, n1⟩ => ?_
  advL k1
  adv k1
  refine ub_bind (Ann.second_L (b2 := b2) w1 a2 a3) fun q2 h2 ⟨w2, k2, u2, n2⟩ => ?_
  advL k2
  adv k2
  refine ub_stepV (Hd.scalel_spec w2 o1 b1) fun q3 h3 w3 k3 n3 u3 => ?_
  advL k3
  nw n3 k3
  refine ub_stepV (Hd.scalel_spec w3 hg (1 - b1)) fun q4 h4 w4 k4 n4 u4 => ?_
  advL k4
  nw n4 k4
  refine ub_step (addn_mismatch hm.ne u3 u4) ?_
  refine ub_stepV (Hd.scalel_spec w4 o2 b2) fun q5 h5 w5 k5 n5 u5 => ?_
  advL k5
  nw n5 k5
  refine ub_stepV (Hd.square_spec w5 hg) fun q6 h6 w6 k6 n6 u6 => ?_
  advL k6
  nw n6 k6
  refine ub_stepV (Hd.scalel_spec w6 u6 (1 - b2)) fun q7 h7 w7 k7 n7 u7 => ?_
  advL k7
  nw n7 k7
  refine ub_step (addn_mismatch hm.ne u5 u7) ?_
  refine ub_bind (Ann.scale_L w7 (1 / (1 - MathFns.pow b1 (e : ℝ))) u1) fun q8 h8 ⟨w8, k8, u8, n8⟩ => ?_
  advL k8
  refine ub_bind (Ann.scale_L w8 (1 / (1 - MathFns.pow b2 (e : ℝ))) u2) fun q9 h9 ⟨w9, k9, u9, n9⟩ => ?_
  rfl

/-- C136 (Adam: false): the behaviour of `adam` is always undefined (unless the output layer has no weights at all): it tests whether one of the moments of the output is
empty and the other is not, so that they are never made as long as the gradient; their sums with it are null, and are dereferenced. -/
theorem C136_adam_fails (fuel : Nat) (g : Nat → Nat → Ann.Draws × Ann.Draws) (last : Ann.Draws) (R : AnnReady s h o us X y N) (hu : ∀ u ∈ us, u.Works)
    (ho : o.Works) (lr : ℝ) (e : Int) (hr : RateOk s 1) {b K : Nat} (hb : 0 < b) (eK : n / b = K) (hK : 0 < K) (hw : 0 < width k us) (b1 b2 ε : ℝ) :
    Ann.adam fuel g last s lr e b b1 b2 ε h = .ub := by
  unfold Ann.adam Ann.optimise
  have hb' : (b : Int) ≠ 0 := by exact_mod_cast hb.ne'
  rw [if_neg hb', R.samples]
  have ek : (n : Int).tdiv (b : Int) = ((n / b : Nat) : Int) := by
    rw [Int.tdiv_eq_ediv_of_nonneg (Int.natCast_nonneg n)]; rfl
  rw [ek, Int.toNat_natCast, eK]
  obtain ⟨ia, eia, lia, hia⟩ := R.input_set
  obtain ⟨oa, eoa, loa, hoa⟩ := R.output_set
  rw [eia, eoa]
  refine ub_bind (Utilities.create_mini_batchesmv_run R.wf lia loa hia hoa hK (Utilities.batch_row n K))
    fun bs h1 ⟨w1, k1, ⟨lm, _, nm⟩, ⟨lv, _, nv⟩⟩ => ?_
  have R1 := Ann.AnnReady.new R w1 k1
  refine ub_bind (Ann.init2_ok h1 w1) fun p h2 ⟨w2, k2, F2, nd2, n2⟩ => bind_ub (epochs_ub _ _ _ ?_)
  have R2 := Ann.AnnReady.new R1 w2 k2
  obtain ⟨l, C', -, -⟩ := Ann.core_of R2
  have C : Ann.Core s h1 o us s h2 l N := ⟨C'.wf, C'.hidden, C'.el, C'.out, C'.nb, C'.nodup, C'.same, k2.mono fun _ _ => False.elim, fun q hq =>
    (C'.olds q hq).imp id fun a => a.mono k2⟩
  obtain ⟨l1, C1, -, -⟩ := Ann.core_of R1
  have el1 : l1 = l := by have a := C1.el; rw [C.el] at a; cases a; rfl
  subst el1
  have E : Ann.Kept h1 s l1 [p.1, p.2] := by
    refine ⟨nd2, n2, fun q hq e => (n2 q hq).ne C1.out.weights e, fun q hq e => ?_, fun m hm q hq => ?_⟩
    · exact Ann.notin_bias C1.hidden (n2 q hq) e
    · rw [(F2 m hm).1] at hq; simp at hq
  clear C1 C'
  refine ub_step (Ann.rate_run hr (Nat.le_refl 1) lr h2) (fold_first_ub hK _ _ ?_)
  obtain ⟨a, ea, fa, la, ha⟩ := nm ⟨0, hK⟩
  obtain ⟨q, eq, fo, lo, hq⟩ := nv ⟨0, hK⟩
  have fa' : NotIn h (some (.m a)) := fun l e => by cases e; exact fa
  have fo' : NotIn h (some (.v q)) := fun l e => by cases e; exact fo
  have r1 : batchAt bs.1 0 h2 = .ok (some (.m a), h2) := by unfold batchAt; rw [show bs.1[0]? = _ from ea]; rfl
  have r2 : batchAt bs.2 0 h2 = .ok (some (.v q), h2) := by unfold batchAt; rw [show bs.2[0]? = _ from eq]; rfl
  refine ub_step r1 (ub_step r2 ?_)
  unfold Ann.optBody
  dsimp only
  obtain ⟨x1, m1⟩ := C.frameM ⟨a, rfl, la, ha⟩ (Ann.AnnReady.notin R fa')
  have F2' : Ann.MemIs (τ := ℝ × ℝ) h2 us [p.1, p.2] [Prod.fst, Prod.snd] (none : Option (Wts (ℝ × ℝ) k us)) := F2
  refine ub_bind (Ann.set_core' (g 1 0).1 C x1 (fun hm => m1 (List.mem_cons_of_mem _ hm)) hu ho E F2') fun t h3 ⟨l3, C3, P3, e3, E3, F3⟩ => ?_
  obtain ⟨y3, -⟩ := C3.frameV ⟨q, rfl, lo, hq⟩ (Ann.AnnReady.notin R fo')
  obtain ⟨c, ec⟩ := Ann.cost_ok C3.wf C3.hidden C3.el C3.out (e3 ▸ P3.a) y3
  refine ub_step ec ?_
  refine ub_bind (Ann.compute_gradients_run fuel P3 C3.el hu ho (e3 ▸ P3.a) (fun _ => rfl) y3) fun r h4 ⟨ls, l4, A⟩ => ?_
  have r_net : r.1.network = ls := by rw [A.same]
  have L4 : LayersAre h4 us (redrawn (g 1 0).1 o us N).1 r.1.network := by rw [r_net]; exact A.hidden
  have w4 := A.wf
  have g4 := A.grad
  have G4 := Ann.hasH_grads A.grads
  obtain ⟨e1, v1, o1⟩ := F3 p.1 (by simp)
  obtain ⟨e2, v2, o2⟩ := F3 p.2 (by simp)
  have o1 := o1.keep A.keeps fun _ _ => id
  have o2 := o2.keep A.keeps fun _ _ => id
  clear A F3 E3 P3 C3
  have st : Runs (Ann.start2 (fun i j => i == 0 && j != 0) r.1 r.2.1 r.2.2 p) h4 fun p' h' => h'.WF ∧ Keeps h4 h' (fun _ => False) ∧
      (∃ A B : Hid ℝ k us, Ann.HasH h' id us p'.1.hidden A ∧ Ann.HasH h' id us p'.2.hidden B) ∧ p'.1.output = p.1.output ∧ p'.2.output = p.2.output := by
    unfold Ann.start2
    rw [e1, e2]
    simp only [List.isEmpty_nil, Bool.and_true]
    refine Runs.bind ((Ann.startHidden_run w4 L4 G4).mono fun qs1 h5 ⟨w5, k5, n5, A, a1⟩ => ?_)
    have L5 := Ann.LayersAre.keep k5 us L4 fun _ _ _ _ _ _ => id
    refine Runs.bind ((Ann.startHidden_run w5 L5 (Ann.HasL.adv k5 G4)).mono fun qs2 h6 ⟨w6, k6, n6, B, a2⟩ => ?_)
    have s1 := (o1.keep k5 fun _ _ => id).keep k6 fun _ _ => id
    have s2 := (o2.keep k5 fun _ _ => id).keep k6 fun _ _ => id
    refine Runs.step (Hd.size_run s1) (Runs.step (Hd.size_run s2) ?_)
    exact Runs.of_eq rfl ⟨w6, k5.trans k6, ⟨A, B, Ann.HasL.adv k6 a1, a2⟩, rfl, rfl⟩
  refine ub_bind st fun p' h5 ⟨w5, k5, ⟨A, B, a1, a2⟩, f1, f2⟩ => ?_
  refine ub_step (a := r.1) (h' := h5) rfl (bind_ub ?_)
  exact adamRule_ub w5 a1 a2 (Ann.HasL.adv k5 G4) (g4.keep k5 fun _ _ => id) (f1 ▸ o1.keep k5 fun _ _ => id) (f2 ▸ o2.keep k5 fun _ _ => id) hw _ _ _ _ _

/-- C136 (false): a batch size of 0 is a division by zero, for every method. -/
theorem C136_batch_size_fails (fuel : Nat) (g : Nat → Nat → Ann.Draws × Ann.Draws) (last : Ann.Draws) (s : Ann) (lr : ℝ) (e : Int) (γ ε b1 b2 : ℝ) (nag : Bool)
    {train : M ℝ Ann} (ht : train ∈ [Ann.momentum fuel g last s lr e 0 γ nag, Ann.adagrad fuel g last s lr e 0 ε, Ann.adadelta fuel g last s lr e 0 b1 ε,
      Ann.adam fuel g last s lr e 0 b1 b2 ε, Ann.adamax fuel g last s lr e 0 b1 b2 ε, Ann.nadam fuel g last s lr e 0 b1 b2 ε,
      Ann.amsgrad fuel g last s lr e 0 b1 b2 ε]) : train h = .ub := by
  simp only [List.mem_cons, List.not_mem_nil, or_false] at ht
  rcases ht with rfl | rfl | rfl | rfl | rfl | rfl | rfl <;> rfl

/-! The hypotheses are met by the network `exAnn` with one hidden layer (Props/Ann.lean): with mini-batches of one sample there are two batches. -/
example : 0 < 1 ∧ 2 / 1 = 2 ∧ 0 < 2 ∧ 0 < width 1 [annLay] := ⟨by norm_num, by norm_num, by norm_num, by norm_num [width, annLay]⟩

/-- Moments and gradients for the rules: one weight in the output layer, no hidden layers. -/
example : let h : Heap ℝ := Heap.ofLists 0 [[3], [4]] []
    h.WF ∧ Ann.Holds (τ := ℝ) (k := 1) h [] [⟨[], some (.v 0)⟩] [id] ((), ![3]) ∧ (Ann.outs [⟨[], some (.v 0)⟩]).Nodup ∧
    Ann.HasH (τ := ℝ) (k := 1) h id [] [] () ∧ HasV h (some (.v 1)) ![4] ∧ some (.v 1) ∉ Ann.outs [⟨[], some (.v 0)⟩] := by
  intro h
  have i0 : HasV h (some (.v 0)) ![3] := ⟨0, rfl, by simp [h, Heap.ofLists, Heap.live, Loc.id], by simp [h, Heap.ofLists], fun i => by fin_cases i; simp [h, Heap.ofLists]⟩
  have i1 : HasV h (some (.v 1)) ![4] := ⟨1, rfl, by simp [h, Heap.ofLists, Heap.live, Loc.id], by simp [h, Heap.ofLists], fun i => by fin_cases i; simp [h, Heap.ofLists]⟩
  exact ⟨Heap.ofLists_wf _ _ _ (by simp), .cons ⟨.nil, i0⟩ .nil, by simp [Ann.outs], .nil, i1, by simp [Ann.outs]⟩

end Verif
