import Verif.Lemmas.DualSvc
import Verif.Lemmas.GlmExample
import Verif.Props.Performance

/-! # C116–C118: the dual support vector classifier -/

namespace Verif
open Spec Finset DualSvc
variable {n k m : Nat} {h h' : Heap ℝ} {s : DualSvc} {X : Matrix (Fin n) (Fin k) ℝ} {y α : Fin n → ℝ} {b : ℝ}

/-! ## Predictions -/

/-- **C116**: the prediction for a vector is the sign of `Σ α_j y_j ⟨x_j, x⟩ + b`; nothing that existed changes. -/
theorem C116_model_test (R : DualReady s h X y α b) {r : Ref} {x : Fin k → ℝ} (hx : HasV h r x) :
    ReturnsVal (model_test s r) h (signOf (∑ j, α j * y j * ∑ l, X j l * x l + b)) := by
  unfold model_test evaluatev
  refine Runs.bind ((propagatev_run R hx).mono fun z h1 ⟨ez, w1, k1⟩ => ?_)
  refine Runs.of_eq rfl ⟨?_, w1, k1⟩
  rw [ez, Svc.sign_eq]; rfl

/-- **C116**: the predictions for a matrix are a new vector with the prediction for every row. -/
theorem C116_model_set_test (R : DualReady s h X y α b) {r : Ref} {Z : Matrix (Fin m) (Fin k) ℝ} (hz : HasM h r Z) :
    ReturnsVec (model_set_test s r) h fun i => signOf (∑ j, α j * y j * ∑ l, X j l * Z i l + b) := by
  refine ReturnsVec.of_has ?_
  unfold model_set_test evaluatem
  refine stepV (propagatem_run R hz) fun z h1 w1 k1 f1 hz1 => ?_
  refine (sign_spec w1 hz1).has.mono fun r' h2 ⟨w2, k2, f2, hr⟩ => ⟨w2, k1.trans k2, f2.mono k1, hr⟩

/-- **C116**: an object made from an input set and an output set is set up; the multipliers and the bias are the numbers drawn; the stored kernel is the
matrix of the products of the samples. -/
theorem C116_create (gw gb : Utilities.Source) (w : h.WF) {p q : Ref} (hp : HasM h p X) (hq : HasV h q y) (C : ℝ) :
    Runs (create gw gb p q C) h fun s h' => DualReady s h' X y (fun j => gw.u j) (gb.u 0) ∧ HasM h' s.K (fun i j : Fin n => ∑ l, X i l * X j l) ∧
      (∃ v : Fin n → ℝ, HasV h' s.y_hat v) ∧ Keeps h h' (fun _ => False) ∧ s.input_set = p ∧ s.output_set = q ∧ s.C = C := by
  unfold create
  refine Runs.step (Hd.sizem_run hp) ?_
  dsimp only
  refine stepV0 w fun oz h1 vz w1 k1 f1 hz => ?_
  have K1 := k1
  nw f1 k1
  refine stepV0 w1 fun oy h2 vy w2 k2 f2 hy => ?_
  have K2 := K1.trans k2
  have Fy := f2.mono K1
  nw f2 k2
  refine stepV0 w2 fun oa h3 va w3 k3 f3 ha => ?_
  have K3 := K2.trans k3
  have Fa := f3.mono K2
  nw f3 k3
  refine Runs.bind ((Hd.resizev_run w3 hy n).mono fun _ h4 ⟨w4, k4, v4, hy4⟩ => ?_)
  have K4 := K3.wr_new k4 Fy
  wr k4
  refine Runs.step (show Utilities.bias_initializationr gb h4 = .ok (gb.u 0, h4) from Utilities.uniform01_run gb 0 h4) ?_
  refine Runs.bind ((Hd.resizev_run w4 ha n).mono fun _ h5 ⟨w5, k5, v5, ha5⟩ => ?_)
  have K5 := K4.wr_new k5 Fa
  wr k5
  obtain ⟨_, e5, l5, i5⟩ := ha5
  cases e5
  have ha5 : HasV h5 (some (.v oa)) v5 := ⟨oa, rfl, l5, i5⟩
  refine Runs.bind ((Utilities.C64_vector gw h5 w5 oa v5 i5 .default).mono fun _ h6 ⟨w6, k6', a6⟩ => ?_)
  have k6 : Keeps h5 h6 (some · = some (Loc.v oa)) := k6'.mono fun _ _ e => congrArg some e
  have K6 := K5.wr_new k6 Fa
  have a6 : HasV h6 (some (.v oa)) _ := ⟨oa, rfl, k6.live l5, a6⟩
  clear k6'
  wr k6
  refine Verif.stepM (Hd.transposen_spec w6 hp) fun t h7 w7 k7 f7 ht => ?_
  have K7 := K6.trans k7
  adv k7
  refine Verif.stepM (Hd.multn_spec w7 hp ht) fun K h8 w8 k8 f8 hK => ?_
  have K8 := K7.trans k8
  adv k8
  refine Runs.of_eq rfl ⟨⟨w8, hp, hq, a6, rfl, by neq⟩, ?_, ⟨_, hy4⟩, K8, rfl, rfl, rfl⟩
  refine cast (congrArg _ ?_) hK
  funext i j
  rw [Matrix.mul_apply]
  rfl

/-- **C116**: the score is the fraction of the stored predictions that round to the wanted integer output. -/
theorem C116_score (w : h.WF) {p : Fin n → ℝ} {t : Fin n → Int} (hn : 0 < n) (hp : HasV h s.y_hat p) (ht : HasV h s.output_set fun i => (t i : ℝ))
    (hb : ∀ i, |(t i : ℝ)| < 99999) : score s h = .ok (fraction fun i => Nearest (p i) (t i), h) := by
  obtain ⟨u, eu, -, iu⟩ := hp
  obtain ⟨v, ev, -, iv⟩ := ht
  unfold score
  rw [eu, ev]
  exact Utilities.C62_vec h w u v p t hn iu iv hb

/-! ## The multipliers -/

theorem gdStep_dual {C : ℝ} (hC : 0 ≤ C) (X : Matrix (Fin n) (Fin k) ℝ) (y : Fin n → ℝ) (lr : ℝ) (p : (Fin n → ℝ) × ℝ) :
    DualStep X y C lr p.1 (gdStep X y C lr p).1 := by
  refine ⟨_, Cost.svmDual_gradient X y p.1, fun i => ?_⟩
  show proj C _ = _
  rw [proj_eq hC, mul_comm]

theorem walk_step {β : Type} (f : β → β) (a : β) (N : Nat) : Glm.walk (fun _ => f) a (N + 1) = f (Glm.walk (fun _ => f) a N) := rfl

/-- **C117**: training runs `max(e, 1)` steps of gradient descent on the dual objective of the support vector machine, each followed by the projection
to the box `[0, C]`; afterwards all multipliers are in the box, the stored scores and predictions are those of the new parameters, and of
what existed only the multipliers have changed. -/
theorem C117_gradient_descent (R : DualReady s h X y α b) (hC : 0 ≤ s.C) (lr : ℝ) (e : Int) :
    Runs (gradient_descent s lr e) h fun s' h' => ∃ (α' : Fin n → ℝ) (b' : ℝ), DualTrained s h s' h' X y α' b' ∧
      Chain (fun _ => DualStep X y s.C lr) (epochCount e) α α' ∧ ∀ i, 0 ≤ α' i ∧ α' i ≤ s.C := by
  refine (gd_run R lr e).mono fun s' h' T => ⟨_, _, T, ?_, fun i => ?_⟩
  · exact ⟨fun i => (Glm.walk (fun _ => gdStep X y s.C lr) (α, b) i).1, rfl, rfl, fun i _ => gdStep_dual hC X y lr _⟩
  · obtain ⟨N, eN⟩ : ∃ N, epochCount e = N + 1 := ⟨epochCount e - 1, by unfold epochCount; omega⟩
    rw [eN, walk_step]
    show 0 ≤ proj s.C _ ∧ proj s.C _ ≤ s.C
    rw [proj_eq hC]
    unfold clamp
    exact ⟨le_max_left _ _, max_le hC (min_le_left _ _)⟩

/-! ## The bias -/

theorem support_eq (hα : ∀ j, 0 ≤ α j) (i : Fin n) (b : ℝ) : support X y α i = dualScore X y α b (X i) - b := by
  unfold support dualScore
  rw [add_sub_cancel_right]
  refine Finset.sum_congr rfl fun j _ => ?_
  split
  · rfl
  next c => rw [le_antisymm (not_lt.1 c) (hα j)]; ring

/-- What an epoch does to the bias, in terms of the multipliers `α'` it leaves behind and the first sample. -/
def BiasStep (X : Matrix (Fin n) (Fin k) ℝ) (y : Fin n → ℝ) (C lr : ℝ) (hn : 0 < n) (α' : Fin n → ℝ) (b b' : ℝ) : Prop :=
  (0 < α' ⟨0, hn⟩ ∧ α' ⟨0, hn⟩ < C → b' = b - lr * ((1 - y ⟨0, hn⟩ * dualScore X y α' 0 (X ⟨0, hn⟩)) / y ⟨0, hn⟩)) ∧
  (¬ (0 < α' ⟨0, hn⟩ ∧ α' ⟨0, hn⟩ < C) → b' = b - lr / y ⟨0, hn⟩)

/-- **C118**, partial: what training does to the bias. The loop over the samples ends after the first: only that one counts. Missing: a bias that
fits the support vectors (see the next theorems). -/
theorem C118_bias_partial (R : DualReady s h X y α b) (hC : 0 ≤ s.C) (hn : 0 < n) (lr : ℝ) (e : Int) :
    Runs (gradient_descent s lr e) h fun s' h' => ∃ (α' : Fin n → ℝ) (b' : ℝ), DualTrained s h s' h' X y α' b' ∧
      Chain (fun _ p q => DualStep X y s.C lr p.1 q.1 ∧ BiasStep X y s.C lr hn q.1 p.2 q.2) (epochCount e) (α, b) (α', b') := by
  refine (gd_run R lr e).mono fun s' h' T => ⟨_, _, T, Glm.chain_walk (fun _ p => ⟨gdStep_dual hC X y lr p, ?_⟩) _ _⟩
  have e2 : (gdStep X y s.C lr p).2 = p.2 - biasSlope X y (gdStep X y s.C lr p).1 s.C * lr := rfl
  have pos : ∀ j, 0 ≤ (gdStep X y s.C lr p).1 j := fun j => by
    show 0 ≤ proj s.C _
    rw [proj_eq hC]; exact le_max_left _ _
  generalize (gdStep X y s.C lr p).1 = α' at *
  constructor
  · rintro ⟨c1, c2⟩
    rw [e2, biasSlope, dif_pos hn, if_pos ⟨c2, c1⟩, support_eq pos _ 0, sub_zero, mul_comm]
  · intro c
    rw [e2, biasSlope, dif_pos hn, if_neg (fun q => c ⟨q.2, q.1⟩)]
    ring

/-- **C118** fails: if the multipliers after an epoch have the first sample on the margin with the bias the object had before (and that is not 0), the epoch
changes the bias, and the sample is no longer on the margin. -/
theorem C118_margin_fails (R : DualReady s h X y α b) (hC : 0 ≤ s.C) (hn : 0 < n) {lr : ℝ} (hl : lr ≠ 0) (hb : b ≠ 0) :
    Runs (gradient_descent s lr 1) h fun s' h' => ∃ (α' : Fin n → ℝ) (b' : ℝ), DualTrained s h s' h' X y α' b' ∧
      (0 < α' ⟨0, hn⟩ → α' ⟨0, hn⟩ < s.C → y ⟨0, hn⟩ * dualScore X y α' b (X ⟨0, hn⟩) = 1 → y ⟨0, hn⟩ * dualScore X y α' b' (X ⟨0, hn⟩) ≠ 1) := by
  refine (C118_bias_partial R hC hn lr 1).mono fun s' h' ⟨α', b', T, p, p0, p1, st⟩ => ⟨α', b', T, fun c1 c2 e => ?_⟩
  have q := (st 0 (by decide)).2.1
  rw [show (0 + 1 : Nat) = epochCount 1 from rfl, p1, p0] at q
  have q := q ⟨c1, c2⟩
  have sc : ∀ t, dualScore X y α' t (X ⟨0, hn⟩) = dualScore X y α' 0 (X ⟨0, hn⟩) + t := fun t => by unfold dualScore; ring
  have hy : y ⟨0, hn⟩ ≠ 0 := fun c => by rw [c, zero_mul] at e; exact zero_ne_one e
  rw [sc] at e ⊢
  have e1 : (1 - y ⟨0, hn⟩ * dualScore X y α' 0 (X ⟨0, hn⟩)) / y ⟨0, hn⟩ = b := by
    rw [div_eq_iff hy]; linarith
  dsimp only at q
  rw [e1] at q
  rw [q]
  intro c
  have : y ⟨0, hn⟩ * (lr * b) = 0 := by linarith
  exact mul_ne_zero hy (mul_ne_zero hl hb) this

/-- **C118** fails: the condition `Σ α_i y_i = 0` of the dual problem is not kept. From multipliers 0 and labels 1, one epoch with a positive rate gives
multipliers whose sum with the labels is positive. -/
theorem C118_balance_fails (R : DualReady s h X y (fun _ => 0) b) (hC : 0 < s.C) (hn : 0 < n) (hy : ∀ i, y i = 1) {lr : ℝ} (hl : 0 < lr) :
    Runs (gradient_descent s lr 1) h fun s' h' => ∃ (α' : Fin n → ℝ) (b' : ℝ), DualTrained s h s' h' X y α' b' ∧ 0 < ∑ i, α' i * y i := by
  refine (C117_gradient_descent R hC.le lr 1).mono fun s' h' ⟨α', b', T, ⟨p, p0, p1, st⟩, _⟩ => ⟨α', b', T, ?_⟩
  obtain ⟨g, G, eg⟩ := st 0 (by decide)
  rw [show (0 + 1 : Nat) = epochCount 1 from rfl, p1] at eg
  have e1 : ∀ i, g i = -1 := fun i => by
    rw [p0] at G
    rw [(G i).unique (Cost.svmDual_gradient X y (fun _ => 0) i)]
    simp [Matrix.mulVec, dotProduct]
  have hp : ∀ i, 0 < α' i * y i := fun i => by
    rw [eg, hy, p0, e1]
    unfold clamp
    rw [mul_one]
    exact lt_max_of_lt_right (lt_min hC (by linarith))
  exact Finset.sum_pos (fun i _ => hp i) ⟨⟨0, hn⟩, mem_univ _⟩

/-! ## The hypotheses are met -/

/-- One sample, 2, with label 1. -/
noncomputable def dualHeap : Heap ℝ := Heap.ofLists 0 [[1], [1 / 2]] [(1, 1, [2])]
/-- The object: multiplier 1/2, bias -1/2, `C = 10`. -/
noncomputable def exDual : DualSvc := ⟨some (.m 0), some (.v 0), none, none, -1 / 2, some (.v 1), none, 10, 1, 1⟩

theorem exDualReady : DualReady exDual dualHeap (!![2] : Matrix (Fin 1) (Fin 1) ℝ) ![1] ![1 / 2] (-1 / 2) := by
  unfold exDual dualHeap
  refine ⟨Heap.ofLists_wf _ _ _ (by simp), ⟨0, rfl, ?_, ?_⟩, ⟨0, rfl, ?_, ?_⟩, ⟨1, rfl, ?_, ?_⟩, rfl, by simp⟩
  · simp [Heap.ofLists, Heap.live, Loc.id]
  · refine ⟨by simp [Heap.ofLists], fun i j => ?_⟩
    fin_cases i; fin_cases j; simp [Heap.ofLists]
  · simp [Heap.ofLists, Heap.live, Loc.id]
  · exact ⟨by simp [Heap.ofLists], fun i => by fin_cases i; simp [Heap.ofLists]⟩
  · simp [Heap.ofLists, Heap.live, Loc.id]
  · exact ⟨by simp [Heap.ofLists], fun i => by fin_cases i; simp [Heap.ofLists]⟩

/-- With the rate 1/8 the new multiplier is 3/8: inside the box, and the sample is on the margin with the old bias. -/
example : (gdStep (!![2] : Matrix (Fin 1) (Fin 1) ℝ) ![1] 10 (1 / 8) (![1 / 2], -1 / 2)).1 0 = 3 / 8 ∧
    (![1] : Fin 1 → ℝ) 0 * dualScore (!![2] : Matrix (Fin 1) (Fin 1) ℝ) ![1] ![3 / 8] (-1 / 2) (!![2] 0) = 1 := by
  constructor
  · simp [gdStep, proj, Matrix.mulVec, dotProduct, Cost.svmKernel_apply]; norm_num
  · simp [dualScore]; norm_num

end Verif
