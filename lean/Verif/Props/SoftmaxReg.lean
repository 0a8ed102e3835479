import Verif.Lemmas.SoftmaxReg
import Verif.Lemmas.SoftmaxMath
import Verif.Lemmas.GlmExample

/-!
# C101: softmax regression, `MLPPSoftmaxReg`

It answers with the softmax of affine functions of the input; gradient descent makes gradient steps on the cross entropy.
-/

namespace Verif
open Spec Finset Glm
variable {n k c m q : Nat} {h : Heap ℝ} {s : SoftmaxReg} {X : Matrix (Fin n) (Fin k) ℝ} {Y : Matrix (Fin n) (Fin c) ℝ} {θ : MParams k c}

/-- C101 (predictions): `model_test` answers with the softmax of `Wᵀ x + b`, `model_set_test` with that of every row. -/
theorem C101_predict (R : SoftmaxReady s h X Y θ) {P : Matrix (Fin n) (Fin q) ℝ} (hp : HasM h s.y_hat P) :
    (∀ (x : Ref) (v : Fin k → ℝ), HasV h x v → ReturnsVec (SoftmaxReg.model_test s x) h (softmax fun a => ∑ j, v j * θ.1 j a + θ.2 a)) ∧
    ∀ (x : Ref) (m : Nat) (A : Matrix (Fin m) (Fin k) ℝ), HasM h x A →
      ReturnsMat (SoftmaxReg.model_set_test s x) h fun i => softmax fun a => ∑ j, A i j * θ.1 j a + θ.2 a := by
  refine ⟨fun x v hx => ?_, fun x m A hx => ?_⟩
  · exact Runs.congr (SoftmaxReg.guarded_run R hp _ _) (SoftmaxReg.evaluatev_spec R.wf R.weights R.bias hx)
  · exact Runs.congr (SoftmaxReg.guarded_run R hp _ _) (SoftmaxReg.evaluatem_spec R.wf R.weights R.bias hx)

/-- C101 (no data): without data the object answers null and 0 and training leaves it as it is. -/
theorem C101_missing_data (h : Heap ℝ) (s : SoftmaxReg) (hn : s.input_set = none ∨ s.output_set = none) (r : Ref) (pick : Nat → Nat) (lr : ℝ)
    (e b : Int) :
    SoftmaxReg.model_test s r h = .ok (none, h) ∧ SoftmaxReg.model_set_test s r h = .ok (none, h) ∧ SoftmaxReg.score s h = .ok (0, h) ∧
    SoftmaxReg.train_gradient_descent s lr e h = .ok (s, h) ∧ SoftmaxReg.train_sgd s pick lr e h = .ok (s, h) ∧
    SoftmaxReg.train_mbgd s lr e b h = .ok (s, h) := by
  have q := SoftmaxReg.needs_init_null (h := h) hn
  exact ⟨bind_ok q, bind_ok q, bind_ok q, bind_ok q, bind_ok q, bind_ok q⟩

theorem softmax_gradStep (X : Matrix (Fin n) (Fin k) ℝ) {Y : Matrix (Fin n) (Fin c) ℝ} (hY : ∀ i, ∑ a, Y i a = 1) (D : ℝ → ℝ) (lr : ℝ)
    (θ : MParams k c) : MGradStep (softmaxLoss X Y) lr D θ (SoftmaxReg.gdStep X Y D lr θ) := by
  refine ⟨_, _, (softmaxLoss_gradient X hY θ).1, (softmaxLoss_gradient X hY θ).2, ?_⟩
  unfold SoftmaxReg.gdStep SoftmaxReg.stepM
  refine Prod.ext (funext fun j => funext fun a => congrArg D ?_) (funext fun a => ?_)
  · simp only [Matrix.sub_apply]; ring
  · simp only [Matrix.sub_apply]; rw [← Finset.sum_mul]; ring

/-- C101 (gradient descent): when every row of the output set sums to one, every epoch of `train_gradient_descent` is a step of gradient descent on
the cross entropy, followed by the regularisation of the weights. -/
theorem C101_gradient_descent (R : SoftmaxReady s h X Y θ) {P : Matrix (Fin n) (Fin q) ℝ} (hp : HasM h s.y_hat P) (hY : ∀ i, ∑ a, Y i a = 1)
    (lr : ℝ) (e : Int) :
    Runs (SoftmaxReg.train_gradient_descent s lr e) h fun s' h' => ∃ θ', SoftmaxTrained s h s' h' X Y θ' ∧
      Chain (fun _ => MGradStep (softmaxLoss X Y) lr (decay s.reg s.lambda s.alpha)) (epochCount e) θ θ' :=
  (SoftmaxReg.gd_run R hp lr e).mono fun s' h' T => ⟨_, T, chain_walk (fun _ θ => softmax_gradStep X hY _ lr θ) _ _⟩

/-- C101 (stochastic training, as far as it holds): with at most as many classes as input columns, every epoch of `train_sgd` is a step of gradient
descent on the cross entropy of the drawn sample, followed by the regularisation of the weights. -/
theorem C101_sgd_partial (R : SoftmaxReady s h X Y θ) {P : Matrix (Fin n) (Fin q) ℝ} (hp : HasM h s.y_hat P) (hY : ∀ i, ∑ a, Y i a = 1)
    {pick : Nat → Nat} (hpick : ∀ e, pick e < n) (hc : c ≤ k) (lr : ℝ) (e : Int) :
    Runs (SoftmaxReg.train_sgd s pick lr e) h fun s' h' => ∃ θ', SoftmaxTrained s h s' h' X Y θ' ∧
      Chain (fun t => MGradStep (softmaxLoss (fun _ : Fin 1 => X ⟨pick (t + 1), hpick _⟩) (fun _ : Fin 1 => Y ⟨pick (t + 1), hpick _⟩)) lr
        (decay s.reg s.lambda s.alpha)) (epochCount e) θ θ' := by
  refine (SoftmaxReg.sgd_run R hp hpick hc lr e).mono fun s' h' T => ⟨_, T, chain_walk (fun t θ => ?_) _ _⟩
  have := softmax_gradStep (fun _ : Fin 1 => X ⟨pick (t + 1), hpick _⟩) (Y := fun _ : Fin 1 => Y ⟨pick (t + 1), hpick _⟩) (fun _ => hY _)
    (decay s.reg s.lambda s.alpha) lr θ
  refine cast (congrArg _ ?_) this
  unfold SoftmaxReg.gdStep SoftmaxReg.stepM SoftmaxReg.sgdStep
  refine Prod.ext (funext fun j => funext fun a => congrArg (decay s.reg s.lambda s.alpha) ?_) (funext fun a => ?_)
  · simp only [Matrix.sub_apply, Fin.sum_univ_one]; rfl
  · simp only [Matrix.sub_apply, Fin.sum_univ_one]; rfl

/-- C101 (stochastic training: false): with more classes than input columns, the first epoch of `train_sgd` evaluates the *outputs* of the sample as
if they were inputs, and dereferences a null handle. -/
theorem C101_sgd_fails (R : SoftmaxReady s h X Y θ) {P : Matrix (Fin n) (Fin q) ℝ} (hp : HasM h s.y_hat P) {pick : Nat → Nat} (hpick : pick 1 < n)
    (hc : k < c) (lr : ℝ) (e : Int) : SoftmaxReg.train_sgd s pick lr e h = .ub := SoftmaxReg.sgd_ub R hp hpick hc lr e

/-- C101 (mini-batches, as far as it holds): with `K` mini-batches, every step of `train_mbgd` is a step of gradient descent on the cross entropy of
the rows `K i`, `K i + 1`, …, `K i + n / K - 1`, the mini-batches `i = 0, …, K - 1` being taken in turn; these rows have to exist. (They are the
consecutive blocks of rows only when `K = n / K`: see C61.) -/
theorem C101_mbgd_partial (R : SoftmaxReady s h X Y θ) {P : Matrix (Fin n) (Fin q) ℝ} (hp : HasM h s.y_hat P) (hY : ∀ i, ∑ a, Y i a = 1)
    (lr : ℝ) (e : Int) {b K : Nat} (hb : 0 < b) (eK : n / b = K) (hK : 0 < K) (hr : ∀ (i : Fin K) (j : Fin (n / K)), K * i.val + j.val < n) :
    Runs (SoftmaxReg.train_mbgd s lr e b) h fun s' h' => ∃ θ', SoftmaxTrained s h s' h' X Y θ' ∧
      Rounds hK (fun _ i => MGradStep (softmaxLoss (fun j : Fin (n / K) => X ⟨K * i.val + j.val, hr i j⟩) fun j => Y ⟨K * i.val + j.val, hr i j⟩)
        lr (decay s.reg s.lambda s.alpha)) (epochCount e) θ θ' :=
  (SoftmaxReg.mbgd_run R hp lr e hb eK hK hr).mono fun s' h' T => ⟨_, T, rounds_walk hK (fun _ i θ => softmax_gradStep _ (fun _ => hY _) _ lr θ) _ _⟩

/-- C101 (mini-batches: false): eight samples, two mini-batches: the rows of the second one are 2, 3, 4, 5, so that no epoch looks at the samples 6
and 7. -/
theorem C101_mbgd_fails {X : Matrix (Fin 8) (Fin k) ℝ} {Y : Matrix (Fin 8) (Fin c) ℝ} (R : SoftmaxReady s h X Y θ) {P : Matrix (Fin 8) (Fin q) ℝ}
    (hp : HasM h s.y_hat P) (lr : ℝ) (e : Int) :
    Runs (SoftmaxReg.train_mbgd s lr e 4) h fun s' h' => ∃ θ', SoftmaxTrained s h s' h' X Y θ' ∧
      ∀ (X' : Matrix (Fin 8) (Fin k) ℝ) (Y' : Matrix (Fin 8) (Fin c) ℝ) (s2 : SoftmaxReg) (h2 : Heap ℝ), s2.reg = s.reg → s2.lambda = s.lambda →
        s2.alpha = s.alpha → (∀ i : Fin 8, i < 6 → X' i = X i ∧ Y' i = Y i) → SoftmaxReady s2 h2 X' Y' θ → HasM h2 s2.y_hat P →
        Runs (SoftmaxReg.train_mbgd s2 lr e 4) h2 fun s3 h3 => SoftmaxTrained s2 h2 s3 h3 X' Y' θ' := by
  have hr : ∀ (i : Fin 2) (j : Fin (8 / 2)), 2 * i.val + j.val < 8 := by intro i j; have := i.2; have := j.2; omega
  refine (SoftmaxReg.mbgd_run R hp lr e (b := 4) (K := 2) (by omega) rfl (by omega) hr).mono fun s' h' T => ⟨_, T, ?_⟩
  intro X' Y' s2 h2 e1 e2 e3 same R2 hp2
  have := SoftmaxReg.mbgd_run R2 hp2 lr e (b := 4) (K := 2) (by omega) rfl (by omega) hr
  have ex : ∀ {p : Nat} (A A' : Matrix (Fin 8) (Fin p) ℝ), (∀ i : Fin 8, i < 6 → A' i = A i) → SoftmaxReg.codeBatch A' 2 hr = SoftmaxReg.codeBatch A 2 hr := by
    intro p A A' q
    funext i j
    refine q _ ?_
    have := i.2; have := j.2
    simp only [Fin.lt_def]
    show 2 * i.val + j.val < 6
    omega
  rw [ex X X' fun i hi => (same i hi).1, ex Y Y' fun i hi => (same i hi).2, e1, e2, e3] at this
  exact this

/-- C101 (constructor): an object made from data is set up, its weights are the numbers drawn, in `[0, 1)`; nothing that existed changes. Nothing is
said about the biases: they are never written (see C64). -/
theorem C101_create_partial (gw gb : Utilities.Source) (w : h.WF) {a b : Ref} (ha : HasM h a X) (hb : HasM h b Y) (r : Reg.Kind) (l al : ℝ) :
    Runs (SoftmaxReg.create gw gb a b r l al) h fun s h' => ∃ θ, SoftmaxReady s h' X Y θ ∧ (∃ P : Matrix (Fin n) (Fin 0) ℝ, HasM h' s.y_hat P) ∧
      Keeps h h' (fun _ => False) ∧ s.input_set = a ∧ s.output_set = b ∧ s.reg = r ∧ s.lambda = l ∧ s.alpha = al ∧
      ∀ i j, θ.1 i j = gw.u (i.val * c + j.val) := by
  unfold SoftmaxReg.create
  refine Runs.newM w fun h1 w1 k1 f1 l1 s1 => ?_
  have q1 := adv_hasm k1 ha
  have p1 := adv_hasm k1 hb
  obtain ⟨F1, c1⟩ := exists_Cells w1 s1
  have a1 : HasM h1 (some (.m h.next)) (fun (i j : Fin 0) => F1 i j) := ⟨_, rfl, l1, c1.isMat fun _ _ => rfl⟩
  have g1 : NotIn h (some (.m h.next)) := fun l e => by cases e; exact f1
  generalize h.next = o1 at *
  refine Runs.newM w1 fun h2 w2 k2 f2 l2 s2 => ?_
  have q2 := adv_hasm k2 q1
  have p2 := adv_hasm k2 p1
  obtain ⟨F2, c2⟩ := exists_Cells w2 s2
  have a2 : HasM h2 (some (.m h1.next)) (fun (i j : Fin 0) => F2 i j) := ⟨_, rfl, l2, c2.isMat fun _ _ => rfl⟩
  have g2 : NotIn h1 (some (.m h1.next)) := fun l e => by cases e; exact f2
  generalize h1.next = o2 at *
  refine Runs.newV w2 fun h3 w3 k3 f3 l3 s3 => ?_
  obtain ⟨F3, c3⟩ := exists_VCells w3 s3
  have a3 : HasV h3 (some (.v h2.next)) (fun (i : Fin 0) => F3 i) := ⟨_, rfl, l3, c3.isVec fun _ => rfl⟩
  have g3 : NotIn h2 (some (.v h2.next)) := fun l e => by cases e; exact f3
  generalize h2.next = o3 at *
  have K3 := (k1.trans k2).trans k3
  have q3 := adv_hasm k3 q2
  have p3 := adv_hasm k3 p2
  have ne12 : (some (Loc.m o1) : Ref) ≠ some (.m o2) := (g2.ne_mat a1).symm
  have na1 : a ≠ some (.m o1) := (g1.ne_mat ha).symm
  have nb1 : b ≠ some (.m o1) := (g1.ne_mat hb).symm
  have na2 : a ≠ some (.m o2) := (g2.ne_mat q1).symm
  have nb2 : b ≠ some (.m o2) := (g2.ne_mat p1).symm
  unfold SoftmaxReg.initialize_
  obtain ⟨ia, eia, -, -⟩ := id ha
  obtain ⟨ib, eib, -, -⟩ := id hb
  rw [eia, eib]
  dsimp only
  rw [← eia, ← eib]
  refine Runs.step (Hd.sizem_run q3) (Runs.step (Hd.sizem_run p3) ?_)
  refine Runs.bind ((Hd.resizem_run w3 (adv_hasm k3 (adv_hasm k2 a1)) n 0).mono fun _ h4 ⟨w4, k4, P, a4⟩ => ?_)
  have q4 := q3.offm k4 na1
  have p4 := p3.offm k4 nb1
  have K4 := K3.trans_new k4 fun l e hl => g1 l e.symm hl
  refine Runs.bind ((Hd.resizem_run w4 ((adv_hasm k3 a2).offm k4 ne12.symm) k c).mono fun _ h5 ⟨w5, k5, W, a5⟩ => ?_)
  have q5 := q4.offm k5 na2
  have p5 := p4.offm k5 nb2
  have y5 := a4.offm k5 ne12
  have K5 := K4.trans_new k5 fun l e hl => g2 l e.symm (k1.live hl)
  have a3' := (a3.offm k4 (adv_hasm k3 (adv_hasm k2 a1))).offm k5 ((adv_hasm k3 a2).offm k4 ne12.symm)
  refine Runs.bind ((Hd.resizev_run w5 a3' c).mono fun _ h6 ⟨w6, k6, B, a6⟩ => ?_)
  have q6 := q5.off k6 a3'
  have p6 := p5.off k6 a3'
  have y6 := y5.off k6 a3'
  have W6 := a5.off k6 a3'
  have K6 := K5.trans_new k6 fun l e hl => g3 l e.symm ((k1.trans k2).live hl)
  obtain ⟨o, eo, lo, io⟩ := id W6
  cases eo
  refine Runs.bind (((Utilities.weightM_run gw h6 w6 o2 W io .default (fun i => gw.u i)
    fun i h => Utilities.uniform01_run gw i h).hasM lo).mono fun _ h7 ⟨w7, k7, a7⟩ => ?_)
  have K7 := K6.trans_new k7 fun l e hl => g2 l e.symm (k1.live hl)
  refine Runs.step (Utilities.C64_bias_vector_fails gb h7 o3) ?_
  exact Runs.of_eq rfl ⟨(_, B), ⟨w7, q6.offm k7 na2, p6.offm k7 nb2, a7, a6.offm k7 W6, na2, nb2⟩, ⟨P, y6.offm k7 ne12⟩, K7, rfl, rfl, rfl, rfl,
    rfl, fun _ _ => rfl⟩

/-! ## The hypotheses are met -/

/-- Three samples of two columns and two classes. -/
noncomputable def smHeap : Heap ℝ :=
  Heap.ofLists 0 [[1, -1], [5, -5]] [(2, 3, [1, 2, 3, 4, 5, 6]), (2, 3, [1, 0, 0, 1, 1 / 2, 1 / 2]), (2, 3, [0, 0, 0, 0, 0, 0]), (2, 2, [7, 8, 9, 10])]

noncomputable def exSm (r : Reg.Kind) : SoftmaxReg := ⟨some (.m 0), some (.m 1), some (.m 2), some (.m 3), some (.v 0), r, 0, 0⟩

example (r : Reg.Kind) : SoftmaxReady (exSm r) smHeap !![1, 2; 3, 4; 5, 6] !![1, 0; 0, 1; 1 / 2, 1 / 2] (!![7, 8; 9, 10], ![1, -1]) ∧
    HasM smHeap (exSm r).y_hat (0 : Matrix (Fin 3) (Fin 2) ℝ) ∧ HasV smHeap (some (.v 1)) (![5, -5] : Fin 2 → ℝ) ∧
    (∀ i : Fin 3, ∑ a, (!![1, 0; 0, 1; 1 / 2, 1 / 2] : Matrix (Fin 3) (Fin 2) ℝ) i a = 1) := by
  have lv : ∀ i < 4, smHeap.live (.m i) := by intro i hi; simp [smHeap, Heap.ofLists, Heap.live, Loc.id]; omega
  have lw : ∀ i < 2, smHeap.live (.v i) := by intro i hi; simp [smHeap, Heap.ofLists, Heap.live, Loc.id]; omega
  refine ⟨⟨Heap.ofLists_wf _ _ _ (by simp), ⟨0, rfl, lv 0 (by omega), ?_⟩, ⟨1, rfl, lv 1 (by omega), ?_⟩, ⟨3, rfl, lv 3 (by omega), ?_⟩,
    ⟨0, rfl, lw 0 (by omega), ?_⟩, by simp [exSm], by simp [exSm]⟩, ⟨2, rfl, lv 2 (by omega), ?_⟩, ⟨1, rfl, lw 1 (by omega), ?_⟩, ?_⟩
  · exact ⟨by simp [smHeap, Heap.ofLists], fun i j => by fin_cases i <;> fin_cases j <;> simp [smHeap, Heap.ofLists]⟩
  · exact ⟨by simp [smHeap, Heap.ofLists], fun i j => by fin_cases i <;> fin_cases j <;> simp [smHeap, Heap.ofLists]⟩
  · exact ⟨by simp [smHeap, Heap.ofLists], fun i j => by fin_cases i <;> fin_cases j <;> simp [smHeap, Heap.ofLists]⟩
  · exact ⟨by simp [smHeap, Heap.ofLists], fun i => by fin_cases i <;> simp [smHeap, Heap.ofLists]⟩
  · exact ⟨by simp [smHeap, Heap.ofLists], fun i j => by fin_cases i <;> fin_cases j <;> simp [smHeap, Heap.ofLists]⟩
  · exact ⟨by simp [smHeap, Heap.ofLists], fun i => by fin_cases i <;> simp [smHeap, Heap.ofLists]⟩
  · intro i
    fin_cases i <;> simp [Fin.sum_univ_two]
    norm_num

end Verif
