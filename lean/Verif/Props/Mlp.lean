import Verif.Lemmas.MlpMath
import Verif.Lemmas.GlmExample

/-!
# C102: the multilayer perceptron, `MLPPMLP`

One hidden layer and one output, both with the logistic function; training is meant to be gradient descent on the logistic loss.
-/

namespace Verif
open Spec Finset Glm
variable {n k m : Nat} {h : Heap ℝ} {s : Mlp} {X : Matrix (Fin n) (Fin k) ℝ} {y : Fin n → ℝ} {θ : NetParams k m}

/-- C102 (predictions): `model_test` and `model_set_test` answer with the output of the network. -/
theorem C102_predict (R : MlpReady s h X y θ) :
    (∀ (x : Ref) (v : Fin k → ℝ), HasV h x v → Runs (Mlp.model_test s x) h fun r h' => h'.WF ∧ Keeps h h' (fun _ => False) ∧
      r = logistic (∑ a, logistic (∑ j, v j * θ.1.1 j a + θ.1.2 a) * θ.2.1 a + θ.2.2)) ∧
    ∀ (x : Ref) (p : Nat) (A : Matrix (Fin p) (Fin k) ℝ), HasM h x A → ReturnsVec (Mlp.model_set_test s x) h fun i =>
      logistic (∑ a, logistic (∑ j, A i j * θ.1.1 j a + θ.1.2 a) * θ.2.1 a + θ.2.2) :=
  ⟨fun _ _ hx => (Mlp.evaluatev_run R.wf hx R.weights1 R.bias1 R.weights2 R.bias2).mono fun _ _ ⟨e, w, k⟩ => ⟨w, k, e⟩,
    fun _ _ _ hx => Mlp.evaluatem_spec R.wf hx R.weights1 R.bias1 R.weights2 R.bias2⟩

/-- C102 (predictions: false): nothing guards against inputs of the wrong width: a null handle is dereferenced. In particular an object made by the
constructor without arguments, whose matrix of weights is empty, cannot be asked anything. -/
theorem C102_predict_fails {W : Matrix (Fin k) (Fin m) ℝ} {x : Ref} {p q : Nat} {A : Matrix (Fin p) (Fin q) ℝ} (hW : HasM h s.weights1 W)
    (hx : HasM h x A) (ne : q ≠ k) : Mlp.model_set_test s x h = .ub := by
  obtain ⟨i, rfl, la, iA⟩ := hx
  obtain ⟨j, ej, lb, iB⟩ := hW
  show Mlp.evaluatem s (some (.m i)) h = .ub
  unfold Mlp.evaluatem
  have e2 : Hd.multn (some (.m i)) s.weights1 h = .ok (none, h) := by
    rw [ej]
    show Mat.multn i (some j) h = _
    unfold Mat.multn
    dsimp only
    rw [bind_ok (Mat.size_run j h), bind_ok (Mat.size_run i h), iA.1, iB.1]
    dsimp only
    rw [if_neg ne]
    rfl
  rw [bind_ok e2]
  rfl

/-- C102 (not set up): before the object is set up training does nothing. -/
theorem C102_uninitialised (h : Heap ℝ) (s : Mlp) (hi : s.initialized = false) (pick : Nat → Nat) (lr : ℝ) (e b : Int) :
    Mlp.gradient_descent s lr e h = .ok (s, h) ∧ Mlp.sgd s pick lr e h = .ok (s, h) ∧ Mlp.mbgd s lr e b h = .ok (s, h) := by
  have : ¬ s.initialized = true := by rw [hi]; decide
  refine ⟨?_, ?_, ?_⟩
  · unfold Mlp.gradient_descent; rw [if_neg this]; rfl
  · unfold Mlp.sgd; rw [if_neg this]; rfl
  · unfold Mlp.mbgd; rw [if_neg this]; rfl

/-- C102 (setters): changing the data or a setting takes an object out of its set-up state: training does nothing until `initialize()` is called. -/
theorem C102_setters (h : Heap ℝ) (s : Mlp) (v : Ref) (x lr : ℝ) (e : Int) :
    Mlp.gradient_descent (Mlp.set_input_set s v) lr e h = .ok (Mlp.set_input_set s v, h) ∧
      Mlp.gradient_descent (Mlp.set_output_set s v) lr e h = .ok (Mlp.set_output_set s v, h) ∧
      Mlp.gradient_descent (Mlp.set_lambda s x) lr e h = .ok (Mlp.set_lambda s x, h) :=
  ⟨(C102_uninitialised h _ rfl (fun _ => 0) lr e 0).1, (C102_uninitialised h _ rfl (fun _ => 0) lr e 0).1,
    (C102_uninitialised h _ rfl (fun _ => 0) lr e 0).1⟩

/-- C102 (gradient descent, as far as it holds): every epoch makes an exact step of gradient descent on the logistic loss in the output layer; the
step of the hidden layer follows the errors through the *new* output layer (see `NetUpdate`). Afterwards the object shows the predictions of the
last parameters. -/
theorem C102_gradient_descent_partial (R : MlpReady s h X y θ) (lr : ℝ) (e : Int) :
    Runs (Mlp.gradient_descent s lr e) h fun s' h' => ∃ θ', MlpTrained s h s' h' X y θ' ∧
      Chain (fun _ => NetUpdate X y lr (decay s.reg s.lambda s.alpha)) (epochCount e) θ θ' :=
  (Mlp.gd_run R lr e).mono fun s' h' T => ⟨_, T, chain_walk (fun _ θ => Mlp.netStep_update X y _ lr θ) _ _⟩

theorem netLoss_flat (X : Matrix (Fin n) (Fin k) ℝ) (y : Fin n → ℝ) (η η' : MParams k m) (b : ℝ) : netLoss X y (η, (0, b)) = netLoss X y (η', (0, b)) := by
  have : ∀ η : MParams k m, netOut X (η, (0, b)) = fun _ => logistic b := by
    intro η
    funext i
    unfold netOut linear
    simp
  unfold netLoss
  rw [this, this]

/-- C102 (gradient descent: false): one epoch on one sample, starting at zero: the loss does not depend on the hidden layer there, yet the hidden
layer moves: this is no step of gradient descent. -/
theorem C102_gradient_descent_fails {X : Matrix (Fin 1) (Fin 1) ℝ} {y : Fin 1 → ℝ} (hX : X 0 0 = 1) (hy : y 0 = 0)
    (R : MlpReady s h X y (0 : NetParams 1 1)) (hr : s.reg = .none) {lr : ℝ} (hl : lr ≠ 0) :
    Runs (Mlp.gradient_descent s lr 1) h fun s' h' => ∃ θ' : NetParams 1 1, MlpTrained s h s' h' X y θ' ∧ θ'.1.1 0 0 = lr ^ 2 / 32 ∧
      ¬ NetStep X y lr (decay s.reg s.lambda s.alpha) 0 θ' := by
  refine (Mlp.gd_run R lr 1).mono fun s' h' T => ⟨_, T, ?_⟩
  have ew : walk (fun _ => Mlp.netStep X y (decay s.reg s.lambda s.alpha) lr) (0 : NetParams 1 1) (epochCount 1) =
      Mlp.netStep X y (decay s.reg s.lambda s.alpha) lr 0 := rfl
  rw [ew]
  have eD : decay s.reg s.lambda s.alpha = fun x => x := by rw [hr]; rfl
  rw [eD]
  have l0 : logistic 0 = 1 / 2 := by unfold logistic; norm_num
  have ea : affine X (0 : NetParams 1 1).1 0 0 = 0 := by simp [affine]
  have eh : hiddens X (0 : NetParams 1 1).1 0 0 = 1 / 2 := by unfold hiddens; rw [ea, l0]
  have eo : netOut X (0 : NetParams 1 1) 0 = 1 / 2 := by
    unfold netOut
    rw [show linear (hiddens X (0 : NetParams 1 1).1) (0 : NetParams 1 1).2 0 = 0 by simp [linear], l0]
  have key : (Mlp.netStep X y (fun x => x) lr (0 : NetParams 1 1)).1.1 0 0 = lr ^ 2 / 32 := by
    show (0 : ℝ) - (∑ i : Fin 1, X i 0 * ((netOut X 0 i - y i) * ((0 : ℝ) - (∑ i : Fin 1, hiddens X 0 i 0 * (netOut X 0 i - y i)) * (lr / (1 : ℕ))) *
      Activation.sigmoid_derivr (affine X 0 i 0))) * (lr / (1 : ℕ)) = _
    have ea' : affine X (0 : MParams 1 1) 0 0 = 0 := ea
    have eh' : hiddens X (0 : MParams 1 1) 0 0 = 1 / 2 := eh
    have es : Activation.sigmoid_derivr 0 = 1 / 4 := by
      show logistic 0 * (1 - logistic 0) = _
      rw [l0]; norm_num
    simp only [Fin.sum_univ_one]
    rw [hX, hy, eo, ea', eh', es]
    push_cast
    ring
  refine ⟨key, fun N => ?_⟩
  obtain ⟨G, g, hG, -, e⟩ := N.first
  have h1 := hG (0, 0)
  have h2 : HasDerivAt (fun t => netLoss X y ((fun i j => Function.update (cells (0 : NetParams 1 1).1.1) (0, 0) t (i, j), (0 : NetParams 1 1).1.2),
      (0 : NetParams 1 1).2)) 0 (cells (0 : NetParams 1 1).1.1 (0, 0)) := by
    have : (fun t => netLoss X y ((fun i j => Function.update (cells (0 : NetParams 1 1).1.1) (0, 0) t (i, j), (0 : NetParams 1 1).1.2),
      (0 : NetParams 1 1).2)) = fun _ => netLoss X y (0 : NetParams 1 1) := by
      funext t
      exact netLoss_flat X y _ 0 0
    rw [this]
    exact hasDerivAt_const _ _
  have z : cells G (0, 0) = 0 := h1.unique h2
  have : (Mlp.netStep X y (fun x => x) lr (0 : NetParams 1 1)).1.1 0 0 = 0 - lr * G 0 0 := congrFun (congrFun (congrArg Prod.fst e) 0) 0
  rw [key, show G 0 0 = 0 from z] at this
  have : lr ^ 2 = 0 := by linarith
  exact hl (pow_eq_zero_iff two_ne_zero |>.1 this)

/-- C102 (stochastic training, as far as it holds): every epoch is such a step on the drawn sample. -/
theorem C102_sgd_partial (R : MlpReady s h X y θ) {pick : Nat → Nat} (hpick : ∀ e, pick e < n) (lr : ℝ) (e : Int) :
    Runs (Mlp.sgd s pick lr e) h fun s' h' => ∃ θ', MlpTrained s h s' h' X y θ' ∧
      Chain (fun t => NetUpdate (sampleX X ⟨pick (t + 1), hpick _⟩) (sampleY y ⟨pick (t + 1), hpick _⟩) lr (decay s.reg s.lambda s.alpha))
        (epochCount e) θ θ' :=
  (Mlp.sgd_run R hpick lr e).mono fun s' h' T => ⟨_, T, chain_walk (fun t θ =>
    Mlp.netStep_update (sampleX X ⟨pick (t + 1), hpick _⟩) (sampleY y ⟨pick (t + 1), hpick _⟩) _ lr θ) _ _⟩

/-- C102 (mini-batches, as far as it holds): the steps of `mbgd` are such steps on the consecutive mini-batches of the inputs; the outputs are always
those of the first samples (see C61). -/
theorem C102_mbgd_partial (R : MlpReady s h X y θ) (lr : ℝ) (e : Int) {b K : Nat} (hb : 0 < b) (eK : n / b = K) (hK : 0 < K) :
    Runs (Mlp.mbgd s lr e b) h fun s' h' => ∃ θ', MlpTrained s h s' h' X y θ' ∧
      Rounds hK (fun _ i => NetUpdate (batchX X K i) (firstY y K) lr (decay s.reg s.lambda s.alpha)) (epochCount e) θ θ' :=
  (Mlp.mbgd_run R lr e hb eK hK).mono fun s' h' T => ⟨_, T, rounds_walk hK (fun _ i θ => Mlp.netStep_update (batchX X K i) (firstY y K) _ lr θ) _ _⟩

/-- C102 (mini-batches: false): all outputs but the first `n / K` are never looked at: changing them changes nothing. -/
theorem C102_mbgd_fails (R : MlpReady s h X y θ) (lr : ℝ) (e : Int) {b K : Nat} (hb : 0 < b) (eK : n / b = K) (hK : 0 < K) :
    Runs (Mlp.mbgd s lr e b) h fun s' h' => ∃ θ' : NetParams k m, MlpTrained s h s' h' X y θ' ∧
      ∀ (y' : Fin n → ℝ) (s2 : Mlp) (h2 : Heap ℝ), s2.reg = s.reg → s2.lambda = s.lambda → s2.alpha = s.alpha →
        (∀ j : Fin n, j.val < n / K → y' j = y j) → MlpReady s2 h2 X y' θ →
        Runs (Mlp.mbgd s2 lr e b) h2 fun s3 h3 => MlpTrained s2 h2 s3 h3 X y' θ' := by
  refine (Mlp.mbgd_run R lr e hb eK hK).mono fun s' h' T => ⟨_, T, fun y' s2 h2 e1 e2 e3 same R2 => ?_⟩
  have := Mlp.mbgd_run R2 lr e hb eK hK
  rw [show firstY y' K = firstY y K from funext fun j => same _ j.2, e1, e2, e3] at this
  exact this

/-- C102 (constructor): an object made from data is set up, its weights are the numbers drawn, in `[0, 1)`; nothing that existed changes. Nothing is
said about the biases of the hidden layer: they are never written (see C64). -/
theorem C102_create_partial (gw1 gw2 gb1 gb2 : Utilities.Source) (w : h.WF) {a b : Ref} (ha : HasM h a X) (hb : HasV h b y) (hm : m ≠ 0)
    (r : Reg.Kind) (l al : ℝ) :
    Runs (Mlp.create gw1 gw2 gb1 gb2 a b m r l al) h fun s h' => ∃ θ : NetParams k m, MlpReady s h' X y θ ∧ Keeps h h' (fun _ => False) ∧
      s.input_set = a ∧ s.output_set = b ∧ s.reg = r ∧ s.lambda = l ∧ s.alpha = al ∧
      (∀ i j, θ.1.1 i j = gw1.u (i.val * m + j.val)) ∧ (∀ j, θ.2.1 j = gw2.u j) ∧ θ.2.2 = gb2.u 0 := by
  unfold Mlp.create
  refine stepV0 w fun oy h1 vy w1 k1 f1 by1 => ?_
  have K1 := k1
  nw f1 k1
  refine stepM0 w1 fun o1 h2 A1 w2 k2 f2 bW1 => ?_
  have g2 := f2.mono K1
  have K2 := K1.trans k2
  nw f2 k2
  refine stepV0 w2 fun o2 h3 v2 w3 k3 f3 bW2 => ?_
  have g3 := f3.mono K2
  have K3 := K2.trans k3
  nw f3 k3
  refine stepM0 w3 fun oz h4 Az w4 k4 f4 bz => ?_
  have K4 := K3.trans k4
  nw f4 k4
  refine stepM0 w4 fun oa h5 Aa w5 k5 f5 ba => ?_
  have K5 := K4.trans k5
  nw f5 k5
  refine stepV0 w5 fun ob h6 vb w6 k6 f6 bb => ?_
  have g6 := f6.mono K5
  have K6 := K5.trans k6
  nw f6 k6
  unfold Mlp.initialize_
  obtain ⟨ia, eia, -, -⟩ := id ha
  obtain ⟨ib, eib, -, -⟩ := id hb
  rw [eia, eib]
  dsimp only
  rw [← eia, ← eib, if_neg (by decide), if_neg hm]
  refine Runs.step (Hd.sizem_run ha) ?_
  dsimp only
  refine Runs.bind ((Hd.resizev_run w6 by1 n).mono fun _ h7 ⟨w7, k7, vy', by2⟩ => ?_)
  have K7 := K6.wr_new k7 f1
  wr k7
  refine Runs.bind ((Hd.resizem_run w7 bW1 k m).mono fun _ h8 ⟨w8, k8, W1, bW1'⟩ => ?_)
  have K8 := K7.wr_new k8 g2
  wr k8
  refine Runs.bind ((Hd.resizev_run w8 bW2 m).mono fun _ h9 ⟨w9, k9, W2, bW2'⟩ => ?_)
  have K9 := K8.wr_new k9 g3
  wr k9
  refine Runs.bind ((Hd.resizev_run w9 bb m).mono fun _ h10 ⟨w10, k10, B1, bb'⟩ => ?_)
  have K10 := K9.wr_new k10 g6
  wr k10
  obtain ⟨o, eo, lo, io⟩ := id bW1'
  cases eo
  refine Runs.bind (((Utilities.weightM_run gw1 h10 w10 o1 W1 io .default (fun i => gw1.u i)
    fun i h => Utilities.uniform01_run gw1 i h).hasM lo).mono fun _ h11 ⟨w11, k11, bW3⟩ => ?_)
  have K11 := K10.wr_new k11 g2
  wr k11
  obtain ⟨o, eo, lo, io⟩ := id bW2'
  cases eo
  refine Runs.bind (((Utilities.C64_vector gw2 h11 w11 o2 W2 io .default).hasV lo).mono fun _ h12 ⟨w12, k12, bW4⟩ => ?_)
  have K12 := K11.wr_new k12 g3
  wr k12
  refine Runs.step (Utilities.C64_bias_vector_fails gb1 h12 ob) ?_
  refine Runs.step (Utilities.C64_bias (n := 0) gb2 h12).1 ?_
  refine stepM0 w12 fun oz h13 Az w13 k13 f13 bz' => ?_
  have K13 := K12.trans k13
  nw f13 k13
  refine stepM0 w13 fun oa h14 Aa w14 k14 f14 ba' => ?_
  have K14 := K13.trans k14
  nw f14 k14
  refine Runs.of_eq rfl ⟨((_, B1), (_, gb2.u 0)), ⟨w14, rfl, rfl, ha, hb, bW3, bb', bW4, rfl, ⟨_, _, by2⟩, ⟨_, _, _, bz'⟩, ⟨_, _, _, ba'⟩, ?_, ?_⟩,
    K14, rfl, rfl, rfl, rfl, rfl, fun _ _ => rfl, fun _ => rfl, rfl⟩
  · simp only [List.nodup_cons, List.mem_cons, List.not_mem_nil, or_false, not_or, not_false_eq_true, List.nodup_nil, and_true]
    repeat' apply And.intro
    all_goals first | assumption | exact Ne.symm (by assumption)
  · simp only [List.nodup_cons, List.mem_cons, List.not_mem_nil, or_false, not_or, not_false_eq_true, List.nodup_nil, and_true]
    repeat' apply And.intro
    all_goals first | assumption | exact Ne.symm (by assumption)

/-! ## The hypotheses are met -/

/-- Two samples of one column; one hidden unit. -/
noncomputable def mlpHeap : Heap ℝ :=
  Heap.ofLists 0 [[1, 0], [0, 0], [3], [4]] [(1, 2, [5, 6]), (1, 1, [7]), (1, 2, [0, 0]), (1, 2, [0, 0])]

noncomputable def exMlp (r : Reg.Kind) : Mlp :=
  ⟨true, some (.m 0), some (.v 0), some (.v 1), some (.m 1), some (.v 2), some (.v 3), 9, some (.m 2), some (.m 3), 1, r, 0, 0, 2, 1⟩

example (r : Reg.Kind) : MlpReady (exMlp r) mlpHeap !![5; 6] ![1, 0] ((!![7], ![4]), (![3], 9)) := by
  have lv : ∀ i < 4, mlpHeap.live (.m i) := by intro i hi; simp [mlpHeap, Heap.ofLists, Heap.live, Loc.id]; omega
  have lw : ∀ i < 4, mlpHeap.live (.v i) := by intro i hi; simp [mlpHeap, Heap.ofLists, Heap.live, Loc.id]; omega
  refine ⟨Heap.ofLists_wf _ _ _ (by simp), rfl, rfl, ⟨0, rfl, lv 0 (by omega), ?_⟩, ⟨0, rfl, lw 0 (by omega), ?_⟩, ⟨1, rfl, lv 1 (by omega), ?_⟩,
    ⟨3, rfl, lw 3 (by omega), ?_⟩, ⟨2, rfl, lw 2 (by omega), ?_⟩, rfl, ⟨2, ![0, 0], 1, rfl, lw 1 (by omega), ?_⟩,
    ⟨2, 1, 0, 2, rfl, lv 2 (by omega), ?_⟩, ⟨2, 1, 0, 3, rfl, lv 3 (by omega), ?_⟩, by simp [exMlp], by simp [exMlp]⟩
  · exact ⟨by simp [mlpHeap, Heap.ofLists], fun i j => by fin_cases i <;> fin_cases j <;> simp [mlpHeap, Heap.ofLists]⟩
  · exact ⟨by simp [mlpHeap, Heap.ofLists], fun i => by fin_cases i <;> simp [mlpHeap, Heap.ofLists]⟩
  · exact ⟨by simp [mlpHeap, Heap.ofLists], fun i j => by fin_cases i <;> fin_cases j <;> simp [mlpHeap, Heap.ofLists]⟩
  · exact ⟨by simp [mlpHeap, Heap.ofLists], fun i => by fin_cases i <;> simp [mlpHeap, Heap.ofLists]⟩
  · exact ⟨by simp [mlpHeap, Heap.ofLists], fun i => by fin_cases i <;> simp [mlpHeap, Heap.ofLists]⟩
  · exact ⟨by simp [mlpHeap, Heap.ofLists], fun i => by fin_cases i <;> simp [mlpHeap, Heap.ofLists]⟩
  · exact ⟨by simp [mlpHeap, Heap.ofLists], fun i j => by fin_cases i <;> fin_cases j <;> simp [mlpHeap, Heap.ofLists]⟩
  · exact ⟨by simp [mlpHeap, Heap.ofLists], fun i j => by fin_cases i <;> fin_cases j <;> simp [mlpHeap, Heap.ofLists]⟩

/-- The case of `C102_gradient_descent_fails`: one sample, everything zero. -/
noncomputable def mlpHeap0 : Heap ℝ := Heap.ofLists 0 [[0], [0], [0], [0]] [(1, 1, [1]), (1, 1, [0]), (1, 1, [0]), (1, 1, [0])]

noncomputable def exMlp0 : Mlp :=
  ⟨true, some (.m 0), some (.v 0), some (.v 1), some (.m 1), some (.v 2), some (.v 3), 0, some (.m 2), some (.m 3), 1, .none, 0, 0, 1, 1⟩

example : MlpReady exMlp0 mlpHeap0 !![1] ![0] (0 : NetParams 1 1) ∧ exMlp0.reg = .none := by
  have lv : ∀ i < 4, mlpHeap0.live (.m i) := by intro i hi; simp [mlpHeap0, Heap.ofLists, Heap.live, Loc.id]; omega
  have lw : ∀ i < 4, mlpHeap0.live (.v i) := by intro i hi; simp [mlpHeap0, Heap.ofLists, Heap.live, Loc.id]; omega
  refine ⟨⟨Heap.ofLists_wf _ _ _ (by simp), rfl, rfl, ⟨0, rfl, lv 0 (by omega), ?_⟩, ⟨0, rfl, lw 0 (by omega), ?_⟩, ⟨1, rfl, lv 1 (by omega), ?_⟩,
    ⟨3, rfl, lw 3 (by omega), ?_⟩, ⟨2, rfl, lw 2 (by omega), ?_⟩, rfl, ⟨1, ![0], 1, rfl, lw 1 (by omega), ?_⟩,
    ⟨1, 1, 0, 2, rfl, lv 2 (by omega), ?_⟩, ⟨1, 1, 0, 3, rfl, lv 3 (by omega), ?_⟩, by simp [exMlp0], by simp [exMlp0]⟩, rfl⟩
  · exact ⟨by simp [mlpHeap0, Heap.ofLists], fun i j => by fin_cases i; fin_cases j; simp [mlpHeap0, Heap.ofLists]⟩
  · exact ⟨by simp [mlpHeap0, Heap.ofLists], fun i => by fin_cases i; simp [mlpHeap0, Heap.ofLists]⟩
  · exact ⟨by simp [mlpHeap0, Heap.ofLists], fun i j => by fin_cases i; fin_cases j; simp [mlpHeap0, Heap.ofLists]⟩
  · exact ⟨by simp [mlpHeap0, Heap.ofLists], fun i => by fin_cases i; simp [mlpHeap0, Heap.ofLists]⟩
  · exact ⟨by simp [mlpHeap0, Heap.ofLists], fun i => by fin_cases i; simp [mlpHeap0, Heap.ofLists]⟩
  · exact ⟨by simp [mlpHeap0, Heap.ofLists], fun i => by fin_cases i; simp [mlpHeap0, Heap.ofLists]⟩
  · exact ⟨by simp [mlpHeap0, Heap.ofLists], fun i j => by fin_cases i; fin_cases j; simp [mlpHeap0, Heap.ofLists]⟩
  · exact ⟨by simp [mlpHeap0, Heap.ofLists], fun i j => by fin_cases i; fin_cases j; simp [mlpHeap0, Heap.ofLists]⟩

end Verif
