import Verif.Lemmas.SoftmaxNetMath
import Verif.Props.GlmStochastic
import Verif.Props.Performance

/-!
# C119, C120: the network with a hidden layer and softmax outputs, `MLPPSoftmaxNet`

Predictions (C119), and training, which is meant to be gradient descent on the cross entropy (C120).
-/

namespace Verif
open Spec Finset Glm Utilities
variable {n k m c : Nat} {h : Heap ℝ} {s : SoftmaxNet} {X : Matrix (Fin n) (Fin k) ℝ} {Y : Matrix (Fin n) (Fin c) ℝ} {θ : DeepParams k m c}

/-- C119 (predictions, as far as it holds): `model_test` answers with the softmax of the outputs of the network, `model_set_test` with that of every
row, when the outputs are in the range of `int`. -/
theorem C119_predict_partial (R : SoftmaxNetReady s h X Y θ) :
    (∀ (x : Ref) (v : Fin k → ℝ), HasV h x v → (∀ b, -2147483649 < ∑ a, logistic (∑ j, v j * θ.1.1 j a + θ.1.2 a) * θ.2.1 a b + θ.2.2 b ∧
        ∑ a, logistic (∑ j, v j * θ.1.1 j a + θ.1.2 a) * θ.2.1 a b + θ.2.2 b < 2147483648) →
      ReturnsVec (SoftmaxNet.model_test s x) h (softmax fun b => ∑ a, logistic (∑ j, v j * θ.1.1 j a + θ.1.2 a) * θ.2.1 a b + θ.2.2 b)) ∧
    ∀ (x : Ref) (p : Nat) (A : Matrix (Fin p) (Fin k) ℝ), HasM h x A →
      (∀ i b, -2147483649 < ∑ a, logistic (∑ j, A i j * θ.1.1 j a + θ.1.2 a) * θ.2.1 a b + θ.2.2 b ∧
        ∑ a, logistic (∑ j, A i j * θ.1.1 j a + θ.1.2 a) * θ.2.1 a b + θ.2.2 b < 2147483648) →
      ReturnsMat (SoftmaxNet.model_set_test s x) h fun i => softmax fun b => ∑ a, logistic (∑ j, A i j * θ.1.1 j a + θ.1.2 a) * θ.2.1 a b + θ.2.2 b := by
  refine ⟨fun x v hx F => ?_, fun x p A hx F => ?_⟩
  · exact Runs.congr (SoftmaxNet.guarded_run R _ _) (SoftmaxNet.evaluatev_spec R.wf hx R.weights1 R.bias1 R.weights2 R.bias2 fun _ b => F b)
  · exact Runs.congr (SoftmaxNet.guarded_run R _ _) (SoftmaxNet.evaluatem_spec R.wf hx R.weights1 R.bias1 R.weights2 R.bias2 F)

/-- C119 (predictions: false): an output beyond the range of `int` makes the behaviour undefined, although the softmax is defined. -/
theorem C119_predict_fails (R : SoftmaxNetReady s h X Y θ) {x : Ref} {v : Fin k → ℝ} (hx : HasV h x v) {b : Fin c}
    (hb : 2147483648 ≤ ∑ a, logistic (∑ j, v j * θ.1.1 j a + θ.1.2 a) * θ.2.1 a b + θ.2.2 b) : SoftmaxNet.model_test s x h = .ub := by
  unfold SoftmaxNet.model_test
  rw [SoftmaxNet.guarded_run R]
  unfold SoftmaxNet.evaluatev
  refine ub_bind (TwoLayer.hiddenv_run R.wf hx R.weights1 R.bias1) fun r h3 ⟨w3, k3, _, _, _, a3⟩ => ?_
  have R3 := R.keep w3 k3
  refine ub_stepV (TwoLayer.outv_spec w3 a3 R3.weights2 R3.bias2) fun o h4 w4 k4 f4 a4 => ?_
  obtain ⟨o, rfl, lo, io⟩ := a4
  refine Activation.adj_softmax_normv_ub w4 io ⟨b, fun q => ?_⟩
  exact absurd (lt_of_lt_of_le q.2 hb) (lt_irrefl _)

/-- C119 (score): for integer outputs `score` is the fraction of the samples all of whose shown outputs round to the right ones. -/
theorem C119_score (R : SoftmaxNetReady s h X Y θ) {P : Matrix (Fin n) (Fin c) ℝ} (hp : HasM h s.y_hat P) (hn : 0 < n) (hc : 0 < c)
    {L : Matrix (Fin n) (Fin c) Int} (hL : Y = L.map fun k => (k : ℝ)) (hl : ∀ i j, |(L i j : ℝ)| < 99999) :
    SoftmaxNet.score s h = .ok (fraction fun i : Fin n => ∀ j, Nearest (P i j) (L i j), h) := by
  unfold SoftmaxNet.score
  rw [SoftmaxNet.guarded_run R]
  obtain ⟨a, ea, la, ia⟩ := hp
  obtain ⟨b, eb, lb, ib⟩ := R.output
  rw [ea, eb]
  rw [hL] at ib
  exact Utilities.C62_mat h R.wf a b P L hn hc ia ib hl

/-- C119 (no data): without data the object answers null and 0 and training leaves it as it is. -/
theorem C119_missing_data (h : Heap ℝ) (s : SoftmaxNet) (hn : s.input_set = none ∨ s.output_set = none) (r : Ref) (pick : Nat → Nat) (lr : ℝ)
    (e b : Int) :
    SoftmaxNet.model_test s r h = .ok (none, h) ∧ SoftmaxNet.model_set_test s r h = .ok (none, h) ∧ SoftmaxNet.score s h = .ok (0, h) ∧
    SoftmaxNet.train_gradient_descent s lr e h = .ok (s, h) ∧ SoftmaxNet.train_sgd s pick lr e h = .ok (s, h) ∧
    SoftmaxNet.train_mbgd s lr e b h = .ok (s, h) :=
  ⟨SoftmaxNet.guarded_null hn _ _, SoftmaxNet.guarded_null hn _ _, SoftmaxNet.guarded_null hn _ _, SoftmaxNet.guarded_null hn _ _,
    SoftmaxNet.guarded_null hn _ _, SoftmaxNet.guarded_null hn _ _⟩

/-- C119 (constructor): an object made from data is set up, its weights are the numbers drawn, in `[0, 1)`; nothing that existed changes. Nothing is
said about the biases: they are never written (see C64). `get_embeddings` is the matrix of the weights of the hidden layer. -/
theorem C119_create_partial (gw1 gw2 gb1 gb2 : Utilities.Source) (w : h.WF) {a b : Ref} (ha : HasM h a X) (hb : HasM h b Y) (m : Nat)
    (r : Reg.Kind) (l al : ℝ) :
    Runs (SoftmaxNet.create gw1 gw2 gb1 gb2 a b m r l al) h fun s h' => ∃ θ : DeepParams k m c, SoftmaxNetReady s h' X Y θ ∧
      Keeps h h' (fun _ => False) ∧ s.input_set = a ∧ s.output_set = b ∧ s.reg = r ∧ s.lambda = l ∧ s.alpha = al ∧
      (∀ i j, θ.1.1 i j = gw1.u (i.val * m + j.val)) ∧ (∀ i j, θ.2.1 i j = gw2.u (i.val * c + j.val)) ∧
      HasM h' (SoftmaxNet.get_embeddings s) θ.1.1 := by
  unfold SoftmaxNet.create
  refine stepM0 w fun oy h1 vy w1 k1 f1 by1 => ?_
  have K1 := k1
  nw f1 k1
  refine stepM0 w1 fun o1 h2 A1 w2 k2 f2 bW1 => ?_
  have g2 := f2.mono K1
  have K2 := K1.trans k2
  nw f2 k2
  refine stepM0 w2 fun o2 h3 v2 w3 k3 f3 bW2 => ?_
  have g3 := f3.mono K2
  have K3 := K2.trans k3
  nw f3 k3
  refine stepV0 w3 fun ob1 h4 v4 w4 k4 f4 bb1 => ?_
  have g4 := f4.mono K3
  have K4 := K3.trans k4
  nw f4 k4
  refine stepV0 w4 fun ob2 h5 v5 w5 k5 f5 bb2 => ?_
  have g5 := f5.mono K4
  have K5 := K4.trans k5
  nw f5 k5
  refine stepM0 w5 fun oz h6 Az w6 k6 f6 bz => ?_
  have K6 := K5.trans k6
  nw f6 k6
  refine stepM0 w6 fun oa h7 Aa w7 k7 f7 ba => ?_
  have K7 := K6.trans k7
  nw f7 k7
  clear bz ba
  unfold SoftmaxNet.initialize_
  obtain ⟨ia, eia, -, -⟩ := id ha
  obtain ⟨ib, eib, -, -⟩ := id hb
  rw [eia, eib]
  dsimp only
  rw [← eia, ← eib]
  refine Runs.step (Hd.sizem_run ha) (Runs.step (Hd.sizem_run hb) ?_)
  dsimp only
  refine Runs.bind ((Hd.resizem_run w7 by1 n 0).mono fun _ h8 ⟨w8, k8, vy', by2⟩ => ?_)
  have K8 := K7.wr_new k8 f1
  wr k8
  refine Runs.bind ((Hd.resizem_run w8 bW1 k m).mono fun _ h9 ⟨w9, k9, W1, bW1'⟩ => ?_)
  have K9 := K8.wr_new k9 g2
  wr k9
  obtain ⟨o, eo, lo, io⟩ := id bW1'
  cases eo
  refine Runs.bind (((Utilities.weightM_run gw1 h9 w9 o1 W1 io .default (fun i => gw1.u i)
    fun i h => Utilities.uniform01_run gw1 i h).hasM lo).mono fun _ h10 ⟨w10, k10, bW3⟩ => ?_)
  have K10 := K9.wr_new k10 g2
  wr k10
  refine Runs.bind ((Hd.resizem_run w10 bW2 m c).mono fun _ h11 ⟨w11, k11, W2, bW2'⟩ => ?_)
  have K11 := K10.wr_new k11 g3
  wr k11
  obtain ⟨o, eo, lo, io⟩ := id bW2'
  cases eo
  refine Runs.bind (((Utilities.weightM_run gw2 h11 w11 o2 W2 io .default (fun i => gw2.u i)
    fun i h => Utilities.uniform01_run gw2 i h).hasM lo).mono fun _ h12 ⟨w12, k12, bW4⟩ => ?_)
  have K12 := K11.wr_new k12 g3
  wr k12
  refine Runs.bind ((Hd.resizev_run w12 bb1 m).mono fun _ h13 ⟨w13, k13, B1, bb1'⟩ => ?_)
  have K13 := K12.wr_new k13 g4
  wr k13
  refine Runs.step (Utilities.C64_bias_vector_fails gb1 h13 ob1) ?_
  refine Runs.bind ((Hd.resizev_run w13 bb2 c).mono fun _ h14 ⟨w14, k14, B2, bb2'⟩ => ?_)
  have K14 := K13.wr_new k14 g5
  wr k14
  refine Runs.step (Utilities.C64_bias_vector_fails gb2 h14 ob2) ?_
  refine Runs.of_eq rfl ⟨((_, B1), (_, B2)), ⟨w14, rfl, ha, hb, bW3, bb1', bW4, bb2', ⟨_, _, by2⟩, ?_, ?_, ?_⟩,
    K14, rfl, rfl, rfl, rfl, rfl, fun _ _ => rfl, fun _ _ => rfl, bW3⟩
  · intro q hq
    simp only [List.mem_cons, List.not_mem_nil, or_false] at hq
    rcases hq with rfl | rfl | rfl
    all_goals constructor
    all_goals first | assumption | exact Ne.symm (by assumption)
  · first | assumption | exact Ne.symm (by assumption)
  · first | assumption | exact Ne.symm (by assumption)

/-- C120 (gradient descent, as far as it holds): when every row of the output set sums to one, every epoch makes an exact step of gradient descent on
the cross entropy in the output layer; the step of the hidden layer follows the errors through the *new* output layer (see `DeepUpdate`). The outputs
have to stay in the range of `int`. -/
theorem C120_gradient_descent_partial (R : SoftmaxNetReady s h X Y θ) (hY : ∀ i, ∑ b, Y i b = 1) (lr : ℝ) (e : Int)
    (F : ∀ t ≤ epochCount e, ∀ θ', Chain (fun _ => DeepUpdate X Y lr (decay s.reg s.lambda s.alpha)) t θ θ' → Fits X θ') :
    Runs (SoftmaxNet.train_gradient_descent s lr e) h fun s' h' => ∃ θ', SoftmaxNetTrained s h s' h' X Y θ' ∧
      Chain (fun _ => DeepUpdate X Y lr (decay s.reg s.lambda s.alpha)) (epochCount e) θ θ' :=
  (SoftmaxNet.gd_run R lr e fun t ht => F t ht _ (chain_walk (fun _ θ => TwoLayer.deepStep_update X hY _ lr θ) _ _)).mono
    fun s' h' T => ⟨_, T, chain_walk (fun _ θ => TwoLayer.deepStep_update X hY _ lr θ) _ _⟩

/-- C120 (stochastic training, as far as it holds): every epoch is such a step on the drawn sample. -/
theorem C120_sgd_partial (R : SoftmaxNetReady s h X Y θ) (hY : ∀ i, ∑ b, Y i b = 1) {pick : Nat → Nat} (hpick : ∀ e, pick e < n) (lr : ℝ) (e : Int)
    (F : ∀ t ≤ epochCount e, ∀ θ', Chain (fun t => DeepUpdate (fun _ : Fin 1 => X ⟨pick (t + 1), hpick _⟩) (fun _ : Fin 1 => Y ⟨pick (t + 1), hpick _⟩)
      lr (decay s.reg s.lambda s.alpha)) t θ θ' → Fits X θ') :
    Runs (SoftmaxNet.train_sgd s pick lr e) h fun s' h' => ∃ θ', SoftmaxNetTrained s h s' h' X Y θ' ∧
      Chain (fun t => DeepUpdate (fun _ : Fin 1 => X ⟨pick (t + 1), hpick _⟩) (fun _ : Fin 1 => Y ⟨pick (t + 1), hpick _⟩) lr
        (decay s.reg s.lambda s.alpha)) (epochCount e) θ θ' := by
  have key : ∀ t (θ : DeepParams k m c), DeepUpdate (fun _ : Fin 1 => X ⟨pick (t + 1), hpick _⟩) (fun _ : Fin 1 => Y ⟨pick (t + 1), hpick _⟩) lr
      (decay s.reg s.lambda s.alpha) θ (SoftmaxNet.deepStep (sampleX X ⟨pick (t + 1), hpick _⟩) (fun _ : Fin 1 => Y ⟨pick (t + 1), hpick _⟩)
        (decay s.reg s.lambda s.alpha) lr θ) := fun t θ => TwoLayer.deepStep_update _ (fun _ => hY _) _ lr θ
  exact (SoftmaxNet.sgd_run R hpick lr e fun t ht => F t ht _ (chain_walk key _ _)).mono fun s' h' T => ⟨_, T, chain_walk key _ _⟩

/-- C120 (mini-batches, as far as it holds): with `K` mini-batches, every step of `train_mbgd` is such a step, on the rows `K i`, `K i + 1`, …,
`K i + n / K - 1` (see C61), except that the biases of the outputs stay as they are. -/
theorem C120_mbgd_partial (R : SoftmaxNetReady s h X Y θ) (hY : ∀ i, ∑ b, Y i b = 1) (lr : ℝ) (e : Int) {b K : Nat} (hb : 0 < b) (eK : n / b = K)
    (hK : 0 < K) (hr : ∀ (i : Fin K) (j : Fin (n / K)), K * i.val + j.val < n)
    (F : ∀ t ≤ epochCount e * K, ∀ θ', Chain (fun t => DeepUpdateW (fun j : Fin (n / K) => X ⟨K * (t % K) + j.val, hr ⟨t % K, Nat.mod_lt _ hK⟩ j⟩)
      (fun j => Y ⟨K * (t % K) + j.val, hr ⟨t % K, Nat.mod_lt _ hK⟩ j⟩) lr (decay s.reg s.lambda s.alpha)) t θ θ' → Fits X θ') :
    Runs (SoftmaxNet.train_mbgd s lr e b) h fun s' h' => ∃ θ', SoftmaxNetTrained s h s' h' X Y θ' ∧
      Rounds hK (fun _ i => DeepUpdateW (fun j : Fin (n / K) => X ⟨K * i.val + j.val, hr i j⟩) (fun j => Y ⟨K * i.val + j.val, hr i j⟩)
        lr (decay s.reg s.lambda s.alpha)) (epochCount e) θ θ' := by
  have key : ∀ (_ : Nat) (i : Fin K) (θ : DeepParams k m c), DeepUpdateW (fun j : Fin (n / K) => X ⟨K * i.val + j.val, hr i j⟩)
      (fun j => Y ⟨K * i.val + j.val, hr i j⟩) lr (decay s.reg s.lambda s.alpha) θ
      (SoftmaxNet.deepStepW (SoftmaxReg.codeBatch X K hr i) (SoftmaxReg.codeBatch Y K hr i) (decay s.reg s.lambda s.alpha) lr θ) :=
    fun _ i θ => TwoLayer.deepStepW_update _ (fun _ => hY _) _ lr θ
  refine (SoftmaxNet.mbgd_run R lr e hb eK hK hr fun t ht => F t ht _ (chain_walk (fun _ _ => key 0 _ _) _ _)).mono
    fun s' h' T => ⟨_, T, rounds_walk hK (fun ep i θ => key ep i θ) _ _⟩

theorem deepLoss_flat (X : Matrix (Fin n) (Fin k) ℝ) (Y : Matrix (Fin n) (Fin c) ℝ) (η η' : MParams k m) (b : Fin c → ℝ) :
    deepLoss X Y (η, (0, b)) = deepLoss X Y (η', (0, b)) := by
  have : ∀ η : MParams k m, deepOut X (η, (0, b)) = fun _ => b := by
    intro η
    funext i a
    unfold deepOut affine
    simp
  unfold deepLoss deepSoftmax
  rw [this, this]

theorem deepStep_zero {X : Matrix (Fin 1) (Fin 1) ℝ} {Y : Matrix (Fin 1) (Fin 2) ℝ} (hX : X 0 0 = 1) (hy0 : Y 0 0 = 1) (hy1 : Y 0 1 = 0) (lr : ℝ) :
    (SoftmaxNet.deepStep X Y (fun x => x) lr (0 : DeepParams 1 1 2)).1.1 0 0 = lr ^ 2 / 16 ∧
    (SoftmaxNet.deepStep X Y (fun x => x) lr (0 : DeepParams 1 1 2)).2 = (fun _ b => if b = 0 then lr / 4 else -(lr / 4), fun b => if b = 0 then lr / 2 else -(lr / 2)) := by
  have l0 : logistic 0 = 1 / 2 := by unfold logistic; norm_num
  have ea : affine X (0 : MParams 1 1) 0 0 = 0 := by simp [affine]
  have eh : hiddens X (0 : MParams 1 1) 0 0 = 1 / 2 := by unfold hiddens; rw [ea, l0]
  have eo : ∀ b, deepSoftmax X (0 : DeepParams 1 1 2) 0 b = 1 / 2 := by
    intro b
    unfold deepSoftmax
    rw [show deepOut X (0 : DeepParams 1 1 2) 0 = 0 by funext b; simp [deepOut, affine]]
    simp [softmax]
  have es : Activation.sigmoid_derivr 0 = 1 / 4 := by
    show logistic 0 * (1 - logistic 0) = _
    rw [l0]; norm_num
  have e2 : (SoftmaxNet.deepStep X Y (fun x => x) lr (0 : DeepParams 1 1 2)).2 =
      (fun _ b => if b = 0 then lr / 4 else -(lr / 4), fun b => if b = 0 then lr / 2 else -(lr / 2)) := by
    show (_, _) = _
    refine Prod.ext (funext fun j => funext fun b => ?_) (funext fun b => ?_)
    · show (0 : ℝ) - (∑ i : Fin 1, hiddens X 0 i j * (deepSoftmax X 0 i b - Y i b)) * lr = _
      rw [Fin.sum_univ_one, eo, Subsingleton.elim j 0, eh]
      fin_cases b
      · simp only [Fin.zero_eta, Fin.isValue, hy0, if_true]; ring
      · simp only [Fin.mk_one, Fin.isValue, hy1, one_ne_zero, if_false]; ring
    · show (0 : ℝ) - ∑ i : Fin 1, (deepSoftmax X 0 i b - Y i b) * lr = _
      rw [Fin.sum_univ_one, eo]
      fin_cases b
      · simp only [Fin.zero_eta, Fin.isValue, hy0, if_true]; ring
      · simp only [Fin.mk_one, Fin.isValue, hy1, one_ne_zero, if_false]; ring
  refine ⟨?_, e2⟩
  show (0 : ℝ) - (∑ i : Fin 1, X i 0 * ((∑ b, (deepSoftmax X 0 i b - Y i b) * (SoftmaxNet.deepStep X Y (fun x => x) lr (0 : DeepParams 1 1 2)).2.1 0 b) *
    Activation.sigmoid_derivr (affine X 0 i 0))) * lr = _
  rw [e2, Fin.sum_univ_one, Fin.sum_univ_two, eo, eo, hX, ea, es, hy0, hy1]
  simp only [Fin.isValue, if_true, one_ne_zero, if_false]
  ring

/-- C120 (gradient descent: false): one epoch on one sample, starting at zero: the loss does not depend on the hidden layer there, yet the hidden
layer moves: this is no step of gradient descent. -/
theorem C120_gradient_descent_fails {X : Matrix (Fin 1) (Fin 1) ℝ} {Y : Matrix (Fin 1) (Fin 2) ℝ} (hX : X 0 0 = 1) (hy0 : Y 0 0 = 1) (hy1 : Y 0 1 = 0)
    (R : SoftmaxNetReady s h X Y (0 : DeepParams 1 1 2)) (hr : s.reg = .none) {lr : ℝ} (hl : lr ≠ 0) (hl1 : |lr| ≤ 1) :
    Runs (SoftmaxNet.train_gradient_descent s lr 1) h fun s' h' => ∃ θ' : DeepParams 1 1 2, SoftmaxNetTrained s h s' h' X Y θ' ∧
      θ'.1.1 0 0 = lr ^ 2 / 16 ∧ ¬ DeepStep X Y lr (decay s.reg s.lambda s.alpha) 0 θ' := by
  have eD : decay s.reg s.lambda s.alpha = fun x => x := by rw [hr]; rfl
  obtain ⟨key, e2⟩ := deepStep_zero hX hy0 hy1 lr
  have F : ∀ t ≤ epochCount 1, Fits X (walk (fun _ => SoftmaxNet.deepStep X Y (decay s.reg s.lambda s.alpha) lr) (0 : DeepParams 1 1 2) t) := by
    intro t ht
    rw [eD]
    have : t = 0 ∨ t = 1 := by have : epochCount 1 = 1 := rfl; omega
    rcases this with rfl | rfl
    · intro i b
      show -2147483649 < deepOut X (0 : DeepParams 1 1 2) i b ∧ deepOut X (0 : DeepParams 1 1 2) i b < 2147483648
      rw [show deepOut X (0 : DeepParams 1 1 2) i b = 0 by simp [deepOut, affine]]
      norm_num
    · intro i b
      show -2147483649 < deepOut X (SoftmaxNet.deepStep X Y (fun x => x) lr (0 : DeepParams 1 1 2)) i b ∧
        deepOut X (SoftmaxNet.deepStep X Y (fun x => x) lr (0 : DeepParams 1 1 2)) i b < 2147483648
      unfold deepOut affine
      rw [e2, Fin.sum_univ_one]
      obtain ⟨q1, q2⟩ := abs_le.1 hl1
      have l1 : 0 < hiddens X (SoftmaxNet.deepStep X Y (fun x => x) lr (0 : DeepParams 1 1 2)).1 i 0 := by
        unfold hiddens logistic; positivity
      have l2 : hiddens X (SoftmaxNet.deepStep X Y (fun x => x) lr (0 : DeepParams 1 1 2)).1 i 0 < 1 := by
        unfold hiddens logistic
        rw [div_lt_one (by positivity)]
        linarith [Real.exp_pos (-affine X (SoftmaxNet.deepStep X Y (fun x => x) lr (0 : DeepParams 1 1 2)).1 i 0)]
      generalize hiddens X (SoftmaxNet.deepStep X Y (fun x => x) lr (0 : DeepParams 1 1 2)).1 i 0 = z at l1 l2 ⊢
      have z1 : |z| ≤ 1 := abs_le.2 ⟨by linarith, l2.le⟩
      have z2 : |z * lr| ≤ 1 := by rw [abs_mul]; exact mul_le_one₀ z1 (abs_nonneg _) hl1
      obtain ⟨q3, q4⟩ := abs_le.1 z2
      have : ∀ u : ℝ, -10 ≤ u → u ≤ 10 → -2147483649 < u ∧ u < 2147483648 := fun u a b => ⟨by linarith, by linarith⟩
      apply this
      all_goals
        dsimp only
        split
        all_goals linarith
  refine (SoftmaxNet.gd_run R lr 1 F).mono fun s' h' T => ⟨_, T, ?_⟩
  have ew : walk (fun _ => SoftmaxNet.deepStep X Y (decay s.reg s.lambda s.alpha) lr) (0 : DeepParams 1 1 2) (epochCount 1) =
      SoftmaxNet.deepStep X Y (fun x => x) lr 0 := by rw [eD]; rfl
  rw [ew, eD]
  refine ⟨key, fun N => ?_⟩
  obtain ⟨G, g, hG, -, e⟩ := N.first
  have h1 := hG (0, 0)
  have h2 : HasDerivAt (fun t => deepLoss X Y ((fun i j => Function.update (cells (0 : DeepParams 1 1 2).1.1) (0, 0) t (i, j), (0 : DeepParams 1 1 2).1.2),
      (0 : DeepParams 1 1 2).2)) 0 (cells (0 : DeepParams 1 1 2).1.1 (0, 0)) := by
    have : (fun t => deepLoss X Y ((fun i j => Function.update (cells (0 : DeepParams 1 1 2).1.1) (0, 0) t (i, j), (0 : DeepParams 1 1 2).1.2),
      (0 : DeepParams 1 1 2).2)) = fun _ => deepLoss X Y (0 : DeepParams 1 1 2) := by
      funext t
      exact deepLoss_flat X Y _ 0 0
    rw [this]
    exact hasDerivAt_const _ _
  have z : cells G (0, 0) = 0 := h1.unique h2
  have : (SoftmaxNet.deepStep X Y (fun x => x) lr (0 : DeepParams 1 1 2)).1.1 0 0 = 0 - lr * G 0 0 := congrFun (congrFun (congrArg Prod.fst e) 0) 0
  rw [key, show G 0 0 = 0 from z] at this
  have : lr ^ 2 = 0 := by linarith
  exact hl (pow_eq_zero_iff two_ne_zero |>.1 this)

/-- C120 (mini-batches: false): the biases of the outputs never change, so that with one sample, predicted wrongly, the epoch is no step of gradient
descent in the output layer. -/
theorem C120_mbgd_fails {X : Matrix (Fin 1) (Fin k) ℝ} {Y : Matrix (Fin 1) (Fin c) ℝ} (R : SoftmaxNetReady s h X Y θ) (hY : ∑ b, Y 0 b = 1)
    {lr : ℝ} (hl : lr ≠ 0) {b : Fin c} (wrong : deepSoftmax X θ 0 b ≠ Y 0 b)
    (F : Fits X θ) (F' : ∀ θ', DeepUpdateW X Y lr (decay s.reg s.lambda s.alpha) θ θ' → Fits X θ') :
    Runs (SoftmaxNet.train_mbgd s lr 1 1) h fun s' h' => ∃ θ' : DeepParams k m c, SoftmaxNetTrained s h s' h' X Y θ' ∧ θ'.2.2 = θ.2.2 ∧
      ¬ MGradStep (fun η => deepLoss X Y (θ.1, η)) lr (decay s.reg s.lambda s.alpha) θ.2 θ'.2 := by
  have hr : ∀ (i : Fin 1) (j : Fin (1 / 1)), 1 * i.val + j.val < 1 := by intro i j; have := i.2; have := j.2; omega
  have hY' : ∀ i, ∑ b, Y i b = 1 := fun i => by rw [Subsingleton.elim i 0]; exact hY
  have ex : ∀ {p : Nat} (A : Matrix (Fin 1) (Fin p) ℝ) (i : Fin 1), SoftmaxReg.codeBatch A 1 hr i = A := by
    intro p A i
    funext j
    exact congrArg A (Subsingleton.elim (α := Fin 1) _ _)
  have ew : ∀ t, t ≤ 1 → walk (roundStep (K := 1) Nat.one_pos fun _ i => SoftmaxNet.deepStepW (SoftmaxReg.codeBatch X 1 hr i) (SoftmaxReg.codeBatch Y 1 hr i)
      (decay s.reg s.lambda s.alpha) lr) θ t = if t = 0 then θ else SoftmaxNet.deepStepW X Y (decay s.reg s.lambda s.alpha) lr θ := by
    intro t ht
    have : t = 0 ∨ t = 1 := by omega
    rcases this with rfl | rfl
    · rfl
    · rw [if_neg one_ne_zero]
      show SoftmaxNet.deepStepW (SoftmaxReg.codeBatch X 1 hr 0) (SoftmaxReg.codeBatch Y 1 hr 0) (decay s.reg s.lambda s.alpha) lr θ = _
      rw [ex, ex]
  have U := TwoLayer.deepStepW_update X hY' (decay s.reg s.lambda s.alpha) lr θ
  refine (SoftmaxNet.mbgd_run R lr 1 (b := 1) (K := 1) Nat.one_pos rfl Nat.one_pos hr fun t ht => ?_).mono fun s' h' T => ⟨_, T, ?_⟩
  · rw [ew t ht]
    split
    · exact F
    · exact F' _ U
  · rw [show epochCount 1 * 1 = 1 from rfl, ew 1 le_rfl, if_neg one_ne_zero]
    refine ⟨rfl, fun ⟨G, g, _, hg, e⟩ => wrong ?_⟩
    have h1 := (softmaxLoss_gradient (hiddens X θ.1) hY' θ.2).2
    have h2 : g b = ∑ i, (softmaxes (hiddens X θ.1) θ.2 i b - Y i b) := (hg b).unique (h1 b)
    have h3 : θ.2.2 b = θ.2.2 b - lr * g b := congrFun (congrArg Prod.snd e) b
    have h4 : g b = 0 := by
      have : lr * g b = 0 := by linarith
      exact (mul_eq_zero.1 this).resolve_left hl
    rw [h4, Fin.sum_univ_one] at h2
    exact (sub_eq_zero.1 h2.symm)

/-! ## The hypotheses are met -/

/-- One sample of one column, two classes, one hidden unit; everything zero. -/
noncomputable def snHeap : Heap ℝ :=
  Heap.ofLists 0 [[0], [0, 0], [5]] [(1, 1, [1]), (2, 1, [1, 0]), (2, 1, [0, 0]), (1, 1, [0]), (2, 1, [0, 0])]

noncomputable def exSn : SoftmaxNet :=
  ⟨some (.m 0), some (.m 1), some (.m 2), some (.m 3), some (.m 4), some (.v 0), some (.v 1), none, none, 1, .none, 0, 0⟩

theorem exSnReady : SoftmaxNetReady exSn snHeap !![1] !![1, 0] (0 : DeepParams 1 1 2) ∧ HasV snHeap (some (.v 2)) (![5] : Fin 1 → ℝ) ∧
    HasM snHeap exSn.y_hat (0 : Matrix (Fin 1) (Fin 2) ℝ) := by
  have lv : ∀ i < 5, snHeap.live (.m i) := by intro i hi; simp [snHeap, Heap.ofLists, Heap.live, Loc.id]; omega
  have lw : ∀ i < 3, snHeap.live (.v i) := by intro i hi; simp [snHeap, Heap.ofLists, Heap.live, Loc.id]; omega
  have hy : HasM snHeap exSn.y_hat (0 : Matrix (Fin 1) (Fin 2) ℝ) := ⟨2, rfl, lv 2 (by omega), by simp [snHeap, Heap.ofLists],
    fun i j => by fin_cases i; fin_cases j <;> simp [snHeap, Heap.ofLists]⟩
  refine ⟨⟨Heap.ofLists_wf _ _ _ (by simp), rfl, ⟨0, rfl, lv 0 (by omega), ?_⟩, ⟨1, rfl, lv 1 (by omega), ?_⟩, ⟨3, rfl, lv 3 (by omega), ?_⟩,
    ⟨0, rfl, lw 0 (by omega), ?_⟩, ⟨4, rfl, lv 4 (by omega), ?_⟩, ⟨1, rfl, lw 1 (by omega), ?_⟩, ⟨_, _, hy⟩, by simp [exSn], by simp [exSn],
    by simp [exSn]⟩, ⟨2, rfl, lw 2 (by omega), ?_⟩, hy⟩
  · exact ⟨by simp [snHeap, Heap.ofLists], fun i j => by fin_cases i; fin_cases j; simp [snHeap, Heap.ofLists]⟩
  · exact ⟨by simp [snHeap, Heap.ofLists], fun i j => by fin_cases i; fin_cases j <;> simp [snHeap, Heap.ofLists]⟩
  · exact ⟨by simp [snHeap, Heap.ofLists], fun i j => by fin_cases i; fin_cases j; simp [snHeap, Heap.ofLists]⟩
  · exact ⟨by simp [snHeap, Heap.ofLists], fun i => by fin_cases i; simp [snHeap, Heap.ofLists]⟩
  · exact ⟨by simp [snHeap, Heap.ofLists], fun i j => by fin_cases i; fin_cases j <;> simp [snHeap, Heap.ofLists]⟩
  · exact ⟨by simp [snHeap, Heap.ofLists], fun i => by fin_cases i <;> simp [snHeap, Heap.ofLists]⟩
  · exact ⟨by simp [snHeap, Heap.ofLists], fun i => by fin_cases i; simp [snHeap, Heap.ofLists]⟩

/-- The object of `exSnReady` meets the hypotheses of `C120_gradient_descent_fails`, and its outputs stay in range (see the proof of that theorem). -/
example : Runs (SoftmaxNet.train_gradient_descent exSn 1 1) snHeap fun s' h' => ∃ θ' : DeepParams 1 1 2,
    SoftmaxNetTrained exSn snHeap s' h' !![1] !![1, 0] θ' ∧ θ'.1.1 0 0 = 1 / 16 := by
  have R := exSnReady.1
  have hr : exSn.reg = .none := rfl
  generalize exSn = s at R hr ⊢
  generalize snHeap = h at R ⊢
  refine (C120_gradient_descent_fails (lr := 1) (by simp) (by simp) (by simp) R hr one_ne_zero (by simp)).mono fun s' h' q => ?_
  obtain ⟨θ', T, e, -⟩ := q
  exact ⟨θ', T, by rw [e, one_pow]⟩

end Verif
