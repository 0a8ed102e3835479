import Verif.Props.GlmDescent
import Verif.Lemmas.GlmBatch

/-!
# C90: stochastic and mini-batch gradient descent of the linear models

An epoch of stochastic gradient descent is a step along the gradient of the loss of the one sample drawn, followed by the regularisation. A
mini-batch step should be a step along the gradient of the loss of the batch; the inputs are those of the batch, but the outputs are always
the first ones of the output set.
-/

namespace Verif
open Spec Finset Glm
variable {n k m : Nat} {h h' : Heap ℝ} {s : Glm} {X : Matrix (Fin n) (Fin k) ℝ} {y : Fin n → ℝ} {θ : Params k}

/-- The training method makes one step of gradient descent per epoch, on the loss `L` of the sample that is drawn. -/
def DescendsSampled (train : M ℝ Glm) (f : ℝ → ℝ)
    (L : ∀ {n : Nat}, Matrix (Fin n) (Fin k) ℝ → (Fin n → ℝ) → Params k → ℝ) (drawn : Nat → Fin n) (learning_rate : ℝ) (N : Nat) (s : Glm)
    (h : Heap ℝ) (X : Matrix (Fin n) (Fin k) ℝ) (y : Fin n → ℝ) (θ : Params k) : Prop :=
  Runs train h fun s' h' => ∃ θ', Trained f s h s' h' X y θ' ∧
    Chain (fun t => GradStep (L (sampleX X (drawn t)) (sampleY y (drawn t))) learning_rate (decay s.reg s.lambda s.alpha)) N θ θ'

theorem sgdWith_eq (f : ℝ → ℝ) (factor : ℝ → ℝ → ℝ) (g : ℝ → ℝ) (hg : ∀ z, factor z (f z) = g z) (D : ℝ → ℝ)
    (X : Matrix (Fin n) (Fin k) ℝ) (y : Fin n → ℝ) (lr : ℝ) (i : Fin n) (θ : Params k) :
    sgdWith f factor (fun w u j => D (w j - u j)) X y lr i θ =
      stepWith (sampleX X i) D (lr / (1 : Nat)) (fun j => (f (linear (sampleX X i) θ j) - sampleY y i j) * g (linear (sampleX X i) θ j)) lr
        (1 : Nat) θ := by
  unfold sgdWith stepWith sgdCoef
  have e : linear (sampleX X i) θ 0 = linear X θ i := rfl
  simp only [Fin.sum_univ_one, e, hg, sampleX, sampleY, Nat.cast_one, div_one]
  refine Prod.ext (funext fun j => congrArg D ?_) ?_
  · ring
  · ring

theorem sq_sampled {f g : ℝ → ℝ} (hf : ∀ z, HasDerivAt f (g z) z) {factor : ℝ → ℝ → ℝ} (hg : ∀ z, factor z (f z) = g z) (D : ℝ → ℝ) (lr : ℝ)
    (i : Fin n) (θ : Params k) :
    GradStep (sqLoss f (sampleX X i) (sampleY y i)) lr D θ (sgdWith f factor (fun w u j => D (w j - u j)) X y lr i θ) := by
  rw [sgdWith_eq f factor g hg]
  exact sq_gradStep hf lr D θ

/-- C90 for `MLPPLinReg.sgd`; `pick e` is the sample drawn in epoch `e`. -/
theorem C90_lin_reg_sgd (R : Ready s h X y θ) (hi : s.initialized = true) {pick : Nat → Nat} (hp : ∀ e, pick e < n) (lr : ℝ) (e : Int) :
    DescendsSampled (LinReg.sgd s pick lr e) id (sqLoss id) (fun t => ⟨pick (t + 1), hp _⟩) lr (epochCount e) s h X y θ := by
  unfold DescendsSampled LinReg.sgd
  rw [if_pos hi, R.rows]
  refine (sgd_run linReg_computes R ((Nat.zero_le _).trans_lt (hp 0)) hp _ _ (subStep_steps _ _ _ _) lr e).mono fun s' h' T =>
    ⟨_, T, chain_walk (fun t θ => ?_) _ _⟩
  exact sq_sampled (f := id) (g := fun _ => 1) (fun z => hasDerivAt_id z) (fun _ => rfl) _ lr _ θ

/-- C90 for `MLPPLogReg.sgd`. -/
theorem C90_log_reg_sgd (R : Ready s h X y θ) (hi : s.initialized = true) {pick : Nat → Nat} (hp : ∀ e, pick e < n) (lr : ℝ) (e : Int) :
    DescendsSampled (LogReg.sgd s pick lr e) logistic (logisticLoss logistic) (fun t => ⟨pick (t + 1), hp _⟩) lr (epochCount e) s h X y θ := by
  unfold DescendsSampled LogReg.sgd
  rw [if_pos hi, R.rows]
  refine (sgd_run logReg_link R ((Nat.zero_le _).trans_lt (hp 0)) hp _ _ (subStep_steps _ _ _ _) lr e).mono fun s' h' T =>
    ⟨_, T, chain_walk (fun t θ => ?_) _ _⟩
  rw [sgdWith_eq logistic _ (fun _ => 1) (fun _ => rfl)]
  simp only [mul_one]
  exact log_gradStep lr _ θ

/-- C90 for `MLPPProbitReg.train_sgd`. -/
theorem C90_probit_reg_sgd (R : Ready s h X y θ) {p : Fin n → ℝ} (hy : HasV h s.y_hat p) {pick : Nat → Nat} (hp : ∀ e, pick e < n) (lr : ℝ)
    (e : Int) :
    DescendsSampled (ProbitReg.train_sgd s pick lr e) normalCdf (sqLoss normalCdf) (fun t => ⟨pick (t + 1), hp _⟩) lr (epochCount e) s h X y θ := by
  unfold DescendsSampled ProbitReg.train_sgd
  refine Runs.step (needs_init_run R hy) (Runs.step (Hd.sizem_run R.input) ?_)
  refine (sgd_run probitReg_link R ((Nat.zero_le _).trans_lt (hp 0)) hp _ _ (subStep_steps _ _ _ _) lr e).mono fun s' h' T =>
    ⟨_, T, chain_walk (fun t θ => ?_) _ _⟩
  refine sq_sampled normalCdf_hasDeriv (fun z => ?_) _ lr _ θ
  simp [Activation.gaussian_cdf_derivr]

/-- C90 for `MLPPCLogLogReg.sgd`: here the derivative of the link function is the right one. -/
theorem C90_cloglog_reg_sgd (R : Ready s h X y θ) {pick : Nat → Nat} (hp : ∀ e, pick e < n) (lr : ℝ) (e : Int) :
    DescendsSampled (CLogLogReg.sgd s pick lr e) cLogLog (sqLoss cLogLog) (fun t => ⟨pick (t + 1), hp _⟩) lr (epochCount e) s h X y θ := by
  unfold DescendsSampled CLogLogReg.sgd
  have hn : 0 < n := (Nat.zero_le _).trans_lt (hp 0)
  rw [R.rows, if_neg hn.ne']
  refine Runs.bind ((forward_pass_run cloglogReg_link R).mono fun s1 h1 ⟨⟨R1, S1⟩, k1, z, q, e1⟩ => ?_)
  rw [R1.rows]
  have sm : Same s s1 := by subst e1; exact ⟨rfl, rfl, rfl, rfl, rfl, rfl, rfl, rfl⟩
  have sw : s1.weights = s.weights := by subst e1; rfl
  refine (sgd_run cloglogReg_link R1 hn hp _ _ (subStep_steps _ _ _ _) lr e).mono fun s' h' T =>
    ⟨_, ⟨T.ready, T.shown, sm.trans T.same, (k1.mono fun _ _ => nofun).trans (by rw [← sw]; exact T.frame)⟩, chain_walk (fun t θ => ?_) _ _⟩
  rw [← sm.reg, ← sm.lambda, ← sm.alpha]
  exact sq_sampled cLogLog_deriv (fun z => rfl) _ lr _ θ

/-- C90 for `MLPPTanhReg.train_sgd` does not hold: without regularisation the weights are never changed, whatever the data, the samples drawn,
the learning rate and the number of epochs. -/
theorem C90_tanh_reg_sgd_fails (R : Ready s h X y θ) (hr : s.reg = .none) {p : Fin n → ℝ} (hy : HasV h s.y_hat p) {pick : Nat → Nat}
    (hp : ∀ e, pick e < n) (lr : ℝ) (e : Int) :
    Runs (TanhReg.train_sgd s pick lr e) h fun s' h' => ∃ b, Trained Real.tanh s h s' h' X y (θ.1, b) := by
  unfold TanhReg.train_sgd
  refine Runs.step (needs_init_run R hy) (Runs.step (Hd.sizem_run R.input) ?_)
  have st : Steps (fun s d => do let _ ← Hd.subn s.weights d; regularize s) s.reg s.lambda s.alpha k
      fun w _ j => decay s.reg s.lambda s.alpha (w j) := by
    constructor
    intro n X y θ s2 h R er el ea d u hd
    refine stepV (Hd.subn_spec R.wf R.weights hd) fun r h1 w1 k1 _ _ => ?_
    have R1 := R.keep w1 k1
    refine (regularize_run w1 R1.weights).mono fun s' h' ⟨r, e, w', k', f', a'⟩ => ⟨r, e, ?_, ?_⟩
    · subst e
      have R2 := R1.keep w' k'
      rw [er, el, ea] at a'
      exact ⟨w', R.rows, R.cols, R2.input, R2.output, a', R.bias, (f'.ne R1.output).symm⟩
    · subst e
      exact ⟨⟨rfl, rfl, rfl, rfl, rfl, rfl, rfl, rfl⟩, (k1.trans k').mono fun _ _ => nofun, .inr (f'.mono k1)⟩
  refine (sgd_run tanhReg_link R ((Nat.zero_le _).trans_lt (hp 0)) hp _ _ st lr e).mono fun s' h' T => ?_
  have key : ∀ N, (walk (fun i => sgdWith Real.tanh (fun _ y_hat => 1 - y_hat * y_hat) (fun w _ j => decay s.reg s.lambda s.alpha (w j)) X y lr
      ⟨pick (i + 1), hp _⟩) θ N).1 = θ.1 := by
    intro N
    induction N with
    | zero => rfl
    | succ N ih =>
      rw [hr, decay_none] at ih ⊢
      exact ih
  exact ⟨_, by rw [← key (epochCount e)]; exact T⟩

/-- C90 for `MLPPLinReg.mbgd`, as far as it holds: the steps are those of the losses of the batches, but with the first outputs in place of
the outputs of the batch. There are `n / b` batches of `n / (n / b)` samples. -/
theorem C90_lin_reg_mbgd_partial (R : Ready s h X y θ) (hi : s.initialized = true) (lr : ℝ) (e : Int) {b K : Nat} (hb : 0 < b)
    (eK : n / b = K) (hK : 0 < K) :
    Runs (LinReg.mbgd s lr e b) h fun s' h' => ∃ θ', Trained id s h s' h' X y θ' ∧
      Rounds hK (fun _ i => GradStep (sqLoss id (batchX X K i) (firstY y K)) lr (decay s.reg s.lambda s.alpha)) (epochCount e) θ θ' := by
  unfold LinReg.mbgd
  rw [if_pos hi]
  refine (mbgd_run linReg_computes R lr e hb eK hK).mono fun s' h' T => ⟨_, T, rounds_walk hK (fun _ i θ => ?_) _ _⟩
  have := sq_gradStep (X := batchX X K i) (y := firstY y K) (f := id) (g := fun _ => 1) (fun z => hasDerivAt_id z) lr
    (decay s.reg s.lambda s.alpha) θ
  simpa only [mul_one] using this

/-- C90 for `MLPPLogReg.mbgd`, as far as it holds. -/
theorem C90_log_reg_mbgd_partial (R : Ready s h X y θ) (hi : s.initialized = true) (lr : ℝ) (e : Int) {b K : Nat} (hb : 0 < b)
    (eK : n / b = K) (hK : 0 < K) :
    Runs (LogReg.mbgd s lr e b) h fun s' h' => ∃ θ', Trained logistic s h s' h' X y θ' ∧
      Rounds hK (fun _ i => GradStep (logisticLoss logistic (batchX X K i) (firstY y K)) lr (decay s.reg s.lambda s.alpha)) (epochCount e)
        θ θ' := by
  unfold LogReg.mbgd
  rw [if_pos hi]
  exact (mbgd_run logReg_link R lr e hb eK hK).mono fun s' h' T => ⟨_, T, rounds_walk hK (fun _ i θ => log_gradStep lr _ θ) _ _⟩

theorem rows_same {m : Nat} (e : m = n) (p : Fin m → Fin n) (hp : ∀ j, (p j).val = j.val) (X : Matrix (Fin n) (Fin k) ℝ) (y : Fin n → ℝ)
    (L : ∀ {n : Nat}, Matrix (Fin n) (Fin k) ℝ → (Fin n → ℝ) → Params k → ℝ) : L (fun j => X (p j)) (fun j => y (p j)) = L X y := by
  subst e
  have : p = id := funext fun j => Fin.ext (hp j)
  subst this
  rfl

theorem one_batch (X : Matrix (Fin n) (Fin k) ℝ) (y : Fin n → ℝ) (i : Fin 1)
    (L : ∀ {n : Nat}, Matrix (Fin n) (Fin k) ℝ → (Fin n → ℝ) → Params k → ℝ) : L (batchX X 1 i) (firstY y 1) = L X y := by
  have e : batchX X 1 i = fun j => X ⟨j.val, j.2.trans_le (Nat.div_le_self n 1)⟩ := by
    funext j
    unfold batchX
    congr 1
    apply Fin.ext
    have := i.2
    simp only [Fin.val_eq_zero, mul_zero, zero_add]
  rw [e]
  exact rows_same (Nat.div_one n) (fun j => ⟨j.val, j.2.trans_le (Nat.div_le_self n 1)⟩) (fun _ => rfl) X y L

theorem rounds_one {α : Type} {R : Nat → Fin 1 → α → α → Prop} {Q : α → α → Prop} (e : ∀ t i a b, R t i a b → Q a b) {N : Nat} {a b : α}
    (r : Rounds one_pos R N a b) : Chain (fun _ => Q) N a b := by
  obtain ⟨x, h0, h1, st⟩ := r
  rw [Nat.mul_one] at h1 st
  exact ⟨x, h0, h1, fun i hi => e _ _ _ _ (st i hi)⟩

/-- C90 for `MLPPLinReg.mbgd` with a single batch (`b ≤ n < 2 b`): it is gradient descent on the whole set. -/
theorem C90_lin_reg_mbgd_whole (R : Ready s h X y θ) (hi : s.initialized = true) (lr : ℝ) (e : Int) {b : Nat} (h1 : b ≤ n) (h2 : n < 2 * b) :
    Descends (LinReg.mbgd s lr e b) id (sqLoss id X y) lr (epochCount e) s h X y θ := by
  have hb : 0 < b := by omega
  have eK : n / b = 1 := by rw [Nat.div_eq_iff hb]; omega
  refine (C90_lin_reg_mbgd_partial R hi lr e hb eK one_pos).mono fun s' h' ⟨θ', T, r⟩ => ⟨θ', T, rounds_one (fun t i a b g => ?_) r⟩
  rw [one_batch X y i (sqLoss id)] at g
  exact g

/-- C90 for `MLPPLogReg.mbgd` with a single batch. -/
theorem C90_log_reg_mbgd_whole (R : Ready s h X y θ) (hi : s.initialized = true) (lr : ℝ) (e : Int) {b : Nat} (h1 : b ≤ n) (h2 : n < 2 * b) :
    Descends (LogReg.mbgd s lr e b) logistic (logisticLoss logistic X y) lr (epochCount e) s h X y θ := by
  have hb : 0 < b := by omega
  have eK : n / b = 1 := by rw [Nat.div_eq_iff hb]; omega
  refine (C90_log_reg_mbgd_partial R hi lr e hb eK one_pos).mono fun s' h' ⟨θ', T, r⟩ => ⟨θ', T, rounds_one (fun t i a b g => ?_) r⟩
  rw [one_batch X y i (logisticLoss logistic)] at g
  exact g

/-- Two samples that lie on the line `y = x`. -/
def lineX : Matrix (Fin 2) (Fin 1) ℝ := !![1; 2]
/-- Their outputs. -/
def lineY : Fin 2 → ℝ := ![1, 2]

/-- C90 for `MLPPLinReg.mbgd` does not hold: with the exact solution as weights and batches of one sample, one epoch makes the loss
positive, for every learning rate. -/
theorem C90_lin_reg_mbgd_fails (R : Ready s h lineX lineY (![1], 0)) (hi : s.initialized = true) (hr : s.reg = .none) {lr : ℝ} (hlr : lr ≠ 0) :
    sqLoss id lineX lineY (![1], 0) = 0 ∧
    Runs (LinReg.mbgd s lr 1 (1 : Nat)) h fun s' h' => ∃ θ', Trained id s h s' h' lineX lineY θ' ∧ 0 < sqLoss id lineX lineY θ' := by
  refine ⟨by rw [sqLoss_eq]; simp [linear, lineX, lineY], ?_⟩
  unfold LinReg.mbgd
  rw [if_pos hi]
  refine (mbgd_run linReg_computes R lr 1 (K := 2) one_pos rfl two_pos).mono fun s' h' T => ⟨_, T, ?_⟩
  rw [hr, decay_none]
  have w2 : ∀ {α : Type} (stp : Nat → α → α) (a : α), walk stp a (epochCount 1 * 2) = stp 1 (stp 0 a) := fun _ _ => rfl
  rw [w2, sqLoss_eq]
  simp only [roundStep]
  obtain ⟨z0, hz0⟩ : ∃ z0 : Fin (2 / 2), z0 = ⟨0, by norm_num⟩ := ⟨_, rfl⟩
  have e1 : ∀ (η : Params 1) (i : Fin (2 / 2)), linear (batchX lineX 2 ⟨0 % 2, Nat.mod_lt _ two_pos⟩) η i = η.1 0 + η.2 := by
    intro η i
    have : i = z0 := Subsingleton.elim (α := Fin 1) _ _
    subst this; subst hz0
    simp [linear, batchX, lineX]
  have e2 : ∀ (η : Params 1) (i : Fin (2 / 2)), linear (batchX lineX 2 ⟨1 % 2, Nat.mod_lt _ two_pos⟩) η i = 2 * η.1 0 + η.2 := by
    intro η i
    have : i = z0 := Subsingleton.elim (α := Fin 1) _ _
    subst this; subst hz0
    simp [linear, batchX, lineX]
  have ey : ∀ i : Fin (2 / 2), firstY lineY 2 i = 1 := by
    intro i
    have : i = z0 := Subsingleton.elim (α := Fin 1) _ _
    subst this; subst hz0
    simp [firstY, lineY]
  have es : ∀ F : Fin (2 / 2) → ℝ, ∑ i, F i = F z0 := fun F => by subst hz0; exact Fin.sum_univ_one (f := F)
  have b0 : batchX lineX 2 ⟨0 % 2, Nat.mod_lt _ two_pos⟩ z0 0 = 1 := by subst hz0; simp [batchX, lineX]
  have b1 : batchX lineX 2 ⟨1 % 2, Nat.mod_lt _ two_pos⟩ z0 0 = 2 := by subst hz0; simp [batchX, lineX]
  have ew : ∀ (t : Nat) (ht : t < 2) (η : Params 1) (c m : ℝ) (D : Fin (2 / 2) → ℝ),
      stepWith (batchX lineX 2 ⟨t, ht⟩) id c D lr m η =
        (fun _ => η.1 0 - batchX lineX 2 ⟨t, ht⟩ z0 0 * D z0 * c, η.2 - lr * D z0 / m) := by
    intro t ht η c m D
    unfold stepWith
    refine Prod.ext (funext fun j => ?_) ?_
    · rw [Subsingleton.elim j 0]; dsimp only [id]; rw [es]
    · dsimp only; rw [es]
  simp only [ew, b0, b1, e1, e2, ey]
  have hcast : (((2 / 2 : Nat) : Nat) : ℝ) = 1 := by norm_num
  simp only [hcast]
  simp only [linear, lineX, lineY, Fin.sum_univ_two, Fin.sum_univ_one, id]
  simp
  have := sq_pos_of_ne_zero hlr
  nlinarith [sq_nonneg (1 - 3 * lr - 1)]

/-! ## Undefined behaviour -/

theorem ub_bind {α β : Type} {c : M ℝ α} {f : α → M ℝ β} {Q : α → Heap ℝ → Prop} (r : Runs c h Q) (next : ∀ a h', Q a h' → f a h' = .ub) :
    (c >>= f) h = .ub := by
  obtain ⟨a, h', e, q⟩ := runs_iff.1 r
  rw [bind_ok e]
  exact next a h' q

theorem ub_step {α β : Type} {c : M ℝ α} {f : α → M ℝ β} {a : α} (e : c h = .ok (a, h')) (next : f a h' = .ub) : (c >>= f) h = .ub := by
  rw [bind_ok e]; exact next

theorem ub_stepV {β : Type} {c : M ℝ Ref} {v : Fin m → ℝ} {f : Ref → M ℝ β} (r : ReturnsVec c h v)
    (next : ∀ r h', h'.WF → Keeps h h' (fun _ => False) → NotIn h r → HasV h' r v → f r h' = .ub) : (c >>= f) h = .ub :=
  ub_bind r.has fun r h' q => next r h' q.1 q.2.1 q.2.2.1 q.2.2.2

theorem fold_first_ub {σ : Type} {N : Nat} (hN : 0 < N) (a : σ) (body : Nat → σ → M ℝ σ) (e : body 0 a h = .ub) : foldN N a body h = .ub := by
  obtain ⟨N, rfl⟩ : ∃ k, N = k + 1 := ⟨N - 1, by omega⟩
  exact bind_ub e

theorem epochs_ub {σ : Type} (max_epoch : Int) (a : σ) (body : Nat → σ → M ℝ σ) (e : body 1 a h = .ub) : epochs max_epoch a body h = .ub :=
  fold_first_ub (show 0 < max 1 max_epoch.toNat by omega) a _ e

theorem overBatches_ub {σ : Type} (R : Ready s h X y θ) {b K : Nat} (hb : 0 < b) (eK : n / b = K) (hK : 0 < K) (e : Int) (σ0 : σ)
    (body : Nat → Ref → Ref → σ → M ℝ σ) (hbody : ∀ h1 Xb yb, Ready s h1 X y θ → Keeps h h1 (fun _ => False) →
      HasM h1 Xb (batchX X K ⟨0, hK⟩) → HasV h1 yb (firstY y K) → NotIn h yb → body 1 Xb yb σ0 h1 = .ub) :
    overBatches s.input_set s.output_set n (b : Int) e (pure σ0) body h = .ub := by
  unfold overBatches
  have hb' : (b : Int) ≠ 0 := by exact_mod_cast hb.ne'
  rw [if_neg hb']
  have ek : (n : Int).tdiv (b : Int) = ((n / b : Nat) : Int) := by
    rw [Int.tdiv_eq_ediv_of_nonneg (Int.natCast_nonneg n)]; rfl
  rw [ek, Int.toNat_natCast, eK]
  obtain ⟨ia, eia, lia, hia⟩ := R.input
  obtain ⟨oa, eoa, loa, hoa⟩ := R.output
  rw [eia, eoa]
  refine ub_bind (Utilities.create_mini_batchesmv_run R.wf lia loa hia hoa hK (Utilities.batch_row n K)) fun bs h1 ⟨w1, k1, ⟨lm, _, nm⟩, ⟨lv, _, nv⟩⟩ => ?_
  refine ub_step (show (pure σ0 : M ℝ σ) h1 = .ok (σ0, h1) from rfl) ?_
  refine epochs_ub _ _ _ (fold_first_ub hK _ _ ?_)
  obtain ⟨a, ea, fa, la, ha⟩ := nm ⟨0, hK⟩
  obtain ⟨c, ec, fc, lc, hc⟩ := nv ⟨0, hK⟩
  have r1 : batchAt bs.1 0 h1 = .ok (some (.m a), h1) := by unfold batchAt; rw [show bs.1[0]? = some (some (.m a)) from ea]; rfl
  have r2 : batchAt bs.2 0 h1 = .ok (some (.v c), h1) := by unfold batchAt; rw [show bs.2[0]? = some (some (.v c)) from ec]; rfl
  refine ub_step r1 (ub_step r2 ?_)
  exact hbody h1 _ _ (R.keep w1 k1) k1 ⟨a, rfl, la, ha⟩ ⟨c, rfl, lc, hc⟩ fun l e => by cases e; exact fc

/-- C90 (batch size): `MLPPLinReg.mbgd` and `MLPPLogReg.mbgd` with a batch size of 0 or larger than the number of samples divide by zero. -/
theorem C90_batch_size_fails (R : Ready s h X y θ) (hi : s.initialized = true) (lr : ℝ) (e : Int) {b : Nat} (hb : b = 0 ∨ n < b) :
    LinReg.mbgd s lr e b h = .ub ∧ LogReg.mbgd s lr e b h = .ub := by
  have key : ∀ (body : Nat → Ref → Ref → Glm → M ℝ Glm), overBatches s.input_set s.output_set n (b : Int) e (pure s) body h = .ub := by
    intro body
    unfold overBatches
    rcases hb with rfl | hb
    · rfl
    · have hb' : (b : Int) ≠ 0 := by exact_mod_cast (show b ≠ 0 by omega)
      rw [if_neg hb']
      have ek : (n : Int).tdiv (b : Int) = 0 := by
        rw [Int.tdiv_eq_ediv_of_nonneg (Int.natCast_nonneg n)]
        exact_mod_cast Nat.div_eq_of_lt hb
      rw [ek]
      refine bind_ub ?_
      obtain ⟨ia, eia, lia, hia⟩ := R.input
      rw [eia]
      refine ub_step (derefM_run ia h) ?_
      refine ub_step (show Mat.size ia h = .ok (_, h) from rfl) ?_
      rfl
  unfold LinReg.mbgd LogReg.mbgd Glm.mbgd
  rw [if_pos hi, if_pos hi, R.rows]
  exact ⟨bind_ub (key _), bind_ub (key _)⟩

theorem chain_mismatch {F : Fns} {g : ℝ → ℝ} (G : Derives F g) (w : h.WF) {e z : Ref} {p q : Nat} {u : Fin p → ℝ} {v : Fin q → ℝ}
    (he : HasV h e u) (hz : HasV h z v) (ne : p ≠ q) : Runs (chain F e z) h fun r h' => r = none ∧ h'.WF ∧ Keeps h h' (fun _ => False) := by
  unfold chain
  refine stepV (G w hz) fun r h1 w1 k1 f1 a1 => ?_
  have he := adv_hasv k1 he
  obtain ⟨x, rfl, lx, hx⟩ := he
  obtain ⟨t, rfl, lt, ht⟩ := a1
  refine Runs.step (derefV_run x h1) ?_
  refine Runs.of_eq (binN_mismatch _ _ _ h1 ?_) ⟨rfl, w1, k1⟩
  rw [hx.1, ht.1]
  intro e
  exact ne (congrArg Size.x e)

/-- C90 for `MLPPTanhReg.train_mbgd` does not hold: the step of the bias combines the errors of the batch with the linear values of the last
forward pass. Unless there are as many of these as samples in a batch (there are none before the first forward pass, and as many as there
are samples altogether after it), the result is a null handle, which is used. -/
theorem C90_tanh_reg_mbgd_fails (R : Ready s h X y θ) {p : Fin n → ℝ} (hy : HasV h s.y_hat p) (lr : ℝ) (e : Int) {b K : Nat} (hb : 0 < b)
    (eK : n / b = K) (hK : 0 < K) {q : Nat} {v : Fin q → ℝ} (hz : HasV h s.z v) (nw : s.z ≠ s.weights) (hq : n / K ≠ q) :
    TanhReg.train_mbgd s lr e b h = .ub := by
  unfold TanhReg.train_mbgd
  refine ub_step (needs_init_run R hy) (ub_step (Hd.sizem_run R.input) ?_)
  refine bind_ub (overBatches_ub R hb eK hK e s _ fun h1 Xb yb R1 k1 hX hyb f1 => ?_)
  have hz := adv_hasv k1 hz
  refine ub_stepV (evaluatem_spec tanhReg_link R1.wf hX R1.weights) fun yh h2 w2 k2 f2 a2 => ?_
  have R2 := R1.keep w2 k2
  adv k2
  refine ub_stepV (propagatem_spec w2 hX R2.weights) fun zz h3 w3 k3 f3 a3 => ?_
  have R3 := R2.keep w3 k3
  adv k3
  obtain ⟨c, ec⟩ := cost_run tanhReg_link w3 a2 hyb R3.weights
  refine ub_step ec ?_
  refine ub_stepV (Hd.subn_spec w3 a2 hyb) fun er h4 w4 k4 f4 a4 => ?_
  have R4 := R3.keep w4 k4
  have ne : er ≠ s.weights := f4.ne R3.weights
  adv k4
  refine ub_stepV (chain_spec tanhReg_derives w4 a4 a3) fun ch h5 w5 k5 f5 a5 => ?_
  have R5 := R4.keep w5 k5
  adv k5
  refine ub_stepV (gradient_spec w5 hX a5 _) fun d h6 w6 k6 f6 a6 => ?_
  have R6 := R5.keep w6 k6
  adv k6
  refine ub_bind (subStep_ready R6 a6) fun s7 h7 ⟨r, e7, R7, M7⟩ => ?_
  have ez : s7.z = s.z := by rw [e7]
  refine ub_bind (chain_mismatch tanhReg_derives R7.wf (a4.off M7.keeps ne) (by rw [ez]; exact hz.off M7.keeps nw) hq) fun r2 h8 ⟨e8, _, _⟩ => ?_
  subst e8
  rfl

theorem dot_runs (w : h.WF) {a b : Ref} {p q : Nat} {u : Fin p → ℝ} {v : Fin q → ℝ} (ha : HasV h a u) (hb : HasV h b v) :
    ∃ x, Hd.dot a b h = .ok (x, h) := by
  by_cases c : p = q
  · subst c; exact ⟨_, Hd.dot_run w ha hb⟩
  · obtain ⟨x, rfl, lx, hx⟩ := ha
    obtain ⟨t, rfl, lt, ht⟩ := hb
    refine ⟨0, ?_⟩
    unfold Hd.dot
    rw [bind_ok (derefV_run x h)]
    unfold Vec.dot
    dsimp only [Ref.vec]
    have e1 : Vec.size x h = .ok (p, h) := by show Out.ok ((h.size (.v x)).x, h) = _; rw [hx.1]
    have e2 : Vec.size t h = .ok (q, h) := by show Out.ok ((h.size (.v t)).x, h) = _; rw [ht.1]
    rw [bind_ok e1, bind_ok e2]
    show (if p = q then _ else _ : M ℝ ℝ) h = _
    rw [if_neg c]
    rfl

/-- C90 for `MLPPProbitReg.train_mbgd` does not hold: the derivative is taken of a single number (the product of the weights and the
*outputs*), and multiplied with the errors of the batch. With two or more samples in a batch the result is a null handle, which is used. -/
theorem C90_probit_reg_mbgd_fails (R : Ready s h X y θ) {p : Fin n → ℝ} (hy : HasV h s.y_hat p) (lr : ℝ) (e : Int) {b K : Nat} (hb : 0 < b)
    (eK : n / b = K) (hK : 0 < K) (hq : n / K ≠ 1) : ProbitReg.train_mbgd s lr e b h = .ub := by
  unfold ProbitReg.train_mbgd
  refine ub_step (needs_init_run R hy) (ub_step (Hd.sizem_run R.input) ?_)
  have mk := stepNewV (n := 1) R.wf (c := fun l => (fun h => .ok (l, h) : M ℝ Loc)) (Q := fun l h1 => Ready s h1 X y θ ∧
    some l ≠ s.weights ∧ ∃ v : Fin 1 → ℝ, HasV h1 (some l) v) fun o h1 v w1 k1 f1 a1 => Runs.of_eq rfl ⟨R.keep w1 k1, f1.ne R.weights, v, a1⟩
  obtain ⟨l, h1, e1, R1, nl, v1, a1⟩ := runs_iff.1 mk
  have split : ∀ {β : Type} (f : Loc → M ℝ β), (newVec >>= fun o => resizeTo o ⟨1, 1, 1⟩ >>= fun _ => f o) h = f l h1 := by
    intro β f
    have : (newVec >>= fun o => resizeTo o ⟨1, 1, 1⟩ >>= fun _ => f o) =
      ((newVec >>= fun o => resizeTo o ⟨1, 1, 1⟩ >>= fun _ => (fun h => .ok (o, h) : M ℝ Loc)) >>= f) := by
      simp only [bind_assoc]; rfl
    rw [this, bind_ok e1]
  rw [split]
  refine bind_ub (overBatches_ub R1 hb eK hK e s _ fun h2 Xb yb R2 k2 hX hyb f2 => ?_)
  have a2 := adv_hasv k2 a1
  have neb : yb ≠ some l := f2.ne a1
  refine ub_stepV (evaluatem_spec probitReg_link R2.wf hX R2.weights) fun yh h3 w3 k3 f3 a3 => ?_
  have R3 := R2.keep w3 k3
  have nyh : yh ≠ some l := f3.ne a2
  adv k3
  obtain ⟨x, ex⟩ := dot_runs w3 R3.weights hyb
  have ex' : propagatev s yb h3 = .ok (x + s.bias, h3) := by unfold propagatev; rw [bind_ok ex]; rfl
  refine ub_step ex' ?_
  refine ub_bind (Hd.element_set_run w3 a2 0 _) fun _ h4 ⟨w4, k4, a4⟩ => ?_
  have hw := R3.weights.off k4 nl.symm
  have a3 := a3.off k4 nyh
  have hyb := hyb.off k4 neb
  have hX := hX.off k4 a2
  obtain ⟨c, ec⟩ := cost_run probitReg_link w4 a3 hyb hw
  refine ub_step ec ?_
  refine ub_stepV (Hd.subn_spec w4 a3 hyb) fun er h5 w5 k5 f5 a5 => ?_
  refine ub_bind (chain_mismatch probitReg_derives w5 a5 (adv_hasv k5 a4) hq) fun r2 h6 ⟨e6, w6, k6⟩ => ?_
  subst e6
  refine bind_ub ?_
  unfold gradient
  refine ub_bind (Hd.transposen_spec w6 (adv_hasm k6 (adv_hasm k5 hX))).has fun tr h7 ⟨w7, k7, f7, a7⟩ => ?_
  obtain ⟨x, rfl, -, -⟩ := a7
  rfl

/-- The hypotheses are met: three samples, batches of one or two. -/
example : Ready (exGlm .none) glmHeap exX exY exθ ∧ (exGlm .none).initialized = true ∧ (exGlm .none).reg = .none ∧
    HasV glmHeap (exGlm .none).y_hat (![0, 0, 0] : Fin 3 → ℝ) ∧ (∀ e : Nat, e % 3 < 3) ∧ (0 < 1 ∧ 3 / 1 = 3 ∧ 0 < 3) ∧ (2 ≤ 3 ∧ 3 < 2 * 2) ∧
    (3 / 2 = 1 ∧ 3 / 1 ≠ 1) := ⟨exReady _, rfl, rfl, exShown _, fun e => Nat.mod_lt _ (by norm_num), by decide, by decide, by decide⟩

/-- The hypotheses of `C90_tanh_reg_mbgd_fails` about the stored linear values are met. -/
example : ∃ s : Glm, Ready s glmHeap exX exY exθ ∧ HasV glmHeap s.y_hat (![0, 0, 0] : Fin 3 → ℝ) ∧
    HasV glmHeap s.z (![5, -5] : Fin 2 → ℝ) ∧ s.z ≠ s.weights ∧ 3 / 1 ≠ 2 :=
  ⟨{ exGlm .none with z := some (.v 3) }, (exReady .none).put _ _, exShown .none, exSample, by simp [exGlm], by decide⟩

/-- The hypotheses of `C90_lin_reg_mbgd_fails` are met. -/
example : ∃ (h : Heap ℝ) (s : Glm), Ready s h lineX lineY (![1], 0) ∧ s.initialized = true ∧ s.reg = .none := by
  refine ⟨Heap.ofLists 0 [[1, 2], [1]] [(1, 2, [1, 2])], ⟨true, some (.m 0), some (.v 0), none, none, some (.v 1), 0, .none, 0, 0, 2, 1⟩,
    ⟨Heap.ofLists_wf _ _ _ (by simp), rfl, rfl, ⟨0, rfl, ?_, ?_⟩, ⟨0, rfl, ?_, ?_⟩, ⟨1, rfl, ?_, ?_⟩, rfl, by simp⟩, rfl, rfl⟩
  · simp [Heap.ofLists, Heap.live, Loc.id]
  · refine ⟨by simp [Heap.ofLists], fun i j => ?_⟩
    fin_cases i <;> fin_cases j <;> simp [lineX, Heap.ofLists]
  · simp [Heap.ofLists, Heap.live, Loc.id]
  · exact ⟨by simp [Heap.ofLists], fun i => by fin_cases i <;> simp [lineY, Heap.ofLists]⟩
  · simp [Heap.ofLists, Heap.live, Loc.id]
  · exact ⟨by simp [Heap.ofLists], fun i => by fin_cases i; simp [Heap.ofLists]⟩

end Verif
