import Verif.Props.GlmPredict
import Verif.Props.ActivationLift
import Verif.Lemmas.GlmMath

/-!
# C87: gradient descent of the linear models

Every epoch of `gradient_descent` is one step along the gradient of the loss, followed by the regularisation of the weights. For linear and
logistic regression without regularisation and a learning rate below the curvature of the data the loss never grows, and it approaches the
loss of any other choice of weights and bias at the rate `1 / epochs`.
-/

namespace Verif
open Spec Finset Glm
variable {n k m : Nat} {h : Heap ℝ} {s : Glm} {X : Matrix (Fin n) (Fin k) ℝ} {y : Fin n → ℝ} {θ : Params k}

/-- The training method `train` makes `N` steps of gradient descent on `L`. -/
def Descends (train : M ℝ Glm) (f : ℝ → ℝ) (L : Params k → ℝ) (learning_rate : ℝ) (N : Nat) (s : Glm) (h : Heap ℝ)
    (X : Matrix (Fin n) (Fin k) ℝ) (y : Fin n → ℝ) (θ : Params k) : Prop :=
  Runs train h fun s' h' => ∃ θ', Trained f s h s' h' X y θ' ∧
    Chain (fun _ => GradStep L learning_rate (decay s.reg s.lambda s.alpha)) N θ θ'

/-- C87 for `MLPPLinReg.gradient_descent`. -/
theorem C87_lin_reg (R : Ready s h X y θ) (hi : s.initialized = true) (lr : ℝ) (e : Int) :
    Descends (LinReg.gradient_descent s lr e) id (sqLoss id X y) lr (epochCount e) s h X y θ := by
  unfold Descends LinReg.gradient_descent
  rw [if_pos hi]
  refine (gradient_descent_run linReg_computes R lr e).mono fun s' h' T => ⟨_, T, chain_walk (fun _ θ => ?_) _ _⟩
  have := sq_gradStep (X := X) (y := y) (f := id) (g := fun _ => 1) (fun z => hasDerivAt_id z) lr (decay s.reg s.lambda s.alpha) θ
  simpa only [mul_one] using this

/-- C87 for `MLPPLogReg.gradient_descent`. -/
theorem C87_log_reg (R : Ready s h X y θ) (hi : s.initialized = true) (lr : ℝ) (e : Int) :
    Descends (LogReg.gradient_descent s lr e) logistic (logisticLoss logistic X y) lr (epochCount e) s h X y θ := by
  unfold Descends LogReg.gradient_descent
  rw [if_pos hi]
  exact (gradient_descent_run logReg_link R lr e).mono fun s' h' T => ⟨_, T, chain_walk (fun _ θ => log_gradStep lr _ θ) _ _⟩

/-- C87 for `MLPPLogReg.mle`: it makes the same steps. -/
theorem C87_log_reg_mle (R : Ready s h X y θ) (hi : s.initialized = true) (lr : ℝ) (e : Int) :
    Descends (LogReg.mle s lr e) logistic (logisticLoss logistic X y) lr (epochCount e) s h X y θ := by
  unfold Descends LogReg.mle
  rw [if_pos hi]
  exact (mle_run logReg_link R lr e).mono fun s' h' T => ⟨_, T, chain_walk (fun _ θ => log_gradStep lr _ θ) _ _⟩

theorem tanhReg_derives : Derives TanhReg.fns Activation.tanh_derivr := derives_lifts Activation.tanh_derivv_lifts
theorem probitReg_derives : Derives ProbitReg.fns Activation.gaussian_cdf_derivr := derives_lifts Activation.gaussian_cdf_derivv_lifts
theorem cloglogReg_derives : Derives CLogLogReg.fns (fun z => Real.exp (-Real.exp z)) :=
  derives_lifts (g := fun z => Real.exp (-Real.exp z)) C45_cloglog_derivv_fails
theorem tanh_hasDeriv (z : ℝ) : HasDerivAt Real.tanh (Activation.tanh_derivr z) z := by
  rw [← Activation.tanh_fun]; exact Activation.hasDerivAt_tanhr z
theorem normalCdf_hasDeriv (z : ℝ) : HasDerivAt normalCdf (Activation.gaussian_cdf_derivr z) z := by
  rw [← normalCdf_eq]; exact Activation.hasDerivAt_gaussian_cdf z

/-- C87 for `MLPPTanhReg.train_gradient_descent`. -/
theorem C87_tanh_reg (R : Ready s h X y θ) {p : Fin n → ℝ} (hp : HasV h s.y_hat p) (lr : ℝ) (e : Int) :
    Descends (TanhReg.train_gradient_descent s lr e) Real.tanh (sqLoss Real.tanh X y) lr (epochCount e) s h X y θ := by
  unfold Descends TanhReg.train_gradient_descent
  refine Runs.step (needs_init_run R hp) (Runs.step (Hd.sizem_run R.input) ?_)
  exact (gradient_descent_z_run tanhReg_link tanhReg_derives rfl R lr e n).mono fun s' h' T =>
    ⟨_, T, chain_walk (fun _ θ => sq_gradStep tanh_hasDeriv lr _ θ) _ _⟩

/-- C87 for `MLPPProbitReg.train_gradient_descent`. -/
theorem C87_probit_reg (R : Ready s h X y θ) {p : Fin n → ℝ} (hp : HasV h s.y_hat p) (lr : ℝ) (e : Int) :
    Descends (ProbitReg.train_gradient_descent s lr e) normalCdf (sqLoss normalCdf X y) lr (epochCount e) s h X y θ := by
  unfold Descends ProbitReg.train_gradient_descent
  refine Runs.step (needs_init_run R hp) (Runs.step (Hd.sizem_run R.input) ?_)
  exact (gradient_descent_z_run probitReg_link probitReg_derives rfl R lr e n).mono fun s' h' T =>
    ⟨_, T, chain_walk (fun _ θ => sq_gradStep normalCdf_hasDeriv lr _ θ) _ _⟩

/-- C87 for `MLPPProbitReg.train_mle`: it makes the same steps. -/
theorem C87_probit_reg_mle (R : Ready s h X y θ) {p : Fin n → ℝ} (hp : HasV h s.y_hat p) (lr : ℝ) (e : Int) :
    Descends (ProbitReg.train_mle s lr e) normalCdf (sqLoss normalCdf X y) lr (epochCount e) s h X y θ := by
  unfold Descends ProbitReg.train_mle
  refine Runs.step (needs_init_run R hp) (Runs.step (Hd.sizem_run R.input) ?_)
  refine (mle_z_run probitReg_link probitReg_derives rfl R true lr e n).mono fun s' h' T => ⟨_, T, chain_walk (fun _ θ => ?_) _ _⟩
  exact sq_gradStep normalCdf_hasDeriv lr _ θ

theorem decay_none (l a : ℝ) : decay .none l a = id := rfl

/-- C87 (convergence of `MLPPLinReg.gradient_descent`): without regularisation and with a learning rate at most `n` over the sum of the
squares of the data, the squared error is not larger than before, and it exceeds that of any other weights and bias `θs` by at most
`|θ - θs|² / (2 · learning rate · epochs)`. -/
theorem C87_lin_reg_converges (R : Ready s h X y θ) (hi : s.initialized = true) (hr : s.reg = .none) (hn : 0 < n) {lr : ℝ} (hlr : 0 < lr)
    (hs : lr * dataNorm2 X ≤ n) (e : Int) :
    Runs (LinReg.gradient_descent s lr e) h fun s' h' => ∃ θ', Trained id s h s' h' X y θ' ∧ sqLoss id X y θ' ≤ sqLoss id X y θ ∧
      ∀ θs, sqLoss id X y θ' ≤ sqLoss id X y θs + paramDist2 θ θs / (2 * lr * epochCount e) := by
  unfold LinReg.gradient_descent
  rw [if_pos hi]
  refine (gradient_descent_run linReg_computes R lr e).mono fun s' h' T => ⟨_, T, ?_⟩
  have := converges (X := X) (l := fun i z => (z - y i) ^ 2 / 2) (l' := fun i z => z - y i) (β := 1) hn (fun i a b => (sq_bounds (y i) a b).le)
    (fun i a b => by rw [sq_bounds (y i) a b]; nlinarith [sq_nonneg (b - a)]) zero_le_one hlr (by rwa [one_mul]) θ
    (D := decay s.reg s.lambda s.alpha) (by rw [hr]; rfl) (epochCount e)
  rw [sqLoss_eq]
  exact ⟨this.1, this.2 (by unfold epochCount; omega)⟩

/-- C87 (convergence of `MLPPLogReg.gradient_descent` and `mle`): the same for the logistic loss, with a learning rate four times as large. -/
theorem C87_log_reg_converges (R : Ready s h X y θ) (hi : s.initialized = true) (hr : s.reg = .none) (hn : 0 < n) {lr : ℝ} (hlr : 0 < lr)
    (hs : lr * dataNorm2 X ≤ 4 * n) (e : Int) :
    ∀ train ∈ [LogReg.gradient_descent s lr e, LogReg.mle s lr e],
    Runs train h fun s' h' => ∃ θ', Trained logistic s h s' h' X y θ' ∧ logisticLoss logistic X y θ' ≤ logisticLoss logistic X y θ ∧
      ∀ θs, logisticLoss logistic X y θ' ≤ logisticLoss logistic X y θs + paramDist2 θ θs / (2 * lr * epochCount e) := by
  have key := converges (X := X) (l := fun i z => -(y i * Real.log (logistic z + 0) + (1 - y i) * Real.log (1 - logistic z + 0)))
    (l' := fun i z => logistic z - y i) (β := 1 / 4) hn
    (fun i a b => below_parabola (fun z => log_deriv (y i) z) (logistic_lip (y i)) a b)
    (fun i a b => above_tangent (fun z => log_deriv (y i) z) (fun a b hab => sub_le_sub_right (logistic_mono hab) _) a b)
    (by norm_num) hlr (by linarith) θ (D := decay s.reg s.lambda s.alpha) (by rw [hr]; rfl) (epochCount e)
  have pos : 0 < epochCount e := by unfold epochCount; omega
  intro train ht
  rw [logisticLoss_eq]
  simp only [List.mem_cons, List.not_mem_nil, or_false] at ht
  rcases ht with rfl | rfl
  · unfold LogReg.gradient_descent
    rw [if_pos hi]
    exact (gradient_descent_run logReg_link R lr e).mono fun s' h' T => ⟨_, T, key.1, key.2 pos⟩
  · unfold LogReg.mle
    rw [if_pos hi]
    exact (mle_run logReg_link R lr e).mono fun s' h' T => ⟨_, T, key.1, key.2 pos⟩

theorem cLogLog_deriv (z : ℝ) : HasDerivAt cLogLog (Real.exp (z - Real.exp z)) z := Activation.hasDerivAt_cloglog z

/-- C87 for `MLPPCLogLogReg.gradient_descent` does not hold: the derivative of the link function is taken to be `exp (-exp z)` (C45). For a
single sample whose prediction is wrong and whose linear value is not 0 the result of one epoch is not a step along the gradient. -/
theorem C87_cloglog_fails {X : Matrix (Fin 1) (Fin k) ℝ} {y : Fin 1 → ℝ} (R : Ready s h X y θ) {lr : ℝ} (hlr : lr ≠ 0)
    (hz : linear X θ 0 ≠ 0) (hy : cLogLog (linear X θ 0) ≠ y 0) (D : ℝ → ℝ) :
    Runs (CLogLogReg.gradient_descent s lr 1) h fun s' h' => ∃ θ', Trained cLogLog s h s' h' X y θ' ∧
      ¬ GradStep (sqLoss cLogLog X y) lr D θ θ' := by
  unfold CLogLogReg.gradient_descent
  rw [R.rows]
  refine (gradient_descent_z_run cloglogReg_link (g := fun z => Real.exp (-Real.exp z)) cloglogReg_derives rfl R lr 1 1).mono fun s' h' T => ⟨_, T, ?_⟩
  rintro ⟨g, c, -, hc, e⟩
  have e2 := congrArg Prod.snd e
  have w1 : ∀ step : Nat → Params k → Params k, walk step θ (epochCount 1) = step 0 θ := fun _ => rfl
  rw [w1] at e2
  obtain ⟨_, c', -, hc', e'⟩ := sq_gradStep (X := X) (y := y) cLogLog_deriv lr D θ
  have e3 := congrArg Prod.snd e'
  have cc := hc.unique hc'
  rw [cc] at e2
  simp only [stepWith] at e2 e3
  rw [← e3] at e2
  simp only [Fin.sum_univ_one, Nat.cast_one, div_one] at e2
  have : lr * ((cLogLog (linear X θ 0) - y 0) * Real.exp (-Real.exp (linear X θ 0))) =
    lr * ((cLogLog (linear X θ 0) - y 0) * Real.exp (linear X θ 0 - Real.exp (linear X θ 0))) := by linarith
  have := mul_left_cancel₀ (sub_ne_zero.2 hy) (mul_left_cancel₀ hlr this)
  have := Real.exp_injective this
  apply hz
  linarith

/-- C87 for `MLPPCLogLogReg.mle` does not hold: the sign of the error is that of `gradient_descent`, and the step is added. For a single
sample whose prediction is wrong, any positive learning rate, and no regularisation, the loss grows, however many epochs are run. -/
theorem C87_cloglog_mle_fails {X : Matrix (Fin 1) (Fin k) ℝ} {y : Fin 1 → ℝ} (R : Ready s h X y θ) (hr : s.reg = .none) {lr : ℝ}
    (hlr : 0 < lr) (hy : cLogLog (linear X θ 0) ≠ y 0) (e : Int) :
    Runs (CLogLogReg.mle s lr e) h fun s' h' => ∃ θ', Trained cLogLog s h s' h' X y θ' ∧ sqLoss cLogLog X y θ < sqLoss cLogLog X y θ' := by
  unfold CLogLogReg.mle
  rw [R.rows]
  refine (mle_z_run cloglogReg_link (g := fun z => Real.exp (-Real.exp z)) cloglogReg_derives rfl R false lr e 1).mono fun s' h' T => ⟨_, T, ?_⟩
  obtain ⟨q, hq⟩ : ∃ q : Params k → ℝ, ∀ η : Params k, q η = cLogLog (linear X η 0) - y 0 := ⟨_, fun _ => rfl⟩
  have mono : StrictMono cLogLog := fun a b hab => by
    unfold cLogLog
    have := Real.exp_lt_exp.2 (neg_lt_neg (Real.exp_lt_exp.2 hab))
    linarith
  obtain ⟨st, hst⟩ : ∃ st : Nat → Params k → Params k, st = (fun _ θ => stepWith X (decay s.reg s.lambda s.alpha)
    ((if false = true then lr else -lr) / (1 : Nat)) (fun i => (cLogLog (linear X θ i) - y i) * Real.exp (-Real.exp (linear X θ i)))
      (if false = true then lr else -lr) (1 : Nat) θ) := ⟨_, rfl⟩
  have step : ∀ i η, linear X (st i η) 0 = linear X η 0 + lr * Real.exp (-Real.exp (linear X η 0)) * (∑ j, X 0 j ^ 2 + 1) * q η := by
    intro i η
    rw [hst, hr, decay_none, hq]
    simp only [stepWith, linear, Fin.sum_univ_one, Nat.cast_one, div_one, Bool.false_eq_true, if_false, id]
    simp only [mul_sub, Finset.sum_sub_distrib]
    have : ∀ c : ℝ, ∑ j, X 0 j * (X 0 j * c * -lr) = -(lr * c) * ∑ j, X 0 j ^ 2 := fun c => by
      rw [Finset.mul_sum]; exact Finset.sum_congr rfl fun j _ => by ring
    have hh := this ((cLogLog (∑ j, X 0 j * η.1 j + η.2) - y 0) * Real.exp (-Real.exp (∑ j, X 0 j * η.1 j + η.2)))
    simp only [mul_sub, sub_mul, Finset.sum_sub_distrib] at hh ⊢
    linarith
  have hS : 0 < ∑ j, X 0 j ^ 2 + 1 := by
    have : 0 ≤ ∑ j, X 0 j ^ 2 := Finset.sum_nonneg fun _ _ => sq_nonneg _
    linarith
  have grow : ∀ i η, (0 < q η → q η < q (st i η)) ∧ (q η < 0 → q (st i η) < q η) := by
    intro i η
    have hp : 0 < lr * Real.exp (-Real.exp (linear X η 0)) * (∑ j, X 0 j ^ 2 + 1) := by have := Real.exp_pos (-Real.exp (linear X η 0)); positivity
    refine ⟨fun hh => ?_, fun hh => ?_⟩
    · rw [hq, hq]
      refine sub_lt_sub_right (mono ?_) _
      rw [step]; nlinarith
    · rw [hq, hq]
      refine sub_lt_sub_right (mono ?_) _
      rw [step]; nlinarith
  have all : ∀ N, (0 < q θ → q θ < q (walk st θ (N + 1))) ∧ (q θ < 0 → q (walk st θ (N + 1)) < q θ) := by
    intro N
    induction N with
    | zero => exact grow 0 θ
    | succ N ih =>
      refine ⟨fun hh => ?_, fun hh => ?_⟩
      · have := ih.1 hh; exact this.trans ((grow (N + 1) _).1 (hh.trans this))
      · have := ih.2 hh; exact ((grow (N + 1) _).2 (this.trans hh)).trans this
  obtain ⟨N, hN⟩ : ∃ N, epochCount e = N + 1 := ⟨epochCount e - 1, by unfold epochCount; omega⟩
  rw [← hst, hN, sqLoss_eq]
  simp only [Fin.sum_univ_one, Nat.cast_one, div_one]
  rw [← hq, ← hq]
  have hq0 : q θ ≠ 0 := by rw [hq]; exact sub_ne_zero.2 hy
  rcases hq0.lt_or_gt with c | c
  · have := (all N).2 c; nlinarith
  · have := (all N).1 c; nlinarith

/-- The hypotheses of the convergence theorems are met. -/
example : Ready (exGlm .none) glmHeap exX exY exθ ∧ (exGlm .none).initialized = true ∧ (exGlm .none).reg = .none ∧ (0 : ℝ) < 1 / 100 ∧
    (1 / 100 : ℝ) * dataNorm2 exX ≤ (3 : Nat) := by
  refine ⟨exReady _, rfl, rfl, by norm_num, ?_⟩
  unfold dataNorm2 exX
  simp [Fin.sum_univ_succ]
  norm_num

/-- The hypotheses of the theorems about `MLPPCLogLogReg` are met. -/
example : ∃ (h : Heap ℝ) (s : Glm), Ready s h (!![1] : Matrix (Fin 1) (Fin 1) ℝ) (![0] : Fin 1 → ℝ) (![1], 0) ∧ s.reg = .none ∧
    linear (!![1] : Matrix (Fin 1) (Fin 1) ℝ) (![1], 0) 0 ≠ 0 ∧
    cLogLog (linear (!![1] : Matrix (Fin 1) (Fin 1) ℝ) (![1], 0) 0) ≠ (![0] : Fin 1 → ℝ) 0 := by
  let h : Heap ℝ := Heap.ofLists 0 [[0], [1]] [(1, 1, [1])]
  refine ⟨h, ⟨true, some (.m 0), some (.v 0), none, none, some (.v 1), 0, .none, 0, 0, 1, 1⟩,
    ⟨Heap.ofLists_wf _ _ _ (by simp), rfl, rfl, ⟨0, rfl, ?_, ?_⟩, ⟨0, rfl, ?_, ?_⟩, ⟨1, rfl, ?_, ?_⟩, rfl, by simp⟩, rfl, ?_, ?_⟩
  · simp [h, Heap.ofLists, Heap.live, Loc.id]
  · refine ⟨by simp [h, Heap.ofLists], fun i j => ?_⟩
    fin_cases i <;> fin_cases j <;> simp [h, Heap.ofLists]
  · simp [h, Heap.ofLists, Heap.live, Loc.id]
  · exact ⟨by simp [h, Heap.ofLists], fun i => by fin_cases i <;> simp [h, Heap.ofLists]⟩
  · simp [h, Heap.ofLists, Heap.live, Loc.id]
  · exact ⟨by simp [h, Heap.ofLists], fun i => by fin_cases i <;> simp [h, Heap.ofLists]⟩
  · simp [linear]
  · simp only [linear, cLogLog]
    simp
    intro hh
    have h2 : Real.exp (-Real.exp 1) = 1 := by linarith
    have h3 := (Real.exp_eq_one_iff _).1 h2
    have := Real.exp_pos (1 : ℝ)
    linarith

end Verif
