import Verif.Lemmas.Svc

/-!
# C100: the support vector classifier `MLPPSVC`

It answers with the sign of a linear function. Every epoch of stochastic training is a step of the subgradient method on the loss of the drawn
sample. Gradient descent moves the bias in the wrong direction, and mini-batch training never looks at the data for the weights.
-/

namespace Verif
open Spec Finset Glm
variable {n k m : Nat} {h : Heap ℝ} {s : Glm} {X : Matrix (Fin n) (Fin k) ℝ} {y : Fin n → ℝ} {θ : Params k}

/-- C100 (predictions): `model_test` and `model_set_test` answer with the sign of `w · x + b`. -/
theorem C100_predict (R : Ready s h X y θ) {p : Fin n → ℝ} (hp : HasV h s.y_hat p) :
    Predicts signOf h θ (Svc.model_test s) (Svc.model_set_test s) := by
  have q := predicts_of Svc.link R.wf R.weights R.bias
  refine ⟨fun x u hx => ?_, fun x m A hx => ?_⟩
  · unfold Svc.model_test
    rw [bind_ok (needs_init_run R hp)]
    exact q.1 x u hx
  · unfold Svc.model_set_test
    exact Runs.step (needs_init_run R hp) (q.2 x m A hx)

/-- C100 (no data): without data the object answers 0 and null and training leaves it as it is. -/
theorem C100_missing_data (h : Heap ℝ) (s : Glm) (hn : s.input_set = none ∨ s.output_set = none) (r : Ref) (pick : Nat → Nat) (c lr : ℝ)
    (e b : Int) :
    Svc.model_test s r h = .ok (0, h) ∧ Svc.model_set_test s r h = .ok (none, h) ∧ Svc.score s h = .ok (0, h) ∧
    Svc.train_gradient_descent s c lr e h = .ok (s, h) ∧ Svc.train_sgd s c pick lr e h = .ok (s, h) ∧
    Svc.train_mbgd s c lr e b h = .ok (s, h) := by
  have q := needs_init_null (h := h) hn
  exact ⟨bind_ok q, bind_ok q, bind_ok q, bind_ok q, bind_ok q, bind_ok q⟩

/-- C100: `set_output_set` always sets null, so that a classifier made without data can never be trained. -/
theorem C100_set_output_set_fails (h : Heap ℝ) (s : Glm) (val r : Ref) (c lr : ℝ) (e : Int) :
    (Svc.set_output_set s val).output_set = none ∧ Svc.model_test (Svc.set_output_set s val) r h = .ok (0, h) ∧
    Svc.train_gradient_descent (Svc.set_output_set s val) c lr e h = .ok (Svc.set_output_set s val, h) := by
  have e0 : (Svc.set_output_set s val).output_set = none := by
    unfold Svc.set_output_set
    rcases val with _ | l
    · rfl
    · cases l <;> rfl
  have q := C100_missing_data h (Svc.set_output_set s val) (.inr e0) r id c lr e e
  exact ⟨e0, q.1, q.2.2.2.1⟩

theorem hinge_line (p q u : ℝ) : max 0 (1 - q * p) + Cost.hingeDeriv p q * (u - p) ≤ max 0 (1 - q * u) := by
  unfold Cost.hingeDeriv
  split
  next c => rw [max_eq_right c.le]; nlinarith [le_max_right 0 (1 - q * u)]
  next c => rw [max_eq_left (not_lt.1 c), zero_mul, add_zero]; exact le_max_left _ _

/-- The slopes used by the code are a subgradient of the loss. -/
theorem svm_subgradient {C : ℝ} (hC : 0 ≤ C) (hn : 0 < n) (X : Matrix (Fin n) (Fin k) ℝ) (y : Fin n → ℝ) (θ : Params k) :
    Subgradient (svmLoss C X y) θ (fun j => (∑ i, X i j * (Cost.hingeDeriv (linear X θ i) (y i) * C)) / n)
      ((∑ i, Cost.hingeDeriv (linear X θ i) (y i) * C) / n) := by
  intro η
  have hn' : (0 : ℝ) < n := by exact_mod_cast hn
  obtain ⟨g, eg⟩ : ∃ g : Fin n → ℝ, g = fun i => Cost.hingeDeriv (linear X θ i) (y i) := ⟨_, rfl⟩
  have eg' : ∀ i, Cost.hingeDeriv (linear X θ i) (y i) = g i := fun i => by rw [eg]
  simp only [eg']
  have key : ∑ j, (∑ i, X i j * (g i * C)) / n * (η.1 j - θ.1 j) + (∑ i, g i * C) / n * (η.2 - θ.2) =
      C * ((∑ i, g i * (linear X η i - linear X θ i)) / n) := by
    have e1 : ∀ j, (∑ i, X i j * (g i * C)) / n * (η.1 j - θ.1 j) = ∑ i, C / n * (g i * (X i j * (η.1 j - θ.1 j))) := fun j => by
      rw [div_mul_eq_mul_div, Finset.sum_mul, Finset.sum_div]
      exact Finset.sum_congr rfl fun i _ => by ring
    simp only [e1]
    rw [Finset.sum_comm, div_mul_eq_mul_div, Finset.sum_mul, Finset.sum_div, ← Finset.sum_add_distrib, ← mul_div_assoc, Finset.mul_sum,
      Finset.sum_div]
    refine Finset.sum_congr rfl fun i _ => ?_
    have e2 : linear X η i - linear X θ i = ∑ j, X i j * (η.1 j - θ.1 j) + (η.2 - θ.2) := by
      unfold linear; simp only [mul_sub, Finset.sum_sub_distrib]; ring
    rw [e2, ← Finset.mul_sum, ← Finset.mul_sum]
    ring
  unfold svmLoss hinge
  rw [add_assoc, key, ← mul_add, num, Fintype.card_fin, ← add_div, ← Finset.sum_add_distrib]
  refine mul_le_mul_of_nonneg_left ?_ hC
  refine div_le_div_of_nonneg_right (Finset.sum_le_sum fun i _ => ?_) hn'.le
  rw [← eg' i]
  exact hinge_line _ _ _

/-- C100 (stochastic training): every epoch of `train_sgd` makes one step of the subgradient method on `C` times the hinge loss of the drawn
sample, and then subtracts from every weight the learning rate times itself. -/
theorem C100_sgd (R : Ready s h X y θ) {p : Fin n → ℝ} (hp : HasV h s.y_hat p) {pick : Nat → Nat} (hpick : ∀ e, pick e < n) {C : ℝ}
    (hC : 0 ≤ C) (lr : ℝ) (e : Int) :
    Runs (Svc.train_sgd s C pick lr e) h fun s' h' => ∃ θ', Trained signOf s h s' h' X y θ' ∧
      Chain (fun t => SubgradStep (svmLoss C (sampleX X ⟨pick (t + 1), hpick _⟩) (sampleY y ⟨pick (t + 1), hpick _⟩)) lr (fun x => x - lr * x))
        (epochCount e) θ θ' := by
  refine (Svc.sgd_run R hp hpick C lr e).mono fun s' h' T => ⟨_, T, chain_walk (fun t θ => ?_) _ _⟩
  refine ⟨_, _, svm_subgradient hC one_pos _ _ θ, ?_⟩
  have el : ∀ i : Fin n, linear (sampleX X i) θ 0 = linear X θ i := fun _ => rfl
  unfold Svc.sgdStep
  simp only [Fin.sum_univ_one, Nat.cast_one, div_one, el, sampleX, sampleY, decay]
  refine Prod.ext (funext fun j => ?_) rfl
  simp only
  ring

/-- C100 (gradient descent, as far as it holds): the weights make a step of the subgradient method on `C` times the mean hinge loss, and then
lose the fraction `learning_rate / n`; the bias moves *along* the slope instead of against it, and the slope is taken at the predicted signs. -/
theorem C100_gradient_descent_partial (R : Ready s h X y θ) {p : Fin n → ℝ} (hp : HasV h s.y_hat p) (hn : 0 < n) {C : ℝ} (hC : 0 ≤ C) (lr : ℝ)
    (e : Int) :
    Runs (Svc.train_gradient_descent s C lr e) h fun s' h' => ∃ θ', Trained signOf s h s' h' X y θ' ∧
      Chain (fun _ θ θ' => (∃ g c, Subgradient (svmLoss C X y) θ g c ∧
          ∀ j, θ'.1 j = (θ.1 j - lr * g j) - lr / n * (θ.1 j - lr * g j)) ∧
        θ'.2 = θ.2 + lr * C * (∑ i, if y i * signOf (linear X θ i) < 1 then - y i else 0) / n) (epochCount e) θ θ' := by
  refine (Svc.gd_run R hp C lr e).mono fun s' h' T => ⟨_, T, chain_walk (fun t θ => ⟨⟨_, _, svm_subgradient hC hn X y θ, fun j => ?_⟩, ?_⟩) _ _⟩
  · simp only [Svc.gdStep, decay]
    ring
  · simp only [Svc.gdStep, Cost.hingeDeriv, sub_pos]
    rw [← Finset.sum_mul]
    ring

/-- C100 (gradient descent: false): for one sample with label 1 or -1 on the wrong side of the plane, any `C > 0` and any positive learning
rate, an epoch moves the bias away from the label: with the old weights, the loss is greater than before. -/
theorem C100_gradient_descent_fails {X : Matrix (Fin 1) (Fin k) ℝ} {y : Fin 1 → ℝ} (R : Ready s h X y θ) {p : Fin 1 → ℝ} (hp : HasV h s.y_hat p)
    {C lr : ℝ} (hC : 0 < C) (hlr : 0 < lr) (hy : y 0 = 1 ∨ y 0 = -1) (hz : y 0 * linear X θ 0 < 0) :
    Runs (Svc.train_gradient_descent s C lr 1) h fun s' h' => ∃ θ', Trained signOf s h s' h' X y θ' ∧
      svmLoss C X y θ < svmLoss C X y (θ.1, θ'.2) := by
  refine (Svc.gd_run R hp C lr 1).mono fun s' h' T => ⟨_, T, ?_⟩
  have w1 : ∀ step : Nat → Params k → Params k, walk step θ (epochCount 1) = step 0 θ := fun _ => rfl
  rw [w1]
  have e2 : (Svc.gdStep C X y lr θ).2 = θ.2 - lr * C * y 0 := by
    have : 0 < 1 - y 0 * signOf (linear X θ 0) := by
      rcases hy with e | e <;> rw [e] at hz ⊢
      · have : linear X θ 0 < 0 := by linarith
        simp [signOf, sign_neg this]
      · have : 0 < linear X θ 0 := by linarith
        simp [signOf, sign_pos this]
    simp only [Svc.gdStep, Fin.sum_univ_one, Cost.hingeDeriv, if_pos this, Nat.cast_one, div_one]
    ring
  rw [e2]
  have e3 : linear X (θ.1, θ.2 - lr * C * y 0) 0 = linear X θ 0 - lr * C * y 0 := by unfold linear; simp only; ring
  have yy : y 0 * y 0 = 1 := by rcases hy with e | e <;> rw [e] <;> ring
  unfold svmLoss hinge
  simp only [Fin.sum_univ_one, num, Fintype.card_fin, Nat.cast_one, div_one, e3]
  refine mul_lt_mul_of_pos_left ?_ hC
  have : y 0 * (linear X θ 0 - lr * C * y 0) = y 0 * linear X θ 0 - lr * C := by linear_combination (-(lr * C)) * yy
  rw [this, max_eq_right (by linarith), max_eq_right (by nlinarith [mul_pos hlr hC])]
  nlinarith [mul_pos hlr hC]

/-- C100 (mini-batches: false): `train_mbgd` computes the step of the weights and drops it. Whatever the data, every weight is only multiplied by
`1 - learning_rate / n` for every batch and epoch. -/
theorem C100_mbgd_fails (R : Ready s h X y θ) {p : Fin n → ℝ} (hp : HasV h s.y_hat p) (C lr : ℝ) (e : Int) {b K : Nat} (hb : 0 < b)
    (eK : n / b = K) (hK : 0 < K) :
    Runs (Svc.train_mbgd s C lr e b) h fun s' h' => ∃ B, Trained signOf s h s' h' X y (fun j => (1 - lr / n) ^ (epochCount e * K) * θ.1 j, B) := by
  refine (Svc.mbgd_run R hp C lr e hb eK hK).mono fun s' h' T => ?_
  have key : ∀ N, (walk (roundStep hK fun _ i => Svc.mbStep C lr n (batchX X K i) (firstY y K)) θ N).1 = fun j => (1 - lr / n) ^ N * θ.1 j := by
    intro N
    induction N with
    | zero => funext j; simp [walk]
    | succ N ih =>
      funext j
      show decay .ridge (lr / n) 0 ((walk (roundStep hK fun _ i => Svc.mbStep C lr n (batchX X K i) (firstY y K)) θ N).1 j) = _
      rw [ih]
      simp only [decay]
      ring
  exact ⟨_, by rw [← key]; exact T⟩

/-- The hypotheses are met: three samples of two columns. -/
example : Ready (exGlm .none) glmHeap exX exY exθ ∧ HasV glmHeap (exGlm .none).y_hat (![0, 0, 0] : Fin 3 → ℝ) ∧ (∀ e : Nat, e % 3 < 3) ∧
    (0 < 1 ∧ 3 / 1 = 3 ∧ 0 < 3) ∧ (0 : ℝ) ≤ 1 := ⟨exReady _, exShown _, fun e => Nat.mod_lt _ (by norm_num), by decide, by norm_num⟩

/-- The hypotheses of `C100_gradient_descent_fails` are met: the sample 2 with label -1, weight 1 and bias 0. -/
example : ∃ (h : Heap ℝ) (s : Glm) (X : Matrix (Fin 1) (Fin 1) ℝ) (y : Fin 1 → ℝ) (θ : Params 1) (p : Fin 1 → ℝ), Ready s h X y θ ∧ HasV h s.y_hat p ∧
    (y 0 = 1 ∨ y 0 = -1) ∧ y 0 * linear X θ 0 < 0 := by
  refine ⟨Heap.ofLists 0 [[-1], [1], [0]] [(1, 1, [2])], ⟨true, some (.m 0), some (.v 0), none, some (.v 2), some (.v 1), 0, .none, 0, 0, 1, 1⟩,
    fun _ _ => 2, ![-1], (![1], 0), ![0],
    ⟨Heap.ofLists_wf _ _ _ (by simp), rfl, rfl, ⟨0, rfl, ?_, ?_⟩, ⟨0, rfl, ?_, ?_⟩, ⟨1, rfl, ?_, ?_⟩, rfl, by simp⟩, ⟨2, rfl, ?_, ?_⟩, .inr rfl, ?_⟩
  · simp [Heap.ofLists, Heap.live, Loc.id]
  · refine ⟨by simp [Heap.ofLists], fun i j => ?_⟩
    fin_cases i; fin_cases j; simp [Heap.ofLists]
  · simp [Heap.ofLists, Heap.live, Loc.id]
  · exact ⟨by simp [Heap.ofLists], fun i => by fin_cases i; simp [Heap.ofLists]⟩
  · simp [Heap.ofLists, Heap.live, Loc.id]
  · exact ⟨by simp [Heap.ofLists], fun i => by fin_cases i; simp [Heap.ofLists]⟩
  · simp [Heap.ofLists, Heap.live, Loc.id]
  · exact ⟨by simp [Heap.ofLists], fun i => by fin_cases i; simp [Heap.ofLists]⟩
  · simp [linear]

end Verif
