import Verif.Lemmas.ExpReg
import Verif.Lemmas.GlmExample
import Verif.Props.Performance
import Verif.Props.GlmStochastic

/-! # C113–C115: exponential regression -/

namespace Verif
open Spec Finset ExpReg
variable {n k m : Nat} {h h' : Heap ℝ} {s : Glm} {a : Ref} {X : Matrix (Fin n) (Fin k) ℝ} {y : Fin n → ℝ} {θ : EParams k}

/-! ## Predictions -/

/-- **C113**: the prediction for a vector of inputs is `Σ a_j w_j ^ x_j + b`; nothing changes. -/
theorem C113_model_test (R : ExpReady s a h X y θ) {r : Ref} {x : Fin k → ℝ} (hx : HasV h r x) :
    model_test s a r h = .ok (∑ j, θ.1 j * θ.2.1 j ^ x j + θ.2.2, h) := by
  rw [← R.base.bias]
  exact evaluatev_run R.base.wf hx R.base.weights R.init

/-- **C113**: the predictions for a matrix of inputs are a new vector with the prediction for every row. -/
theorem C113_model_set_test (R : ExpReady s a h X y θ) {r : Ref} {Z : Matrix (Fin m) (Fin k) ℝ} (hz : HasM h r Z) :
    ReturnsVec (model_set_test s a r) h fun i => ∑ j, θ.1 j * θ.2.1 j ^ Z i j + θ.2.2 := by
  rw [← R.base.bias]
  exact evaluatem_spec R.base.wf hz R.base.weights R.init

/-- **C113**: an object made from an input set and an output set is set up; the weights, the initial values and the bias are the numbers drawn. -/
theorem C113_create (gw ga gb : Utilities.Source) (w : h.WF) {p q : Ref} (hp : HasM h p X) (hq : HasV h q y) (r : Reg.Kind) (l al : ℝ) :
    Runs (create gw ga gb p q r l al) h fun o h' => ∃ θ u, ExpReady o.1 o.2 h' X y θ ∧ HasV h' o.1.y_hat (u : Fin n → ℝ) ∧
      Keeps h h' (fun _ => False) ∧ o.1.initialized = true ∧ o.1.input_set = p ∧ o.1.output_set = q ∧ o.1.reg = r ∧ o.1.lambda = l ∧ o.1.alpha = al ∧
      (∀ j, θ.1 j = ga.u j) ∧ (∀ j, θ.2.1 j = gw.u j) ∧ θ.2.2 = gb.u 0 := by
  unfold create
  refine Runs.step (Hd.sizem_run hp) ?_
  refine stepNewV w fun o1 h1 v1 w1 k1 f1 a1 => ?_
  adv k1
  refine stepNewV w1 fun o2 h2 v2 w2 k2 f2 a2 => ?_
  have ne : q ≠ some (.v o2) := (f2.ne hq).symm
  have ne1 : some (Loc.v o1) ≠ some (Loc.v o2) := (f2.ne a1).symm
  have K2 := k1.trans k2
  have F2 := f2.mono k1
  adv k2
  obtain ⟨_, e2, l2, i2⟩ := a2
  cases e2
  refine Runs.bind ((Utilities.C64_vector gw h2 w2 o2 v2 i2 .default).mono fun _ h3 ⟨w3, k3, a3⟩ => ?_)
  have k3' : Keeps h2 h3 (some · = some (Loc.v o2)) := k3.mono fun _ _ e => congrArg some e
  have K3 := K2.trans_new k3' fun l e hl => F2 l e.symm hl
  have hp := hp.off k3' (v := v2) ⟨o2, rfl, l2, i2⟩
  have hq := hq.off k3' ne
  have a1 := a1.off k3' ne1
  have a3 : HasV h3 (some (.v o2)) _ := ⟨o2, rfl, k3'.live l2, a3⟩
  refine stepNewV w3 fun o4 h4 v4 w4 k4 f4 a4 => ?_
  have n4 : q ≠ some (.v o4) := (f4.ne hq).symm
  have n41 : some (Loc.v o1) ≠ some (Loc.v o4) := (f4.ne a1).symm
  have n42 : some (Loc.v o2) ≠ some (Loc.v o4) := (f4.ne a3).symm
  have K4 := K3.trans k4
  have F4 := f4.mono K3
  adv k4
  obtain ⟨_, e4, l4, i4⟩ := a4
  cases e4
  refine Runs.bind ((Utilities.C64_vector ga h4 w4 o4 v4 i4 .default).mono fun _ h5 ⟨w5, k5, a5⟩ => ?_)
  have k5' : Keeps h4 h5 (some · = some (Loc.v o4)) := k5.mono fun _ _ e => congrArg some e
  have K5 := K4.trans_new k5' fun l e hl => F4 l e.symm hl
  refine Runs.step (show Utilities.bias_initializationr gb h5 = .ok (gb.u 0, h5) from Utilities.uniform01_run gb 0 h5) ?_
  refine Runs.of_eq rfl ⟨(_, _, gb.u 0), v1, ⟨⟨w5, rfl, rfl, hp.off k5' (v := v4) ⟨o4, rfl, l4, i4⟩, hq.off k5' n4, a3.off k5' n42, rfl, ne⟩,
    ⟨o4, rfl, k5'.live l4, a5⟩, n42.symm, n4.symm⟩, a1.off k5' n41, K5, rfl, rfl, rfl, rfl, rfl, rfl, fun _ => rfl, fun _ => rfl, rfl⟩

/-- **C113**: the score is the fraction of the stored predictions that round to the wanted integer output. -/
theorem C113_score (w : h.WF) {p : Fin n → ℝ} {t : Fin n → Int} (hn : 0 < n) (hp : HasV h s.y_hat p) (ht : HasV h s.output_set fun i => (t i : ℝ))
    (hb : ∀ i, |(t i : ℝ)| < 99999) : score s h = .ok (fraction fun i => Nearest (p i) (t i), h) := by
  obtain ⟨u, eu, -, iu⟩ := hp
  obtain ⟨v, ev, -, iv⟩ := ht
  unfold score
  rw [eu, ev]
  exact Utilities.C62_vec h w u v p t hn iu iv hb

/-! ## The slopes -/

theorem halfMse_deriv {p : ℝ → Fin m → ℝ} {d : Fin m → ℝ} {t : ℝ} (z : Fin m → ℝ) (hp : ∀ i, HasDerivAt (fun t => p t i) (d i) t) :
    HasDerivAt (fun t => halfMse (p t) z) ((∑ i, (p t i - z i) * d i) / m) t := by
  unfold halfMse num
  have h1 : HasDerivAt (fun t => ∑ i, (p t i - z i) ^ 2) (∑ i, 2 * ((p t i - z i) * d i)) t := by
    refine HasDerivAt.fun_sum fun i _ => ?_
    have := ((hp i).sub_const (z i)).pow 2
    refine this.congr_deriv ?_
    simp; ring
  refine (h1.div_const _).congr_deriv ?_
  rw [← Finset.mul_sum, Fintype.card_fin, mul_div_mul_left _ _ two_ne_zero]

theorem slopes (X : Matrix (Fin m) (Fin k) ℝ) (y : Fin m → ℝ) (θ : EParams k) (hw : ∀ j, 0 < θ.2.1 j) :
    Slopes (expLoss X y) θ (slopeA X (fun i => expModel X θ i - y i) θ.2.1) (fun j => θ.1 j * slopeW X (fun i => expModel X θ i - y i) θ.2.1 j)
      ((∑ i, (expModel X θ i - y i)) / m) := by
  obtain ⟨c, w, b⟩ := θ
  dsimp only at hw ⊢
  refine ⟨fun j => ?_, fun j => ?_, ?_⟩
  · have hd : ∀ i, HasDerivAt (fun t => expModel X (Function.update c j t, w, b) i) (w j ^ X i j) (c j) := by
      intro i
      unfold expModel
      refine HasDerivAt.add_const _ ?_
      have : HasDerivAt (fun t => ∑ l, Function.update c j t l * w l ^ X i l) (∑ l, if l = j then w l ^ X i l else 0) (c j) := by
        refine HasDerivAt.fun_sum fun l _ => ?_
        by_cases e : l = j
        · subst e
          simp only [Function.update_self, if_true]
          simpa using (hasDerivAt_id (c l)).mul_const (w l ^ X i l)
        · simp only [Function.update_of_ne e, if_neg e]
          exact hasDerivAt_const _ _
      simpa using this
    have := halfMse_deriv y hd
    simp only [Function.update_eq_self] at this
    exact this
  · have hd : ∀ i, HasDerivAt (fun t => expModel X (c, Function.update w j t, b) i) (c j * (X i j * w j ^ (X i j - 1))) (w j) := by
      intro i
      unfold expModel
      refine HasDerivAt.add_const _ ?_
      have : HasDerivAt (fun t => ∑ l, c l * Function.update w j t l ^ X i l) (∑ l, if l = j then c l * (X i l * w l ^ (X i l - 1)) else 0) (w j) := by
        refine HasDerivAt.fun_sum fun l _ => ?_
        by_cases e : l = j
        · subst e
          simp only [Function.update_self, if_true]
          exact (Real.hasDerivAt_rpow_const (.inl (hw l).ne')).const_mul (c l)
        · simp only [Function.update_of_ne e, if_neg e]
          exact hasDerivAt_const _ _
      simpa using this
    have := halfMse_deriv y hd
    simp only [Function.update_eq_self] at this
    refine this.congr_deriv ?_
    show _ = c j * ((∑ i, _) / _)
    rw [mul_div_assoc', Finset.mul_sum]
    refine congrArg (· / _) (Finset.sum_congr rfl fun i _ => ?_)
    ring
  · have hd : ∀ i, HasDerivAt (fun t => expModel X (c, w, t) i) 1 b := fun i => by
      show HasDerivAt (fun t => ∑ j, c j * w j ^ X i j + t) 1 b
      exact (hasDerivAt_id' b).const_add _
    refine (halfMse_deriv y hd).congr_deriv ?_
    simp only [mul_one]

theorem gdStep_div (X : Matrix (Fin m) (Fin k) ℝ) (y : Fin m → ℝ) (D : ℝ → ℝ) (lr : ℝ) (θ : EParams k) (hw : ∀ j, 0 < θ.2.1 j) :
    ExpStepDiv (expLoss X y) lr D θ (gdStep D X y lr θ) := ⟨_, _, _, _, slopes X y θ hw, fun _ => rfl, rfl⟩

theorem _root_.Verif.Spec.ExpStepDiv.exact {L : EParams k → ℝ} {lr : ℝ} {D : ℝ → ℝ} {θ θ' : EParams k} (S : ExpStepDiv L lr D θ θ')
    (one : ∀ j, θ.1 j = 1) : ExpStep L lr D θ θ' := by
  obtain ⟨ga, gw, gb, u, s, e, rfl⟩ := S
  refine ⟨ga, gw, gb, s, ?_⟩
  have : u = gw := funext fun j => by rw [e, one, one_mul]
  rw [this]

/-- **C114**, partial: what `gradient_descent` does from an object that is set up. Every epoch whose weights are positive is a step of gradient descent
on half the mean squared error, except that the slope by weight `j` is divided by initial value `j`; when all initial values are 1 it is
the step of gradient descent. Missing: the right factor in general (see `C114_gradient_descent_fails`). -/
theorem C114_gradient_descent_partial (R : ExpReady s a h X y θ) (lr : ℝ) (e : Int) :
    Runs (gradient_descent s a lr e) h fun s' h' => ∃ θ' : EParams k, Chain (fun _ η η' => (∀ j, 0 < η.2.1 j) →
      ExpStepDiv (expLoss X y) lr (decay s.reg s.lambda s.alpha) η η' ∧
        ((∀ j, η.1 j = 1) → ExpStep (expLoss X y) lr (decay s.reg s.lambda s.alpha) η η')) (epochCount e) θ θ' ∧
      ExpTrained s a h s' h' X y θ' :=
  (gd_run R lr e).mono fun _ _ T => ⟨_, Glm.chain_walk (fun _ η hw =>
    have S := gdStep_div X y (decay s.reg s.lambda s.alpha) lr η hw
    ⟨S, fun one => S.exact one⟩) _ _, T⟩

/-- The step with sample `i` is the step on that sample alone. -/
theorem sgdStep_eq (D : ℝ → ℝ) (X : Matrix (Fin n) (Fin k) ℝ) (y : Fin n → ℝ) (lr : ℝ) (i : Fin n) (θ : EParams k) :
    sgdStep D X y lr i θ = gdStep D (sampleX X i) (sampleY y i) lr θ := by
  unfold sgdStep gdStep stepWith slopeA slopeW sampleX sampleY
  simp [expModel]

/-- **C114**, partial: the same for `sgd`; `pick e` is the row drawn in epoch `e`. The step of an epoch is that of gradient descent on the sample
drawn, with the same division. -/
theorem C114_sgd_partial (R : ExpReady s a h X y θ) {pick : Nat → Nat} (hp : ∀ e, pick e < n) (lr : ℝ) (e : Int) :
    Runs (sgd s a pick lr e) h fun s' h' => ∃ θ' : EParams k, Chain (fun t η η' => (∀ j, 0 < η.2.1 j) →
      ExpStepDiv (expLoss (sampleX X ⟨pick (t + 1), hp _⟩) (sampleY y ⟨pick (t + 1), hp _⟩)) lr (decay s.reg s.lambda s.alpha) η η' ∧
        ((∀ j, η.1 j = 1) → ExpStep (expLoss (sampleX X ⟨pick (t + 1), hp _⟩) (sampleY y ⟨pick (t + 1), hp _⟩)) lr
          (decay s.reg s.lambda s.alpha) η η')) (epochCount e) θ θ' ∧
      ExpTrained s a h s' h' X y θ' :=
  (sgd_run R ((Nat.zero_le _).trans_lt (hp 0)) hp lr e).mono fun _ _ T => ⟨_, Glm.chain_walk (fun t η hw => by
    have S := gdStep_div (sampleX X ⟨pick (t + 1), hp _⟩) (sampleY y ⟨pick (t + 1), hp _⟩) (decay s.reg s.lambda s.alpha) lr η hw
    rw [← sgdStep_eq] at S
    exact ⟨S, fun one => S.exact one⟩) _ _, T⟩

/-- **C114** fails: without regularisation, after one epoch with a positive learning rate a weight whose initial value is negative has moved *along*
the slope of the loss, not against it. -/
theorem C114_gradient_descent_fails (R : ExpReady s a h X y θ) (hr : s.reg = .none) {lr : ℝ} (hl : 0 < lr) (hw : ∀ j, 0 < θ.2.1 j)
    {ga gw : Fin k → ℝ} {gb : ℝ} (S : Slopes (expLoss X y) θ ga gw gb) (j : Fin k) (hj : θ.1 j < 0) (hg : gw j ≠ 0) :
    Runs (gradient_descent s a lr 1) h fun s' h' => ∃ θ' : EParams k, ExpTrained s a h s' h' X y θ' ∧ 0 < (θ'.2.1 j - θ.2.1 j) * gw j := by
  refine (gd_run R lr 1).mono fun s' h' T => ⟨_, T, ?_⟩
  have e1 : gw j = θ.1 j * slopeW X (fun i => expModel X θ i - y i) θ.2.1 j := (S.weights j).unique ((slopes X y θ hw).weights j)
  show 0 < (decay s.reg s.lambda s.alpha (θ.2.1 j - lr * slopeW X (fun i => expModel X θ i - y i) θ.2.1 j) - θ.2.1 j) * gw j
  rw [hr]
  show 0 < (θ.2.1 j - lr * slopeW X (fun i => expModel X θ i - y i) θ.2.1 j - θ.2.1 j) * gw j
  rw [e1] at hg ⊢
  obtain ⟨u, eu⟩ : ∃ u, u = slopeW X (fun i => expModel X θ i - y i) θ.2.1 j := ⟨_, rfl⟩
  rw [← eu] at hg ⊢
  have hu : 0 < u * u := mul_self_pos.2 (right_ne_zero_of_mul hg)
  nlinarith [mul_pos hl hu, mul_pos (mul_pos hl hu) (neg_pos.2 hj)]

/-- The slopes exist when the weights are positive. -/
example (X : Matrix (Fin m) (Fin k) ℝ) (y : Fin m → ℝ) (θ : EParams k) (hw : ∀ j, 0 < θ.2.1 j) : ∃ ga gw gb, Slopes (expLoss X y) θ ga gw gb :=
  ⟨_, _, _, slopes X y θ hw⟩

/-- **C114**: without samples `sgd` has no defined behaviour (it asks for a random number between 0 and -1). -/
theorem C114_sgd_empty_fails (hn : s.n = 0) (pick : Nat → Nat) (lr : ℝ) (e : Int) : sgd s a pick lr e h = .ub := by
  unfold sgd; rw [if_pos hn]; rfl

/-! ## Mini-batches -/

theorem mbColumns_other (X : Matrix (Fin m) (Fin k) ℝ) (e : Fin m → ℝ) (lr : ℝ) (t : Nat) (p : (Fin k → ℝ) × (Fin k → ℝ)) (i : Nat) (j : Fin k)
    (hj : j.val ≠ t) : (mbColumns X e lr t p i).1 j = p.1 j ∧ (mbColumns X e lr t p i).2 j = p.2 j := by
  induction i with
  | zero => exact ⟨rfl, rfl⟩
  | succ i ih =>
    rw [mbColumns]
    split
    · simp only [mbColumn, lowered, if_neg hj]; exact ih
    · exact ih

/-- **C115** fails: mini-batch training never changes the bias, and (with `K` batches) leaves every initial value with number `K` or more as it is
and only applies the regularisation to the weights with number `K` or more. -/
theorem C115_mbgd_fails (R : ExpReady s a h X y θ) (lr : ℝ) (e : Int) {b K : Nat} (hb : 0 < b) (eK : n / b = K) (hK : 0 < K) :
    Runs (mbgd s a lr e b) h fun s' h' => ∃ θ' : EParams k, ExpTrained s a h s' h' X y θ' ∧ θ'.2.2 = θ.2.2 ∧
      (∀ j : Fin k, K ≤ j → θ'.1 j = θ.1 j ∧ θ'.2.1 j = (decay s.reg s.lambda s.alpha)^[epochCount e * K] (θ.2.1 j)) := by
  refine (mbgd_run R lr e hb eK hK).mono fun s' h' T => ⟨_, T, ?_⟩
  generalize epochCount e * K = N
  clear T
  induction N with
  | zero => exact ⟨rfl, fun j _ => ⟨rfl, rfl⟩⟩
  | succ N ih =>
    obtain ⟨i1, i2⟩ := ih
    refine ⟨i1, fun j hj => ?_⟩
    have ne : j.val ≠ N % K := by have := Nat.mod_lt N hK; omega
    refine ⟨(mbColumns_other _ _ _ _ _ _ j ne).1.trans (i2 j hj).1, ?_⟩
    rw [Function.iterate_succ_apply', ← (i2 j hj).2]
    exact congrArg (decay s.reg s.lambda s.alpha) (mbColumns_other _ _ _ _ _ _ j ne).2

/-- The elements of a batch that is not the batch with the number of the element only get the regularisation; the others get the sum of what all columns
ask for. With one column and one batch the step is that of `gradient_descent` without the bias. -/
theorem mbStep_one (D : ℝ → ℝ) (X : Matrix (Fin m) (Fin 1) ℝ) (y : Fin m → ℝ) (lr : ℝ) (θ : EParams 1) :
    mbStep D X y lr 0 θ = ((gdStep D X y lr θ).1, (gdStep D X y lr θ).2.1, θ.2.2) := by
  unfold mbStep gdStep stepWith
  have e : ∀ (f : Fin m → ℝ), mbColumns X f lr 0 (θ.1, θ.2.1) 1 = (fun j => θ.1 j - lr * slopeA X f θ.2.1 j, fun j => θ.2.1 j - lr * slopeW X f θ.2.1 j) := by
    intro f
    rw [mbColumns, dif_pos Nat.one_pos]
    unfold mbColumn lowered mbColumns
    refine Prod.ext (funext fun j => ?_) (funext fun j => ?_)
    · have : j = 0 := Subsingleton.elim _ _
      subst this; rfl
    · have : j = 0 := Subsingleton.elim _ _
      subst this; rfl
  rw [e]

/-- **C115**, partial: with one column of inputs and one batch, every epoch whose weight is positive moves the weight and the initial value as a step of
gradient descent on the loss of the batch does, except that the slope by the weight is divided by the initial value. Missing: the bias, more columns,
more batches (see `C115_mbgd_fails`). -/
theorem C115_mbgd_partial {X : Matrix (Fin n) (Fin 1) ℝ} {θ : EParams 1} (R : ExpReady s a h X y θ) (lr : ℝ) (e : Int) {b : Nat} (hb : 0 < b)
    (eK : n / b = 1) :
    Runs (mbgd s a lr e b) h fun s' h' => ∃ θ' : EParams 1, ExpTrained s a h s' h' X y θ' ∧ Chain (fun _ η η' => (∀ j, 0 < η.2.1 j) →
      ∃ η'', ExpStepDiv (expLoss (batchX X 1 0) (batchY y 1 0)) lr (decay s.reg s.lambda s.alpha) η η'' ∧
        η'.1 = η''.1 ∧ η'.2.1 = η''.2.1) (epochCount e) θ θ' := by
  refine (mbgd_run R lr e hb eK Nat.one_pos).mono fun s' h' T => ⟨_, T, ?_⟩
  rw [Nat.mul_one]
  refine Glm.chain_walk (fun t η hw => ?_) _ _
  have eb : batchY y 1 0 = firstY y 1 := by unfold batchY firstY; simp
  have ei : (⟨t % 1, Nat.mod_lt _ Nat.one_pos⟩ : Fin 1) = 0 := Subsingleton.elim _ _
  refine ⟨_, gdStep_div (batchX X 1 0) (batchY y 1 0) (decay s.reg s.lambda s.alpha) lr η hw, ?_⟩
  unfold Glm.roundStep
  rw [ei]
  show (mbStep _ (batchX X 1 0) (firstY y 1) lr 0 η).1 = _ ∧ (mbStep _ (batchX X 1 0) (firstY y 1) lr 0 η).2.1 = _
  rw [mbStep_one, eb]
  exact ⟨rfl, rfl⟩

/-- The hypotheses are met: weights 7 and 8, initial values 5 and -5. -/
theorem exExpReady (r : Reg.Kind) : ExpReady (exGlm r) (some (.v 3)) glmHeap exX exY ((![5, -5], exθ) : EParams 2) :=
  ⟨exReady r, exSample, by simp [exGlm], by simp [exGlm]⟩

example : (∀ j : Fin 2, 0 < exθ.1 j) ∧ (![5, -5] : Fin 2 → ℝ) 1 < 0 ∧ (exGlm .none).reg = .none := by
  refine ⟨fun j => ?_, by norm_num, rfl⟩
  fin_cases j <;> norm_num [exθ]

/-- In the example the slope by the second weight is not zero. -/
example {ga gw : Fin 2 → ℝ} {gb : ℝ} (S : Slopes (expLoss exX exY) ((![5, -5], exθ) : EParams 2) ga gw gb) : gw 1 ≠ 0 := by
  have hw : ∀ j : Fin 2, 0 < exθ.1 j := fun j => by fin_cases j <;> norm_num [exθ]
  have e1 := (S.weights 1).unique ((slopes exX exY ((![5, -5], exθ) : EParams 2) hw).weights 1)
  rw [e1]
  have p1 : ∀ x : ℝ, x ^ (2 : ℝ) = x ^ (2 : Nat) := fun x => by exact_mod_cast Real.rpow_natCast x 2
  have p2 : ∀ x : ℝ, x ^ (3 : ℝ) = x ^ (3 : Nat) := fun x => by exact_mod_cast Real.rpow_natCast x 3
  have p3 : ∀ x : ℝ, x ^ (4 : ℝ) = x ^ (4 : Nat) := fun x => by exact_mod_cast Real.rpow_natCast x 4
  have p4 : ∀ x : ℝ, x ^ (5 : ℝ) = x ^ (5 : Nat) := fun x => by exact_mod_cast Real.rpow_natCast x 5
  have p5 : ∀ x : ℝ, x ^ (6 : ℝ) = x ^ (6 : Nat) := fun x => by exact_mod_cast Real.rpow_natCast x 6
  simp only [slopeW, expModel, exX, exY, exθ, Fin.sum_univ_three, Fin.sum_univ_two]
  simp
  norm_num [p1, p2, p3, p4, p5]

end Verif
