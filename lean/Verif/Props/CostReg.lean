import Verif.Props.CostMore

/-!
# C59, C60: selection of a cost by its type, and regularisation (`MLPPReg`)
-/

namespace Verif
open Spec Cost Finset LinAlg
variable {m n : Nat}

/-! ## Selection -/

/-- **C59.** `run_cost_norm_vector` returns the loss named by the cost type (for `mse` with the factor of C57). -/
theorem C59_norm_vector (h : Heap ℝ) (w : h.WF) (a b : Nat) (p y : Fin n → ℝ) (hn : 0 < n) (ha : IsVec h a p) (hb : IsVec h b y)
    (hp : ∀ i, 0 < p i ∧ p i ≤ 1) :
    let r := fun k => run_cost_norm_vector k (some (.v a)) (some (.v b)) h
    r .mse = .ok ((n : ℝ) ^ 2 * halfMse p y, h) ∧ r .rmse = .ok (rmse p y, h) ∧ r .mae = .ok (mae p y, h) ∧
    r .mbe = .ok (mbe p y, h) ∧ r .logistic_loss = .ok (logLoss (1e-8) p y, h) ∧ r .cross_entropy = .ok (crossEntropy p y, h) ∧
    r .hinge_loss = .ok (hinge p y, h) ∧ r .wasserstein_loss = .ok (wasserstein p y, h) := by
  obtain ⟨r1, r2, r3⟩ := C57_regression h w a b p y hn ha hb
  obtain ⟨c1, c2, c3, c4⟩ := C57_classification h w a b p y hn ha hb
  exact ⟨(C57_mse_partial (m := 0) h w a b).1 p y ha hb, r1, r2, r3, c1 fun i => ⟨(hp i).1.le, (hp i).2⟩, c2 fun i => (hp i).1, c3, c4⟩

/-- **C59.** The same for matrices (`mse` and `rmse` with the factors of C57). -/
theorem C59_norm_matrix (h : Heap ℝ) (w : h.WF) (a b : Nat) (A B : Matrix (Fin m) (Fin n) ℝ) (hm : 0 < m) (hn : 0 < n)
    (ha : IsMat h a A) (hb : IsMat h b B) (hp : ∀ i j, 0 < A i j ∧ A i j ≤ 1) :
    let r := fun k => run_cost_norm_matrix k (some (.m a)) (some (.m b)) h
    r .mse = .ok (((n * m : ℕ) : ℝ) ^ 2 * halfMse (cells A) (cells B), h) ∧
    r .rmse = .ok (Real.sqrt n * rmse (cells A) (cells B), h) ∧ r .mae = .ok (mae (cells A) (cells B), h) ∧
    r .mbe = .ok (mbe (cells A) (cells B), h) ∧ r .logistic_loss = .ok (logLoss (1e-8) (cells A) (cells B), h) ∧
    r .cross_entropy = .ok (crossEntropy (cells A) (cells B), h) ∧
    r .hinge_loss = .ok (hinge (cells A) (cells B), h) ∧ r .wasserstein_loss = .ok (wasserstein (cells A) (cells B), h) := by
  obtain ⟨r1, r2, r3, r4, r5, r6⟩ := C57_matrix h w a b A B hn hm ha hb
  exact ⟨(C57_mse_partial h w a b).2 A B ha hb, C57_rmsem_partial h w a b A B hm hn ha hb, r1, r2,
    r3 fun i j => ⟨(hp i j).1.le, (hp i j).2⟩, r4 fun i j => (hp i j).1, r5, r6⟩

/-- **C59.** `run_cost_deriv_vector` returns the gradient of the loss named by the cost type, with the factors and conditions of C58. -/
theorem C59_deriv_vector :
    GradientV (run_cost_deriv_vector .mse) (fun ι _ p y => num ι * halfMse p y) (fun _ _ _ => True) ∧
    GradientV (run_cost_deriv_vector .rmse) (fun _ _ p y => (1 / Real.sqrt 2) * rmse p y) (fun _ p y => p ≠ y) ∧
    GradientV (run_cost_deriv_vector .mae) (fun ι _ p y => num ι * mae p y)
      (fun _ p y => ∀ i, InInt (p i) ∧ (1 ≤ p i ∧ y i < p i ∨ p i ≤ -1 ∧ p i < y i)) ∧
    GradientV (run_cost_deriv_vector .mbe) (fun ι _ p y => num ι * mbe p y) (fun _ _ _ => True) ∧
    GradientV (run_cost_deriv_vector .logistic_loss) (fun ι _ p y => num ι * logLoss 0 p y) (fun _ p _ => ∀ i, 0 < p i ∧ p i < 1) ∧
    GradientV (run_cost_deriv_vector .cross_entropy) (fun _ _ p y => crossEntropy p y) (fun _ p _ => ∀ i, 0 < p i) ∧
    GradientV (run_cost_deriv_vector .hinge_loss) (fun ι _ p y => num ι * hinge p y) (fun _ p y => ∀ i, y i * p i ≠ 1) ∧
    GradientV (run_cost_deriv_vector .wasserstein_loss) (fun ι _ p y => num ι * wasserstein p y) (fun _ _ _ => True) :=
  ⟨C58_mse.1, C58_rmse, C58_mae_partial.1, C58_mbe, C58_log_loss.1, C58_cross_entropy.1, C58_hinge.1, C58_wasserstein.1⟩

/-- **C59.** `run_cost_deriv_matrix`, except for `rmse` and `mbe`, whose matrix derivatives are wrong (C58). -/
theorem C59_deriv_matrix :
    GradientM (run_cost_deriv_matrix .mse) (fun ι _ p y => num ι * halfMse p y) (fun _ _ _ => True) ∧
    GradientM (run_cost_deriv_matrix .mae) (fun ι _ p y => num ι * mae p y)
      (fun _ p y => ∀ i, InInt (p i) ∧ (1 ≤ p i ∧ y i < p i ∨ p i ≤ -1 ∧ p i < y i)) ∧
    GradientM (run_cost_deriv_matrix .logistic_loss) (fun ι _ p y => num ι * logLoss 0 p y) (fun _ p _ => ∀ i, 0 < p i ∧ p i < 1) ∧
    GradientM (run_cost_deriv_matrix .cross_entropy) (fun _ _ p y => crossEntropy p y) (fun _ p _ => ∀ i, 0 < p i) ∧
    GradientM (run_cost_deriv_matrix .hinge_loss) (fun ι _ p y => num ι * hinge p y) (fun _ p y => ∀ i, y i * p i ≠ 1) ∧
    GradientM (run_cost_deriv_matrix .wasserstein_loss) (fun ι _ p y => num ι * wasserstein p y) (fun _ _ _ => True) ∧
    (∀ (h : Heap ℝ) (_ : h.WF) (a : Nat) (b : Ref) (m n : Nat) (A : Matrix (Fin m) (Fin n) ℝ), IsMat h a A →
      ReturnsMat (run_cost_deriv_matrix .mbe (some (.m a)) b) h (Matrix.of fun (_ : Fin n) (_ : Fin m) => (1 : ℝ))) ∧
    (∀ (h : Heap ℝ) (_ : h.WF) (a b m n : Nat) (A B : Matrix (Fin m) (Fin n) ℝ), IsMat h a A → IsMat h b B → h.live (.m a) →
      h.live (.m b) → ReturnsMat (run_cost_deriv_matrix .rmse (some (.m a)) (some (.m b))) h
        (Matrix.of fun i j => (A i j - B i j) * (Real.sqrt (((n * m : ℕ) : ℝ) ^ 2 * halfMse (cells A) (cells B)) / 2))) := by
  refine ⟨C58_mse.2, C58_mae_partial.2, C58_log_loss.2, C58_cross_entropy.2, C58_hinge.2, C58_wasserstein.2,
    fun h w a b m n A ha => mbe_derivm_spec w b ha, fun h w a b m n A B ha hb la lb => ?_⟩
  have := rmse_derivm_spec w ha hb la lb
  simp only [one_div_div] at this
  exact this

/-! ## Regularisation -/

/-- **C60.** The regularisation term: half the sum of squares, the sum of absolute values, or the mixture of both, times `lambda`;
zero for no regularisation and for weight clipping. Nothing changes. -/
theorem C60_term (h : Heap ℝ) (w : h.WF) (a : Nat) (v : Fin n → ℝ) (ha : IsVec h a v) (l al : ℝ) :
    let r := fun k => Reg.reg_termv (some (.v a)) l al k h
    r .ridge = .ok (ridgePenalty l v, h) ∧ r .lasso = .ok (lassoPenalty l v, h) ∧ r .elastic_net = .ok (elasticPenalty l al v, h) ∧
    r .none = .ok (0, h) ∧ r .weight_clipping = .ok (0, h) :=
  ⟨Reg.reg_termv_run w ha l al .ridge, Reg.reg_termv_run w ha l al .lasso, Reg.reg_termv_run w ha l al .elastic_net,
    Reg.reg_termv_run w ha l al .none, Reg.reg_termv_run w ha l al .weight_clipping⟩

/-- **C60.** The same for the cells of a matrix. -/
theorem C60_term_matrix (h : Heap ℝ) (w : h.WF) (a : Nat) (A : Matrix (Fin m) (Fin n) ℝ) (ha : IsMat h a A) (l al : ℝ) :
    let r := fun k => Reg.reg_termm (some (.m a)) l al k h
    r .ridge = .ok (ridgePenalty l (cells A), h) ∧ r .lasso = .ok (lassoPenalty l (cells A), h) ∧
    r .elastic_net = .ok (elasticPenalty l al (cells A), h) ∧ r .none = .ok (0, h) ∧ r .weight_clipping = .ok (0, h) :=
  ⟨Reg.reg_termm_run w ha l al .ridge, Reg.reg_termm_run w ha l al .lasso, Reg.reg_termm_run w ha l al .elastic_net,
    Reg.reg_termm_run w ha l al .none, Reg.reg_termm_run w ha l al .weight_clipping⟩

section
variable {ι : Type} [Fintype ι] [DecidableEq ι]

theorem abs_deriv {x : ℝ} (hx : x ≠ 0) : HasDerivAt (fun t : ℝ => |t|) (Activation.sign_normr x) x := by
  unfold Activation.sign_normr
  rcases lt_or_gt_of_ne hx with h | h
  · rw [if_pos h]; exact hasDerivAt_abs_neg h
  · rw [if_neg (not_lt.2 h.le), if_neg hx]; exact hasDerivAt_abs_pos h

theorem ridge_gradient (l al : ℝ) (w : ι → ℝ) : Gradient (ridgePenalty l) w fun i => Reg.derivTerm l al .ridge (w i) := by
  refine gradient_congr (gradient_scale (l / 2) (gradient_sum (F := fun _ t => t ^ 2) (x := w) (g := fun i => 2 * w i) fun i => ?_))
    (fun _ => rfl) fun i => by simp only [Reg.derivTerm]; ring
  refine HasDerivAt.congr_deriv ((hasDerivAt_id (w i)).pow 2) ?_
  simp

theorem lasso_gradient (l al : ℝ) (w : ι → ℝ) (hw : ∀ i, w i ≠ 0) :
    Gradient (lassoPenalty l) w fun i => Reg.derivTerm l al .lasso (w i) :=
  gradient_congr (gradient_scale l (gradient_sum (F := fun _ t => |t|) fun i => abs_deriv (hw i))) (fun _ => rfl) fun _ => rfl

theorem elastic_gradient (l al : ℝ) (w : ι → ℝ) (hw : ∀ i, w i ≠ 0) :
    Gradient (elasticPenalty l al) w fun i => Reg.derivTerm l al .elastic_net (w i) := by
  refine gradient_congr (gradient_scale l (gradient_sum (F := fun _ t => al * |t| + (1 - al) / 2 * t ^ 2) (x := w)
    (g := fun i => al * Activation.sign_normr (w i) + (1 - al) * w i) fun i => ?_))
    (fun _ => rfl) fun i => by simp only [Reg.derivTerm]; ring
  refine HasDerivAt.congr_deriv (((abs_deriv (hw i)).const_mul al).add (((hasDerivAt_id (w i)).pow 2).const_mul ((1 - al) / 2))) ?_
  simp; ring

end

/-- **C60.** `reg_deriv_termv` returns the gradient of the penalty as a new vector: for ridge always, for lasso and elastic net where no
weight is zero; without regularisation zero. -/
theorem C60_deriv (h : Heap ℝ) (w : h.WF) (a : Nat) (v : Fin n → ℝ) (ha : IsVec h a v) (la : h.live (.v a)) (l al : ℝ) :
    (∃ g : Fin n → ℝ, ReturnsVec (Reg.reg_deriv_termv (some (.v a)) l al .ridge) h g ∧ Gradient (ridgePenalty l) v g) ∧
    ((∀ i, v i ≠ 0) → ∃ g : Fin n → ℝ, ReturnsVec (Reg.reg_deriv_termv (some (.v a)) l al .lasso) h g ∧
      Gradient (lassoPenalty l) v g) ∧
    ((∀ i, v i ≠ 0) → ∃ g : Fin n → ℝ, ReturnsVec (Reg.reg_deriv_termv (some (.v a)) l al .elastic_net) h g ∧
      Gradient (elasticPenalty l al) v g) ∧
    ReturnsVec (Reg.reg_deriv_termv (some (.v a)) l al .none) h (fun _ : Fin n => 0) :=
  ⟨⟨_, Reg.reg_deriv_termv_spec w ha la l al .ridge, ridge_gradient l al v⟩,
    fun hv => ⟨_, Reg.reg_deriv_termv_spec w ha la l al .lasso, lasso_gradient l al v hv⟩,
    fun hv => ⟨_, Reg.reg_deriv_termv_spec w ha la l al .elastic_net, elastic_gradient l al v hv⟩,
    Reg.reg_deriv_termv_spec w ha la l al .none⟩

/-- **C60.** The same for matrices. -/
theorem C60_deriv_matrix (h : Heap ℝ) (w : h.WF) (a : Nat) (A : Matrix (Fin m) (Fin n) ℝ) (ha : IsMat h a A) (la : h.live (.m a))
    (l al : ℝ) :
    (∃ G : Matrix (Fin m) (Fin n) ℝ, ReturnsMat (Reg.reg_deriv_termm (some (.m a)) l al .ridge) h G ∧
      Gradient (ridgePenalty l) (cells A) (cells G)) ∧
    ((∀ i j, A i j ≠ 0) → ∃ G : Matrix (Fin m) (Fin n) ℝ, ReturnsMat (Reg.reg_deriv_termm (some (.m a)) l al .lasso) h G ∧
      Gradient (lassoPenalty l) (cells A) (cells G)) ∧
    ((∀ i j, A i j ≠ 0) → ∃ G : Matrix (Fin m) (Fin n) ℝ, ReturnsMat (Reg.reg_deriv_termm (some (.m a)) l al .elastic_net) h G ∧
      Gradient (elasticPenalty l al) (cells A) (cells G)) ∧
    ReturnsMat (Reg.reg_deriv_termm (some (.m a)) l al .none) h (0 : Matrix (Fin m) (Fin n) ℝ) :=
  ⟨⟨_, Reg.reg_deriv_termm_spec w ha la l al .ridge, ridge_gradient l al (cells A)⟩,
    fun hv => ⟨_, Reg.reg_deriv_termm_spec w ha la l al .lasso, lasso_gradient l al (cells A) fun i => hv i.1 i.2⟩,
    fun hv => ⟨_, Reg.reg_deriv_termm_spec w ha la l al .elastic_net, elastic_gradient l al (cells A) fun i => hv i.1 i.2⟩,
    Reg.reg_deriv_termm_spec w ha la l al .none⟩

/-- **C60.** Where a weight is zero, the value returned for lasso is zero: a subgradient (for `lambda ≥ 0`), at every weight vector. -/
theorem C60_lasso_subgradient (h : Heap ℝ) (w : h.WF) (a : Nat) (v : Fin n → ℝ) (ha : IsVec h a v) (la : h.live (.v a)) (l al : ℝ)
    (hl : 0 ≤ l) : ∃ g : Fin n → ℝ, ReturnsVec (Reg.reg_deriv_termv (some (.v a)) l al .lasso) h g ∧
      ∀ u : Fin n → ℝ, lassoPenalty l v + ∑ i, g i * (u i - v i) ≤ lassoPenalty l u := by
  refine ⟨_, Reg.reg_deriv_termv_spec w ha la l al .lasso, fun u => ?_⟩
  unfold lassoPenalty
  rw [Finset.mul_sum, Finset.mul_sum, ← Finset.sum_add_distrib]
  refine Finset.sum_le_sum fun i _ => ?_
  have : |v i| + Activation.sign_normr (v i) * (u i - v i) ≤ |u i| := by
    unfold Activation.sign_normr
    split
    next c => rw [abs_of_neg c]; linarith [neg_abs_le (u i)]
    next c =>
      split
      next c2 => rw [c2]; simp
      next c2 => rw [abs_of_nonneg (not_lt.1 c)]; linarith [le_abs_self (u i)]
  calc _ = l * (|v i| + Activation.sign_normr (v i) * (u i - v i)) := by simp only [Reg.derivTerm]; ring
    _ ≤ _ := mul_le_mul_of_nonneg_left this hl

/-- **C60.** `reg_weightsv` takes one gradient step on the penalty: a new vector, the weights minus the gradient; without regularisation
a copy of the weights. -/
theorem C60_weights (h : Heap ℝ) (w : h.WF) (a : Nat) (v : Fin n → ℝ) (ha : IsVec h a v) (la : h.live (.v a)) (l al : ℝ) :
    (∃ g : Fin n → ℝ, Gradient (ridgePenalty l) v g ∧ ReturnsVec (Reg.reg_weightsv (some (.v a)) l al .ridge) h (fun i => v i - g i)) ∧
    ((∀ i, v i ≠ 0) → ∃ g : Fin n → ℝ, Gradient (lassoPenalty l) v g ∧
      ReturnsVec (Reg.reg_weightsv (some (.v a)) l al .lasso) h (fun i => v i - g i)) ∧
    ((∀ i, v i ≠ 0) → ∃ g : Fin n → ℝ, Gradient (elasticPenalty l al) v g ∧
      ReturnsVec (Reg.reg_weightsv (some (.v a)) l al .elastic_net) h (fun i => v i - g i)) ∧
    ReturnsVec (Reg.reg_weightsv (some (.v a)) l al .none) h v := by
  have key : ∀ r, ReturnsVec (app1 (subtractionnv (some (.v a))) (Reg.reg_deriv_termv (some (.v a)) l al r)) h
      fun i => v i - Reg.derivTerm l al r (v i) := by
    intro r
    unfold app1 ReturnsVec
    refine (Reg.reg_deriv_termv_spec w ha la l al r).bind fun o h1 w1 k1 f1 l1 q1 => ?_
    have k := k1
    advance k1
    exact (subV_lifts.vec w1 ha q1 la l1).from k
  refine ⟨⟨_, ridge_gradient l al v, key .ridge⟩, fun hv => ⟨_, lasso_gradient l al v hv, key .lasso⟩,
    fun hv => ⟨_, elastic_gradient l al v hv, key .elastic_net⟩, ?_⟩
  have := key .none
  simp only [Reg.derivTerm, sub_zero] at this
  exact this

/-- **C60.** The same for matrices. -/
theorem C60_weights_matrix (h : Heap ℝ) (w : h.WF) (a : Nat) (A : Matrix (Fin m) (Fin n) ℝ) (ha : IsMat h a A) (la : h.live (.m a))
    (l al : ℝ) :
    (∃ G : Matrix (Fin m) (Fin n) ℝ, Gradient (ridgePenalty l) (cells A) (cells G) ∧
      ReturnsMat (Reg.reg_weightsm (some (.m a)) l al .ridge) h (A - G)) ∧
    ((∀ i j, A i j ≠ 0) → ∃ G : Matrix (Fin m) (Fin n) ℝ, Gradient (lassoPenalty l) (cells A) (cells G) ∧
      ReturnsMat (Reg.reg_weightsm (some (.m a)) l al .lasso) h (A - G)) ∧
    ((∀ i j, A i j ≠ 0) → ∃ G : Matrix (Fin m) (Fin n) ℝ, Gradient (elasticPenalty l al) (cells A) (cells G) ∧
      ReturnsMat (Reg.reg_weightsm (some (.m a)) l al .elastic_net) h (A - G)) ∧
    ReturnsMat (Reg.reg_weightsm (some (.m a)) l al .none) h A := by
  have key : ∀ r, ReturnsMat (app1 (subtractionnm (some (.m a))) (Reg.reg_deriv_termm (some (.m a)) l al r)) h
      (A - A.map (Reg.derivTerm l al r)) := by
    intro r
    unfold app1 ReturnsMat
    refine (Reg.reg_deriv_termm_spec w ha la l al r).bind fun o h1 w1 k1 f1 l1 q1 => ?_
    have k := k1
    advance k1
    exact ((binM_lifts (· - ·)).mat w1 ha q1 la l1).from k
  refine ⟨⟨A.map (Reg.derivTerm l al .ridge), ridge_gradient l al (cells A), key .ridge⟩, fun hv => ⟨A.map (Reg.derivTerm l al .lasso), lasso_gradient l al (cells A) fun i => hv i.1 i.2, key .lasso⟩,
    fun hv => ⟨A.map (Reg.derivTerm l al .elastic_net), elastic_gradient l al (cells A) fun i => hv i.1 i.2, key .elastic_net⟩, ?_⟩
  have := key .none
  have e : A - A.map (Reg.derivTerm l al .none) = A := by ext i j; simp [Reg.derivTerm]
  rwa [e] at this

/-- **C60.** Weight clipping clamps every weight to `[lambda, alpha]` and keeps the weights that are inside. -/
theorem C60_clipping (h : Heap ℝ) (w : h.WF) (a : Nat) (v : Fin n → ℝ) (ha : IsVec h a v) (la : h.live (.v a)) (l al : ℝ)
    (hl : l ≤ al) :
    ReturnsVec (Reg.reg_weightsv (some (.v a)) l al .weight_clipping) h (fun i => max l (min (v i) al)) ∧
    ∀ (b : Nat) (A : Matrix (Fin m) (Fin n) ℝ), IsMat h b A → h.live (.m b) →
      ReturnsMat (Reg.reg_weightsm (some (.m b)) l al .weight_clipping) h (A.map fun x => max l (min x al)) := by
  have e : Reg.derivTerm l al .weight_clipping = fun x => max l (min x al) := by
    funext x
    simp only [Reg.derivTerm]
    split
    next c => rw [min_eq_right (le_of_lt c), max_eq_right hl]
    next c =>
      rw [min_eq_left (not_lt.1 c)]
      split
      next c2 => rw [max_eq_left (le_of_lt c2)]
      next c2 => rw [max_eq_right (not_lt.1 c2)]
  refine ⟨?_, fun b A hA lA => ?_⟩
  · have := Reg.reg_deriv_termv_spec w ha la l al .weight_clipping
    rwa [e] at this
  · have := Reg.reg_deriv_termm_spec w hA lA l al .weight_clipping
    rwa [e] at this

/-- **C60**, refuted for null weights: every function dereferences them. -/
theorem C60_null_fails (h : Heap ℝ) (l al : ℝ) (r : Reg.Kind) :
    Reg.reg_termv none l al r h = .ub ∧ Reg.reg_termm none l al r h = .ub ∧ Reg.reg_deriv_termv none l al r h = .ub ∧
    Reg.reg_deriv_termm none l al r h = .ub ∧ Reg.reg_weightsv none l al r h = .ub ∧ Reg.reg_weightsm none l al r h = .ub := by
  refine ⟨rfl, rfl, rfl, rfl, ?_, ?_⟩ <;> cases r <;> rfl

/-- The hypotheses of the C58 to C60 theorems are met by concrete vectors and matrices. -/
example (j : ℝ) : let h := Heap.ofLists j [[1/2, 1/4], [1, -1], [3, -2], [5, 7]] [(2, 1, [1/2, 1/4]), (2, 1, [1, 0])]
    h.WF ∧ h.live (.v 0) ∧ h.live (.v 1) ∧ h.live (.m 0) ∧ IsVec h 0 (![1/2, 1/4] : Fin 2 → ℝ) ∧ IsVec h 1 (![1, -1] : Fin 2 → ℝ) ∧
      IsVec h 2 (![3, -2] : Fin 2 → ℝ) ∧ IsMat h 0 (!![1/2, 1/4] : Matrix (Fin 1) (Fin 2) ℝ) ∧
      (∀ i, 0 < (![1/2, 1/4] : Fin 2 → ℝ) i ∧ (![1/2, 1/4] : Fin 2 → ℝ) i < 1) ∧
      (∀ i, (![1, -1] : Fin 2 → ℝ) i * (![1/2, 1/4] : Fin 2 → ℝ) i ≠ 1) ∧ (![1/2, 1/4] : Fin 2 → ℝ) ≠ ![1, -1] ∧
      (∀ i, (![1, -1] : Fin 2 → ℝ) i ≠ 0) ∧
      (∀ i, InInt ((![3, -2] : Fin 2 → ℝ) i) ∧ (1 ≤ (![3, -2] : Fin 2 → ℝ) i ∧ (![1, -1] : Fin 2 → ℝ) i < (![3, -2] : Fin 2 → ℝ) i ∨
        (![3, -2] : Fin 2 → ℝ) i ≤ -1 ∧ (![3, -2] : Fin 2 → ℝ) i < (![1, -1] : Fin 2 → ℝ) i)) ∧
      (∀ i, |(![3, -2] : Fin 2 → ℝ) i - (![1, -1] : Fin 2 → ℝ) i| < 5 / 2) := by
  refine ⟨Heap.ofLists_wf _ _ _ (by simp), by simp [Heap.ofLists, Heap.live, Loc.id], by simp [Heap.ofLists, Heap.live, Loc.id],
    by simp [Heap.ofLists, Heap.live, Loc.id], ⟨rfl, fun i => by fin_cases i <;> rfl⟩, ⟨rfl, fun i => by fin_cases i <;> rfl⟩,
    ⟨rfl, fun i => by fin_cases i <;> rfl⟩, ⟨rfl, by intro i j; fin_cases i; fin_cases j <;> rfl⟩, fun i => ?_, fun i => ?_,
    fun e => ?_, fun i => ?_, fun i => ?_, fun i => ?_⟩
  · fin_cases i <;> norm_num
  · fin_cases i <;> norm_num
  · have := congrFun e 0; norm_num at this
  · fin_cases i <;> norm_num
  · fin_cases i <;> norm_num [InInt]
  · fin_cases i <;> norm_num [abs_of_pos, abs_of_neg]

end Verif
