import Verif.Props.GlmDescent
import Mathlib.LinearAlgebra.Matrix.NonsingularInverse

/-!
# C88: `MLPPLinReg.newton_raphson`

The direction is that of Newton's method. The step is the learning rate divided by the number of samples, not the learning rate.
-/

namespace Verif
open Spec Finset Glm
variable {n k m : Nat} {h : Heap ℝ} {s : Glm} {X : Matrix (Fin n) (Fin k) ℝ} {y : Fin n → ℝ} {θ : Params k}

/-- The direction of `newton_raphson`. -/
noncomputable def newtonDir (X : Matrix (Fin n) (Fin k) ℝ) (y : Fin n → ℝ) (θ : Params k) : Fin k → ℝ :=
  ((X.transpose * X)⁻¹).transpose.mulVec (X.transpose.mulVec fun i => linear X θ i - y i)

theorem newtonDir_solves (hX : IsUnit (X.transpose * X).det) (y : Fin n → ℝ) (θ : Params k) :
    (X.transpose * X).mulVec (newtonDir X y θ) = X.transpose.mulVec fun i => linear X θ i - y i := by
  unfold newtonDir
  rw [Matrix.transpose_nonsing_inv, Matrix.transpose_mul, Matrix.transpose_transpose, Matrix.mulVec_mulVec, Matrix.mul_nonsing_inv _ hX,
    Matrix.one_mulVec]

/-- The step of `newton_raphson`. -/
noncomputable def newtonWith (X : Matrix (Fin n) (Fin k) ℝ) (y : Fin n → ℝ) (D : ℝ → ℝ) (lr : ℝ) (θ : Params k) : Params k :=
  (fun j => D (θ.1 j - newtonDir X y θ j * (lr / n)), θ.2 - lr * (∑ i, (linear X θ i - y i)) / n)

theorem newton_run (R : Ready s h X y θ) (hi : s.initialized = true) (hk : 2 ≤ k) (lr : ℝ) (e : Int) :
    Runs (LinReg.newton_raphson s lr e) h fun s' h' => Trained id s h s' h' X y
      (walk (fun _ => newtonWith X y (decay s.reg s.lambda s.alpha) lr) θ (epochCount e)) := by
  unfold LinReg.newton_raphson
  rw [if_pos hi]
  refine train_run linReg_computes R e _ _ fun i s1 h1 θ1 ⟨R1, S1, M1⟩ => ?_
  have P1 := S1.pred
  obtain ⟨c, ec⟩ := cost_run linReg_computes R1.wf P1 R1.output R1.weights
  refine Runs.step ec ?_
  refine stepV (Hd.subn_spec R1.wf P1 R1.output) fun er h2 w2 k2 f2 a2 => ?_
  have ne : er ≠ s1.weights := f2.ne R1.weights
  have R2 := R1.keep w2 k2
  have M2 := M1.new k2
  refine stepM (Hd.transposen_spec w2 R2.input) fun t h3 w3 k3 f3 a3 => ?_
  have R3 := R2.keep w3 k3
  have M3 := M2.new k3
  adv k3
  refine stepV (Hd.mult_vec_spec w3 a3 a2) fun g h4 w4 k4 f4 a4 => ?_
  have R4 := R3.keep w4 k4
  have M4 := M3.new k4
  adv k4
  refine stepM (Hd.transposen_spec w4 R4.input) fun t2 h5 w5 k5 f5 a5 => ?_
  have R5 := R4.keep w5 k5
  have M5 := M4.new k5
  adv k5
  refine stepM (Hd.multn_spec w5 a5 R5.input) fun t3 h6 w6 k6 f6 a6 => ?_
  have R6 := R5.keep w6 k6
  have M6 := M5.new k6
  adv k6
  refine stepM (Hd.inverse_spec w6 hk a6) fun t4 h7 w7 k7 f7 a7 => ?_
  have R7 := R6.keep w7 k7
  have M7 := M6.new k7
  adv k7
  refine stepM (Hd.transposen_spec w7 a7) fun t5 h8 w8 k8 f8 a8 => ?_
  have R8 := R7.keep w8 k8
  have M8 := M7.new k8
  adv k8
  refine stepV (Hd.mult_vec_spec w8 a8 a4) fun p h9 w9 k9 f9 a9 => ?_
  have R9 := R8.keep w9 k9
  have M9 := M8.new k9
  adv k9
  refine stepV (Hd.scalar_multiplyn_spec w9 a9 _) fun d h10 w10 k10 f10 a10 => ?_
  have R10 := R9.keep w10 k10
  have M10 := M9.new k10
  adv k10
  refine Runs.bind ((subStep_ready R10 a10).mono fun s5 h11 ⟨r, e5, R11, M11⟩ => ?_)
  refine Runs.step (Hd.sum_elements_run R11.wf (a2.off M11.keeps ne)) ?_
  obtain ⟨b, eb⟩ : ∃ b, b = s5.bias - lr * (∑ i, (id (linear X θ1 i) - y i)) / s5.n := ⟨_, rfl⟩
  rw [← eb]
  have M12 := (M10.trans M11).bias b
  have R12 := R11.setBias b
  rw [M1.same.reg, M1.same.lambda, M1.same.alpha, R1.rows] at R12
  refine (forward_inv linReg_computes R12 M12).mono fun s7 h7 I => ?_
  rw [eb, R11.bias, R11.rows] at I
  exact I

theorem sqLoss_grad (X : Matrix (Fin n) (Fin k) ℝ) (y : Fin n → ℝ) (b : ℝ) (w : Fin k → ℝ) :
    Gradient (fun w => sqLoss id X y (w, b)) w fun j => (∑ i, X i j * (linear X (w, b) i - y i)) / n := by
  obtain ⟨g, c, hg, -, e⟩ := sq_gradStep (X := X) (y := y) (f := id) (g := fun _ => 1) (fun z => hasDerivAt_id z) 1 id (w, b)
  have e1 : ∀ j, g j = (∑ i, X i j * (linear X (w, b) i - y i)) / n := fun j => by
    have := congrFun (congrArg Prod.fst e) j
    simp only [stepWith, id, mul_one, one_mul] at this
    rw [mul_one_div] at this
    linarith
  intro j
  have := hg j
  rw [e1] at this
  exact this

theorem sqLoss_hess (X : Matrix (Fin n) (Fin k) ℝ) (y : Fin n → ℝ) (b : ℝ) (w : Fin k → ℝ) (j : Fin k) :
    Gradient (fun w => (∑ i, X i j * (linear X (w, b) i - y i)) / (n : ℝ)) w fun l => (X.transpose * X) j l / n := by
  intro l
  refine HasDerivAt.div_const ?_ _
  rw [Matrix.mul_apply]
  refine HasDerivAt.fun_sum fun i _ => ?_
  exact ((linear_deriv_w X (w, b) i l).sub_const (y i)).const_mul (X i j)

/-- C88 (part): every epoch of `newton_raphson` is a step of Newton's method on the squared error as a function of the weights — multiplied by
`learning_rate / n` — and a gradient step of the bias, for data with at least two columns and an invertible matrix of second derivatives. -/
theorem C88_newton_raphson_partial (R : Ready s h X y θ) (hi : s.initialized = true) (hk : 2 ≤ k) (hn : 0 < n)
    (hX : (X.transpose * X).det ≠ 0) (lr : ℝ) (e : Int) :
    Runs (LinReg.newton_raphson s lr e) h fun s' h' => ∃ θ', Trained id s h s' h' X y θ' ∧
      Chain (fun _ => NewtonStep (sqLoss id X y) (lr / n) lr (decay s.reg s.lambda s.alpha)) (epochCount e) θ θ' := by
  refine (newton_run R hi hk lr e).mono fun s' h' T => ⟨_, T, chain_walk (fun _ θ => ?_) _ _⟩
  have hn' : (n : ℝ) ≠ 0 := by exact_mod_cast hn.ne'
  obtain ⟨_, b, -, hb, eb⟩ := sq_gradStep (X := X) (y := y) (f := id) (g := fun _ => 1) (fun z => hasDerivAt_id z) lr id θ
  refine ⟨_, Matrix.of fun j l => (X.transpose * X) j l / n, newtonDir X y θ, b, sqLoss_grad X y θ.2, sqLoss_hess X y θ.2 θ.1, ?_, hb, ?_⟩
  · funext j
    have := congrFun (newtonDir_solves (IsUnit.mk0 _ hX) y θ) j
    simp only [Matrix.mulVec, dotProduct, Matrix.of_apply] at this ⊢
    have e2 : ∑ l, (X.transpose * X) j l / (n : ℝ) * newtonDir X y θ l = (∑ l, (X.transpose * X) j l * newtonDir X y θ l) / n := by
      rw [Finset.sum_div]; exact Finset.sum_congr rfl fun l _ => by ring
    rw [e2, this]
    rfl
  · refine Prod.ext (funext fun j => congrArg (decay s.reg s.lambda s.alpha) ?_) ?_
    · ring
    · have := congrArg Prod.snd eb
      simp only [stepWith, mul_one, id] at this
      rw [← this]; rfl

/-- Weights and bias at which the derivative along the way to `θs` is zero are at least as good as `θs`. -/
theorem sq_min {θ θs : Params k} (hw : ∀ j, ∑ i, X i j * (linear X θ i - y i) = 0) (hb : (∑ i, (linear X θ i - y i)) * (θs.2 - θ.2) = 0) :
    sqLoss id X y θ ≤ sqLoss id X y θs := by
  rw [sqLoss_eq]
  refine div_le_div_of_nonneg_right ?_ (Nat.cast_nonneg n)
  have h1 : ∑ i, (id (linear X θs i) - y i) ^ 2 / 2 = ∑ i, (id (linear X θ i) - y i) ^ 2 / 2 +
      ∑ i, (linear X θ i - y i) * (linear X θs i - linear X θ i) + ∑ i, 1 / 2 * (linear X θs i - linear X θ i) ^ 2 := by
    rw [← Finset.sum_add_distrib, ← Finset.sum_add_distrib]
    exact Finset.sum_congr rfl fun i _ => sq_bounds (y i) _ _
  have h2 : ∑ i, (linear X θ i - y i) * (linear X θs i - linear X θ i) = 0 := by
    rw [grad_apply, hb]
    simp [hw]
  have h3 : 0 ≤ ∑ i, 1 / 2 * (linear X θs i - linear X θ i) ^ 2 := Finset.sum_nonneg fun _ _ => by positivity
  simp only at h1 ⊢
  rw [h1, h2]
  linarith

/-- C88 (part): with the learning rate `n`, one epoch and no regularisation, the new weights are the best ones for the old bias. -/
theorem C88_full_step_partial (R : Ready s h X y θ) (hi : s.initialized = true) (hk : 2 ≤ k) (hn : 0 < n) (hr : s.reg = .none)
    (hX : (X.transpose * X).det ≠ 0) {e : Int} (he : e ≤ 1) :
    Runs (LinReg.newton_raphson s n e) h fun s' h' => ∃ θ', Trained id s h s' h' X y θ' ∧
      ∀ v, sqLoss id X y (θ'.1, θ.2) ≤ sqLoss id X y (v, θ.2) := by
  refine (newton_run R hi hk n e).mono fun s' h' T => ⟨_, T, fun v => sq_min (fun j => ?_) (by simp)⟩
  have hn' : (n : ℝ) ≠ 0 := by exact_mod_cast hn.ne'
  have h1 : epochCount e = 1 := by unfold epochCount; omega
  rw [h1]
  show ∑ i, X i j * (linear X ((newtonWith X y (decay s.reg s.lambda s.alpha) n θ).1, θ.2) i - y i) = 0
  rw [hr, decay_none]
  have e1 : ∀ i, linear X ((newtonWith X y id n θ).1, θ.2) i = linear X θ i - X.mulVec (newtonDir X y θ) i := by
    intro i
    simp only [linear, newtonWith, id, div_self hn', mul_one, mul_sub, Finset.sum_sub_distrib, Matrix.mulVec, dotProduct]
    ring
  have e2 := congrFun (newtonDir_solves (IsUnit.mk0 _ hX) y θ) j
  rw [← Matrix.mulVec_mulVec] at e2
  simp only [Matrix.mulVec, dotProduct, Matrix.transpose_apply] at e2
  simp only [e1, mul_sub, Finset.sum_sub_distrib] at e2 ⊢
  simp only [Matrix.mulVec, dotProduct]
  linarith

/-- C88 does not hold as it stands: with at least two samples, a learning rate other than zero, no regularisation and weights at which the
gradient is not zero, one epoch is not a step of Newton's method multiplied by the learning rate. -/
theorem C88_step_size_fails (R : Ready s h X y θ) (hi : s.initialized = true) (hk : 2 ≤ k) (hn : 2 ≤ n) (hr : s.reg = .none)
    (hX : (X.transpose * X).det ≠ 0) {lr : ℝ} (hlr : lr ≠ 0) {j : Fin k} (hg : ∑ i, X i j * (linear X θ i - y i) ≠ 0) {e : Int} (he : e ≤ 1) :
    Runs (LinReg.newton_raphson s lr e) h fun s' h' => ∃ θ', Trained id s h s' h' X y θ' ∧ ¬ NewtonStep (sqLoss id X y) lr lr id θ θ' := by
  refine (newton_run R hi hk lr e).mono fun s' h' T => ⟨_, T, ?_⟩
  have hn' : (2 : ℝ) ≤ n := by exact_mod_cast hn
  have hn0 : (n : ℝ) ≠ 0 := by linarith
  have h1 : epochCount e = 1 := by unfold epochCount; omega
  rw [h1, hr, decay_none]
  rintro ⟨G, H, d, b, hG, hH, hd, hb, ee⟩
  have eG : ∀ w j, G w j = (∑ i, X i j * (linear X (w, θ.2) i - y i)) / n := fun w j => (hG w j).unique (sqLoss_grad X y θ.2 w j)
  have eH : ∀ i l, H i l = (X.transpose * X) i l / n := fun i l => by
    refine (hH i l).unique ?_
    have := sqLoss_hess X y θ.2 θ.1 i l
    simp only [eG]
    exact this
  have ed : (X.transpose * X).mulVec d = X.transpose.mulVec fun i => linear X θ i - y i := by
    funext l
    have := congrFun hd l
    simp only [Matrix.mulVec, dotProduct, eH, eG, Matrix.transpose_apply] at this ⊢
    have e2 : ∑ x, (X.transpose * X) l x / (n : ℝ) * d x = (∑ x, (X.transpose * X) l x * d x) / n := by
      rw [Finset.sum_div]; exact Finset.sum_congr rfl fun l _ => by ring
    rw [e2] at this
    exact (div_left_inj' hn0).1 this
  have e3 : d = newtonDir X y θ := by
    have := ed.trans (newtonDir_solves (IsUnit.mk0 _ hX) y θ).symm
    have h2 := congrArg ((X.transpose * X)⁻¹).mulVec this
    rwa [Matrix.mulVec_mulVec, Matrix.mulVec_mulVec, Matrix.nonsing_inv_mul _ (IsUnit.mk0 _ hX), Matrix.one_mulVec, Matrix.one_mulVec] at h2
  have e4 : ∀ l, d l = 0 := by
    intro l
    have := congrFun (congrArg Prod.fst ee) l
    change id (θ.1 l - newtonDir X y θ l * (lr / n)) = _ at this
    rw [← e3] at this
    simp only [id] at this
    have h2 : d l * (lr / n) = lr * d l := by linarith
    have h3 : lr * (d l * (1 - n)) = 0 := by
      have : d l * lr = lr * d l * n := by rw [← h2]; field_simp
      linarith
    rcases mul_eq_zero.1 ((mul_eq_zero.1 h3).resolve_left hlr) with q | q
    · exact q
    · linarith
  apply hg
  have := congrFun ed j
  simp only [Matrix.mulVec, dotProduct, Matrix.transpose_apply, e4, mul_zero, Finset.sum_const_zero] at this
  exact this.symm

/-- The hypotheses are met. -/
example : Ready (exGlm .none) glmHeap exX exY exθ ∧ (exX.transpose * exX).det ≠ 0 ∧ ∑ i, exX i 0 * (linear exX exθ i - exY i) ≠ 0 := by
  refine ⟨exReady _, ?_, ?_⟩
  · simp [exX, Matrix.det_fin_two, Matrix.mul_apply, Fin.sum_univ_succ]; norm_num
  · simp [exX, exY, exθ, linear, Fin.sum_univ_succ]; norm_num

end Verif
