import Verif.Props.GlmStochastic

/-! # C90 for `MLPPCLogLogReg.mbgd`: what it computes -/

namespace Verif
open Spec Finset Glm
variable {n k m : Nat} {h h' : Heap ℝ} {s : Glm} {X : Matrix (Fin n) (Fin k) ℝ} {y : Fin n → ℝ} {θ : Params k}

/-- The step with the errors of the predictions `f z`, each multiplied by `g z` (for gradient descent, `g` should be the derivative of `f`), summed
over the rows of `X` and divided by `d`. -/
def ErrorStep (f g : ℝ → ℝ) (X : Matrix (Fin m) (Fin k) ℝ) (y : Fin m → ℝ) (d learning_rate : ℝ) (D : ℝ → ℝ) (θ θ' : Params k) : Prop :=
  (∀ j, θ'.1 j = D (θ.1 j - learning_rate / d * ∑ i, X i j * ((f (linear X θ i) - y i) * g (linear X θ i)))) ∧
    θ'.2 = θ.2 - learning_rate / d * ∑ i, (f (linear X θ i) - y i) * g (linear X θ i)

/-- With the derivative of the link function and the number of rows, this is a step of gradient descent. -/
theorem ErrorStep.grad {f g : ℝ → ℝ} (hf : ∀ z, HasDerivAt f (g z) z) {X : Matrix (Fin m) (Fin k) ℝ} {y : Fin m → ℝ} {lr : ℝ} {D : ℝ → ℝ}
    {θ θ' : Params k} (e : ErrorStep f g X y m lr D θ θ') : GradStep (sqLoss f X y) lr D θ θ' := by
  have := sq_gradStep (X := X) (y := y) hf lr D θ
  have q : θ' = stepWith X D (lr / m) (fun i => (f (linear X θ i) - y i) * g (linear X θ i)) lr m θ := by
    unfold stepWith
    refine Prod.ext (funext fun j => (e.1 j).trans (congrArg D ?_)) (e.2.trans ?_)
    · ring
    · ring
  rw [q]; exact this

/-- C90 for `MLPPCLogLogReg.mbgd`, as far as it holds: one step per batch, with the errors of the batch against the first outputs, the factor
`exp (-exp z)` in place of the derivative `exp (z - exp z)`, and the number of all samples in place of that of the batch. -/
theorem C90_cloglog_reg_mbgd_partial (R : Ready s h X y θ) (lr : ℝ) (e : Int) {b K : Nat} (hb : 0 < b) (eK : n / b = K) (hK : 0 < K) :
    Runs (CLogLogReg.mbgd s lr e b) h fun s' h' => ∃ θ', Trained cLogLog s h s' h' X y θ' ∧
      Rounds hK (fun _ i => ErrorStep cLogLog (fun z => Real.exp (-Real.exp z)) (batchX X K i) (firstY y K) n lr
        (decay s.reg s.lambda s.alpha)) (epochCount e) θ θ' := by
  have C := cloglogReg_link
  unfold CLogLogReg.mbgd
  rw [R.rows]
  refine Runs.bind ((overBatches_run id R hb eK hK (pure s) _ (fun σ h' a => Ready σ h' X y a ∧ σ.reg = s.reg ∧ σ.lambda = s.lambda ∧
    σ.alpha = s.alpha) θ
    (fun _ i θ => stepWith (batchX X K i) (decay s.reg s.lambda s.alpha) (lr / n)
        (fun j => (cLogLog (linear (batchX X K i) θ j) - firstY y K j) * Real.exp (-Real.exp (linear (batchX X K i) θ j))) lr n θ) e
    ?_ ?_ ?_).mono fun s1 h1 ⟨⟨R1, _⟩, M1⟩ => ?_)
  · rintro σ h1 a ⟨R1, -⟩; exact ⟨_, R1.weights⟩
  · intro h1 w1 k1
    exact Runs.of_eq rfl ⟨⟨R.keep w1 k1, rfl, rfl, rfl⟩, Moves.refl _ _⟩
  · rintro ep i s1 h1 a Xb yb ⟨R1, er, el, ea⟩ hX hy ne
    dsimp only [id] at ne ⊢
    refine stepV (evaluatem_spec C R1.wf hX R1.weights) fun p h2 w2 k2 f2 a2 => ?_
    have R2 := R1.keep w2 k2
    have M2 := (Moves.refl s1 h1).new k2
    rw [show (a.1, s1.bias) = a by rw [R1.bias]] at a2
    adv k2
    refine stepV (propagatem_spec w2 hX R2.weights) fun z h3 w3 k3 f3 a3 => ?_
    have R3 := R2.keep w3 k3
    have M3 := M2.new k3
    rw [show (a.1, s1.bias) = a by rw [R1.bias]] at a3
    have nz : z ≠ s1.weights := f3.ne R2.weights
    adv k3
    obtain ⟨c, ec⟩ := cost_run C w3 a2 hy R3.weights
    refine Runs.step ec ?_
    refine stepV (Hd.subn_spec w3 a2 hy) fun er2 h4 w4 k4 f4 a4 => ?_
    have R4 := R3.keep w4 k4
    have M4 := M3.new k4
    have ne4 : er2 ≠ s1.weights := f4.ne R3.weights
    adv k4
    refine stepV (chain_spec (g := fun z => Real.exp (-Real.exp z)) cloglogReg_derives w4 a4 a3) fun ch h5 w5 k5 f5 a5 => ?_
    have R5 := R4.keep w5 k5
    have M5 := M4.new k5
    adv k5
    refine stepV (gradient_spec w5 hX a5 _) fun d h6 w6 k6 f6 a6 => ?_
    have R6 := R5.keep w6 k6
    have M6 := M5.new k6
    adv k6
    refine Runs.bind ((subStep_ready R6 a6).mono fun s7 h7 ⟨r, e7, R7, M7⟩ => ?_)
    refine stepV (chain_spec (g := fun z => Real.exp (-Real.exp z)) cloglogReg_derives R7.wf (a4.off M7.keeps ne4) (a3.off M7.keeps nz)) fun ch2 h8 w8 k8 f8 a8 => ?_
    refine Runs.step (Hd.sum_elements_run w8 a8) ?_
    obtain ⟨B, eB⟩ : ∃ B, B = s7.bias - lr * (∑ j, ((cLogLog (linear (batchX X K i) a j) - firstY y K j) *
      Real.exp (-Real.exp (linear (batchX X K i) a j)))) / s7.n := ⟨_, rfl⟩
    rw [← eB]
    have M8 := ((M6.trans M7).new k8).bias B
    have R8 := (R7.keep w8 k8).setBias B
    rw [er, el, ea, R1.rows] at R8
    refine (forward_inv C R8 M8).mono fun s9 h9 I => ?_
    rw [eB, R7.bias, R7.rows] at I
    exact ⟨⟨I.ready, I.moves.same.reg.trans er, I.moves.same.lambda.trans el, I.moves.same.alpha.trans ea⟩, I.moves⟩
  · refine (forward_inv C R1 M1).mono fun _ _ I => ⟨_, I.trained, rounds_walk hK (fun _ i θ => ⟨fun j => ?_, ?_⟩) _ _⟩
    · show decay _ _ _ _ = _; congr 1; ring
    · show _ - _ = _; ring

/-- The hypotheses of the theorem are met: three samples, batches of one. -/
example : Ready (exGlm .none) glmHeap exX exY exθ ∧ 0 < 1 ∧ 3 / 1 = 3 ∧ 0 < 3 := ⟨exReady _, by decide⟩

end Verif
