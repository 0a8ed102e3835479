import Verif.Lemmas.Glm

/-! # Training loops of the linear models -/

namespace Verif
open Spec Finset
namespace Glm
variable {n k : Nat} {h h' : Heap ℝ} {s : Glm} {X : Matrix (Fin n) (Fin k) ℝ} {y : Fin n → ℝ} {θ : Params k} {F : Fns} {f g : ℝ → ℝ}

theorem _root_.Verif.Spec.Ready.setBias (R : Ready s h X y θ) (b : ℝ) : Ready { s with bias := b } h X y (θ.1, b) :=
  ⟨R.wf, R.rows, R.cols, R.input, R.output, R.weights, rfl, R.apart⟩

theorem subStep_ready (R : Ready s h X y θ) {d : Ref} {u : Fin k → ℝ} (hd : HasV h d u) : Runs (subStep s d) h fun s' h' =>
    ∃ r, s' = { s with weights := r } ∧ Ready s' h' X y (fun j => decay s.reg s.lambda s.alpha (θ.1 j - u j), θ.2) ∧ Moves s h s' h' := by
  refine (subStep_run R.wf R.weights hd).mono fun s' h' ⟨r, e, w, kk, f, a⟩ => ⟨r, e, ?_, ?_⟩
  · subst e
    exact ⟨w, R.rows, R.cols, R.input.off kk R.weights, R.output.off kk R.apart, a, R.bias, (f.ne R.output).symm⟩
  · subst e
    exact ⟨⟨rfl, rfl, rfl, rfl, rfl, rfl, rfl, rfl⟩, kk, .inr f⟩

theorem addStep_ready (R : Ready s h X y θ) {d : Ref} {u : Fin k → ℝ} (hd : HasV h d u) : Runs (addStep s d) h fun s' h' =>
    ∃ r, s' = { s with weights := r } ∧ Ready s' h' X y (fun j => decay s.reg s.lambda s.alpha (θ.1 j + u j), θ.2) ∧ Moves s h s' h' := by
  refine (addStep_run R.wf R.weights hd).mono fun s' h' ⟨r, e, w, kk, f, a⟩ => ⟨r, e, ?_, ?_⟩
  · subst e
    exact ⟨w, R.rows, R.cols, R.input.off kk R.weights, R.output.off kk R.apart, a, R.bias, (f.ne R.output).symm⟩
  · subst e
    exact ⟨⟨rfl, rfl, rfl, rfl, rfl, rfl, rfl, rfl⟩, kk, .inr f⟩

/-- The step of the weights and bias with the errors `e`. -/
noncomputable def stepWith (X : Matrix (Fin n) (Fin k) ℝ) (D : ℝ → ℝ) (c : ℝ) (e : Fin n → ℝ) (lr : ℝ) (m : ℝ) (θ : Params k) : Params k :=
  (fun j => D (θ.1 j - (∑ i, X i j * e i) * c), θ.2 - lr * (∑ i, e i) / m)

theorem stepWith_neg (X : Matrix (Fin n) (Fin k) ℝ) (D : ℝ → ℝ) (c : ℝ) (p q : Fin n → ℝ) (lr : ℝ) (m : ℝ) (θ : Params k) :
    stepWith X D c (fun i => p i - q i) lr m θ =
      (fun j => D (θ.1 j + (∑ i, X i j * (q i - p i)) * c), θ.2 + lr * (∑ i, (q i - p i)) / m) := by
  unfold stepWith
  refine Prod.ext (funext fun j => congrArg D ?_) ?_
  · have : ∑ i, X i j * (q i - p i) = - ∑ i, X i j * (p i - q i) := by
      rw [← Finset.sum_neg_distrib]; exact Finset.sum_congr rfl fun i _ => by ring
    simp only [this]; ring
  · have : ∑ i, (q i - p i) = - ∑ i, (p i - q i) := by
      rw [← Finset.sum_neg_distrib]; exact Finset.sum_congr rfl fun i _ => by ring
    simp only [this]; ring

/-- The values a step function goes through. -/
def walk {α : Type} (step : Nat → α → α) (a : α) : Nat → α
  | 0 => a
  | i + 1 => step i (walk step a i)

theorem chain_walk {α : Type} {R : Nat → α → α → Prop} {step : Nat → α → α} (ok : ∀ i a, R i a (step i a)) (N : Nat) (a : α) :
    Chain R N a (walk step a N) := ⟨walk step a, rfl, rfl, fun _ _ => ok _ _⟩

theorem epochs_run {σ : Type} (max_epoch : Int) (s : σ) (body : Nat → σ → M ℝ σ) (I : Nat → σ → Heap ℝ → Prop) (h0 : I 0 s h)
    (step : ∀ i s h, I i s h → Runs (body (i + 1) s) h fun s' h' => I (i + 1) s' h') :
    Runs (epochs max_epoch s body) h fun s' h' => I (epochCount max_epoch) s' h' :=
  Runs.foldN _ I _ s h h0 fun i s h _ hI => step i s h hI

/-- The invariant of the training loops. -/
structure Inv (F : Fns) (f : ℝ → ℝ) (X : Matrix (Fin n) (Fin k) ℝ) (y : Fin n → ℝ) (s0 : Glm) (h0 : Heap ℝ) (θ : Params k) (s : Glm)
    (h : Heap ℝ) : Prop where
  ready : Ready s h X y θ
  shown : Shown F f s h X θ
  moves : Moves s0 h0 s h

theorem Inv.trained {s0 : Glm} {h0 : Heap ℝ} (I : Inv F f X y s0 h0 θ s h) : Trained f s0 h0 s h X y θ :=
  ⟨I.ready, I.shown.pred, I.moves.same, I.moves.keeps⟩

theorem forward_inv (C : Computes F f) (R : Ready s h X y θ) {s0 : Glm} {h0 : Heap ℝ} (m : Moves s0 h0 s h) :
    Runs (forward_pass F s) h fun s' h' => Inv F f X y s0 h0 θ s' h' := by
  refine (forward_pass_run C R).mono fun s' h' ⟨⟨R', S'⟩, kk, z, p, e⟩ => ⟨R', S', m.trans (Moves.of_new ?_ ?_ kk)⟩
  · subst e; exact ⟨rfl, rfl, rfl, rfl, rfl, rfl, rfl, rfl⟩
  · subst e; rfl

/-- A training method: a forward pass, and epochs each of which makes the step `step i`. -/
theorem train_run (C : Computes F f) (R : Ready s h X y θ) (max_epoch : Int) (body : Nat → Glm → M ℝ Glm) (step : Nat → Params k → Params k)
    (ok : ∀ i s' h' θ', Inv F f X y s h θ' s' h' → Runs (body (i + 1) s') h' fun s'' h'' => Inv F f X y s h (step i θ') s'' h'') :
    Runs (forward_pass F s >>= fun s => epochs max_epoch s body) h fun s' h' =>
      Trained f s h s' h' X y (walk step θ (epochCount max_epoch)) := by
  refine Runs.bind ((forward_inv C R (.refl s h)).mono fun s1 h1 I1 => ?_)
  refine (epochs_run max_epoch s1 body (fun i s' h' => Inv F f X y s h (walk step θ i) s' h') I1 ?_).mono fun _ _ I => I.trained
  intro i s' h' I
  exact ok i s' h' _ I

theorem Moves.new {s0 : Glm} {h0 : Heap ℝ} (m : Moves s0 h0 s h) (kk : Keeps h h' (fun _ => False)) : Moves s0 h0 s h' :=
  m.trans (.of_new (.refl s) rfl kk)

theorem Moves.bias {s0 : Glm} {h0 : Heap ℝ} (m : Moves s0 h0 s h) (b : ℝ) : Moves s0 h0 { s with bias := b } h :=
  m.trans ⟨⟨rfl, rfl, rfl, rfl, rfl, rfl, rfl, rfl⟩, Keeps.refl _ _, .inl rfl⟩

theorem gradient_descent_run (C : Computes F f) (R : Ready s h X y θ) (lr : ℝ) (max_epoch : Int) :
    Runs (gradient_descent F s lr max_epoch) h fun s' h' => Trained f s h s' h' X y
      (walk (fun _ θ => stepWith X (decay s.reg s.lambda s.alpha) (lr / n) (fun i => f (linear X θ i) - y i) lr n θ) θ
        (epochCount max_epoch)) := by
  unfold gradient_descent
  refine train_run C R max_epoch _ _ fun i s1 h1 θ1 ⟨R1, S1, M1⟩ => ?_
  obtain ⟨c, ec⟩ := cost_run C R1.wf S1.pred R1.output R1.weights
  refine Runs.step ec ?_
  refine stepV (Hd.subn_spec R1.wf S1.pred R1.output) fun er h2 w2 k2 f2 a2 => ?_
  have R2 := R1.keep w2 k2
  rw [R1.rows]
  refine stepV (gradient_spec w2 R2.input a2 _) fun d h3 w3 k3 f3 a3 => ?_
  have R3 := R2.keep w3 k3
  have ne : er ≠ s1.weights := f2.ne R1.weights
  refine Runs.bind ((subStep_ready R3 a3).mono fun s4 h4 ⟨r, e4, R4, M4⟩ => ?_)
  refine Runs.step (Hd.sum_elements_run R4.wf ((adv_hasv k3 a2).off M4.keeps ne)) ?_
  obtain ⟨b, eb⟩ : ∃ b, b = s4.bias - lr * (∑ i, (f (linear X θ1 i) - y i)) / s4.n := ⟨_, rfl⟩
  rw [← eb]
  have M5 := (((M1.new k2).new k3).trans M4).bias b
  have R5 := R4.setBias b
  rw [M1.same.reg, M1.same.lambda, M1.same.alpha] at R5
  refine (forward_inv C R5 M5).mono fun s6 h6 I => ?_
  rw [eb, R4.bias, R4.rows] at I
  exact I

theorem mle_run (C : Computes F f) (R : Ready s h X y θ) (lr : ℝ) (max_epoch : Int) :
    Runs (mle F s lr max_epoch) h fun s' h' => Trained f s h s' h' X y
      (walk (fun _ θ => stepWith X (decay s.reg s.lambda s.alpha) (lr / n) (fun i => f (linear X θ i) - y i) lr n θ) θ
        (epochCount max_epoch)) := by
  unfold mle
  refine train_run C R max_epoch _ _ fun i s1 h1 θ1 ⟨R1, S1, M1⟩ => ?_
  obtain ⟨c, ec⟩ := cost_run C R1.wf S1.pred R1.output R1.weights
  refine Runs.step ec ?_
  refine stepV (Hd.subn_spec R1.wf R1.output S1.pred) fun er h2 w2 k2 f2 a2 => ?_
  have R2 := R1.keep w2 k2
  rw [R1.rows]
  refine stepV (gradient_spec w2 R2.input a2 _) fun d h3 w3 k3 f3 a3 => ?_
  have R3 := R2.keep w3 k3
  have ne : er ≠ s1.weights := f2.ne R1.weights
  refine Runs.bind ((addStep_ready R3 a3).mono fun s4 h4 ⟨r, e4, R4, M4⟩ => ?_)
  refine Runs.step (Hd.sum_elements_run R4.wf ((adv_hasv k3 a2).off M4.keeps ne)) ?_
  obtain ⟨b, eb⟩ : ∃ b, b = s4.bias + lr * (∑ i, (y i - f (linear X θ1 i))) / s4.n := ⟨_, rfl⟩
  rw [← eb]
  have M5 := (((M1.new k2).new k3).trans M4).bias b
  have R5 := R4.setBias b
  rw [M1.same.reg, M1.same.lambda, M1.same.alpha] at R5
  refine (forward_inv C R5 M5).mono fun s6 h6 I => ?_
  rw [eb, R4.bias, R4.rows] at I
  rw [stepWith_neg]
  exact I

theorem chain_spec (G : Derives F g) (w : h.WF) {e z : Ref} {m : Nat} {u v : Fin m → ℝ} (he : HasV h e u) (hz : HasV h z v) :
    ReturnsVec (chain F e z) h fun i => u i * g (v i) := by
  refine .of_has ?_
  unfold chain
  refine stepV (G w hz) fun r h1 w1 k1 f1 a1 => ?_
  refine (Hd.hadamard_productn_spec w1 (adv_hasv k1 he) a1).has.mono fun r2 h2 q => ⟨q.1, k1.trans q.2.1, q.2.2.1.mono k1, q.2.2.2⟩

theorem gradient_descent_z_run (C : Computes F f) (G : Derives F g) (uz : F.usesZ = true) (R : Ready s h X y θ) (lr : ℝ) (max_epoch : Int)
    (m : Nat) : Runs (gradient_descent_z F s lr max_epoch m) h fun s' h' => Trained f s h s' h' X y
      (walk (fun _ θ => stepWith X (decay s.reg s.lambda s.alpha) (lr / m)
        (fun i => (f (linear X θ i) - y i) * g (linear X θ i)) lr m θ) θ (epochCount max_epoch)) := by
  unfold gradient_descent_z
  refine train_run C R max_epoch _ _ fun i s1 h1 θ1 ⟨R1, S1, M1⟩ => ?_
  obtain ⟨hz, nz⟩ := S1.z uz
  obtain ⟨c, ec⟩ := cost_run C R1.wf S1.pred R1.output R1.weights
  refine Runs.step ec ?_
  refine stepV (Hd.subn_spec R1.wf S1.pred R1.output) fun er h2 w2 k2 f2 a2 => ?_
  have R2 := R1.keep w2 k2
  have M2 := M1.new k2
  adv k2
  refine stepV (chain_spec G w2 a2 hz) fun ch h3 w3 k3 f3 a3 => ?_
  have R3 := R2.keep w3 k3
  have M3 := M2.new k3
  adv k3
  refine stepV (gradient_spec w3 R3.input a3 _) fun d h4 w4 k4 f4 a4 => ?_
  have R4 := R3.keep w4 k4
  have M4 := M3.new k4
  adv k4
  have ne : er ≠ s1.weights := f2.ne R1.weights
  refine Runs.bind ((subStep_ready R4 a4).mono fun s5 h5 ⟨r, e5, R5, M5⟩ => ?_)
  have ez : s5.z = s1.z := by rw [e5]
  refine stepV (chain_spec G R5.wf (a2.off M5.keeps ne) (by rw [ez]; exact hz.off M5.keeps nz)) fun ch2 h6 w6 k6 f6 a6 => ?_
  refine Runs.step (Hd.sum_elements_run w6 a6) ?_
  obtain ⟨b, eb⟩ : ∃ b, b = s5.bias - lr * (∑ i, ((f (linear X θ1 i) - y i) * g (linear X θ1 i))) / m := ⟨_, rfl⟩
  rw [← eb]
  have M6 := ((M4.trans M5).new k6).bias b
  have R6 := (R5.keep w6 k6).setBias b
  rw [M1.same.reg, M1.same.lambda, M1.same.alpha] at R6
  refine (forward_inv C R6 M6).mono fun s7 h7 I => ?_
  rw [eb, R5.bias] at I
  exact I

/-- The errors of `mle_z`. -/
noncomputable def mleErr (flipped : Bool) (p y : Fin n → ℝ) (i : Fin n) : ℝ := if flipped then y i - p i else p i - y i

theorem mle_z_run (C : Computes F f) (G : Derives F g) (uz : F.usesZ = true) (R : Ready s h X y θ) (fl : Bool) (lr : ℝ) (max_epoch : Int)
    (m : Nat) : Runs (mle_z F fl s lr max_epoch m) h fun s' h' => Trained f s h s' h' X y
      (walk (fun _ θ => stepWith X (decay s.reg s.lambda s.alpha) ((if fl then lr else -lr) / m)
        (fun i => (f (linear X θ i) - y i) * g (linear X θ i)) (if fl then lr else -lr) m θ) θ (epochCount max_epoch)) := by
  unfold mle_z
  refine train_run C R max_epoch _ _ fun i s1 h1 θ1 ⟨R1, S1, M1⟩ => ?_
  obtain ⟨hz, nz⟩ := S1.z uz
  obtain ⟨c, ec⟩ := cost_run C R1.wf S1.pred R1.output R1.weights
  refine Runs.step ec ?_
  have sp : ReturnsVec (mleError fl s1) h1
      (mleErr fl (fun i => f (linear X θ1 i)) y) := by
    cases fl
    · exact Hd.subn_spec R1.wf S1.pred R1.output
    · exact Hd.subn_spec R1.wf R1.output S1.pred
  refine stepV sp fun er h2 w2 k2 f2 a2 => ?_
  have R2 := R1.keep w2 k2
  have M2 := M1.new k2
  adv k2
  refine stepV (chain_spec G w2 a2 hz) fun ch h3 w3 k3 f3 a3 => ?_
  have R3 := R2.keep w3 k3
  have M3 := M2.new k3
  adv k3
  refine stepV (gradient_spec w3 R3.input a3 _) fun d h4 w4 k4 f4 a4 => ?_
  have R4 := R3.keep w4 k4
  have M4 := M3.new k4
  adv k4
  have ne : er ≠ s1.weights := f2.ne R1.weights
  refine Runs.bind ((addStep_ready R4 a4).mono fun s5 h5 ⟨r, e5, R5, M5⟩ => ?_)
  have ez : s5.z = s1.z := by rw [e5]
  refine stepV (chain_spec G R5.wf (a2.off M5.keeps ne) (by rw [ez]; exact hz.off M5.keeps nz)) fun ch2 h6 w6 k6 f6 a6 => ?_
  refine Runs.step (Hd.sum_elements_run w6 a6) ?_
  obtain ⟨b, eb⟩ : ∃ b, b = s5.bias + lr * (∑ i, (mleErr fl (fun i => f (linear X θ1 i)) y i * g (linear X θ1 i))) / m := ⟨_, rfl⟩
  rw [← eb]
  have M6 := ((M4.trans M5).new k6).bias b
  have R6 := (R5.keep w6 k6).setBias b
  rw [M1.same.reg, M1.same.lambda, M1.same.alpha] at R6
  refine (forward_inv C R6 M6).mono fun s7 h7 I => ?_
  rw [eb, R5.bias] at I
  convert I using 1
  unfold stepWith
  refine Prod.ext (funext fun j => congrArg (decay s.reg s.lambda s.alpha) ?_) ?_
  · cases fl
    · simp only [mleErr, Bool.false_eq_true, if_false]; ring
    · have : ∑ i, X i j * ((y i - f (linear X θ1 i)) * g (linear X θ1 i)) = - ∑ i, X i j * ((f (linear X θ1 i) - y i) * g (linear X θ1 i)) := by
        rw [← Finset.sum_neg_distrib]; exact Finset.sum_congr rfl fun i _ => by ring
      simp only [mleErr, if_true, this]; ring
  · cases fl
    · simp only [mleErr, Bool.false_eq_true, if_false]; ring
    · have : ∑ i, ((y i - f (linear X θ1 i)) * g (linear X θ1 i)) = - ∑ i, ((f (linear X θ1 i) - y i) * g (linear X θ1 i)) := by
        rw [← Finset.sum_neg_distrib]; exact Finset.sum_congr rfl fun i _ => by ring
      simp only [mleErr, if_true, this]; ring

end Glm
end Verif
