import Verif.Lemmas.GlmSgd
import Verif.Props.MiniBatchesMatrix

/-! # Mini-batch training of the linear models -/

namespace Verif
open Spec Finset
namespace Glm
variable {n k : Nat} {h h' : Heap ℝ} {s : Glm} {X : Matrix (Fin n) (Fin k) ℝ} {y : Fin n → ℝ} {θ : Params k} {F : Fns} {f g : ℝ → ℝ}

/-- The batches are where they were made, and none of them is the vector of weights. -/
def BatchesOk (X : Matrix (Fin n) (Fin k) ℝ) (y : Fin n → ℝ) (K : Nat) (bs : List Ref × List Ref) (s : Glm) (h : Heap ℝ) : Prop :=
  ∀ i : Fin K, ∃ a b, bs.1[i.val]? = some a ∧ bs.2[i.val]? = some b ∧ HasM h a (batchX X K i) ∧ HasV h b (firstY y K) ∧ b ≠ s.weights

theorem BatchesOk.moves {K : Nat} {bs : List Ref × List Ref} {s s' : Glm} (B : BatchesOk X y K bs s h) {p : Nat} {v : Fin p → ℝ}
    (hw : HasV h s.weights v) (m : Moves s h s' h') : BatchesOk X y K bs s' h' := by
  intro i
  obtain ⟨a, b, ea, eb, ha, hb, ne⟩ := B i
  refine ⟨a, b, ea, eb, ha.off m.keeps hw, hb.off m.keeps ne, ?_⟩
  rcases m.fresh with q | q
  · rw [q]; exact ne
  · exact (q.ne hb).symm

/-- The step of round `t`. -/
def roundStep {α : Type} {K : Nat} (hK : 0 < K) (stp : Nat → Fin K → α → α) (t : Nat) : α → α := stp (t / K + 1) ⟨t % K, Nat.mod_lt _ hK⟩

theorem rounds_walk {α : Type} {K : Nat} (hK : 0 < K) {R : Nat → Fin K → α → α → Prop} {stp : Nat → Fin K → α → α}
    (ok : ∀ e i a, R e i a (stp e i a)) (N : Nat) (a : α) : Rounds hK R N a (walk (roundStep hK stp) a (N * K)) :=
  chain_walk (fun _ _ => ok _ _ _) _ _

theorem overBatches_run {σ α : Type} (obj : σ → Glm) (R : Ready s h X y θ) {b K : Nat} (hb : 0 < b) (eK : n / b = K) (hK : 0 < K) (init : M ℝ σ)
    (body : Nat → Ref → Ref → σ → M ℝ σ) (I : σ → Heap ℝ → α → Prop) (a0 : α) (stp : Nat → Fin K → α → α) (e : Int)
    (rd : ∀ {σ h1 a}, I σ h1 a → ∃ v : Fin k → ℝ, HasV h1 (obj σ).weights v)
    (hinit : ∀ h1, h1.WF → Keeps h h1 (fun _ => False) → Runs init h1 fun σ h2 => I σ h2 a0 ∧ Moves s h1 (obj σ) h2)
    (hbody : ∀ ep i σ h1 a Xb yb, I σ h1 a → HasM h1 Xb (batchX X K i) → HasV h1 yb (firstY y K) → yb ≠ (obj σ).weights →
      Runs (body ep Xb yb σ) h1 fun σ' h2 => I σ' h2 (stp ep i a) ∧ Moves (obj σ) h1 (obj σ') h2) :
    Runs (overBatches s.input_set s.output_set n (b : Int) e init body) h fun σ' h' =>
      I σ' h' (walk (roundStep hK stp) a0 (epochCount e * K)) ∧ Moves s h (obj σ') h' := by
  unfold overBatches
  have hb' : (b : Int) ≠ 0 := by exact_mod_cast hb.ne'
  rw [if_neg hb']
  have ek : (n : Int).tdiv (b : Int) = ((n / b : Nat) : Int) := by
    rw [Int.tdiv_eq_ediv_of_nonneg (Int.natCast_nonneg n)]; rfl
  dsimp only
  rw [ek, Int.toNat_natCast, eK]
  obtain ⟨ia, eia, lia, hia⟩ := R.input
  obtain ⟨oa, eoa, loa, hoa⟩ := R.output
  rw [eia, eoa]
  refine Runs.bind ((Utilities.create_mini_batchesmv_run R.wf lia loa hia hoa hK (Utilities.batch_row n K)).mono
    fun bs h1 ⟨w1, k1, ⟨lm, _, nm⟩, ⟨lv, _, nv⟩⟩ => ?_)
  have R1 := R.keep w1 k1
  have B1 : BatchesOk X y K bs s h1 := by
    intro i
    obtain ⟨a, ea, fa, la, ha⟩ := nm i
    obtain ⟨c, ec, fc, lc, hc⟩ := nv i
    refine ⟨_, _, ea, ec, ⟨a, rfl, la, ha⟩, ⟨c, rfl, lc, hc⟩, ?_⟩
    have : NotIn h (some (.v c)) := fun l e => by cases e; exact fc
    exact this.ne R.weights
  refine Runs.bind ((hinit h1 w1 k1).mono fun s2 h2 ⟨I2, M2⟩ => ?_)
  have B2 := B1.moves R1.weights M2
  have M2' : Moves s h (obj s2) h2 := ((Moves.refl s h).new k1).trans M2
  let J : Nat → σ → Heap ℝ → Prop := fun t σ h' => I σ h' (walk (roundStep hK stp) a0 t) ∧ Moves s h (obj σ) h' ∧ BatchesOk X y K bs (obj σ) h'
  refine (epochs_run e s2 _ (fun ep σ h' => J (ep * K) σ h') ?_ ?_).mono fun s3 h3 J3 => ⟨J3.1, J3.2.1⟩
  · rw [Nat.zero_mul]; exact ⟨I2, M2', B2⟩
  · intro ep s3 h3 J3
    refine (Runs.foldN K (fun i σ h' => J (ep * K + i) σ h') _ s3 h3 (by simpa using J3) ?_).mono fun s4 h4 J4 => by
      rw [Nat.succ_mul]; exact J4
    rintro i s4 h4 hi ⟨I4, M4, B4⟩
    obtain ⟨a, c, ea, ec, ha, hc, ne⟩ := B4 ⟨i, hi⟩
    have r1 : batchAt bs.1 i h4 = .ok (a, h4) := by unfold batchAt; rw [show bs.1[i]? = some a from ea]; rfl
    have r2 : batchAt bs.2 i h4 = .ok (c, h4) := by unfold batchAt; rw [show bs.2[i]? = some c from ec]; rfl
    refine Runs.step r1 (Runs.step r2 ?_)
    refine (hbody (ep + 1) ⟨i, hi⟩ s4 h4 _ a c I4 ha hc ne).mono fun s5 h5 ⟨I5, M5⟩ => ?_
    obtain ⟨v, hv⟩ := rd I4
    refine ⟨?_, M4.trans M5, B4.moves hv M5⟩
    have e1 : (ep * K + i) / K = ep := by rw [Nat.mul_comm, Nat.mul_add_div hK, Nat.div_eq_of_lt hi, Nat.add_zero]
    have e2 : (ep * K + i) % K = i := by rw [Nat.mul_comm, Nat.mul_add_mod, Nat.mod_eq_of_lt hi]
    have : walk (roundStep hK stp) a0 (ep * K + (i + 1)) = stp (ep + 1) ⟨i, hi⟩ (walk (roundStep hK stp) a0 (ep * K + i)) := by
      show roundStep hK stp (ep * K + i) _ = _
      unfold roundStep
      simp only [e1, e2]
      rfl
    rw [this]; exact I5

theorem mbgd_run (C : Computes F f) (R : Ready s h X y θ) (lr : ℝ) (e : Int) {b K : Nat} (hb : 0 < b) (eK : n / b = K) (hK : 0 < K) :
    Runs (mbgd F s lr e b) h fun s' h' => Trained f s h s' h' X y
      (walk (roundStep hK fun _ i θ => stepWith (batchX X K i) (decay s.reg s.lambda s.alpha) (lr / (n / K : Nat))
        (fun j => f (linear (batchX X K i) θ j) - firstY y K j) lr (n / K : Nat) θ) θ (epochCount e * K)) := by
  unfold mbgd
  rw [R.rows]
  refine Runs.bind ((overBatches_run id R hb eK hK (pure s) _ (fun σ h' a => Ready σ h' X y a ∧ σ.reg = s.reg ∧ σ.lambda = s.lambda ∧
    σ.alpha = s.alpha) θ
    (fun _ i θ => stepWith (batchX X K i) (decay s.reg s.lambda s.alpha) (lr / (n / K : Nat))
        (fun j => f (linear (batchX X K i) θ j) - firstY y K j) lr (n / K : Nat) θ) e ?_ ?_ ?_).mono fun s1 h1 ⟨⟨R1, _⟩, M1⟩ => ?_)
  · rintro σ h1 a ⟨R1, -⟩; exact ⟨_, R1.weights⟩
  · intro h1 w1 k1
    exact Runs.of_eq rfl ⟨⟨R.keep w1 k1, rfl, rfl, rfl⟩, Moves.refl _ _⟩
  · rintro ep i s1 h1 a Xb yb ⟨R1, er, el, ea⟩ hX hy ne
    dsimp only [id] at ne ⊢
    refine stepV (evaluatem_spec C R1.wf hX R1.weights) fun p h2 w2 k2 f2 a2 => ?_
    have R2 := R1.keep w2 k2
    have M2 := (Moves.refl s1 h1).new k2
    rw [show (a.1, s1.bias) = a by rw [R1.bias]] at a2
    adv k2
    obtain ⟨c, ec⟩ := cost_run C w2 a2 hy R2.weights
    refine Runs.step ec ?_
    refine stepV (Hd.subn_spec w2 a2 hy) fun er2 h3 w3 k3 f3 a3 => ?_
    have R3 := R2.keep w3 k3
    have M3 := M2.new k3
    have ne3 : er2 ≠ s1.weights := f3.ne R2.weights
    adv k3
    refine Runs.step (Hd.size_run hy) ?_
    refine stepV (gradient_spec w3 hX a3 _) fun d h4 w4 k4 f4 a4 => ?_
    have R4 := R3.keep w4 k4
    have M4 := M3.new k4
    adv k4
    refine Runs.bind ((subStep_ready R4 a4).mono fun s5 h5 ⟨r, e5, R5, M5⟩ => ?_)
    refine Runs.step (Hd.sum_elements_run R5.wf (a3.off M5.keeps ne3)) ?_
    obtain ⟨B, eB⟩ : ∃ B, B = s5.bias - lr * (∑ j, (f (linear (batchX X K i) a j) - firstY y K j)) / (n / K : Nat) := ⟨_, rfl⟩
    rw [← eB]
    have M6 := (M4.trans M5).bias B
    have R6 := R5.setBias B
    rw [er, el, ea] at R6
    refine Runs.of_eq rfl ⟨⟨?_, M6.same.reg.trans er, M6.same.lambda.trans el, M6.same.alpha.trans ea⟩, M6⟩
    rw [eB, R5.bias] at R6 ⊢
    exact R6
  · exact (forward_inv C R1 M1).mono fun _ _ I => I.trained

end Glm
end Verif
