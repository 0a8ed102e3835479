import Verif.Lemmas.GlmBatch
import Verif.Props.LinAlgElementwise

/-! # The adaptive training methods of linear regression -/

namespace Verif
open Spec Finset
namespace Glm
variable {n k : Nat} {h h' : Heap ℝ} {s : Glm} {X : Matrix (Fin n) (Fin k) ℝ} {y : Fin n → ℝ} {θ : Params k}

theorem zeros_spec (w : h.WF) {v : Fin k → ℝ} (hw : HasV h s.weights v) : ReturnsVec (LinReg.zeros s) h (fun _ : Fin k => (0 : ℝ)) := by
  unfold LinReg.zeros ReturnsVec
  refine Runs.step (Hd.size_run hw) ?_
  have e : Vec.vecn_zero (R := ℝ) (k : Int) h = LinAlg.fullV k (0 : ℝ) h := by
    unfold Vec.vecn_zero Vec.resize
    have c : ¬ ((k : Int) < 0) := by omega
    simp only [if_neg c]
    rfl
  unfold Runs
  rw [e]
  show Runs (LinAlg.fullV k (0 : ℝ)) h _
  unfold LinAlg.fullV
  refine Runs.newVec w ⟨rfl, rfl⟩ fun h1 w1 k1 f1 l1 s1 => Runs.fillV w1 s1 ?_
  exact returnsVec_St w1 k1 f1 l1 s1 fun _ => rfl

/-- What the state `st` in the heap means, for weights in the vector `w`. -/
structure StateRel {σ τ : Type} (w : Ref) (J : σ → Heap ℝ → τ → Prop) : Prop where
  off : ∀ {st h h' t}, J st h t → Keeps h h' (some · = w) → J st h' t

theorem StateRel.keep {σ τ : Type} {w : Ref} {J : σ → Heap ℝ → τ → Prop} (S : StateRel w J) {st : σ} {t : τ} (a : J st h t)
    (kk : Keeps h h' (fun _ => False)) : J st h' t := S.off a (kk.mono fun _ _ => nofun)

/-- One round of an adaptive method: the batch `A`, `z`; the factor `q` of the gradient; the penalty `P`. -/
noncomputable def adaptStep {τ : Type} {m : Nat} (A : Matrix (Fin m) (Fin k) ℝ) (z : Fin m → ℝ) (q : ℝ) (P : ℝ → ℝ) (look : τ → (Fin k → ℝ) → Fin k → ℝ)
    (rule : (Fin k → ℝ) → τ → τ × (Fin k → ℝ)) (lr : ℝ) (a : τ × Params k) : τ × Params k :=
  let w := look a.1 a.2.1
  let err := fun j => linear A (w, a.2.2) j - z j
  let r := rule (fun j => (∑ i, A i j * err i) * q + P (w j)) a.1
  (r.1, (fun j => w j - r.2 j, a.2.2 - lr * (∑ j, err j) / (m : Nat)))

theorem _root_.Verif.Spec.Ready.moveW (R : Ready s h X y θ) {w : Fin k → ℝ} (wf : h'.WF) (kk : Keeps h h' (some · = s.weights))
    (hw : HasV h' s.weights w) : Ready s h' X y (w, θ.2) :=
  ⟨wf, R.rows, R.cols, R.input.off kk R.weights, R.output.off kk R.apart, hw, R.bias, R.apart⟩

theorem Moves.moveW {s0 : Glm} {h0 : Heap ℝ} (m : Moves s0 h0 s h) (kk : Keeps h h' (some · = s.weights)) : Moves s0 h0 s h' :=
  m.trans ⟨.refl s, kk, .inl rfl⟩

theorem adaptive_run {σ τ : Type} (R : Ready s h X y θ) (hi : s.initialized = true) (lr : ℝ) (e : Int) {b K : Nat} (hb : 0 < b)
    (eK : n / b = K) (hK : 0 < K) (hm : 0 < n / K) {J : σ → Heap ℝ → τ → Prop} (S : StateRel s.weights J) {init : M ℝ σ} {t0 : τ}
    (hinit : ∀ h1, Ready s h1 X y θ → Runs init h1 fun st h2 => h2.WF ∧ Keeps h1 h2 (fun _ => False) ∧ J st h2 t0)
    {look : σ → Glm → M ℝ Unit} {lookf : τ → (Fin k → ℝ) → Fin k → ℝ}
    (hlook : ∀ {st s1 h1 t} {θ1 : Params k}, Ready s1 h1 X y θ1 → s1.weights = s.weights → J st h1 t → Runs (look st s1) h1 fun _ h2 =>
      h2.WF ∧ Keeps h1 h2 (some · = s.weights) ∧ HasV h2 s.weights (lookf t θ1.1))
    {rule : Nat → Ref → σ → M ℝ (σ × Ref)} {rulef : Nat → (Fin k → ℝ) → τ → τ × (Fin k → ℝ)}
    (hrule : ∀ {ep g st h1 t} {u v : Fin k → ℝ}, h1.WF → HasV h1 g u → HasV h1 s.weights v → J st h1 t → Runs (rule ep g st) h1 fun q h2 =>
      h2.WF ∧ Keeps h1 h2 (fun _ => False) ∧ J q.1 h2 (rulef ep u t).1 ∧ HasV h2 q.2 (rulef ep u t).2) :
    Runs (LinReg.adaptive init look rule s lr e b) h fun s' h' => Trained id s h s' h' X y
      (walk (roundStep hK fun ep i => adaptStep (batchX X K i) (firstY y K) ((1 / (n / K) : Nat) : ℝ) (Reg.derivTerm s.lambda s.alpha s.reg) lookf
        (rulef ep) lr) (t0, θ) (epochCount e * K)).2 := by
  unfold LinReg.adaptive
  rw [if_pos hi, R.rows]
  refine Runs.bind ((overBatches_run (σ := σ × Glm) Prod.snd R hb eK hK _ _ (fun r h' a => Ready r.2 h' X y a.2 ∧ J r.1 h' a.1 ∧
    r.2.weights = s.weights ∧ r.2.reg = s.reg ∧ r.2.lambda = s.lambda ∧ r.2.alpha = s.alpha) (t0, θ)
    (fun ep i => adaptStep (batchX X K i) (firstY y K) ((1 / (n / K) : Nat) : ℝ) (Reg.derivTerm s.lambda s.alpha s.reg) lookf
        (rulef ep) lr) e ?_ ?_ ?_).mono fun r1 h1 ⟨⟨R1, _⟩, M1⟩ => (forward_inv linReg_computes R1 M1).mono fun _ _ I => I.trained)
  · rintro r h1 a ⟨R1, -⟩; exact ⟨_, R1.weights⟩
  · intro h1 w1 k1
    have R1 := R.keep w1 k1
    refine Runs.bind ((hinit h1 R1).mono fun st h2 ⟨w2, k2, j2⟩ => ?_)
    exact Runs.of_eq rfl ⟨⟨R1.keep w2 k2, j2, rfl, rfl, rfl, rfl⟩, (Moves.refl s h1).new k2⟩
  · rintro ep i ⟨st, s1⟩ h1 ⟨t, θ1⟩ Xb yb ⟨R1, j1, ew, er, el, ea⟩ hX hy ne
    dsimp only at R1 j1 ew er el ea ne ⊢
    refine Runs.bind ((hlook R1 ew j1).mono fun _ h2 ⟨w2, k2, hw2⟩ => ?_)
    rw [← ew] at k2 hw2
    have R2 := R1.moveW w2 k2 hw2
    have M2 := (Moves.refl s1 h1).moveW k2
    have j2 := S.off j1 (by rw [← ew]; exact k2)
    have hX := hX.off k2 R1.weights
    have hy := hy.off k2 ne
    refine stepV (evaluatem_spec linReg_computes w2 hX R2.weights) fun p h3 w3 k3 f3 a3 => ?_
    have R3 := R2.keep w3 k3
    have M3 := M2.new k3
    have j3 := S.keep j2 k3
    adv k3
    obtain ⟨c, ec⟩ := cost_run linReg_computes w3 a3 hy R3.weights
    refine Runs.step ec ?_
    refine stepV (Hd.subn_spec w3 a3 hy) fun er2 h4 w4 k4 f4 a4 => ?_
    have R4 := R3.keep w4 k4
    have M4 := M3.new k4
    have j4 := S.keep j3 k4
    have ne4 : er2 ≠ s1.weights := f4.ne R3.weights
    adv k4
    refine Runs.step (Hd.size_run hy) ?_
    rw [if_neg hm.ne']
    refine stepV (gradient_spec w4 hX a4 _) fun g h5 w5 k5 f5 a5 => ?_
    have R5 := R4.keep w5 k5
    have M5 := M4.new k5
    have j5 := S.keep j4 k5
    adv k5
    have hwt := R5.weights
    have rs : ReturnsVec (Reg.reg_deriv_termv s1.weights s1.lambda s1.alpha s1.reg) h5
        fun j => Reg.derivTerm s1.lambda s1.alpha s1.reg (lookf t θ1.1 j) := by
      obtain ⟨x, ex, lx, hx⟩ := hwt
      rw [ex]
      exact Reg.reg_deriv_termv_spec w5 hx lx _ _ _
    refine stepV rs fun r0 h6 w6 k6 f6 a6 => ?_
    have R6 := R5.keep w6 k6
    have M6 := M5.new k6
    have j6 := S.keep j5 k6
    adv k6
    refine stepV (Hd.addn_spec w6 a5 a6) fun wg h7 w7 k7 f7 a7 => ?_
    have R7 := R6.keep w7 k7
    have M7 := M6.new k7
    have j7 := S.keep j6 k7
    adv k7
    refine Runs.bind ((hrule w7 a7 (by rw [← ew]; exact R7.weights) j7).mono fun q h8 ⟨w8, k8, j8, a8⟩ => ?_)
    have e0 : s1.bias = θ1.2 := R1.bias
    rw [er, el, ea, e0] at j8 a8
    have R8 := R7.keep w8 k8
    have M8 := M7.new k8
    adv k8
    refine Runs.bind ((Hd.sub_run w8 R8.weights a8).mono fun _ h9 ⟨w9, k9, a9⟩ => ?_)
    have R9 := R8.moveW w9 k9 a9
    have M9 := M8.moveW k9
    have j9 := S.off j8 (by rw [← ew]; exact k9)
    refine Runs.step (Hd.sum_elements_run w9 (a4.off k9 ne4)) ?_
    obtain ⟨B, eB⟩ : ∃ B, B = s1.bias - lr * (∑ j, (id (linear (batchX X K i) (lookf t θ1.1, s1.bias) j) - firstY y K j)) / (n / K : Nat) := ⟨_, rfl⟩
    rw [← eB]
    have R10 := R9.setBias B
    have M10 := M9.bias B
    rw [e0] at eB
    refine Runs.of_eq rfl ⟨⟨?_, j9, ew, er, el, ea⟩, M10⟩
    rw [eB] at R10 ⊢
    exact R10

/-- A vector of the state. -/
def StV (w : Ref) (r : Ref) (h : Heap ℝ) (v : Fin k → ℝ) : Prop := HasV h r v ∧ r ≠ w

/-- A pair of vectors of the state. -/
def StV2 (w : Ref) (r : Ref × Ref) (h : Heap ℝ) (v : (Fin k → ℝ) × (Fin k → ℝ)) : Prop := StV w r.1 h v.1 ∧ StV w r.2 h v.2

theorem stV_rel (w : Ref) : StateRel w (StV (k := k) w) := ⟨fun a kk => ⟨a.1.off kk a.2, a.2⟩⟩
theorem stV2_rel (w : Ref) : StateRel w (StV2 (k := k) w) := ⟨fun a kk => ⟨(stV_rel w).off a.1 kk, (stV_rel w).off a.2 kk⟩⟩

theorem zeros_init (R : Ready s h X y θ) :
    Runs (LinReg.zeros s) h fun st h2 => h2.WF ∧ Keeps h h2 (fun _ => False) ∧ StV s.weights st h2 (fun _ : Fin k => 0) :=
  (zeros_spec R.wf R.weights).has.mono fun r h1 q => ⟨q.1, q.2.1, q.2.2.2, q.2.2.1.ne R.weights⟩

theorem zeros2_init (R : Ready s h X y θ) :
    Runs (LinReg.zeros2 s) h fun st h2 => h2.WF ∧ Keeps h h2 (fun _ => False) ∧
      StV2 s.weights st h2 ((fun _ => 0, fun _ => 0) : (Fin k → ℝ) × (Fin k → ℝ)) := by
  unfold LinReg.zeros2
  refine Runs.bind ((zeros_init R).mono fun r h1 ⟨w1, k1, a1⟩ => ?_)
  refine Runs.bind ((zeros_init (R.keep w1 k1)).mono fun r2 h2 ⟨w2, k2, a2⟩ => ?_)
  exact Runs.of_eq rfl ⟨w2, k1.trans k2, (stV_rel _).keep a1 k2, a2⟩

theorem no_look {st : Ref} {v : Fin k → ℝ} (w : h.WF) (hw : HasV h s.weights v) :
    Runs ((fun _ _ => pure () : Ref → Glm → M ℝ Unit) st s) h fun _ h2 => h2.WF ∧ Keeps h h2 (some · = s.weights) ∧ HasV h2 s.weights v :=
  Runs.of_eq rfl ⟨w, Keeps.refl _ _, hw⟩

/-- The rule leaves the weights alone. -/
def RuleOk {σ τ : Type} (w : Ref) (J : σ → Heap ℝ → τ → Prop) (rule : Ref → σ → M ℝ (σ × Ref)) (rulef : (Fin k → ℝ) → τ → τ × (Fin k → ℝ)) : Prop :=
  ∀ {g st h1 t} {u v : Fin k → ℝ}, h1.WF → HasV h1 g u → HasV h1 w v → J st h1 t → Runs (rule g st) h1 fun q h2 =>
      h2.WF ∧ Keeps h1 h2 (fun _ => False) ∧ J q.1 h2 (rulef u t).1 ∧ HasV h2 q.2 (rulef u t).2

theorem _root_.Verif.Spec.HasV.cast {r : Ref} {u v : Fin k → ℝ} (a : HasV h r u) (e : u = v) : HasV h r v := e ▸ a

theorem momentum_rule (w : Ref) (gamma lr : ℝ) : RuleOk (k := k) w (StV w) (fun weight_grad v => do
    let a ← Hd.scalar_multiplyn v gamma
    let b ← Hd.scalar_multiplyn weight_grad lr
    let v ← Hd.addn a b
    pure (v, v)) (momentumRule gamma lr) := by
  intro g st h1 t u v w1 hg hw ⟨hv, nv⟩
  refine stepV (Hd.scalar_multiplyn_spec w1 hv gamma) fun a h2 w2 k2 f2 a2 => ?_
  have kk := k2
  adv k2
  refine stepV (Hd.scalar_multiplyn_spec w2 hg lr) fun b h3 w3 k3 f3 a3 => ?_
  have kk := kk.trans k3
  adv k3
  refine stepV (Hd.addn_spec w3 a2 a3) fun c h4 w4 k4 f4 a4 => ?_
  have a4 := a4.cast (v := (momentumRule gamma lr u t).1) (funext fun j => by simp only [momentumRule]; ring)
  exact Runs.of_eq rfl ⟨w4, kk.trans k4, ⟨a4, f4.ne hw⟩, a4⟩

theorem scaled_spec (w : h.WF) {g v : Ref} {u t : Fin k → ℝ} (hg : HasV h g u) (hv : HasV h v t) (e lr : ℝ) :
    ReturnsVec (LinReg.scaled g v e lr) h fun j => lr * (u j / Real.sqrt (t j + e)) := by
  refine .of_has ?_
  unfold LinReg.scaled
  refine stepV (Hd.scalar_addn_spec w hv e) fun a h2 w2 k2 f2 a2 => ?_
  have kk := k2
  adv k2
  refine stepV (Hd.sqrtn_spec w2 a2) fun b h3 w3 k3 f3 a3 => ?_
  have kk := kk.trans k3
  adv k3
  refine stepV (Hd.division_element_wisen_spec w3 hg a3) fun c h4 w4 k4 f4 a4 => ?_
  have kk := kk.trans k4
  adv k4
  refine (Hd.scalar_multiplyn_spec w4 a4 lr).has.mono fun r h5 q => ⟨q.1, kk.trans q.2.1, q.2.2.1.mono kk, q.2.2.2.cast ?_⟩
  funext j; ring

theorem adagrad_rule (w : Ref) (e lr : ℝ) : RuleOk (k := k) w (StV w) (fun weight_grad _ => do
    let v ← Hd.hadamard_productn weight_grad weight_grad
    let d ← LinReg.scaled weight_grad v e lr
    pure (v, d)) (adagradRule e lr) := by
  intro g st h1 t u v w1 hg hw ⟨hv, nv⟩
  refine stepV (Hd.hadamard_productn_spec w1 hg hg) fun a h2 w2 k2 f2 a2 => ?_
  have a2 := a2.cast (v := fun j => u j ^ 2) (funext fun j => (sq _).symm)
  have ne := f2.ne hw
  have kk := k2
  adv k2
  refine stepV (scaled_spec w2 hg a2 e lr) fun b h3 w3 k3 f3 a3 => ?_
  exact Runs.of_eq rfl ⟨w3, kk.trans k3, ⟨adv_hasv k3 a2, ne⟩, a3⟩

theorem blend_spec (w : h.WF) {x z : Ref} {u t : Fin k → ℝ} (hx : HasV h x u) (hz : HasV h z t) (b c : ℝ) :
    ReturnsVec (LinReg.blend x b z c) h fun j => b * u j + c * t j := by
  refine .of_has ?_
  unfold LinReg.blend
  refine stepV (Hd.scalar_multiplyn_spec w hx b) fun a h2 w2 k2 f2 a2 => ?_
  have kk := k2
  adv k2
  refine stepV (Hd.scalar_multiplyn_spec w2 hz c) fun b h3 w3 k3 f3 a3 => ?_
  have kk := kk.trans k3
  adv k3
  refine (Hd.addn_spec w3 a2 a3).has.mono fun r h5 q => ⟨q.1, kk.trans q.2.1, q.2.2.1.mono kk, q.2.2.2.cast ?_⟩
  funext j; ring

theorem adadelta_rule (w : Ref) (b1 e lr : ℝ) : RuleOk (k := k) w (StV w) (fun weight_grad v => do
    let a ← Hd.scalar_multiplyn v b1
    let g2 ← Hd.hadamard_productn weight_grad weight_grad
    let b ← Hd.scalar_multiplyn g2 (1 - b1)
    let v ← Hd.addn a b
    let d ← LinReg.scaled weight_grad v e lr
    pure (v, d)) (adadeltaRule b1 e lr) := by
  intro g st h1 t u v w1 hg hw ⟨hv, nv⟩
  refine stepV (Hd.scalar_multiplyn_spec w1 hv b1) fun a h2 w2 k2 f2 a2 => ?_
  have kk := k2
  adv k2
  refine stepV (Hd.hadamard_productn_spec w2 hg hg) fun b h3 w3 k3 f3 a3 => ?_
  have kk := kk.trans k3
  adv k3
  refine stepV (Hd.scalar_multiplyn_spec w3 a3 (1 - b1)) fun c h4 w4 k4 f4 a4 => ?_
  have kk := kk.trans k4
  adv k4
  refine stepV (Hd.addn_spec w4 a2 a4) fun d h5 w5 k5 f5 a5 => ?_
  have a5 := a5.cast (v := (adadeltaRule b1 e lr u t).1) (funext fun j => by simp only [adadeltaRule]; ring)
  have ne := f5.ne hw
  have kk := kk.trans k5
  adv k5
  refine stepV (scaled_spec w5 hg a5 e lr) fun q h6 w6 k6 f6 a6 => ?_
  exact Runs.of_eq rfl ⟨w6, kk.trans k6, ⟨adv_hasv k6 a5, ne⟩, a6⟩

theorem scaledHat_spec (w : h.WF) {x v : Ref} {u t : Fin k → ℝ} (hx : HasV h x u) (hv : HasV h v t) (e lr : ℝ) :
    ReturnsVec (LinReg.scaledHat x v e lr) h fun j => lr * (u j / (Real.sqrt (t j) + e)) := by
  refine .of_has ?_
  unfold LinReg.scaledHat
  refine stepV (Hd.sqrtn_spec w hv) fun a h2 w2 k2 f2 a2 => ?_
  have kk := k2
  adv k2
  refine stepV (Hd.scalar_addn_spec w2 a2 e) fun b h3 w3 k3 f3 a3 => ?_
  have kk := kk.trans k3
  adv k3
  refine stepV (Hd.division_element_wisen_spec w3 hx a3) fun c h4 w4 k4 f4 a4 => ?_
  have kk := kk.trans k4
  adv k4
  refine (Hd.scalar_multiplyn_spec w4 a4 lr).has.mono fun r h5 q => ⟨q.1, kk.trans q.2.1, q.2.2.1.mono kk, q.2.2.2.cast ?_⟩
  funext j; ring

theorem adam_rule (w : Ref) (b1 b2 e lr : ℝ) (epoch : Nat) : RuleOk (k := k) w (StV2 w) (fun weight_grad st => do
    let m ← LinReg.blend st.1 b1 weight_grad (1 - b1)
    let g2 ← Hd.exponentiaten weight_grad 2
    let v ← LinReg.blend st.2 b2 g2 (1 - b2)
    let m_hat ← Hd.scalar_multiplyn m (1 / (1 - b1 ^ (epoch : ℝ)))
    let v_hat ← Hd.scalar_multiplyn v (1 / (1 - b2 ^ (epoch : ℝ)))
    let d ← LinReg.scaledHat m_hat v_hat e lr
    pure ((m, v), d)) (adamRule b1 b2 e lr epoch) := by
  rintro g ⟨s1, s2⟩ h1 ⟨t1, t2⟩ u v w1 hg hw ⟨⟨hm, nm⟩, ⟨hv, nv⟩⟩
  dsimp only at hm hv nm nv
  refine stepV (blend_spec w1 hm hg b1 (1 - b1)) fun m h2 w2 k2 f2 a2 => ?_
  have kk := k2
  have ne2 := f2.ne hw
  adv k2
  refine stepV (Hd.exponentiaten_spec w2 hg 2) fun g2 h3 w3 k3 f3 a3 => ?_
  have a3 := a3.cast (v := fun j => u j ^ 2) (funext fun j => Real.rpow_two _)
  have kk := kk.trans k3
  adv k3
  refine stepV (blend_spec w3 hv a3 b2 (1 - b2)) fun v' h4 w4 k4 f4 a4 => ?_
  have kk := kk.trans k4
  have ne4 := f4.ne hw
  adv k4
  refine stepV (Hd.scalar_multiplyn_spec w4 a2 _) fun mh h5 w5 k5 f5 a5 => ?_
  have kk := kk.trans k5
  adv k5
  refine stepV (Hd.scalar_multiplyn_spec w5 a4 _) fun vh h6 w6 k6 f6 a6 => ?_
  have kk := kk.trans k6
  adv k6
  refine stepV (scaledHat_spec w6 a5 a6 e lr) fun d h7 w7 k7 f7 a7 => ?_
  have kk := kk.trans k7
  adv k7
  refine Runs.of_eq rfl ⟨w7, kk, ⟨⟨a2, ne2⟩, ⟨a4, ne4⟩⟩, a7.cast ?_⟩
  funext j
  simp only [adamRule, Real.rpow_natCast, mul_one_div]

theorem nadam_rule (w : Ref) (b1 b2 e lr : ℝ) (epoch : Nat) : RuleOk (k := k) w (StV2 w) (fun weight_grad st => do
    let m ← LinReg.blend st.1 b1 weight_grad (1 - b1)
    let g2 ← Hd.exponentiaten weight_grad 2
    let v ← LinReg.blend st.2 b2 g2 (1 - b2)
    let m_final ← LinReg.blend m b1 weight_grad ((1 - b1) / (1 - b1 ^ (epoch : ℝ)))
    let _ ← Hd.scalar_multiplyn m (1 / (1 - b1 ^ (epoch : ℝ)))
    let v_hat ← Hd.scalar_multiplyn v (1 / (1 - b2 ^ (epoch : ℝ)))
    let d ← LinReg.scaledHat m_final v_hat e lr
    pure ((m, v), d)) (nadamRule b1 b2 e lr epoch) := by
  rintro g ⟨s1, s2⟩ h1 ⟨t1, t2⟩ u v w1 hg hw ⟨⟨hm, nm⟩, ⟨hv, nv⟩⟩
  dsimp only at hm hv nm nv
  refine stepV (blend_spec w1 hm hg b1 (1 - b1)) fun m h2 w2 k2 f2 a2 => ?_
  have kk := k2
  have ne2 := f2.ne hw
  adv k2
  refine stepV (Hd.exponentiaten_spec w2 hg 2) fun g2 h3 w3 k3 f3 a3 => ?_
  have a3 := a3.cast (v := fun j => u j ^ 2) (funext fun j => Real.rpow_two _)
  have kk := kk.trans k3
  adv k3
  refine stepV (blend_spec w3 hv a3 b2 (1 - b2)) fun v' h4 w4 k4 f4 a4 => ?_
  have kk := kk.trans k4
  have ne4 := f4.ne hw
  adv k4
  refine stepV (blend_spec w4 a2 hg b1 _) fun mf h8 w8 k8 f8 a8 => ?_
  have kk := kk.trans k8
  adv k8
  refine stepV (Hd.scalar_multiplyn_spec w8 a2 _) fun mh h5 w5 k5 f5 a5 => ?_
  have kk := kk.trans k5
  adv k5
  refine stepV (Hd.scalar_multiplyn_spec w5 a4 _) fun vh h6 w6 k6 f6 a6 => ?_
  have kk := kk.trans k6
  adv k6
  refine stepV (scaledHat_spec w6 a8 a6 e lr) fun d h7 w7 k7 f7 a7 => ?_
  have kk := kk.trans k7
  adv k7
  refine Runs.of_eq rfl ⟨w7, kk, ⟨⟨a2, ne2⟩, ⟨a4, ne4⟩⟩, a7.cast ?_⟩
  funext j
  simp only [nadamRule, Real.rpow_natCast, mul_one_div]

theorem adamax_rule (w : Ref) (b1 b2 lr : ℝ) (epoch : Nat) : RuleOk (k := k) w (StV2 w) (fun weight_grad st => do
    let m ← LinReg.blend st.1 b1 weight_grad (1 - b1)
    let p ← Hd.scalar_multiplyn st.2 b2
    let q ← Hd.absn weight_grad
    let u ← Hd.maxn p q
    let m_hat ← Hd.scalar_multiplyn m (1 / (1 - b1 ^ (epoch : ℝ)))
    let c ← Hd.division_element_wisen m_hat u
    let d ← Hd.scalar_multiplyn c lr
    pure ((m, u), d)) (adamaxRule b1 b2 lr epoch) := by
  rintro g ⟨s1, s2⟩ h1 ⟨t1, t2⟩ u v w1 hg hw ⟨⟨hm, nm⟩, ⟨hv, nv⟩⟩
  dsimp only at hm hv nm nv
  refine stepV (blend_spec w1 hm hg b1 (1 - b1)) fun m h2 w2 k2 f2 a2 => ?_
  have kk := k2
  have ne2 := f2.ne hw
  adv k2
  refine stepV (Hd.scalar_multiplyn_spec w2 hv b2) fun p h3 w3 k3 f3 a3 => ?_
  have kk := kk.trans k3
  adv k3
  refine stepV (Hd.absn_spec w3 hg) fun q h4 w4 k4 f4 a4 => ?_
  have kk := kk.trans k4
  adv k4
  refine stepV (Hd.maxn_spec w4 a3 a4) fun u' h8 w8 k8 f8 a8 => ?_
  have kk := kk.trans k8
  have ne8 := f8.ne hw
  adv k8
  refine stepV (Hd.scalar_multiplyn_spec w8 a2 _) fun mh h5 w5 k5 f5 a5 => ?_
  have kk := kk.trans k5
  adv k5
  refine stepV (Hd.division_element_wisen_spec w5 a5 a8) fun c h6 w6 k6 f6 a6 => ?_
  have kk := kk.trans k6
  adv k6
  refine stepV (Hd.scalar_multiplyn_spec w6 a6 lr) fun d h7 w7 k7 f7 a7 => ?_
  have kk := kk.trans k7
  adv k7
  refine Runs.of_eq rfl ⟨w7, kk, ⟨⟨a2, ne2⟩, ⟨a8.cast ?_, ne8⟩⟩, a7.cast ?_⟩
  · funext j; simp only [adamaxRule]; rw [mul_comm]
  · funext j
    simp only [adamaxRule, Real.rpow_natCast, mul_one_div]
    rw [mul_comm (t2 j) b2, mul_comm lr]

end Glm
end Verif
