import Verif.Lemmas.SoftmaxNetMath

/-! # `MLPPAutoEncoder`: what the methods compute -/

namespace Verif
open Spec Finset
namespace AutoEncoder
open Glm (epochs epochs_run walk)
open SoftmaxNet (backE sub_mat)
variable {n k m c p : Nat} {h h' : Heap ℝ} {s : AutoEncoder} {X : Matrix (Fin n) (Fin k) ℝ} {θ : DeepParams k m k}

/-- What belongs to the object and may be written to. -/
def owned (s : AutoEncoder) : List Ref := [s.weights1, s.weights2, s.bias1, s.bias2]

theorem _root_.Verif.Spec.AutoReady.keep (R : AutoReady s h X θ) (w : h'.WF) (kk : Keeps h h' (fun _ => False)) : AutoReady s h' X θ :=
  ⟨w, R.init, R.rows, adv_hasm kk R.input, adv_hasm kk R.weights1, adv_hasv kk R.bias1, adv_hasm kk R.weights2, adv_hasv kk R.bias2, R.apart,
    R.apart_weights, R.apart_biases⟩

theorem fresh_off (R : AutoReady s h X θ) {r : Ref} (f : NotIn h r) : r ∉ owned s := by
  simp only [owned, List.mem_cons, List.not_mem_nil, or_false, not_or]
  obtain ⟨_, e1, l1, -⟩ := R.weights1
  obtain ⟨_, e2, l2, -⟩ := R.weights2
  obtain ⟨_, e3, l3, -⟩ := R.bias1
  obtain ⟨_, e4, l4, -⟩ := R.bias2
  exact ⟨fun e => f _ (e.trans e1) l1, fun e => f _ (e.trans e2) l2, fun e => f _ (e.trans e3) l3, fun e => f _ (e.trans e4) l4⟩

theorem evaluatev_spec (w : h.WF) {x : Ref} {v : Fin k → ℝ} (hx : HasV h x v) (h1 : HasM h s.weights1 θ.1.1) (b1 : HasV h s.bias1 θ.1.2)
    (h2 : HasM h s.weights2 θ.2.1) (b2 : HasV h s.bias2 θ.2.2) : ReturnsVec (evaluatev s x) h (deepOut (fun _ : Fin 1 => v) θ 0) := by
  refine .of_has ?_
  unfold evaluatev
  refine Runs.bind ((TwoLayer.hiddenv_run w hx h1 b1).mono fun r h3 ⟨w3, k3, _, _, _, a3⟩ => ?_)
  have K3 := k3
  adv k3
  exact (TwoLayer.outv_spec w3 a3 h2 b2).has.mono fun r h5 ⟨w5, k5, f5, a5⟩ => ⟨w5, K3.trans k5, f5.mono K3, a5⟩

theorem evaluatem_spec (w : h.WF) {x : Ref} {A : Matrix (Fin p) (Fin k) ℝ} (hx : HasM h x A) (h1 : HasM h s.weights1 θ.1.1) (b1 : HasV h s.bias1 θ.1.2)
    (h2 : HasM h s.weights2 θ.2.1) (b2 : HasV h s.bias2 θ.2.2) : ReturnsMat (evaluatem s x) h (deepOut A θ) := by
  refine .of_has ?_
  unfold evaluatem
  refine Runs.bind ((TwoLayer.hiddenm_run w hx h1 b1).mono fun r h3 ⟨w3, k3, _, _, _, a3⟩ => ?_)
  have K3 := k3
  adv k3
  exact (TwoLayer.outm_spec w3 a3 h2 b2).has.mono fun r h5 ⟨w5, k5, f5, a5⟩ => ⟨w5, K3.trans k5, f5.mono K3, a5⟩

theorem cost_ok {p q : Nat} {A : Matrix (Fin p) (Fin q) ℝ} {p' q' : Nat} {B : Matrix (Fin p') (Fin q') ℝ} (w : h.WF) {a b : Ref} (ha : HasM h a A)
    (hb : HasM h b B) : ∃ x, cost a b h = .ok (x, h) := by
  obtain ⟨x, rfl, lx, ix⟩ := ha
  obtain ⟨z, rfl, lz, iz⟩ := hb
  show ∃ v, Cost.lossOf _ _ (some (.m x)) (some (.m z)) h = .ok (v, h)
  by_cases e : (h.size (.m x)).count = (h.size (.m z)).count
  · exact ⟨_, Cost.lossOf_run w e⟩
  · exact ⟨_, Cost.lossOf_mismatch e⟩

/-- What a piece of training does: the settings stay, and only what is owned is written to. -/
structure Kept (s0 : AutoEncoder) (h0 : Heap ℝ) (s : AutoEncoder) (h : Heap ℝ) : Prop where
  same : s = { s0 with y_hat := s.y_hat, z2 := s.z2, a2 := s.a2 }
  moved : Moved (owned s0) (owned s) h0 h

section
variable {s0 s1 s2 : AutoEncoder} {h0 h1 h2 : Heap ℝ}
theorem Kept.refl (s : AutoEncoder) (h : Heap ℝ) : Kept s h s h := ⟨rfl, Moved.refl _ _⟩
theorem Kept.trans (a : Kept s0 h0 s1 h1) (b : Kept s1 h1 s2 h2) : Kept s0 h0 s2 h2 := ⟨by rw [b.same, a.same], a.moved.trans b.moved⟩
theorem Kept.new (a : Kept s0 h0 s1 h1) (k : Keeps h1 h2 (fun _ => False)) : Kept s0 h0 s1 h2 := ⟨a.same, a.moved.new k⟩
theorem Kept.tmp (a : Kept s0 h0 s1 h1) {r : Ref} (f : NotIn h0 r) (k : Keeps h1 h2 (some · = r)) : Kept s0 h0 s1 h2 := ⟨a.same, a.moved.tmp f k⟩
theorem Kept.show (a : Kept s0 h0 s1 h1) (y z b : Ref) : Kept s0 h0 { s1 with y_hat := y, z2 := z, a2 := b } h1 := ⟨by rw [a.same], a.moved⟩
end

/-- The layers hold the values of the network. -/
structure Shown (s : AutoEncoder) (h : Heap ℝ) (X : Matrix (Fin n) (Fin k) ℝ) (θ : DeepParams k m k) : Prop where
  out : HasM h s.y_hat (deepOut X θ)
  z : HasM h s.z2 (affine X θ.1)
  a : HasM h s.a2 (hiddens X θ.1)
  off : s.z2 ∉ owned s

theorem forward_run (R : AutoReady s h X θ) :
    Runs (forward_pass s) h fun s' h' => AutoReady s' h' X θ ∧ Kept s h s' h' ∧ Shown s' h' X θ := by
  unfold forward_pass
  refine Runs.bind ((TwoLayer.hiddenm_run R.wf R.input R.weights1 R.bias1).mono fun r h1 ⟨w1, k1, f1, _, z1, a1⟩ => ?_)
  have R1 := R.keep w1 k1
  have o1 := fresh_off R f1
  have K1 := (Kept.refl s h).new k1
  refine Verif.stepM (TwoLayer.outm_spec w1 a1 R1.weights2 R1.bias2) fun y h3 w3 k3 f3 a3 => ?_
  have R3 := R1.keep w3 k3
  have K3 := K1.new k3
  adv k3
  exact Runs.of_eq rfl ⟨⟨w3, R3.init, R3.rows, R3.input, R3.weights1, R3.bias1, R3.weights2, R3.bias2, R3.apart, R3.apart_weights,
    R3.apart_biases⟩, K3.show _ _ _, a3, z1, a1, o1⟩

theorem weights2_set (R : AutoReady s h X θ) (w : h'.WF) (kk : Keeps h h' (some · = s.weights2)) {A : Matrix (Fin m) (Fin k) ℝ} (b : HasM h' s.weights2 A) :
    AutoReady s h' X (θ.1, (A, θ.2.2)) ∧ Kept s h s h' :=
  ⟨⟨w, R.init, R.rows, R.input.offm kk R.apart.2, R.weights1.offm kk R.apart_weights, R.bias1.offm kk R.weights2, b, R.bias2.offm kk R.weights2,
    R.apart, R.apart_weights, R.apart_biases⟩, rfl, (Moved.refl _ _).set (by simp [owned]) kk⟩

theorem weights1_set (R : AutoReady s h X θ) (w : h'.WF) (kk : Keeps h h' (some · = s.weights1)) {A : Matrix (Fin k) (Fin m) ℝ} (b : HasM h' s.weights1 A) :
    AutoReady s h' X ((A, θ.1.2), θ.2) ∧ Kept s h s h' :=
  ⟨⟨w, R.init, R.rows, R.input.offm kk R.apart.1, b, R.bias1.offm kk R.weights1, R.weights2.offm kk R.apart_weights.symm, R.bias2.offm kk R.weights1,
    R.apart, R.apart_weights, R.apart_biases⟩, rfl, (Moved.refl _ _).set (by simp [owned]) kk⟩

theorem bias1_set (R : AutoReady s h X θ) (w : h'.WF) (kk : Keeps h h' (some · = s.bias1)) {v : Fin m → ℝ} (b : HasV h' s.bias1 v) :
    AutoReady s h' X ((θ.1.1, v), θ.2) ∧ Kept s h s h' :=
  ⟨⟨w, R.init, R.rows, R.input.off kk R.bias1, R.weights1.off kk R.bias1, b, R.weights2.off kk R.bias1, R.bias2.off kk R.apart_biases.symm,
    R.apart, R.apart_weights, R.apart_biases⟩, rfl, (Moved.refl _ _).set (by simp [owned]) kk⟩

theorem bias2_set (R : AutoReady s h X θ) (w : h'.WF) (kk : Keeps h h' (some · = s.bias2)) {v : Fin k → ℝ} (b : HasV h' s.bias2 v) :
    AutoReady s h' X (θ.1, (θ.2.1, v)) ∧ Kept s h s h' :=
  ⟨⟨w, R.init, R.rows, R.input.off kk R.bias2, R.weights1.off kk R.bias2, R.bias1.off kk R.apart_biases, R.weights2.off kk R.bias2, b,
    R.apart, R.apart_weights, R.apart_biases⟩, rfl, (Moved.refl _ _).set (by simp [owned]) kk⟩

/-- The step on the inputs `A`; the rate of the biases of the outputs is not divided by the number of rows. -/
noncomputable def autoStep (A : Matrix (Fin p) (Fin k) ℝ) (lr : ℝ) (θ : DeepParams k m k) : DeepParams k m k :=
  (SoftmaxReg.stepM A (backE (fun i b => deepOut A θ i b - A i b)
      (SoftmaxReg.stepM (hiddens A θ.1) (fun i b => deepOut A θ i b - A i b) (fun x => x) (lr / p) θ.2).1 (affine A θ.1)) (fun x => x) (lr / p) θ.1,
    ((SoftmaxReg.stepM (hiddens A θ.1) (fun i b => deepOut A θ i b - A i b) (fun x => x) (lr / p) θ.2).1,
      fun b => θ.2.2 b - ∑ i, (deepOut A θ i b - A i b) * lr))

theorem gdBody_run (R : AutoReady s h X θ) (S : Shown s h X θ) (lr : ℝ) :
    Runs (gdBody lr s) h fun s' h' => AutoReady s' h' X (autoStep X lr θ) ∧ Kept s h s' h' ∧ Shown s' h' X (autoStep X lr θ) := by
  obtain ⟨S1, S2, S3, S4⟩ := S
  have hn := R.rows
  unfold gdBody
  rw [hn]
  obtain ⟨x, ex⟩ := cost_ok R.wf S1 R.input
  refine Runs.step ex ?_
  refine Verif.stepM (Hd.subnm_spec R.wf S1 R.input) fun er h1 w1 k1 f1 a1 => ?_
  have R1 := R.keep w1 k1
  have K1 := (Kept.refl s h).new k1
  have o1 := fresh_off R f1
  adv k1
  refine Verif.stepM (TwoLayer.slope_spec w1 S3 a1 _) fun d h2 w2 k2 f2 a2 => ?_
  have R2 := R1.keep w2 k2
  have K2 := K1.new k2
  adv k2
  refine Runs.bind ((Hd.subm_run w2 R2.weights2 a2).mono fun _ h3 ⟨w3, k3, b3⟩ => ?_)
  obtain ⟨R3, K3⟩ := weights2_set R2 w3 k3 b3
  have a3 := K3.moved.mat a1 o1
  have z3 := K3.moved.mat S2 S4
  refine Verif.stepM (Hd.scalar_multiplynm_spec R3.wf a3 lr) fun b h4 w4 k4 f4 a4 => ?_
  have R4 := R3.keep w4 k4
  adv k4
  refine Runs.bind ((Hd.subtract_matrix_rows_run w4 R4.bias2 a4).mono fun _ h5 ⟨w5, k5, a5⟩ => ?_)
  obtain ⟨R5, K5⟩ := bias2_set R4 w5 k5 a5
  have a6 := K5.moved.mat a3 o1
  have z6 := K5.moved.mat z3 S4
  have K6 := ((K2.trans K3).new k4).trans K5
  refine Verif.stepM (TwoLayer.back_spec w5 a6 R5.weights2 z6) fun D h7 w7 k7 f7 a7 => ?_
  have R7 := R5.keep w7 k7
  have K7 := K6.new k7
  have o7 := fresh_off R5 f7
  refine Verif.stepM (TwoLayer.slope_spec w7 R7.input a7 _) fun d h8 w8 k8 f8 a8 => ?_
  have R8 := R7.keep w8 k8
  have K8 := K7.new k8
  adv k8
  refine Runs.bind ((Hd.subm_run w8 R8.weights1 a8).mono fun _ h9 ⟨w9, k9, b9⟩ => ?_)
  obtain ⟨R9, K9⟩ := weights1_set R8 w9 k9 b9
  have a9 := K9.moved.mat a7 o7
  refine Verif.stepM (Hd.scalar_multiplynm_spec w9 a9 _) fun b h10 w10 k10 f10 a10 => ?_
  have R10 := R9.keep w10 k10
  refine Runs.bind ((Hd.subtract_matrix_rows_run w10 R10.bias1 a10).mono fun _ h11 ⟨w11, k11, a11⟩ => ?_)
  obtain ⟨R11, K11⟩ := bias1_set R10 w11 k11 a11
  exact (forward_run R11).mono fun s7 h7 ⟨R7, K12, S7⟩ => ⟨R7, (((K8.trans K9).new k10).trans K11).trans K12, S7⟩

theorem trained {s0 : AutoEncoder} {h0 : Heap ℝ} (R : AutoReady s h X θ) (K : Kept s0 h0 s h) (S : Shown s h X θ) :
    AutoTrained s0 h0 s h X θ := ⟨R, S.out, K.same, K.moved.keeps.mono fun l _ e => e⟩

theorem gd_run (R : AutoReady s h X θ) (lr : ℝ) (e : Int) :
    Runs (gradient_descent s lr e) h fun s' h' => AutoTrained s h s' h' X (walk (fun _ => autoStep X lr) θ (epochCount e)) := by
  unfold gradient_descent
  rw [if_pos R.init]
  obtain ⟨stp, estp⟩ : ∃ stp : DeepParams k m k → DeepParams k m k, stp = autoStep X lr := ⟨_, rfl⟩
  rw [← estp]
  refine Runs.bind ((forward_run R).mono fun s1 h1 I1 => ?_)
  refine (Glm.epochs_run e s1 _ (fun i s' h' => AutoReady s' h' X (walk (fun _ => stp) θ i) ∧
    Kept s h s' h' ∧ Shown s' h' X (walk (fun _ => stp) θ i)) I1 ?_).mono
    fun s2 h2 ⟨R2, K2, S2⟩ => trained R2 K2 S2
  rintro i s2 h2 ⟨R2, K2, S2⟩
  have ew : walk (fun _ => stp) θ (i + 1) = autoStep X lr (walk (fun _ => stp) θ i) := by rw [← estp]; rfl
  rw [ew]
  exact (gdBody_run R2 S2 lr).mono fun s3 h3 ⟨R3, K3, S3⟩ => ⟨R3, K2.trans K3, S3⟩

/-! ## Stochastic training -/

theorem _root_.Verif.Spec.AutoReady.write (R : AutoReady s h X θ) {r : Ref} (w : h'.WF) (kk : Keeps h h' (some · = r))
    (n1 : s.input_set ≠ r) (n4 : r ∉ owned s) : AutoReady s h' X θ := by
  simp only [owned, List.mem_cons, List.not_mem_nil, or_false, not_or] at n4
  obtain ⟨q1, q2, q3, q4⟩ := n4
  exact ⟨w, R.init, R.rows, R.input.offm kk n1, R.weights1.offm kk (Ne.symm q1), R.bias1.off kk (Ne.symm q3),
    R.weights2.offm kk (Ne.symm q2), R.bias2.off kk (Ne.symm q4), R.apart, R.apart_weights, R.apart_biases⟩

/-- The temporary objects of the loop. -/
structure Tmps (h0 : Heap ℝ) (k : Nat) (row rowm yhatm : Ref) (s : AutoEncoder) (h : Heap ℝ) : Prop where
  hrow : ∃ v : Fin k → ℝ, HasV h row v
  hrowm : ∃ A : Matrix (Fin 1) (Fin k) ℝ, HasM h rowm A
  hyhatm : ∃ A : Matrix (Fin 1) (Fin k) ℝ, HasM h yhatm A
  new : ∀ r ∈ [row, rowm, yhatm], NotIn h0 r
  off : ∀ r ∈ [row, rowm, yhatm], r ∉ owned s
  data : ∀ r ∈ [row, rowm, yhatm], s.input_set ≠ r
  ne2 : rowm ≠ yhatm

theorem Tmps.kept {h0 : Heap ℝ} {row rowm yhatm : Ref} {s' : AutoEncoder} (T : Tmps h0 k row rowm yhatm s h) (K : Kept s h s' h') :
    Tmps h0 k row rowm yhatm s' h' := by
  obtain ⟨v1, a1⟩ := T.hrow
  obtain ⟨v2, a2⟩ := T.hrowm
  obtain ⟨v3, a3⟩ := T.hyhatm
  have o1 := T.off row (by simp)
  have o2 := T.off rowm (by simp)
  have o3 := T.off yhatm (by simp)
  refine ⟨⟨_, K.moved.vec a1 o1⟩, ⟨_, K.moved.mat a2 o2⟩, ⟨_, K.moved.mat a3 o3⟩, T.new, fun r hr => ?_, ?_, T.ne2⟩
  · simp only [List.mem_cons, List.not_mem_nil, or_false] at hr
    rcases hr with rfl | rfl | rfl
    · exact K.moved.notv a1 o1
    · exact K.moved.notm a2 o2
    · exact K.moved.notm a3 o3
  · rw [show s'.input_set = s.input_set by rw [K.same]]
    exact T.data

theorem autoStep_one (v : Fin k → ℝ) (lr : ℝ) (θ : DeepParams k m k) {e : Fin k → ℝ}
    (he : e = fun b => deepOut (fun _ : Fin 1 => v) θ 0 b - v b) {W : MParams m k}
    (hW : W = (fun j b => θ.2.1 j b - hiddens (fun _ : Fin 1 => v) θ.1 0 j * e b * lr, fun b => θ.2.2 b - e b * lr)) :
    autoStep (fun _ : Fin 1 => v) lr θ =
      ((fun j a => θ.1.1 j a - v j * ((∑ b, e b * W.1 a b) * Activation.sigmoid_derivr (affine (fun _ : Fin 1 => v) θ.1 0 a)) * lr,
        fun a => θ.1.2 a - (∑ b, e b * W.1 a b) * Activation.sigmoid_derivr (affine (fun _ : Fin 1 => v) θ.1 0 a) * lr), W) := by
  have q1 : (fun (i' : Fin 1) b => deepOut (fun _ : Fin 1 => v) θ i' b - v b) = fun _ : Fin 1 => e := by
    funext a b; rw [Subsingleton.elim a 0, he]
  have q2 : hiddens (fun _ : Fin 1 => v) θ.1 = fun _ : Fin 1 => hiddens (fun _ : Fin 1 => v) θ.1 0 := by
    funext a b; rw [Subsingleton.elim a 0]
  have q3 : ∀ W : Matrix (Fin m) (Fin k) ℝ, backE (fun _ : Fin 1 => e) W
      (affine (fun _ : Fin 1 => v) θ.1) = fun _ : Fin 1 => fun a => (∑ b, e b * W a b) *
        Activation.sigmoid_derivr (affine (fun _ : Fin 1 => v) θ.1 0 a) := by
    intro W; unfold backE; funext a b; rw [Subsingleton.elim a 0]
  have q4 : (fun b => θ.2.2 b - ∑ i : Fin 1, (deepOut (fun _ : Fin 1 => v) θ i b - v b) * lr) = fun b => θ.2.2 b - e b * lr := by
    funext b; rw [Fin.sum_univ_one, he]
  have q5 : lr / ((1 : Nat) : ℝ) = lr := by simp
  unfold autoStep
  rw [q1, q2, q4, q5, SoftmaxNet.stepM_one, q3, SoftmaxNet.stepM_one, hW]
  rfl

theorem sgdBody_run {s0 : AutoEncoder} {h0 : Heap ℝ} (R : AutoReady s h X θ) (K : Kept s0 h0 s h) {row rowm yhatm : Ref}
    (T : Tmps h0 k row rowm yhatm s h) (i : Fin n) (lr : ℝ) :
    Runs (sgdBody row rowm yhatm (i : Nat) lr s) h fun s' h' =>
      AutoReady s' h' X (autoStep (fun _ : Fin 1 => X i) lr θ) ∧ Kept s0 h0 s' h' ∧ Tmps h0 k row rowm yhatm s' h' := by
  obtain ⟨v1, a1⟩ := T.hrow
  obtain ⟨v2, a2⟩ := T.hrowm
  obtain ⟨v3, a3⟩ := T.hyhatm
  have o1 := T.off row (by simp)
  have o2 := T.off rowm (by simp)
  have o3 := T.off yhatm (by simp)
  have f1 := T.new row (by simp)
  have f2 := T.new rowm (by simp)
  have f3 := T.new yhatm (by simp)
  have d11 := T.data row (by simp)
  have d21 := T.data rowm (by simp)
  have d31 := T.data yhatm (by simp)
  unfold sgdBody
  refine Runs.bind ((Hd.row_get_into_run R.wf R.input a1 i).mono fun _ h1 ⟨w1, k1, b1⟩ => ?_)
  have R1 := R.write w1 k1 d11 o1
  have K1 := K.tmp f1 k1
  replace a2 := a2.off k1 a1
  replace a3 := a3.off k1 a1
  refine Runs.bind ((Hd.row_set_run w1 a2 b1 (0 : Fin 1)).mono fun _ h3 ⟨w3, k3, b2⟩ => ?_)
  have R3 := R1.write w3 k3 d21 o2
  have K3 := K1.tmp f2 k3
  replace b1 := b1.offm k3 a2
  replace a3 := a3.offm k3 T.ne2.symm
  clear a1 a2
  refine stepV (evaluatev_spec w3 b1 R3.weights1 R3.bias1 R3.weights2 R3.bias2) fun p h4 w4 k4 g4 b5 => ?_
  have R4 := R3.keep w4 k4
  have K4 := K3.new k4
  adv k4
  refine Runs.bind ((Hd.row_set_any w4 a3 b5 (0 : Fin 1)).mono fun _ h5 ⟨w5, k5, B3, b3⟩ => ?_)
  have R5 := R4.write w5 k5 d31 o3
  have K5 := K4.tmp f3 k5
  replace b1 := b1.offm k5 a3
  replace b5 := b5.offm k5 a3
  replace b2 := b2.offm k5 T.ne2
  clear a3
  unfold propagatev
  refine Runs.bind ((TwoLayer.hiddenv_run w5 b1 R5.weights1 R5.bias1).mono fun za h6 ⟨w6, k6, fz, _, z6, y6⟩ => ?_)
  have R6 := R5.keep w6 k6
  have K6 := K5.new k6
  have oz := fresh_off R5 fz
  adv k6
  obtain ⟨x, ex⟩ := cost_ok w6 b3 b2
  refine Runs.step ex ?_
  have T6 : Tmps h0 k row rowm yhatm s h6 := ⟨⟨_, b1⟩, ⟨_, b2⟩, ⟨_, b3⟩, T.new, T.off, T.data, T.ne2⟩
  clear b3 b2
  refine stepV (Hd.subn_spec w6 b5 b1) fun er h7 w7 k7 g7 b7 => ?_
  have R7 := R6.keep w7 k7
  have K7 := (Kept.refl s h6).new k7
  have oe := fresh_off R6 g7
  adv k7
  refine Verif.stepM (TwoLayer.slope2v_spec w7 b7 y6 lr) fun d h8 w8 k8 g8 b8 => ?_
  have R8 := R7.keep w8 k8
  have K8 := K7.new k8
  adv k8
  refine Runs.bind ((Hd.subm_run w8 R8.weights2 b8).mono fun _ h9 ⟨w9, k9, c9⟩ => ?_)
  obtain ⟨R9, K9⟩ := weights2_set R8 w9 k9 c9
  have e9' := K9.moved.vec b7 oe
  have z9 := K9.moved.vec z6 oz
  have r9 := K9.moved.vec b1 o1
  replace K9 := K8.trans K9
  refine stepV (Hd.scalar_multiplyn_spec R9.wf e9' lr) fun bb h10 w10 k10 g10 b10 => ?_
  have R10 := R9.keep w10 k10
  have K10 := K9.new k10
  adv k10
  refine Runs.bind ((Hd.sub_run w10 R10.bias2 b10).mono fun _ h11 ⟨w11, k11, b11⟩ => ?_)
  obtain ⟨R11, K11⟩ := bias2_set R10 w11 k11 b11
  have e11 := K11.moved.vec e9' oe
  have z11 := K11.moved.vec z9 oz
  have r11 := K11.moved.vec r9 o1
  replace K11 := K10.trans K11
  refine stepV (TwoLayer.backv_spec w11 e11 R11.weights2 z11) fun D h12 w12 k12 g12 b12 => ?_
  have R12 := R11.keep w12 k12
  have K12 := K11.new k12
  have oD := fresh_off R11 g12
  adv k12
  refine Verif.stepM (TwoLayer.slope1v_spec w12 r11 b12 lr) fun d2 h13 w13 k13 g13 b13 => ?_
  have R13 := R12.keep w13 k13
  have K13 := K12.new k13
  adv k13
  refine Runs.bind ((Hd.subm_run w13 R13.weights1 b13).mono fun _ h14 ⟨w14, k14, c14⟩ => ?_)
  obtain ⟨R14, K14⟩ := weights1_set R13 w14 k14 c14
  have D14 := K14.moved.vec b12 oD
  have r14 := K14.moved.vec r11 o1
  replace K14 := K13.trans K14
  refine stepV (Hd.scalar_multiplyn_spec R14.wf D14 lr) fun b2' h15 w15 k15 g15 b15 => ?_
  have R15 := R14.keep w15 k15
  have K15 := K14.new k15
  adv k15
  refine Runs.bind ((Hd.sub_run w15 R15.bias1 b15).mono fun _ h16 ⟨w16, k16, b16⟩ => ?_)
  obtain ⟨R16, K16⟩ := bias1_set R15 w16 k16 b16
  have r16 := K16.moved.vec r14 o1
  replace K16 := K15.trans K16
  clear r14 R15 R14 R13 R12 R11 R10 R9 R8 R7
  have eθ := autoStep_one (X i) lr θ rfl rfl
  rw [eθ]
  refine stepV (evaluatev_spec w16 r16 R16.weights1 R16.bias1 R16.weights2 R16.bias2) fun p' h17 w17 k17 g17 _ => ?_
  have K17 := K16.new k17
  exact Runs.of_eq rfl ⟨R16.keep w17 k17, K6.trans K17, T6.kept K17⟩

theorem tmps_run (R : AutoReady s h X θ) {β : Type} {C : Loc → Loc → Loc → M ℝ β} {Q : β → Heap ℝ → Prop}
    (next : ∀ row rowm yhatm h1, AutoReady s h1 X θ → Kept s h s h1 → Tmps h k (some row) (some rowm) (some yhatm) s h1 →
      Runs (C row rowm yhatm) h1 Q) :
    Runs (do
      let row ← newVec
      resizeTo row ⟨k, 1, 1⟩
      let rowm ← newMat
      resizeTo rowm ⟨k, 1, 1⟩
      let bsize ← Hd.size s.bias2
      let yhatm ← newMat
      resizeTo yhatm ⟨bsize, 1, 1⟩
      C row rowm yhatm) h Q := by
  refine stepNewV (n := k) R.wf fun o1 h1 v1 w1 k1 f1 a1 => ?_
  have R1 := R.keep w1 k1
  refine stepNewM (m := 1) (n := k) w1 fun o2 h2 v2 w2 k2 f2 a2 => ?_
  have R2 := R1.keep w2 k2
  refine Runs.step (Hd.size_run R2.bias2) ?_
  refine stepNewM (m := 1) (n := k) w2 fun o3 h3 v3 w3 k3 f3 a3 => ?_
  have R3 := R2.keep w3 k3
  have nw : ∀ r ∈ [some (Loc.v o1), some (Loc.m o2), some (Loc.m o3)], NotIn h r := by
    intro r hr
    simp only [List.mem_cons, List.not_mem_nil, or_false] at hr
    rcases hr with rfl | rfl | rfl
    · exact f1
    · exact f2.mono k1
    · exact f3.mono (k1.trans k2)
  refine next _ _ _ h3 R3 ((((Kept.refl s h).new k1).new k2).new k3) ⟨⟨_, adv_hasv k3 (adv_hasv k2 a1)⟩,
    ⟨_, adv_hasm k3 a2⟩, ⟨_, a3⟩, nw, fun r hr => fresh_off R (nw r hr), fun r hr => ((nw r hr).ne_mat R.input).symm, (f3.ne_mat a2).symm⟩

theorem sgd_run (R : AutoReady s h X θ) {pick : Nat → Nat} (hpick : ∀ e, pick e < n) (lr : ℝ) (e : Int) :
    Runs (sgd s pick lr e) h fun s' h' => AutoTrained s h s' h' X
      (walk (fun t => autoStep (fun _ : Fin 1 => X ⟨pick (t + 1), hpick _⟩) lr) θ (epochCount e)) := by
  unfold sgd
  rw [if_pos R.init, R.rows, if_neg (by have := hpick 0; omega)]
  refine Runs.step (Hd.sizem_run R.input) ?_
  dsimp only
  obtain ⟨stp, estp⟩ : ∃ stp : Nat → DeepParams k m k → DeepParams k m k, stp = fun t => autoStep (fun _ : Fin 1 => X ⟨pick (t + 1), hpick _⟩) lr :=
    ⟨_, rfl⟩
  rw [← estp]
  refine tmps_run R (C := fun row rowm yhatm => epochs e s (fun e s => sgdBody (some row) (some rowm) (some yhatm) (pick e) lr s) >>=
    fun s => forward_pass s) fun row rowm yhatm h1 R1 K1 T1 => ?_
  refine Runs.bind ((Glm.epochs_run e s _ (fun i s' h' => AutoReady s' h' X (walk stp θ i) ∧ Kept s h s' h' ∧
      Tmps h k (some row) (some rowm) (some yhatm) s' h') ⟨R1, K1, T1⟩ ?_).mono
    fun s2 h2 ⟨R2, K2, _⟩ => (forward_run R2).mono fun s3 h3 ⟨R3, K3, S3⟩ => trained R3 (K2.trans K3) S3)
  rintro i s2 h2 ⟨R2, K2, T2⟩
  have ew : walk stp θ (i + 1) = autoStep (fun _ : Fin 1 => X ⟨pick (i + 1), hpick _⟩) lr (walk stp θ i) := by
    show stp i _ = _
    rw [estp]
  rw [ew]
  exact sgdBody_run R2 K2 T2 ⟨pick (i + 1), hpick _⟩ lr

end AutoEncoder
end Verif
