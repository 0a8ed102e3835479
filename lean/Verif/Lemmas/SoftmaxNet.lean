import Verif.Lemmas.TwoLayer

/-! # `MLPPSoftmaxNet`: what the methods compute -/

namespace Verif
open Spec Finset

namespace Hd
variable {h : Heap ℝ} {a b : Ref} {m n p : Nat}

/-- Setting a row keeps the shape, whatever the length of the vector. -/
theorem row_set_any (w : h.WF) {A : Matrix (Fin m) (Fin n) ℝ} {v : Fin p → ℝ} (ha : HasM h a A) (hb : HasV h b v) (i : Fin m) :
    Runs (row_set_mlpp_vector a (i : Nat) b) h fun _ h' => h'.WF ∧ Keeps h h' (some · = a) ∧ ∃ B : Matrix (Fin m) (Fin n) ℝ, HasM h' a B := by
  by_cases e : p = n
  · subst e
    exact (row_set_run w ha hb i).mono fun _ h' ⟨w', k', b'⟩ => ⟨w', k', _, b'⟩
  · have key : row_set_mlpp_vector a (i : Nat) b h = .ok ((), h) := by
      obtain ⟨x, rfl, l, q⟩ := ha; obtain ⟨y, rfl, l', q'⟩ := hb
      show Mat.row_set_mlpp_vector x _ (some y) h = _
      unfold Mat.row_set_mlpp_vector
      dsimp only
      have e1 : Vec.size y h = .ok (p, h) := by
        show Out.ok _ = _
        rw [q'.1]
      have e2 : Mat.size x h = .ok (⟨n, m, 1⟩, h) := by
        show Out.ok _ = _
        rw [q.1]
      rw [bind_ok e1, bind_ok e2, if_neg e]
      rfl
    exact Runs.of_eq key ⟨w, Keeps.refl _ _, A, ha⟩
end Hd

namespace Glm
/-- `epochs_run`, with a bound on the epochs. -/
theorem epochs_run_lt {σ : Type} {h : Heap ℝ} (max_epoch : Int) (s : σ) (body : Nat → σ → M ℝ σ) (I : Nat → σ → Heap ℝ → Prop) (h0 : I 0 s h)
    (step : ∀ i s h, i < epochCount max_epoch → I i s h → Runs (body (i + 1) s) h fun s' h' => I (i + 1) s' h') :
    Runs (epochs max_epoch s body) h fun s' h' => I (epochCount max_epoch) s' h' :=
  Runs.foldN _ I _ s h h0 fun i s h hi hI => step i s h hi hI

/-- `rounds_run`, with a bound on the rounds. -/
theorem rounds_run_lt {σ : Type} {h : Heap ℝ} (K : Nat) (e : Int) (s : σ) (body : Nat → Nat → σ → M ℝ σ) (J : Nat → σ → Heap ℝ → Prop) (h0 : J 0 s h)
    (step : ∀ ep i s h, i < K → ep * K + (i + 1) ≤ epochCount e * K → J (ep * K + i) s h →
      Runs (body (ep + 1) i s) h fun s' h' => J (ep * K + (i + 1)) s' h') :
    Runs (epochs e s fun ep s => foldN K s fun i s => body ep i s) h fun s' h' => J (epochCount e * K) s' h' := by
  refine epochs_run_lt e s _ (fun ep s h => J (ep * K) s h) (by rw [Nat.zero_mul]; exact h0) fun ep s1 h1 hep J1 => ?_
  rw [Nat.succ_mul]
  refine Runs.foldN K (fun i s h => J (ep * K + i) s h) _ s1 h1 (by simpa using J1) fun i s2 h2 hi J2 => step ep i s2 h2 hi ?_ J2
  calc ep * K + (i + 1) ≤ ep * K + K := by omega
    _ = (ep + 1) * K := by rw [Nat.succ_mul]
    _ ≤ _ := Nat.mul_le_mul_right _ hep
end Glm

namespace SoftmaxNet
open Glm (epochs epochs_run walk roundStep rounds_run walk_round batchAt)
open SoftmaxReg (codeBatch)
variable {n k m c p : Nat} {h h' : Heap ℝ} {s : SoftmaxNet} {X : Matrix (Fin n) (Fin k) ℝ} {Y : Matrix (Fin n) (Fin c) ℝ} {θ : DeepParams k m c}

/-- What belongs to the object and may be written to. -/
def owned (s : SoftmaxNet) : List Ref := [s.weights1, s.weights2, s.bias1, s.bias2]

theorem _root_.Verif.Spec.SoftmaxNetReady.keep (R : SoftmaxNetReady s h X Y θ) (w : h'.WF) (kk : Keeps h h' (fun _ => False)) :
    SoftmaxNetReady s h' X Y θ := by
  obtain ⟨q, P, hP⟩ := R.y_hat
  exact ⟨w, R.units, adv_hasm kk R.input, adv_hasm kk R.output, adv_hasm kk R.weights1, adv_hasv kk R.bias1, adv_hasm kk R.weights2,
    adv_hasv kk R.bias2, ⟨q, P, adv_hasm kk hP⟩, R.apart, R.apart_weights, R.apart_biases⟩

theorem fresh_off (R : SoftmaxNetReady s h X Y θ) {r : Ref} (f : NotIn h r) : r ∉ owned s := by
  simp only [owned, List.mem_cons, List.not_mem_nil, or_false, not_or]
  obtain ⟨_, e1, l1, -⟩ := R.weights1
  obtain ⟨_, e2, l2, -⟩ := R.weights2
  obtain ⟨_, e3, l3, -⟩ := R.bias1
  obtain ⟨_, e4, l4, -⟩ := R.bias2
  exact ⟨fun e => f _ (e.trans e1) l1, fun e => f _ (e.trans e2) l2, fun e => f _ (e.trans e3) l3, fun e => f _ (e.trans e4) l4⟩

theorem needs_init_run (R : SoftmaxNetReady s h X Y θ) : needs_init s h = .ok (false, h) := by
  obtain ⟨i, ei, -, -⟩ := R.input
  obtain ⟨o, eo, -, -⟩ := R.output
  obtain ⟨q, P, hP⟩ := R.y_hat
  have hu := R.units
  unfold needs_init
  rw [ei, eo]
  dsimp only
  rw [← ei, ← eo, bind_ok (Hd.sizem_run R.input), bind_ok (Hd.sizem_run R.output), bind_ok (Hd.sizem_run hP)]
  rw [if_neg (by simp), bind_ok (Hd.sizem_run R.weights1), if_neg (by simp [hu]), bind_ok (Hd.sizem_run R.weights2), if_neg (by simp [hu]),
    bind_ok (Hd.size_run R.bias1), if_neg (by simp [hu]), bind_ok (Hd.size_run R.bias2)]
  simp [pure, M.pure]

theorem needs_init_null (hn : s.input_set = none ∨ s.output_set = none) : needs_init s h = .ok (true, h) := by
  unfold needs_init
  rcases hn with e | e
  · rw [e]; rfl
  · rw [e]; cases s.input_set <;> rfl

theorem guarded_run {α : Type} (R : SoftmaxNetReady s h X Y θ) (x : α) (b : M ℝ α) : guarded s x b h = b h := bind_ok (needs_init_run R)

theorem guarded_null {α : Type} (hn : s.input_set = none ∨ s.output_set = none) (x : α) (b : M ℝ α) : guarded s x b h = .ok (x, h) :=
  (bind_ok (needs_init_null hn)).trans rfl

theorem evaluatev_spec (w : h.WF) {x : Ref} {v : Fin k → ℝ} (hx : HasV h x v) (h1 : HasM h s.weights1 θ.1.1) (b1 : HasV h s.bias1 θ.1.2)
    (h2 : HasM h s.weights2 θ.2.1) (b2 : HasV h s.bias2 θ.2.2) (F : Fits (fun _ : Fin 1 => v) θ) :
    ReturnsVec (evaluatev s x) h (deepSoftmax (fun _ : Fin 1 => v) θ 0) := by
  refine .of_has ?_
  unfold evaluatev
  refine Runs.bind ((TwoLayer.hiddenv_run w hx h1 b1).mono fun r h3 ⟨w3, k3, _, _, _, a3⟩ => ?_)
  have K3 := k3
  adv k3
  refine stepV (TwoLayer.outv_spec w3 a3 h2 b2) fun o h4 w4 k4 f4 a4 => ?_
  have K4 := K3.trans k4
  refine (Hd.adj_softmax_normv_spec w4 a4 fun b => F 0 b).has.mono fun r h5 ⟨w5, k5, f5, a5⟩ => ⟨w5, K4.trans k5, f5.mono K4, ?_⟩
  exact a5

theorem evaluatem_spec (w : h.WF) {x : Ref} {A : Matrix (Fin p) (Fin k) ℝ} (hx : HasM h x A) (h1 : HasM h s.weights1 θ.1.1) (b1 : HasV h s.bias1 θ.1.2)
    (h2 : HasM h s.weights2 θ.2.1) (b2 : HasV h s.bias2 θ.2.2) (F : Fits A θ) : ReturnsMat (evaluatem s x) h (deepSoftmax A θ) := by
  refine .of_has ?_
  unfold evaluatem
  refine Runs.bind ((TwoLayer.hiddenm_run w hx h1 b1).mono fun r h3 ⟨w3, k3, _, _, _, a3⟩ => ?_)
  have K3 := k3
  adv k3
  refine Verif.stepM (TwoLayer.outm_spec w3 a3 h2 b2) fun o h4 w4 k4 f4 a4 => ?_
  have K4 := K3.trans k4
  refine (Hd.adj_softmax_normm_spec w4 a4 F).has.mono fun r h5 ⟨w5, k5, f5, a5⟩ => ⟨w5, K4.trans k5, f5.mono K4, ?_⟩
  exact a5

theorem cross_ok {p q : Nat} {A : Matrix (Fin p) (Fin q) ℝ} {p' q' : Nat} {B : Matrix (Fin p') (Fin q') ℝ} (w : h.WF) {a b : Ref} (ha : HasM h a A)
    (hb : HasM h b B) : ∃ x, Cost.cross_entropym a b h = .ok (x, h) := by
  obtain ⟨x, rfl, lx, ix⟩ := ha
  obtain ⟨z, rfl, lz, iz⟩ := hb
  show ∃ v, Cost.lossOf _ _ (some (.m x)) (some (.m z)) h = .ok (v, h)
  by_cases e : (h.size (.m x)).count = (h.size (.m z)).count
  · exact ⟨_, Cost.lossOf_run w e⟩
  · exact ⟨_, Cost.lossOf_mismatch e⟩

theorem cost_ok {p q : Nat} {A : Matrix (Fin p) (Fin q) ℝ} {p' q' : Nat} {B : Matrix (Fin p') (Fin q') ℝ} {a b : Ref} (R : SoftmaxNetReady s h X Y θ)
    (ha : HasM h a A) (hb : HasM h b B) : ∃ x, cost s a b h = .ok (x, h) := by
  obtain ⟨r, er⟩ := Hd.reg_termm_ok R.wf R.weights1 s.lambda s.alpha s.reg
  obtain ⟨r2, er2⟩ := Hd.reg_termm_ok R.wf R.weights2 s.lambda s.alpha s.reg
  obtain ⟨v, e⟩ := cross_ok R.wf ha hb
  unfold cost
  exact ⟨v + r + r2, by rw [bind_ok e, bind_ok er, bind_ok er2]; rfl⟩

/-- What a piece of training does: the settings stay, and only what is owned is written to. -/
structure Kept (s0 : SoftmaxNet) (h0 : Heap ℝ) (s : SoftmaxNet) (h : Heap ℝ) : Prop where
  same : s = { s0 with y_hat := s.y_hat, z2 := s.z2, a2 := s.a2, weights1 := s.weights1, weights2 := s.weights2 }
  moved : Moved (owned s0) (owned s) h0 h

section
variable {s0 s1 s2 : SoftmaxNet} {h0 h1 h2 : Heap ℝ}
theorem Kept.refl (s : SoftmaxNet) (h : Heap ℝ) : Kept s h s h := ⟨rfl, Moved.refl _ _⟩
theorem Kept.trans (a : Kept s0 h0 s1 h1) (b : Kept s1 h1 s2 h2) : Kept s0 h0 s2 h2 := ⟨by rw [b.same, a.same], a.moved.trans b.moved⟩
theorem Kept.new (a : Kept s0 h0 s1 h1) (k : Keeps h1 h2 (fun _ => False)) : Kept s0 h0 s1 h2 := ⟨a.same, a.moved.new k⟩
theorem Kept.tmp (a : Kept s0 h0 s1 h1) {r : Ref} (f : NotIn h0 r) (k : Keeps h1 h2 (some · = r)) : Kept s0 h0 s1 h2 := ⟨a.same, a.moved.tmp f k⟩
theorem Kept.decay (K : Kept s0 h0 s1 h1) : decay s1.reg s1.lambda s1.alpha = decay s0.reg s0.lambda s0.alpha := by rw [K.same]
theorem Kept.show (a : Kept s0 h0 s1 h1) (y z b : Ref) : Kept s0 h0 { s1 with y_hat := y, z2 := z, a2 := b } h1 := ⟨by rw [a.same], a.moved⟩
end

/-- The layers hold the values of the network. -/
structure Shown (s : SoftmaxNet) (h : Heap ℝ) (X : Matrix (Fin n) (Fin k) ℝ) (θ : DeepParams k m c) : Prop where
  out : HasM h s.y_hat (deepSoftmax X θ)
  z : HasM h s.z2 (affine X θ.1)
  a : HasM h s.a2 (hiddens X θ.1)
  off : s.z2 ∉ owned s

theorem forward_run (R : SoftmaxNetReady s h X Y θ) (F : Fits X θ) :
    Runs (forward_pass s) h fun s' h' => SoftmaxNetReady s' h' X Y θ ∧ Kept s h s' h' ∧ Shown s' h' X θ := by
  unfold forward_pass
  refine Runs.bind ((TwoLayer.hiddenm_run R.wf R.input R.weights1 R.bias1).mono fun r h1 ⟨w1, k1, f1, _, z1, a1⟩ => ?_)
  have R1 := R.keep w1 k1
  have o1 := fresh_off R f1
  have K1 := (Kept.refl s h).new k1
  refine Verif.stepM (TwoLayer.outm_spec w1 a1 R1.weights2 R1.bias2) fun o h2 w2 k2 f2 a2 => ?_
  have R2 := R1.keep w2 k2
  have K2 := K1.new k2
  adv k2
  refine Verif.stepM (Hd.adj_softmax_normm_spec w2 a2 F) fun y h3 w3 k3 f3 a3 => ?_
  have R3 := R2.keep w3 k3
  have K3 := K2.new k3
  have o3 := fresh_off R2 f3
  adv k3
  refine Runs.of_eq rfl ⟨⟨w3, R3.units, R3.input, R3.output, R3.weights1, R3.bias1, R3.weights2, R3.bias2, ⟨_, _, a3⟩, ?_, R3.apart_weights,
    R3.apart_biases⟩, K3.show _ _ _, a3, z1, a1, o1⟩
  intro q hq
  simp only [List.mem_cons, List.not_mem_nil, or_false] at hq
  simp only [owned, List.mem_cons, List.not_mem_nil, or_false, not_or] at o3
  rcases hq with rfl | rfl | rfl
  · exact R3.apart _ (by simp)
  · exact R3.apart _ (by simp)
  · exact ⟨o3.1, o3.2.1⟩

theorem sub2_run (R : SoftmaxNetReady s h X Y θ) {d : Ref} {G : Matrix (Fin m) (Fin c) ℝ} (hd : HasM h d G) :
    Runs (sub2 s d) h fun s' h' => ∃ r, s' = { s with weights2 := r } ∧
      SoftmaxNetReady s' h' X Y (θ.1, (fun i j => decay s.reg s.lambda s.alpha (θ.2.1 i j - G i j), θ.2.2)) ∧ Kept s h s' h' := by
  unfold sub2
  obtain ⟨q, P, hP⟩ := R.y_hat
  refine Runs.bind ((Hd.subm_run R.wf R.weights2 hd).mono fun _ h1 ⟨w1, k1, a1⟩ => ?_)
  refine Verif.stepM (Hd.reg_weightsm_spec w1 a1 s.lambda s.alpha s.reg) fun r h2 w2 k2 f2 a2 => ?_
  have M1 : Moved (owned s) (owned s) h h1 := (Moved.refl _ _).set (by simp [owned]) k1
  have i1 := R.apart s.input_set (by simp)
  have i2 := R.apart s.output_set (by simp)
  have i3 := R.apart s.y_hat (by simp)
  have f := f2.mono k1
  refine Runs.of_eq rfl ⟨r, rfl, ⟨w2, R.units, ?_, ?_, ?_, ?_, a2, ?_, ⟨q, P, ?_⟩, ?_, ?_, R.apart_biases⟩, rfl, ?_⟩
  · exact adv_hasm k2 (R.input.offm k1 i1.2)
  · exact adv_hasm k2 (R.output.offm k1 i2.2)
  · exact adv_hasm k2 (R.weights1.offm k1 R.apart_weights)
  · exact adv_hasv k2 (R.bias1.offm k1 R.weights2)
  · exact adv_hasv k2 (R.bias2.offm k1 R.weights2)
  · exact adv_hasm k2 (hP.offm k1 i3.2)
  · intro q hq
    simp only [List.mem_cons, List.not_mem_nil, or_false] at hq
    rcases hq with rfl | rfl | rfl
    · exact ⟨i1.1, (f.ne_mat R.input).symm⟩
    · exact ⟨i2.1, (f.ne_mat R.output).symm⟩
    · exact ⟨i3.1, (f.ne_mat hP).symm⟩
  · exact (f.ne_mat R.weights1).symm
  · exact (M1.new k2).own fun q hq => by
      simp only [owned, List.mem_cons, List.not_mem_nil, or_false] at hq
      rcases hq with rfl | rfl | rfl | rfl
      · exact .inl (by simp [owned])
      · exact .inr f
      · exact .inl (by simp [owned])
      · exact .inl (by simp [owned])

theorem sub1_run (R : SoftmaxNetReady s h X Y θ) {d : Ref} {G : Matrix (Fin k) (Fin m) ℝ} (hd : HasM h d G) :
    Runs (sub1 s d) h fun s' h' => ∃ r, s' = { s with weights1 := r } ∧
      SoftmaxNetReady s' h' X Y ((fun i j => decay s.reg s.lambda s.alpha (θ.1.1 i j - G i j), θ.1.2), θ.2) ∧ Kept s h s' h' := by
  unfold sub1
  obtain ⟨q, P, hP⟩ := R.y_hat
  refine Runs.bind ((Hd.subm_run R.wf R.weights1 hd).mono fun _ h1 ⟨w1, k1, a1⟩ => ?_)
  refine Verif.stepM (Hd.reg_weightsm_spec w1 a1 s.lambda s.alpha s.reg) fun r h2 w2 k2 f2 a2 => ?_
  have M1 : Moved (owned s) (owned s) h h1 := (Moved.refl _ _).set (by simp [owned]) k1
  have i1 := R.apart s.input_set (by simp)
  have i2 := R.apart s.output_set (by simp)
  have i3 := R.apart s.y_hat (by simp)
  have f := f2.mono k1
  refine Runs.of_eq rfl ⟨r, rfl, ⟨w2, R.units, ?_, ?_, a2, ?_, ?_, ?_, ⟨q, P, ?_⟩, ?_, ?_, R.apart_biases⟩, rfl, ?_⟩
  · exact adv_hasm k2 (R.input.offm k1 i1.1)
  · exact adv_hasm k2 (R.output.offm k1 i2.1)
  · exact adv_hasv k2 (R.bias1.offm k1 R.weights1)
  · exact adv_hasm k2 (R.weights2.offm k1 R.apart_weights.symm)
  · exact adv_hasv k2 (R.bias2.offm k1 R.weights1)
  · exact adv_hasm k2 (hP.offm k1 i3.1)
  · intro q hq
    simp only [List.mem_cons, List.not_mem_nil, or_false] at hq
    rcases hq with rfl | rfl | rfl
    · exact ⟨(f.ne_mat R.input).symm, i1.2⟩
    · exact ⟨(f.ne_mat R.output).symm, i2.2⟩
    · exact ⟨(f.ne_mat hP).symm, i3.2⟩
  · exact f.ne_mat R.weights2
  · exact (M1.new k2).own fun q hq => by
      simp only [owned, List.mem_cons, List.not_mem_nil, or_false] at hq
      rcases hq with rfl | rfl | rfl | rfl
      · exact .inr f
      · exact .inl (by simp [owned])
      · exact .inl (by simp [owned])
      · exact .inl (by simp [owned])

/-- After writing to the first vector of biases. -/
theorem bias1_set (R : SoftmaxNetReady s h X Y θ) (w : h'.WF) (kk : Keeps h h' (some · = s.bias1)) {v : Fin m → ℝ} (b : HasV h' s.bias1 v) :
    SoftmaxNetReady s h' X Y ((θ.1.1, v), θ.2) ∧ Kept s h s h' := by
  obtain ⟨q, P, hP⟩ := R.y_hat
  exact ⟨⟨w, R.units, R.input.off kk R.bias1, R.output.off kk R.bias1, R.weights1.off kk R.bias1, b, R.weights2.off kk R.bias1,
    R.bias2.off kk R.apart_biases.symm, ⟨q, P, hP.off kk R.bias1⟩, R.apart, R.apart_weights, R.apart_biases⟩, rfl,
    (Moved.refl _ _).set (by simp [owned]) kk⟩

/-- After writing to the second vector of biases. -/
theorem bias2_set (R : SoftmaxNetReady s h X Y θ) (w : h'.WF) (kk : Keeps h h' (some · = s.bias2)) {v : Fin c → ℝ} (b : HasV h' s.bias2 v) :
    SoftmaxNetReady s h' X Y (θ.1, (θ.2.1, v)) ∧ Kept s h s h' := by
  obtain ⟨q, P, hP⟩ := R.y_hat
  exact ⟨⟨w, R.units, R.input.off kk R.bias2, R.output.off kk R.bias2, R.weights1.off kk R.bias2, R.bias1.off kk R.apart_biases,
    R.weights2.off kk R.bias2, b, ⟨q, P, hP.off kk R.bias2⟩, R.apart, R.apart_weights, R.apart_biases⟩, rfl,
    (Moved.refl _ _).set (by simp [owned]) kk⟩

/-- The errors of the hidden layer. -/
noncomputable def backE (E : Matrix (Fin p) (Fin c) ℝ) (W : Matrix (Fin m) (Fin c) ℝ) (Z : Matrix (Fin p) (Fin m) ℝ) : Matrix (Fin p) (Fin m) ℝ :=
  fun i a => (∑ b, E i b * W a b) * Activation.sigmoid_derivr (Z i a)

theorem update1_run (R : SoftmaxNetReady s h X Y θ) {x z er : Ref} {A : Matrix (Fin p) (Fin k) ℝ} {Z : Matrix (Fin p) (Fin m) ℝ}
    {E : Matrix (Fin p) (Fin c) ℝ} (hx : HasM h x A) (hz : HasM h z Z) (he : HasM h er E) (lr : ℝ) :
    Runs (update1 s x z er lr) h fun s' h' =>
      SoftmaxNetReady s' h' X Y (SoftmaxReg.stepM A (backE E θ.2.1 Z) (decay s.reg s.lambda s.alpha) lr θ.1, θ.2) ∧ Kept s h s' h' := by
  unfold update1
  refine Verif.stepM (TwoLayer.back_spec R.wf he R.weights2 hz) fun D h1 w1 k1 f1 a1 => ?_
  have R1 := R.keep w1 k1
  have K1 := (Kept.refl s h).new k1
  have o1 := fresh_off R f1
  adv k1
  refine Verif.stepM (TwoLayer.slope_spec w1 hx a1 lr) fun d h2 w2 k2 f2 a2 => ?_
  have R2 := R1.keep w2 k2
  have K2 := K1.new k2
  adv k2
  refine Runs.bind ((sub1_run R2 a2).mono fun s3 h3 ⟨r, e3, R3, K3⟩ => ?_)
  have a3 := K3.moved.mat a1 o1
  refine Verif.stepM (Hd.scalar_multiplynm_spec R3.wf a3 lr) fun b h4 w4 k4 f4 a4 => ?_
  have R4 := R3.keep w4 k4
  refine Runs.bind ((Hd.subtract_matrix_rows_run w4 R4.bias1 a4).mono fun _ h5 ⟨w5, k5, a5⟩ => ?_)
  obtain ⟨R5, K5⟩ := bias1_set R4 w5 k5 a5
  exact Runs.of_eq rfl ⟨R5, ((K2.trans K3).new k4).trans K5⟩

/-- The step on the inputs `A` and the outputs `B`. -/
noncomputable def deepStep (A : Matrix (Fin p) (Fin k) ℝ) (B : Matrix (Fin p) (Fin c) ℝ) (D : ℝ → ℝ) (lr : ℝ) (θ : DeepParams k m c) : DeepParams k m c :=
  (SoftmaxReg.stepM A (backE (fun i b => deepSoftmax A θ i b - B i b)
      (SoftmaxReg.stepM (hiddens A θ.1) (fun i b => deepSoftmax A θ i b - B i b) D lr θ.2).1 (affine A θ.1)) D lr θ.1,
    SoftmaxReg.stepM (hiddens A θ.1) (fun i b => deepSoftmax A θ i b - B i b) D lr θ.2)

/-- The same without the biases of the outputs. -/
noncomputable def deepStepW (A : Matrix (Fin p) (Fin k) ℝ) (B : Matrix (Fin p) (Fin c) ℝ) (D : ℝ → ℝ) (lr : ℝ) (θ : DeepParams k m c) : DeepParams k m c :=
  ((deepStep A B D lr θ).1, ((deepStep A B D lr θ).2.1, θ.2.2))

theorem gdBody_run (R : SoftmaxNetReady s h X Y θ) (S : Shown s h X θ) (lr : ℝ) (F : Fits X (deepStep X Y (decay s.reg s.lambda s.alpha) lr θ)) :
    Runs (gdBody lr s) h fun s' h' => SoftmaxNetReady s' h' X Y (deepStep X Y (decay s.reg s.lambda s.alpha) lr θ) ∧ Kept s h s' h' ∧
      Shown s' h' X (deepStep X Y (decay s.reg s.lambda s.alpha) lr θ) := by
  obtain ⟨S1, S2, S3, S4⟩ := S
  unfold gdBody
  obtain ⟨x, ex⟩ := cost_ok R S1 R.output
  refine Runs.step ex ?_
  refine Verif.stepM (Hd.subnm_spec R.wf S1 R.output) fun er h1 w1 k1 f1 a1 => ?_
  have R1 := R.keep w1 k1
  have K1 := (Kept.refl s h).new k1
  have o1 := fresh_off R f1
  adv k1
  refine Verif.stepM (TwoLayer.slope_spec w1 S3 a1 lr) fun d h2 w2 k2 f2 a2 => ?_
  have R2 := R1.keep w2 k2
  have K2 := K1.new k2
  adv k2
  refine Runs.bind ((sub2_run R2 a2).mono fun s3 h3 ⟨r, e3, R3, K3⟩ => ?_)
  have a3 := K3.moved.mat a1 o1
  have o3 := K3.moved.notm a1 o1
  have z3 := K3.moved.mat S2 S4
  have oz := K3.moved.notm S2 S4
  refine Verif.stepM (Hd.scalar_multiplynm_spec R3.wf a3 lr) fun b h4 w4 k4 f4 a4 => ?_
  have R4 := R3.keep w4 k4
  adv k4
  refine Runs.bind ((Hd.subtract_matrix_rows_run w4 R4.bias2 a4).mono fun _ h5 ⟨w5, k5, a5⟩ => ?_)
  obtain ⟨R5, K5⟩ := bias2_set R4 w5 k5 a5
  have a6 := K5.moved.mat a3 o3
  have z6 := K5.moved.mat z3 oz
  have ez : s3.z2 = s.z2 := by rw [e3]
  rw [← ez] at z6
  have K6 := ((K2.trans K3).new k4).trans K5
  refine Runs.bind ((update1_run R5 R5.input z6 a6 lr).mono fun s6 h6 ⟨R6, K7⟩ => ?_)
  rw [K6.decay] at R6
  refine (forward_run R6 F).mono fun s7 h7 ⟨R7, K8, S7⟩ => ⟨R7, (K6.trans K7).trans K8, S7⟩

theorem trained {s0 : SoftmaxNet} {h0 : Heap ℝ} (R : SoftmaxNetReady s h X Y θ) (K : Kept s0 h0 s h) (S : Shown s h X θ) :
    SoftmaxNetTrained s0 h0 s h X Y θ := ⟨R, S.out, K.same, K.moved.keeps.mono fun l _ e => e⟩

theorem gd_run (R : SoftmaxNetReady s h X Y θ) (lr : ℝ) (e : Int)
    (F : ∀ t ≤ epochCount e, Fits X (walk (fun _ => deepStep X Y (decay s.reg s.lambda s.alpha) lr) θ t)) :
    Runs (train_gradient_descent s lr e) h fun s' h' => SoftmaxNetTrained s h s' h' X Y
      (walk (fun _ => deepStep X Y (decay s.reg s.lambda s.alpha) lr) θ (epochCount e)) := by
  unfold train_gradient_descent
  refine Runs.congr (guarded_run R _ _) ?_
  obtain ⟨stp, estp⟩ : ∃ stp : DeepParams k m c → DeepParams k m c, stp = deepStep X Y (decay s.reg s.lambda s.alpha) lr := ⟨_, rfl⟩
  rw [← estp] at F ⊢
  refine Runs.bind ((forward_run R (F 0 (Nat.zero_le _))).mono fun s1 h1 I1 => ?_)
  refine (Glm.epochs_run_lt e s1 _ (fun i s' h' => SoftmaxNetReady s' h' X Y (walk (fun _ => stp) θ i) ∧
    Kept s h s' h' ∧ Shown s' h' X (walk (fun _ => stp) θ i)) I1 ?_).mono
    fun s2 h2 ⟨R2, K2, S2⟩ => trained R2 K2 S2
  rintro i s2 h2 hi ⟨R2, K2, S2⟩
  have F2 := F (i + 1) hi
  have ew : walk (fun _ => stp) θ (i + 1) = deepStep X Y (decay s2.reg s2.lambda s2.alpha) lr (walk (fun _ => stp) θ i) := by
    rw [K2.decay, ← estp]; rfl
  rw [ew] at F2 ⊢
  exact (gdBody_run R2 S2 lr F2).mono fun s3 h3 ⟨R3, K3, S3⟩ => ⟨R3, K2.trans K3, S3⟩

/-! ## Mini-batches -/

theorem sub_mat {b B : Ref} {v : Fin c → ℝ} {A : Matrix (Fin p) (Fin k) ℝ} (hb : HasV h b v) (hB : HasM h B A) : Hd.sub b B h = .ok ((), h) := by
  obtain ⟨x, rfl, l, q⟩ := hb
  obtain ⟨y, rfl, l', q'⟩ := hB
  rfl

theorem mbgdBody_run (R : SoftmaxNetReady s h X Y θ) {x y : Ref} {A : Matrix (Fin p) (Fin k) ℝ} {B : Matrix (Fin p) (Fin c) ℝ} (hx : HasM h x A)
    (hy : HasM h y B) (nx : x ∉ owned s) (lr : ℝ) (F : Fits A θ) (F' : Fits A (deepStepW A B (decay s.reg s.lambda s.alpha) lr θ)) :
    Runs (mbgdBody x y lr s) h fun s' h' => SoftmaxNetReady s' h' X Y (deepStepW A B (decay s.reg s.lambda s.alpha) lr θ) ∧ Kept s h s' h' := by
  unfold mbgdBody
  refine Verif.stepM (evaluatem_spec R.wf hx R.weights1 R.bias1 R.weights2 R.bias2 F) fun yh h0 w0 k0 f0 S1 => ?_
  have R0 := R.keep w0 k0
  have K0 := (Kept.refl s h).new k0
  adv k0
  refine Runs.bind ((TwoLayer.hiddenm_run w0 hx R0.weights1 R0.bias1).mono fun za h9 ⟨w9, k9, fz, _, S2, S3⟩ => ?_)
  have R9 := R0.keep w9 k9
  have K9 := K0.new k9
  have S4 := fresh_off R0 fz
  adv k9
  obtain ⟨v, ex⟩ := cost_ok R9 S1 hy
  refine Runs.step ex ?_
  refine Verif.stepM (Hd.subnm_spec w9 S1 hy) fun er h1 w1 k1 f1 a1 => ?_
  have R1 := R9.keep w1 k1
  have K1 := K9.new k1
  have o1 := fresh_off R9 f1
  adv k1
  refine Verif.stepM (TwoLayer.slope_spec w1 S3 a1 lr) fun d h2 w2 k2 f2 a2 => ?_
  have R2 := R1.keep w2 k2
  have K2 := K1.new k2
  adv k2
  refine Runs.bind ((sub2_run R2 a2).mono fun s3 h3 ⟨r, e3, R3, K3⟩ => ?_)
  have a3 := K3.moved.mat a1 o1
  have z3 := K3.moved.mat S2 S4
  have x3 := K3.moved.mat hx nx
  have nx3 := K3.moved.notm hx nx
  refine Verif.stepM (Hd.scalar_multiplynm_spec R3.wf a3 lr) fun b h4 w4 k4 f4 a4 => ?_
  have R4 := R3.keep w4 k4
  adv k4
  refine Runs.step (sub_mat R4.bias2 a4) ?_
  have K6 := (K2.trans K3).new k4
  refine Runs.bind ((update1_run R4 x3 z3 a3 lr).mono fun s6 h6 ⟨R6, K7⟩ => ?_)
  rw [K6.decay] at R6
  have x6 := K7.moved.mat x3 nx3
  refine Verif.stepM (evaluatem_spec R6.wf x6 R6.weights1 R6.bias1 R6.weights2 R6.bias2 F') fun yh h7 w7 k7 f7 _ => ?_
  exact Runs.of_eq rfl ⟨R6.keep w7 k7, (K6.trans K7).new k7⟩

theorem fits_batch {K : Nat} {hr : ∀ (i : Fin K) (j : Fin (n / K)), K * i.val + j.val < n} (F : Fits X θ) (i : Fin K) : Fits (codeBatch X K hr i) θ :=
  fun j b => F ⟨K * i.val + j.val, hr i j⟩ b

theorem mbgd_run (R : SoftmaxNetReady s h X Y θ) (lr : ℝ) (e : Int) {b K : Nat} (hb : 0 < b)
    (eK : n / b = K) (hK : 0 < K) (hr : ∀ (i : Fin K) (j : Fin (n / K)), K * i.val + j.val < n)
    (F : ∀ t ≤ epochCount e * K, Fits X (walk (roundStep hK fun _ i =>
      deepStepW (codeBatch X K hr i) (codeBatch Y K hr i) (decay s.reg s.lambda s.alpha) lr) θ t)) :
    Runs (train_mbgd s lr e b) h fun s' h' => SoftmaxNetTrained s h s' h' X Y
      (walk (roundStep hK fun _ i => deepStepW (codeBatch X K hr i) (codeBatch Y K hr i) (decay s.reg s.lambda s.alpha) lr) θ (epochCount e * K)) := by
  unfold train_mbgd
  refine Runs.congr (guarded_run R _ _) ?_
  refine Runs.step (Hd.sizem_run R.input) ?_
  have hb' : (b : Int) ≠ 0 := by exact_mod_cast hb.ne'
  rw [if_neg hb']
  have ek : (n : Int).tdiv (b : Int) = ((n / b : Nat) : Int) := by
    rw [Int.tdiv_eq_ediv_of_nonneg (Int.natCast_nonneg n)]; rfl
  dsimp only
  rw [ek, Int.toNat_natCast, eK]
  obtain ⟨ia, eia, lia, hia⟩ := R.input
  obtain ⟨oa, eoa, loa, hoa⟩ := R.output
  rw [eia, eoa]
  refine Runs.bind ((Utilities.create_mini_batchesmm_run R.wf lia loa hia hoa hK hr).mono fun bs h1 ⟨w1, k1, ⟨lm, _, nm⟩, ⟨lv, _, nv⟩⟩ => ?_)
  have R1 := R.keep w1 k1
  have K1 := (Kept.refl s h).new k1
  obtain ⟨stp, estp⟩ : ∃ stp : Nat → Fin K → DeepParams k m c → DeepParams k m c, stp = fun _ i =>
    deepStepW (codeBatch X K hr i) (codeBatch Y K hr i) (decay s.reg s.lambda s.alpha) lr := ⟨_, rfl⟩
  rw [← estp] at F ⊢
  let B : SoftmaxNet → Heap ℝ → Prop := fun s h => ∀ i : Fin K, ∃ a b, bs.1[i.val]? = some a ∧ bs.2[i.val]? = some b ∧
    HasM h a (codeBatch X K hr i) ∧ HasM h b (codeBatch Y K hr i) ∧ a ∉ owned s ∧ b ∉ owned s
  have B1 : B s h1 := by
    intro i
    obtain ⟨a, ea, fa, la, ha⟩ := nm i
    obtain ⟨o, eo, fo, lo, ho⟩ := nv i
    have fa' : NotIn h (some (.m a)) := fun l e => by cases e; exact fa
    have fo' : NotIn h (some (.m o)) := fun l e => by cases e; exact fo
    exact ⟨_, _, ea, eo, ⟨a, rfl, la, ha⟩, ⟨o, rfl, lo, ho⟩, fresh_off R fa', fresh_off R fo'⟩
  have Bstep : ∀ {s1 s2 : SoftmaxNet} {h1 h2 : Heap ℝ}, B s1 h1 → Kept s1 h1 s2 h2 → B s2 h2 := by
    intro s1 s2 h1 h2 b kk i
    obtain ⟨x, y, ex, ey, hx, hy, nx, ny⟩ := b i
    exact ⟨x, y, ex, ey, kk.moved.mat hx nx, kk.moved.mat hy ny, kk.moved.notm hx nx, kk.moved.notm hy ny⟩
  refine Runs.bind ((Glm.rounds_run_lt K e s _ (fun t s' h' => SoftmaxNetReady s' h' X Y (walk (roundStep hK stp) θ t) ∧ Kept s h s' h' ∧ B s' h')
    ⟨R1, K1, B1⟩ ?_).mono fun s2 h2 ⟨R2, K2, _⟩ => (forward_run R2 (F _ le_rfl)).mono fun s3 h3 ⟨R3, K3, S3⟩ => trained R3 (K2.trans K3) S3)
  rintro ep i s2 h2 hi hle ⟨R2, K2, B2⟩
  obtain ⟨a, o, ea, eo, ha, ho, na, no⟩ := B2 ⟨i, hi⟩
  have r1 : batchAt bs.1 i h2 = .ok (a, h2) := by unfold batchAt; rw [show bs.1[i]? = some a from ea]; rfl
  have r2 : batchAt bs.2 i h2 = .ok (o, h2) := by unfold batchAt; rw [show bs.2[i]? = some o from eo]; rfl
  refine Runs.step r1 (Runs.step r2 ?_)
  have F1 := F (ep * K + i) (by omega)
  have F2 := F (ep * K + (i + 1)) hle
  rw [walk_round hK stp θ ep i hi] at F2 ⊢
  have es : stp (ep + 1) ⟨i, hi⟩ = deepStepW (codeBatch X K hr ⟨i, hi⟩) (codeBatch Y K hr ⟨i, hi⟩) (decay s2.reg s2.lambda s2.alpha) lr := by
    rw [estp, K2.decay]
  rw [es] at F2 ⊢
  exact (mbgdBody_run R2 ha ho na lr (fits_batch F1 _) (fits_batch F2 _)).mono fun s3 h3 ⟨R3, K3⟩ => ⟨R3, K2.trans K3, Bstep B2 K3⟩

/-! ## Stochastic training -/

theorem _root_.Verif.Spec.SoftmaxNetReady.write (R : SoftmaxNetReady s h X Y θ) {r : Ref} (w : h'.WF) (kk : Keeps h h' (some · = r))
    (n1 : s.input_set ≠ r) (n2 : s.output_set ≠ r) (n3 : s.y_hat ≠ r) (n4 : r ∉ owned s) : SoftmaxNetReady s h' X Y θ := by
  simp only [owned, List.mem_cons, List.not_mem_nil, or_false, not_or] at n4
  obtain ⟨q1, q2, q3, q4⟩ := n4
  obtain ⟨q, P, hP⟩ := R.y_hat
  exact ⟨w, R.units, R.input.offm kk n1, R.output.offm kk n2, R.weights1.offm kk (Ne.symm q1), R.bias1.off kk (Ne.symm q3),
    R.weights2.offm kk (Ne.symm q2), R.bias2.off kk (Ne.symm q4), ⟨q, P, hP.offm kk n3⟩, R.apart, R.apart_weights, R.apart_biases⟩

/-- The temporary objects of the loop. -/
structure Tmps (h0 : Heap ℝ) (k c : Nat) (row out yhatm outm : Ref) (s : SoftmaxNet) (h : Heap ℝ) : Prop where
  hrow : ∃ v : Fin k → ℝ, HasV h row v
  hout : ∃ v : Fin c → ℝ, HasV h out v
  hyhatm : ∃ (n : Nat) (A : Matrix (Fin 1) (Fin n) ℝ), HasM h yhatm A
  houtm : ∃ A : Matrix (Fin 1) (Fin c) ℝ, HasM h outm A
  new : ∀ r ∈ [row, out, yhatm, outm], NotIn h0 r
  off : ∀ r ∈ [row, out, yhatm, outm], r ∉ owned s
  data : ∀ r ∈ [row, out, yhatm, outm], s.input_set ≠ r ∧ s.output_set ≠ r ∧ s.y_hat ≠ r
  ne1 : row ≠ out
  ne2 : yhatm ≠ outm

theorem Tmps.kept {h0 : Heap ℝ} {row out yhatm outm : Ref} {s' : SoftmaxNet} (T : Tmps h0 k c row out yhatm outm s h) (K : Kept s h s' h')
    (ey : s'.y_hat = s.y_hat) : Tmps h0 k c row out yhatm outm s' h' := by
  obtain ⟨v1, a1⟩ := T.hrow
  obtain ⟨_, v2, a2⟩ := T.hyhatm
  obtain ⟨v3, a3⟩ := T.hout
  obtain ⟨v4, a4⟩ := T.houtm
  have o1 := T.off row (by simp)
  have o2 := T.off yhatm (by simp)
  have o3 := T.off out (by simp)
  have o4 := T.off outm (by simp)
  refine ⟨⟨_, K.moved.vec a1 o1⟩, ⟨_, K.moved.vec a3 o3⟩, ⟨_, _, K.moved.mat a2 o2⟩, ⟨_, K.moved.mat a4 o4⟩, T.new, fun r hr => ?_, ?_, T.ne1, T.ne2⟩
  · simp only [List.mem_cons, List.not_mem_nil, or_false] at hr
    rcases hr with rfl | rfl | rfl | rfl
    · exact K.moved.notv a1 o1
    · exact K.moved.notv a3 o3
    · exact K.moved.notm a2 o2
    · exact K.moved.notm a4 o4
  · rw [ey, show s'.input_set = s.input_set by rw [K.same], show s'.output_set = s.output_set by rw [K.same]]
    exact T.data

/-- The step of the outputs and the hidden layer from one sample. -/
theorem stepM_one {a b : Nat} (v : Fin a → ℝ) (e : Fin b → ℝ) (D : ℝ → ℝ) (lr : ℝ) (θ : MParams a b) :
    SoftmaxReg.stepM (fun _ : Fin 1 => v) (fun _ : Fin 1 => e) D lr θ = (fun j a => D (θ.1 j a - v j * e a * lr), fun a => θ.2 a - e a * lr) := by
  unfold SoftmaxReg.stepM
  simp only [Fin.sum_univ_one]
  rfl

theorem deepStep_one (v : Fin k → ℝ) (y : Fin c → ℝ) (D : ℝ → ℝ) (lr : ℝ) (θ : DeepParams k m c) {e : Fin c → ℝ}
    (he : e = fun b => deepSoftmax (fun _ : Fin 1 => v) θ 0 b - y b) {W : MParams m c}
    (hW : W = (fun j b => D (θ.2.1 j b - hiddens (fun _ : Fin 1 => v) θ.1 0 j * e b * lr), fun b => θ.2.2 b - e b * lr)) :
    deepStep (fun _ : Fin 1 => v) (fun _ : Fin 1 => y) D lr θ =
      ((fun j a => D (θ.1.1 j a - v j * ((∑ b, e b * W.1 a b) * Activation.sigmoid_derivr (affine (fun _ : Fin 1 => v) θ.1 0 a)) * lr),
        fun a => θ.1.2 a - (∑ b, e b * W.1 a b) * Activation.sigmoid_derivr (affine (fun _ : Fin 1 => v) θ.1 0 a) * lr), W) := by
  have q1 : (fun (i' : Fin 1) b => deepSoftmax (fun _ : Fin 1 => v) θ i' b - y b) = fun _ : Fin 1 => e := by
    funext a b; rw [Subsingleton.elim a 0, he]
  have q2 : hiddens (fun _ : Fin 1 => v) θ.1 = fun _ : Fin 1 => hiddens (fun _ : Fin 1 => v) θ.1 0 := by
    funext a b; rw [Subsingleton.elim a 0]
  have q3 : ∀ W : Matrix (Fin m) (Fin c) ℝ, backE (fun _ : Fin 1 => e) W
      (affine (fun _ : Fin 1 => v) θ.1) = fun _ : Fin 1 => fun a => (∑ b, e b * W a b) *
        Activation.sigmoid_derivr (affine (fun _ : Fin 1 => v) θ.1 0 a) := by
    intro W; unfold backE; funext a b; rw [Subsingleton.elim a 0]
  unfold deepStep
  rw [q1, q2, stepM_one, ← hW, q3, stepM_one]
  rfl

theorem sgdBody_run {s0 : SoftmaxNet} {h0 : Heap ℝ} (R : SoftmaxNetReady s h X Y θ) (K : Kept s0 h0 s h) {row out yhatm outm : Ref}
    (T : Tmps h0 k c row out yhatm outm s h) (i : Fin n) (lr : ℝ) (F : Fits X θ)
    (F' : Fits X (deepStep (sampleX X i) (fun _ : Fin 1 => Y i) (decay s.reg s.lambda s.alpha) lr θ)) :
    Runs (sgdBody row out yhatm outm (i : Nat) lr s) h fun s' h' =>
      SoftmaxNetReady s' h' X Y (deepStep (sampleX X i) (fun _ : Fin 1 => Y i) (decay s.reg s.lambda s.alpha) lr θ) ∧
      Kept s0 h0 s' h' ∧ Tmps h0 k c row out yhatm outm s' h' := by
  obtain ⟨v1, a1⟩ := T.hrow
  obtain ⟨v2, a2⟩ := T.hout
  obtain ⟨n3, v3, a3⟩ := T.hyhatm
  obtain ⟨v4, a4⟩ := T.houtm
  have o1 := T.off row (by simp)
  have o2 := T.off out (by simp)
  have o3 := T.off yhatm (by simp)
  have o4 := T.off outm (by simp)
  have f1 := T.new row (by simp)
  have f2 := T.new out (by simp)
  have f3 := T.new yhatm (by simp)
  have f4 := T.new outm (by simp)
  obtain ⟨d11, d12, d13⟩ := T.data row (by simp)
  obtain ⟨d21, d22, d23⟩ := T.data out (by simp)
  obtain ⟨d31, d32, d33⟩ := T.data yhatm (by simp)
  obtain ⟨d41, d42, d43⟩ := T.data outm (by simp)
  unfold sgdBody
  refine Runs.bind ((Hd.row_get_into_run R.wf R.input a1 i).mono fun _ h1 ⟨w1, k1, b1⟩ => ?_)
  have R1 := R.write w1 k1 d11 d12 d13 o1
  have K1 := K.tmp f1 k1
  replace a2 := a2.off k1 T.ne1.symm
  replace a3 := a3.off k1 a1
  replace a4 := a4.off k1 a1
  refine Runs.bind ((Hd.row_get_into_run w1 R1.output a2 i).mono fun _ h2 ⟨w2, k2, b2⟩ => ?_)
  have R2 := R1.write w2 k2 d21 d22 d23 o2
  have K2 := K1.tmp f2 k2
  replace b1 := b1.off k2 T.ne1
  replace a3 := a3.off k2 a2
  replace a4 := a4.off k2 a2
  refine Runs.bind ((Hd.row_set_run w2 a4 b2 (0 : Fin 1)).mono fun _ h3 ⟨w3, k3, b4⟩ => ?_)
  have R3 := R2.write w3 k3 d41 d42 d43 o4
  have K3 := K2.tmp f4 k3
  replace b1 := b1.offm k3 a4
  replace b2 := b2.offm k3 a4
  replace a3 := a3.offm k3 T.ne2
  clear a1 a2 a4
  have Fi : Fits (fun _ : Fin 1 => X i) θ := fun _ b => F i b
  refine stepV (evaluatev_spec w3 b1 R3.weights1 R3.bias1 R3.weights2 R3.bias2 Fi) fun p h4 w4 k4 g4 b5 => ?_
  have R4 := R3.keep w4 k4
  have K4 := K3.new k4
  adv k4
  refine Runs.bind ((Hd.row_set_any w4 a3 b5 (0 : Fin 1)).mono fun _ h5 ⟨w5, k5, B3, b3⟩ => ?_)
  have R5 := R4.write w5 k5 d31 d32 d33 o3
  have K5 := K4.tmp f3 k5
  replace b1 := b1.offm k5 a3
  replace b2 := b2.offm k5 a3
  replace b5 := b5.offm k5 a3
  replace b4 := b4.offm k5 T.ne2.symm
  clear a3
  refine Runs.bind ((TwoLayer.hiddenv_run w5 b1 R5.weights1 R5.bias1).mono fun za h6 ⟨w6, k6, fz, _, z6, y6⟩ => ?_)
  have R6 := R5.keep w6 k6
  have K6 := K5.new k6
  have oz := fresh_off R5 fz
  adv k6
  obtain ⟨x, ex⟩ := cost_ok R6 b3 b4
  refine Runs.step ex ?_
  have T6 : Tmps h0 k c row out yhatm outm s h6 := ⟨⟨_, b1⟩, ⟨_, b2⟩, ⟨_, _, b3⟩, ⟨_, b4⟩, T.new, T.off, T.data, T.ne1, T.ne2⟩
  clear b3 b4
  refine stepV (Hd.subn_spec w6 b5 b2) fun er h7 w7 k7 g7 b7 => ?_
  have R7 := R6.keep w7 k7
  have K7 := (Kept.refl s h6).new k7
  have oe := fresh_off R6 g7
  adv k7
  refine Verif.stepM (TwoLayer.slope2v_spec w7 b7 y6 lr) fun d h8 w8 k8 g8 b8 => ?_
  have R8 := R7.keep w8 k8
  have K8 := K7.new k8
  adv k8
  refine Runs.bind ((sub2_run R8 b8).mono fun s9 h9 ⟨r, e9, R9, K9⟩ => ?_)
  have e9' := K9.moved.vec b7 oe
  have z9 := K9.moved.vec z6 oz
  have r9 := K9.moved.vec b1 o1
  have oe9 := K9.moved.notv b7 oe
  have oz9 := K9.moved.notv z6 oz
  have or9 := K9.moved.notv b1 o1
  have ey9 : s9.y_hat = s.y_hat := by rw [e9]
  replace K9 := K8.trans K9
  refine stepV (Hd.scalar_multiplyn_spec R9.wf e9' lr) fun bb h10 w10 k10 g10 b10 => ?_
  have R10 := R9.keep w10 k10
  have K10 := K9.new k10
  adv k10
  refine Runs.bind ((Hd.sub_run w10 R10.bias2 b10).mono fun _ h11 ⟨w11, k11, b11⟩ => ?_)
  obtain ⟨R11, K11⟩ := bias2_set R10 w11 k11 b11
  have e11 := K11.moved.vec e9' oe9
  have z11 := K11.moved.vec z9 oz9
  have r11 := K11.moved.vec r9 or9
  have or11 := K11.moved.notv r9 or9
  replace K11 := K10.trans K11
  refine stepV (TwoLayer.backv_spec w11 e11 R11.weights2 z11) fun D h12 w12 k12 g12 b12 => ?_
  have R12 := R11.keep w12 k12
  have K12 := K11.new k12
  have oD := fresh_off R11 g12
  adv k12
  refine Verif.stepM (TwoLayer.slope1v_spec w12 r11 b12 lr) fun d2 h13 w13 k13 g13 b13 => ?_
  have R13 := R12.keep w13 k13
  have K13 := K12.new k13
  adv k13
  refine Runs.bind ((sub1_run R13 b13).mono fun s14 h14 ⟨r', e14, R14, K14⟩ => ?_)
  have D14 := K14.moved.vec b12 oD
  have r14 := K14.moved.vec r11 or11
  have or14 := K14.moved.notv r11 or11
  have ey14 : s14.y_hat = s.y_hat := by rw [e14]; exact ey9
  have dk : decay s9.reg s9.lambda s9.alpha = decay s.reg s.lambda s.alpha := K11.decay
  rw [dk] at R14
  replace K14 := K13.trans K14
  refine stepV (Hd.scalar_multiplyn_spec R14.wf D14 lr) fun b2' h15 w15 k15 g15 b15 => ?_
  have R15 := R14.keep w15 k15
  have K15 := K14.new k15
  adv k15
  refine Runs.bind ((Hd.sub_run w15 R15.bias1 b15).mono fun _ h16 ⟨w16, k16, b16⟩ => ?_)
  obtain ⟨R16, K16⟩ := bias1_set R15 w16 k16 b16
  have r16 := K16.moved.vec r14 or14
  replace K16 := K15.trans K16
  clear r14 R15 R14 R13 R12 R11 R10 R9 R8 R7
  have eθ := deepStep_one (X i) (Y i) (decay s.reg s.lambda s.alpha) lr θ rfl rfl
  rw [show sampleX X i = fun _ : Fin 1 => X i from rfl] at F' ⊢
  rw [eθ] at F' ⊢
  refine stepV (evaluatev_spec w16 r16 R16.weights1 R16.bias1 R16.weights2 R16.bias2 fun _ b => F' i b) fun p' h17 w17 k17 g17 _ => ?_
  have K17 := K16.new k17
  exact Runs.of_eq rfl ⟨R16.keep w17 k17, K6.trans K17, T6.kept K17 ey14⟩

theorem tmps_run (R : SoftmaxNetReady s h X Y θ) {β : Type} {C : Loc → Loc → Loc → Loc → M ℝ β} {Q : β → Heap ℝ → Prop}
    (next : ∀ row out yhatm outm h1, SoftmaxNetReady s h1 X Y θ → Kept s h s h1 → Tmps h k c (some row) (some out) (some yhatm) (some outm) s h1 →
      Runs (C row out yhatm outm) h1 Q) :
    Runs (do
      let row ← newVec
      resizeTo row ⟨k, 1, 1⟩
      let osize ← Hd.sizem s.output_set
      let out ← newVec
      resizeTo out ⟨osize.x, 1, 1⟩
      let bsize ← Hd.size s.bias1
      let yhatm ← newMat
      resizeTo yhatm ⟨bsize, 1, 1⟩
      let outm ← newMat
      resizeTo outm ⟨osize.x, 1, 1⟩
      C row out yhatm outm) h Q := by
  obtain ⟨q, P, hP⟩ := R.y_hat
  refine stepNewV (n := k) R.wf fun o1 h1 v1 w1 k1 f1 a1 => ?_
  have R1 := R.keep w1 k1
  refine Runs.step (Hd.sizem_run R1.output) ?_
  refine stepNewV (n := c) w1 fun o2 h2 v2 w2 k2 f2 a2 => ?_
  have R2 := R1.keep w2 k2
  refine Runs.step (Hd.size_run R2.bias1) ?_
  refine stepNewM (m := 1) (n := m) w2 fun o3 h3 v3 w3 k3 f3 a3 => ?_
  have R3 := R2.keep w3 k3
  refine stepNewM (m := 1) (n := c) w3 fun o4 h4 v4 w4 k4 f4 a4 => ?_
  have R4 := R3.keep w4 k4
  have nw : ∀ r ∈ [some (Loc.v o1), some (Loc.v o2), some (Loc.m o3), some (Loc.m o4)], NotIn h r := by
    intro r hr
    simp only [List.mem_cons, List.not_mem_nil, or_false] at hr
    rcases hr with rfl | rfl | rfl | rfl
    · exact f1
    · exact f2.mono k1
    · exact f3.mono (k1.trans k2)
    · exact f4.mono ((k1.trans k2).trans k3)
  refine next _ _ _ _ h4 R4 (((((Kept.refl s h).new k1).new k2).new k3).new k4) ⟨⟨_, adv_hasv k4 (adv_hasv k3 (adv_hasv k2 a1))⟩,
    ⟨_, adv_hasv k4 (adv_hasv k3 a2)⟩, ⟨_, _, adv_hasm k4 a3⟩, ⟨_, a4⟩, nw, fun r hr => fresh_off R (nw r hr), fun r hr => ?_, ?_, ?_⟩
  · exact ⟨((nw r hr).ne_mat R.input).symm, ((nw r hr).ne_mat R.output).symm, ((nw r hr).ne_mat hP).symm⟩
  · exact (f2.ne a1).symm
  · exact (f4.ne_mat a3).symm

theorem sgd_run (R : SoftmaxNetReady s h X Y θ) {pick : Nat → Nat} (hpick : ∀ e, pick e < n) (lr : ℝ) (e : Int)
    (F : ∀ t ≤ epochCount e, Fits X (walk (fun t => deepStep (sampleX X ⟨pick (t + 1), hpick _⟩) (fun _ : Fin 1 => Y ⟨pick (t + 1), hpick _⟩)
      (decay s.reg s.lambda s.alpha) lr) θ t)) :
    Runs (train_sgd s pick lr e) h fun s' h' => SoftmaxNetTrained s h s' h' X Y
      (walk (fun t => deepStep (sampleX X ⟨pick (t + 1), hpick _⟩) (fun _ : Fin 1 => Y ⟨pick (t + 1), hpick _⟩) (decay s.reg s.lambda s.alpha) lr) θ
        (epochCount e)) := by
  unfold train_sgd
  refine Runs.congr (guarded_run R _ _) ?_
  refine Runs.step (Hd.sizem_run R.input) ?_
  dsimp only
  rw [if_neg (by have := hpick 0; omega)]
  obtain ⟨stp, estp⟩ : ∃ stp : Nat → DeepParams k m c → DeepParams k m c, stp = fun t => deepStep (sampleX X ⟨pick (t + 1), hpick _⟩)
    (fun _ : Fin 1 => Y ⟨pick (t + 1), hpick _⟩) (decay s.reg s.lambda s.alpha) lr := ⟨_, rfl⟩
  rw [← estp] at F ⊢
  refine tmps_run R (C := fun row out yhatm outm => epochs e s (fun e s => sgdBody (some row) (some out) (some yhatm) (some outm) (pick e) lr s) >>=
    fun s => forward_pass s) fun row out yhatm outm h1 R1 K1 T1 => ?_
  refine Runs.bind ((Glm.epochs_run_lt e s _ (fun i s' h' => SoftmaxNetReady s' h' X Y (walk stp θ i) ∧ Kept s h s' h' ∧
      Tmps h k c (some row) (some out) (some yhatm) (some outm) s' h') ⟨R1, K1, T1⟩ ?_).mono
    fun s2 h2 ⟨R2, K2, _⟩ => (forward_run R2 (F _ le_rfl)).mono fun s3 h3 ⟨R3, K3, S3⟩ => trained R3 (K2.trans K3) S3)
  rintro i s2 h2 hi ⟨R2, K2, T2⟩
  have F1 := F i hi.le
  have F2 := F (i + 1) hi
  have ew : walk stp θ (i + 1) = deepStep (sampleX X ⟨pick (i + 1), hpick _⟩) (fun _ : Fin 1 => Y ⟨pick (i + 1), hpick _⟩)
      (decay s2.reg s2.lambda s2.alpha) lr (walk stp θ i) := by
    rw [K2.decay]
    show stp i _ = _
    rw [estp]
  rw [ew] at F2 ⊢
  exact sgdBody_run R2 K2 T2 ⟨pick (i + 1), hpick _⟩ lr F1 F2

end SoftmaxNet
end Verif
