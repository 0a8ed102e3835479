import Verif.Spec.SoftmaxReg
import Verif.Lemmas.HandleM
import Verif.Lemmas.GlmBatch
import Verif.Props.GlmStochastic

/-! # Softmax regression: what the methods compute -/

namespace Verif
open Spec Finset

namespace Hd
variable {h : Heap ℝ} {a : Ref}

theorem resizem_run (w : h.WF) {m n : Nat} {A : Matrix (Fin m) (Fin n) ℝ} (ha : HasM h a A) (p q : Nat) :
    Runs (resizem a ⟨q, p, 1⟩) h fun _ h' => h'.WF ∧ Keeps h h' (some · = a) ∧ ∃ B : Matrix (Fin p) (Fin q) ℝ, HasM h' a B := by
  obtain ⟨x, rfl, l, i⟩ := ha
  unfold resizem
  refine Runs.step (a := x) (h' := h) rfl ?_
  have := Runs.resizeM (k := pure ()) (o := x) (s := ⟨q, p, 1⟩)
    (Q := fun _ h' => h'.WF ∧ Keeps h h' (some · = some (Loc.m x)) ∧ ∃ B : Matrix (Fin p) (Fin q) ℝ, HasM h' (some (.m x)) B) w rfl
    fun h1 w1 k1 _ s1 _ => by
      have k : Keeps h h1 (some · = some (Loc.m x)) := k1.mono fun _ _ e => congrArg some e
      obtain ⟨f, hf⟩ := exists_Cells w1 s1
      exact Runs.of_eq rfl ⟨w1, k, fun i j => f i j, x, rfl, k.live l, hf.isMat fun _ _ => rfl⟩
  simpa using this

theorem resizev_run (w : h.WF) {n : Nat} {v : Fin n → ℝ} (ha : HasV h a v) (p : Nat) :
    Runs (resizev a p) h fun _ h' => h'.WF ∧ Keeps h h' (some · = a) ∧ ∃ u : Fin p → ℝ, HasV h' a u := by
  obtain ⟨x, rfl, l, i⟩ := ha
  unfold resizev
  refine Runs.step (a := x) (h' := h) rfl ?_
  have := Runs.resizeV (k := pure ()) (o := x) (s := ⟨p, 1, 1⟩)
    (Q := fun _ h' => h'.WF ∧ Keeps h h' (some · = some (Loc.v x)) ∧ ∃ u : Fin p → ℝ, HasV h' (some (.v x)) u) w ⟨rfl, rfl⟩
    fun h1 w1 k1 _ s1 _ => by
      have k : Keeps h h1 (some · = some (Loc.v x)) := k1.mono fun _ _ e => congrArg some e
      obtain ⟨f, hf⟩ := exists_VCells w1 s1
      exact Runs.of_eq rfl ⟨w1, k, fun i => f i, x, rfl, k.live l, hf.isVec fun _ => rfl⟩
  simpa using this

end Hd

namespace Glm

/-- Epochs over `K` parts. -/
theorem rounds_run {σ : Type} {h : Heap ℝ} (K : Nat) (e : Int) (s : σ) (body : Nat → Nat → σ → M ℝ σ) (J : Nat → σ → Heap ℝ → Prop) (h0 : J 0 s h)
    (step : ∀ ep i s h, i < K → J (ep * K + i) s h → Runs (body (ep + 1) i s) h fun s' h' => J (ep * K + (i + 1)) s' h') :
    Runs (epochs e s fun ep s => foldN K s fun i s => body ep i s) h fun s' h' => J (epochCount e * K) s' h' := by
  refine epochs_run e s _ (fun ep s h => J (ep * K) s h) (by rw [Nat.zero_mul]; exact h0) fun ep s1 h1 J1 => ?_
  rw [Nat.succ_mul]
  exact Runs.foldN K (fun i s h => J (ep * K + i) s h) _ s1 h1 (by simpa using J1) fun i s2 h2 hi J2 => step ep i s2 h2 hi J2

theorem walk_round {α : Type} {K : Nat} (hK : 0 < K) (stp : Nat → Fin K → α → α) (a : α) (ep i : Nat) (hi : i < K) :
    walk (roundStep hK stp) a (ep * K + (i + 1)) = stp (ep + 1) ⟨i, hi⟩ (walk (roundStep hK stp) a (ep * K + i)) := by
  have e1 : (ep * K + i) / K = ep := by rw [Nat.mul_comm, Nat.mul_add_div hK, Nat.div_eq_of_lt hi, Nat.add_zero]
  have e2 : (ep * K + i) % K = i := by rw [Nat.mul_comm, Nat.mul_add_mod, Nat.mod_eq_of_lt hi]
  show roundStep hK stp (ep * K + i) _ = _
  unfold roundStep
  simp only [e1, e2]
  rfl

end Glm

namespace SoftmaxReg
open Glm (epochs epochs_run walk roundStep rounds_run walk_round batchAt)
variable {n k c m q : Nat} {h h' : Heap ℝ} {s : SoftmaxReg} {X : Matrix (Fin n) (Fin k) ℝ} {Y : Matrix (Fin n) (Fin c) ℝ} {θ : MParams k c}

/-- What belongs to the object and may be written to. -/
def owned (s : SoftmaxReg) : List Ref := [s.weights, s.bias]

theorem _root_.Verif.Spec.SoftmaxReady.keep (R : SoftmaxReady s h X Y θ) (w : h'.WF) (kk : Keeps h h' (fun _ => False)) : SoftmaxReady s h' X Y θ :=
  ⟨w, adv_hasm kk R.input, adv_hasm kk R.output, adv_hasm kk R.weights, adv_hasv kk R.bias, R.apart_input, R.apart_output⟩

theorem needs_init_run (R : SoftmaxReady s h X Y θ) {P : Matrix (Fin n) (Fin q) ℝ} (hp : HasM h s.y_hat P) : needs_init s h = .ok (false, h) := by
  obtain ⟨i, ei, -, -⟩ := R.input
  obtain ⟨o, eo, -, -⟩ := R.output
  unfold needs_init
  rw [ei, eo]
  dsimp only
  rw [← ei, ← eo, bind_ok (Hd.sizem_run R.input), bind_ok (Hd.sizem_run R.output), bind_ok (Hd.sizem_run hp)]
  rw [if_neg (by simp), bind_ok (Hd.sizem_run R.weights), if_neg (by simp), bind_ok (Hd.size_run R.bias)]
  simp [pure, M.pure]

theorem needs_init_null (hn : s.input_set = none ∨ s.output_set = none) : needs_init s h = .ok (true, h) := by
  unfold needs_init
  rcases hn with e | e
  · rw [e]; rfl
  · rw [e]; cases s.input_set <;> rfl

theorem guarded_run {α : Type} (R : SoftmaxReady s h X Y θ) {P : Matrix (Fin n) (Fin q) ℝ} (hp : HasM h s.y_hat P) (x : α) (b : M ℝ α) :
    guarded s x b h = b h := bind_ok (needs_init_run R hp)

theorem evaluatev_spec (w : h.WF) (hw : HasM h s.weights θ.1) (hb : HasV h s.bias θ.2) {x : Ref} {v : Fin k → ℝ} (hx : HasV h x v) :
    ReturnsVec (evaluatev s x) h (softmax fun a => ∑ j, v j * θ.1 j a + θ.2 a) := by
  refine .of_has ?_
  unfold evaluatev
  refine stepM (Hd.transposen_spec w hw) fun t h1 w1 k1 f1 a1 => ?_
  have K := k1
  adv k1
  refine stepV (Hd.mult_vec_spec w1 a1 hx) fun p h2 w2 k2 f2 a2 => ?_
  have K2 := K.trans k2
  adv k2
  refine stepV (Hd.addn_spec w2 hb a2) fun q h3 w3 k3 f3 a3 => ?_
  have K3 := K2.trans k3
  refine (Hd.softmax_normv_spec w3 a3).has.mono fun r h4 ⟨w4, k4, f4, a4⟩ => ⟨w4, K3.trans k4, f4.mono K3, ?_⟩
  refine cast (congrArg _ ?_) a4
  congr 1
  funext a
  rw [add_comm]
  congr 1
  simp only [Matrix.mulVec, dotProduct, Matrix.transpose_apply]
  exact Finset.sum_congr rfl fun j _ => mul_comm _ _

theorem evaluatem_spec (w : h.WF) (hw : HasM h s.weights θ.1) (hb : HasV h s.bias θ.2) {x : Ref} {A : Matrix (Fin m) (Fin k) ℝ} (hx : HasM h x A) :
    ReturnsMat (evaluatem s x) h (softmaxes A θ) := by
  refine .of_has ?_
  unfold evaluatem
  refine stepM (Hd.multn_spec w hx hw) fun p h1 w1 k1 f1 a1 => ?_
  have K := k1
  adv k1
  refine stepM (Hd.add_vecn_spec w1 a1 hb) fun p h2 w2 k2 f2 a2 => ?_
  have K2 := K.trans k2
  refine (Hd.softmax_normm_spec w2 a2).has.mono fun r h4 ⟨w4, k4, f4, a4⟩ => ⟨w4, K2.trans k4, f4.mono K2, ?_⟩
  exact a4

theorem cost_ok {P Q : Matrix (Fin m) (Fin q) ℝ} (w : h.WF) {p y : Ref} (hp : HasM h p P) (hy : HasM h y Q) {W : Matrix (Fin k) (Fin c) ℝ}
    (hw : HasM h s.weights W) : ∃ x, cost s p y h = .ok (x, h) := by
  obtain ⟨r, er⟩ := Hd.reg_termm_ok w hw s.lambda s.alpha s.reg
  obtain ⟨x, rfl, lx, ix⟩ := hp
  obtain ⟨z, rfl, lz, iz⟩ := hy
  have e : ∃ v, Cost.cross_entropym (some (.m x)) (some (.m z)) h = .ok (v, h) := ?_
  · obtain ⟨v, e⟩ := e
    unfold cost
    exact ⟨v + r, by rw [bind_ok e, bind_ok er]; rfl⟩
  · exact ⟨_, Cost.lossOf_mat w ix iz⟩

/-- What a piece of training does: the object stays set up, and only its weights and biases are written to. -/
structure Kept (s0 : SoftmaxReg) (h0 : Heap ℝ) (s : SoftmaxReg) (h : Heap ℝ) : Prop where
  same : s = { s0 with y_hat := s.y_hat, weights := s.weights }
  moved : Moved (owned s0) (owned s) h0 h

theorem Kept.refl (s : SoftmaxReg) (h : Heap ℝ) : Kept s h s h := ⟨rfl, Moved.refl _ _⟩
theorem Kept.trans {s0 s1 s2 : SoftmaxReg} {h0 h1 h2 : Heap ℝ} (a : Kept s0 h0 s1 h1) (b : Kept s1 h1 s2 h2) : Kept s0 h0 s2 h2 :=
  ⟨by rw [b.same, a.same], a.moved.trans b.moved⟩
theorem Kept.new {s0 s1 : SoftmaxReg} {h0 h1 h2 : Heap ℝ} (a : Kept s0 h0 s1 h1) (k : Keeps h1 h2 (fun _ => False)) : Kept s0 h0 s1 h2 :=
  ⟨a.same, a.moved.new k⟩

theorem subStep_run (R : SoftmaxReady s h X Y θ) {d : Ref} {G : Matrix (Fin k) (Fin c) ℝ} (hd : HasM h d G) :
    Runs (subStep s d) h fun s' h' => ∃ r, s' = { s with weights := r } ∧
      SoftmaxReady s' h' X Y (fun i j => decay s.reg s.lambda s.alpha (θ.1 i j - G i j), θ.2) ∧ Kept s h s' h' := by
  unfold subStep
  refine Runs.bind ((Hd.subm_run R.wf R.weights hd).mono fun _ h1 ⟨w1, k1, a1⟩ => ?_)
  refine stepM (Hd.reg_weightsm_spec w1 a1 s.lambda s.alpha s.reg) fun r h2 w2 k2 f2 a2 => ?_
  have M1 : Moved (owned s) (owned s) h h1 := (Moved.refl _ _).set (by simp [owned]) k1
  refine Runs.of_eq rfl ⟨r, rfl, ⟨w2, ?_, ?_, a2, ?_, ?_, ?_⟩, rfl, ?_⟩
  · exact adv_hasm k2 (R.input.offm k1 R.apart_input)
  · exact adv_hasm k2 (R.output.offm k1 R.apart_output)
  · exact adv_hasv k2 (R.bias.offm k1 R.weights)
  · exact (((f2.mono k1).ne_mat R.input)).symm
  · exact (((f2.mono k1).ne_mat R.output)).symm
  · exact (M1.new k2).own fun q hq => by
      simp only [owned, List.mem_cons, List.not_mem_nil, or_false] at hq
      rcases hq with rfl | rfl
      · exact .inr (f2.mono k1)
      · exact .inl (by simp [owned])

/-- The new parameters, from the inputs `A` and the errors `E`. -/
noncomputable def stepM (A : Matrix (Fin m) (Fin k) ℝ) (E : Matrix (Fin m) (Fin c) ℝ) (D : ℝ → ℝ) (lr : ℝ) (θ : MParams k c) : MParams k c :=
  (fun j a => D (θ.1 j a - (∑ i, A i j * E i a) * lr), fun a => θ.2 a - ∑ i, E i a * lr)

theorem update_run (R : SoftmaxReady s h X Y θ) {x p y : Ref} {A : Matrix (Fin m) (Fin k) ℝ} {P Q : Matrix (Fin m) (Fin c) ℝ}
    (hx : HasM h x A) (hp : HasM h p P) (hy : HasM h y Q) (lr : ℝ) :
    Runs (update s x p y lr) h fun s' h' => SoftmaxReady s' h' X Y (stepM A (P - Q) (decay s.reg s.lambda s.alpha) lr θ) ∧ Kept s h s' h' := by
  unfold update
  refine Verif.stepM (Hd.subnm_spec R.wf hp hy) fun er h1 w1 k1 f1 a1 => ?_
  have R1 := R.keep w1 k1
  have K1 := (Kept.refl s h).new k1
  adv k1
  refine Verif.stepM (Hd.transposen_spec w1 hx) fun t h2 w2 k2 f2 a2 => ?_
  have R2 := R1.keep w2 k2
  have K2 := K1.new k2
  adv k2
  refine Verif.stepM (Hd.multn_spec w2 a2 a1) fun g h3 w3 k3 f3 a3 => ?_
  have R3 := R2.keep w3 k3
  have K3 := K2.new k3
  adv k3
  refine Verif.stepM (Hd.scalar_multiplynm_spec w3 a3 lr) fun d h4 w4 k4 f4 a4 => ?_
  have R4 := R3.keep w4 k4
  have K4 := K3.new k4
  adv k4
  have ne : er ≠ s.weights := f1.ne_mat R.weights
  refine Runs.bind ((subStep_run R4 a4).mono fun s5 h5 ⟨r, e5, R5, K5⟩ => ?_)
  have a5 : HasM h5 er _ := K5.moved.mat a1 (by simpa [owned] using ⟨ne, (R4.bias.ne_mat a1).symm⟩)
  refine Verif.stepM (Hd.scalar_multiplynm_spec R5.wf a5 lr) fun b h6 w6 k6 f6 a6 => ?_
  have R6 := R5.keep w6 k6
  refine Runs.bind ((Hd.subtract_matrix_rows_run w6 R6.bias a6).mono fun _ h7 ⟨w7, k7, a7⟩ => ?_)
  have K7 := ((K4.trans K5).new k6).moved.set (q := s5.bias) (by simp [owned]) k7
  refine Runs.of_eq rfl ⟨⟨w7, ?_, ?_, ?_, ?_, ?_, ?_⟩, (K4.trans K5).same, K7⟩
  · exact R6.input.off k7 R6.bias
  · exact R6.output.off k7 R6.bias
  · exact R6.weights.off k7 R6.bias
  · exact a7
  · exact R6.apart_input
  · exact R6.apart_output

/-- The invariant of the training loops. -/
structure Inv (X : Matrix (Fin n) (Fin k) ℝ) (Y : Matrix (Fin n) (Fin c) ℝ) (s0 : SoftmaxReg) (h0 : Heap ℝ) (θ : MParams k c) (s : SoftmaxReg)
    (h : Heap ℝ) : Prop where
  ready : SoftmaxReady s h X Y θ
  kept : Kept s0 h0 s h

theorem trained {s0 : SoftmaxReg} {h0 : Heap ℝ} (R : SoftmaxReady s h X Y θ) (K : Kept s0 h0 s h) (S : HasM h s.y_hat (softmaxes X θ))
    (F : NotIn h0 s.y_hat ∧ s.y_hat ≠ s.weights) : SoftmaxTrained s0 h0 s h X Y θ := by
  refine ⟨R, S, K.same, K.moved.keeps.mono fun l _ e => by simpa [owned] using e, F.1, ?_, F.2⟩
  rcases K.moved.fresh s.weights (by simp [owned]) with q | q
  · simp only [owned, List.mem_cons, List.not_mem_nil, or_false] at q
    rcases q with q | q
    · exact .inl q
    · have e : s.bias = s0.bias := by rw [K.same]
      exact absurd (q.trans e.symm).symm (R.bias.ne_mat R.weights)
  · exact .inr q

theorem forward_run (R : SoftmaxReady s h X Y θ) {s0 : SoftmaxReg} {h0 : Heap ℝ} (K : Kept s0 h0 s h) :
    Runs (forward_pass s) h fun s' h' => SoftmaxReady s' h' X Y θ ∧ Kept s0 h0 s' h' ∧ HasM h' s'.y_hat (softmaxes X θ) ∧
      (NotIn h0 s'.y_hat ∧ s'.y_hat ≠ s'.weights) := by
  unfold forward_pass
  refine Verif.stepM (evaluatem_spec R.wf R.weights R.bias R.input) fun r h1 w1 k1 f1 a1 => ?_
  have R1 := R.keep w1 k1
  have K1 := K.new k1
  refine Runs.of_eq rfl ⟨⟨w1, R1.input, R1.output, R1.weights, R1.bias, R1.apart_input, R1.apart_output⟩, ⟨?_, K1.moved⟩, a1,
    f1.mono K.moved.keeps, f1.ne_mat R.weights⟩
  rw [K.same]

theorem Kept.decay {s0 : SoftmaxReg} {h0 : Heap ℝ} (K : Kept s0 h0 s h) : decay s.reg s.lambda s.alpha = decay s0.reg s0.lambda s0.alpha := by
  rw [K.same]

/-- The step on the whole data. -/
noncomputable def gdStep (X : Matrix (Fin m) (Fin k) ℝ) (Y : Matrix (Fin m) (Fin c) ℝ) (D : ℝ → ℝ) (lr : ℝ) (θ : MParams k c) : MParams k c :=
  stepM X (softmaxes X θ - Y) D lr θ

theorem gd_run (R : SoftmaxReady s h X Y θ) {P : Matrix (Fin n) (Fin q) ℝ} (hp : HasM h s.y_hat P) (lr : ℝ) (e : Int) :
    Runs (train_gradient_descent s lr e) h fun s' h' => SoftmaxTrained s h s' h' X Y
      (walk (fun _ => gdStep X Y (decay s.reg s.lambda s.alpha) lr) θ (epochCount e)) := by
  unfold train_gradient_descent
  refine Runs.congr (guarded_run R hp _ _) ?_
  refine Runs.bind ((forward_run R (.refl s h)).mono fun s1 h1 I1 => ?_)
  refine (epochs_run e s1 _ (fun i s' h' => SoftmaxReady s' h' X Y (walk (fun _ => gdStep X Y (decay s.reg s.lambda s.alpha) lr) θ i) ∧
    Kept s h s' h' ∧ HasM h' s'.y_hat (softmaxes X (walk (fun _ => gdStep X Y (decay s.reg s.lambda s.alpha) lr) θ i)) ∧
    (NotIn h s'.y_hat ∧ s'.y_hat ≠ s'.weights)) I1 ?_).mono fun s2 h2 ⟨R2, K2, S2, F2⟩ => trained R2 K2 S2 F2
  rintro i s2 h2 ⟨R2, K2, S2, _⟩
  obtain ⟨x, ex⟩ := cost_ok R2.wf S2 R2.output R2.weights
  refine Runs.step ex ?_
  refine Runs.bind ((update_run R2 R2.input S2 R2.output lr).mono fun s3 h3 ⟨R3, K3⟩ => ?_)
  rw [K2.decay] at R3
  exact forward_run R3 (K2.trans K3)

/-- The inputs and outputs the code takes for mini-batch `i` of `K`: rows `K i`, `K i + 1`, … -/
def codeBatch {p : Nat} (A : Matrix (Fin n) (Fin p) ℝ) (K : Nat) (hr : ∀ (i : Fin K) (j : Fin (n / K)), K * i.val + j.val < n) (i : Fin K) :
    Matrix (Fin (n / K)) (Fin p) ℝ := fun j => A ⟨K * i.val + j.val, hr i j⟩

theorem mbgd_run (R : SoftmaxReady s h X Y θ) {P : Matrix (Fin n) (Fin q) ℝ} (hp : HasM h s.y_hat P) (lr : ℝ) (e : Int) {b K : Nat} (hb : 0 < b)
    (eK : n / b = K) (hK : 0 < K) (hr : ∀ (i : Fin K) (j : Fin (n / K)), K * i.val + j.val < n) :
    Runs (train_mbgd s lr e b) h fun s' h' => SoftmaxTrained s h s' h' X Y
      (walk (roundStep hK fun _ i => gdStep (codeBatch X K hr i) (codeBatch Y K hr i) (decay s.reg s.lambda s.alpha) lr) θ (epochCount e * K)) := by
  unfold train_mbgd
  refine Runs.congr (guarded_run R hp _ _) ?_
  refine Runs.step (Hd.sizem_run R.input) ?_
  have hb' : (b : Int) ≠ 0 := by exact_mod_cast hb.ne'
  rw [if_neg hb']
  have ek : (n : Int).tdiv (b : Int) = ((n / b : Nat) : Int) := by
    rw [Int.tdiv_eq_ediv_of_nonneg (Int.natCast_nonneg n)]; rfl
  dsimp only
  rw [ek, Int.toNat_natCast, eK]
  obtain ⟨ia, eia, lia, hia⟩ := R.input
  obtain ⟨oa, eoa, loa, hoa⟩ := R.output
  rw [eia, eoa]
  refine Runs.bind ((Utilities.create_mini_batchesmm_run R.wf lia loa hia hoa hK hr).mono fun bs h1 ⟨w1, k1, ⟨lm, _, nm⟩, ⟨lv, _, nv⟩⟩ => ?_)
  have R1 := R.keep w1 k1
  have K1 := (Kept.refl s h).new k1
  obtain ⟨stp, estp⟩ : ∃ stp : Nat → Fin K → MParams k c → MParams k c, stp = fun _ i =>
    gdStep (codeBatch X K hr i) (codeBatch Y K hr i) (decay s.reg s.lambda s.alpha) lr := ⟨_, rfl⟩
  rw [← estp]
  let B : SoftmaxReg → Heap ℝ → Prop := fun s h => ∀ i : Fin K, ∃ a b, bs.1[i.val]? = some a ∧ bs.2[i.val]? = some b ∧
    HasM h a (codeBatch X K hr i) ∧ HasM h b (codeBatch Y K hr i) ∧ a ∉ owned s ∧ b ∉ owned s
  have nin : ∀ {m' n' : Nat} {r : Ref} {A : Matrix (Fin m') (Fin n') ℝ}, NotIn h r → HasM h1 r A → r ∉ owned s := by
    intro m' n' r A f a
    simp only [owned, List.mem_cons, List.not_mem_nil, or_false, not_or]
    exact ⟨f.ne_mat R.weights, f.ne R.bias⟩
  have B1 : B s h1 := by
    intro i
    obtain ⟨a, ea, fa, la, ha⟩ := nm i
    obtain ⟨o, eo, fo, lo, ho⟩ := nv i
    have fa' : NotIn h (some (.m a)) := fun l e => by cases e; exact fa
    have fo' : NotIn h (some (.m o)) := fun l e => by cases e; exact fo
    exact ⟨_, _, ea, eo, ⟨a, rfl, la, ha⟩, ⟨o, rfl, lo, ho⟩, nin fa' ⟨a, rfl, la, ha⟩, nin fo' ⟨o, rfl, lo, ho⟩⟩
  have Bstep : ∀ {s1 s2 : SoftmaxReg} {h1 h2 : Heap ℝ}, B s1 h1 → Kept s1 h1 s2 h2 → B s2 h2 := by
    intro s1 s2 h1 h2 b kk i
    obtain ⟨x, y, ex, ey, hx, hy, nx, ny⟩ := b i
    exact ⟨x, y, ex, ey, kk.moved.mat hx nx, kk.moved.mat hy ny, kk.moved.notm hx nx, kk.moved.notm hy ny⟩
  refine Runs.bind ((rounds_run K e s _ (fun t s' h' => SoftmaxReady s' h' X Y (walk (roundStep hK stp) θ t) ∧ Kept s h s' h' ∧ B s' h')
    ⟨R1, K1, B1⟩ ?_).mono fun s2 h2 ⟨R2, K2, _⟩ => (forward_run R2 K2).mono fun s3 h3 ⟨R3, K3, S3, F3⟩ => trained R3 K3 S3 F3)
  rintro ep i s2 h2 hi ⟨R2, K2, B2⟩
  obtain ⟨a, o, ea, eo, ha, ho, na, no⟩ := B2 ⟨i, hi⟩
  have r1 : batchAt bs.1 i h2 = .ok (a, h2) := by unfold batchAt; rw [show bs.1[i]? = some a from ea]; rfl
  have r2 : batchAt bs.2 i h2 = .ok (o, h2) := by unfold batchAt; rw [show bs.2[i]? = some o from eo]; rfl
  refine Runs.step r1 (Runs.step r2 ?_)
  refine Verif.stepM (evaluatem_spec R2.wf R2.weights R2.bias ha) fun p h3 w3 k3 f3 a3 => ?_
  have R3 := R2.keep w3 k3
  have B3 := Bstep B2 ((Kept.refl s2 h2).new k3)
  have K3 := K2.new k3
  adv k3
  obtain ⟨x, ex⟩ := cost_ok w3 a3 ho R3.weights
  refine Runs.step ex ?_
  refine Runs.bind ((update_run R3 ha a3 ho lr).mono fun s4 h4 ⟨R4, K4⟩ => ?_)
  have ha4 := K4.moved.mat ha na
  refine Verif.stepM (evaluatem_spec R4.wf R4.weights R4.bias ha4) fun p2 h5 w5 k5 f5 a5 => ?_
  refine Runs.of_eq rfl ⟨?_, (K3.trans K4).new k5, Bstep (Bstep B3 K4) ((Kept.refl s4 h4).new k5)⟩
  rw [walk_round hK stp θ ep i hi]
  rw [K2.decay] at R4
  rw [show stp (ep + 1) ⟨i, hi⟩ = gdStep (codeBatch X K hr ⟨i, hi⟩) (codeBatch Y K hr ⟨i, hi⟩) (decay s.reg s.lambda s.alpha) lr by rw [estp]]
  exact R4.keep w5 k5

/-! ## Stochastic training -/

theorem _root_.Verif.Spec.SoftmaxReady.write (R : SoftmaxReady s h X Y θ) {r : Ref} (w : h'.WF) (kk : Keeps h h' (some · = r)) (n1 : s.input_set ≠ r)
    (n2 : s.output_set ≠ r) (n3 : r ∉ owned s) : SoftmaxReady s h' X Y θ := by
  simp only [owned, List.mem_cons, List.not_mem_nil, or_false, not_or] at n3
  exact ⟨w, R.input.offm kk n1, R.output.offm kk n2, R.weights.offm kk (Ne.symm n3.1), R.bias.off kk (Ne.symm n3.2), R.apart_input, R.apart_output⟩

/-- The temporary objects of the loop. -/
structure Tmps (h0 : Heap ℝ) (k c : Nat) (row yhatm out outm : Ref) (s : SoftmaxReg) (h : Heap ℝ) : Prop where
  hrow : ∃ v : Fin k → ℝ, HasV h row v
  hyhatm : ∃ (m n : Nat) (A : Matrix (Fin m) (Fin n) ℝ), HasM h yhatm A
  hout : ∃ v : Fin c → ℝ, HasV h out v
  houtm : ∃ A : Matrix (Fin 1) (Fin c) ℝ, HasM h outm A
  new : ∀ r ∈ [row, yhatm, out, outm], NotIn h0 r
  off : ∀ r ∈ [row, yhatm, out, outm], r ∉ owned s
  ne1 : row ≠ out
  ne2 : yhatm ≠ outm

theorem Tmps.kept {h0 : Heap ℝ} {row yhatm out outm : Ref} {s' : SoftmaxReg} (T : Tmps h0 k c row yhatm out outm s h) (K : Kept s h s' h') :
    Tmps h0 k c row yhatm out outm s' h' := by
  obtain ⟨v1, a1⟩ := T.hrow
  obtain ⟨_, _, v2, a2⟩ := T.hyhatm
  obtain ⟨v3, a3⟩ := T.hout
  obtain ⟨v4, a4⟩ := T.houtm
  have o1 := T.off row (by simp)
  have o2 := T.off yhatm (by simp)
  have o3 := T.off out (by simp)
  have o4 := T.off outm (by simp)
  refine ⟨⟨_, K.moved.vec a1 o1⟩, ⟨_, _, _, K.moved.mat a2 o2⟩, ⟨_, K.moved.vec a3 o3⟩, ⟨_, K.moved.mat a4 o4⟩, T.new, fun r hr => ?_, T.ne1, T.ne2⟩
  simp only [List.mem_cons, List.not_mem_nil, or_false] at hr
  rcases hr with rfl | rfl | rfl | rfl
  · exact K.moved.notv a1 o1
  · exact K.moved.notm a2 o2
  · exact K.moved.notv a3 o3
  · exact K.moved.notm a4 o4

/-- The step on one sample. -/
noncomputable def sgdStep (X : Matrix (Fin n) (Fin k) ℝ) (Y : Matrix (Fin n) (Fin c) ℝ) (D : ℝ → ℝ) (lr : ℝ) (i : Fin n) (θ : MParams k c) : MParams k c :=
  (fun j a => D (θ.1 j a - X i j * (softmaxes X θ i a - Y i a) * lr), fun a => θ.2 a - (softmaxes X θ i a - Y i a) * lr)

theorem sgdUpdate_run {s0 : SoftmaxReg} {h0 : Heap ℝ} {θ0 : MParams k c} (R0 : SoftmaxReady s0 h0 X Y θ0) (R : SoftmaxReady s h X Y θ)
    (K : Kept s0 h0 s h) {row yhatm out outm : Ref} (T : Tmps h0 k c row yhatm out outm s h) (i : Fin n) (lr : ℝ) :
    Runs (sgdUpdate row yhatm out outm (i : Nat) lr s) h fun s' h' => SoftmaxReady s' h' X Y (sgdStep X Y (decay s.reg s.lambda s.alpha) lr i θ) ∧
      Kept s0 h0 s' h' ∧ Tmps h0 k c row yhatm out outm s' h' ∧ HasV h' out (Y i) := by
  have ein : s.input_set = s0.input_set := by rw [K.same]
  have eou : s.output_set = s0.output_set := by rw [K.same]
  obtain ⟨v1, a1⟩ := T.hrow
  obtain ⟨m2, n2, v2, a2⟩ := T.hyhatm
  obtain ⟨v3, a3⟩ := T.hout
  obtain ⟨v4, a4⟩ := T.houtm
  have o1 := T.off row (by simp)
  have o2 := T.off yhatm (by simp)
  have o3 := T.off out (by simp)
  have o4 := T.off outm (by simp)
  have f1 := T.new row (by simp)
  have f2 := T.new yhatm (by simp)
  have f3 := T.new out (by simp)
  have f4 := T.new outm (by simp)
  have d1 : s.input_set ≠ yhatm := by rw [ein]; exact (f2.ne_mat R0.input).symm
  have d2 : s.output_set ≠ yhatm := by rw [eou]; exact (f2.ne_mat R0.output).symm
  have d3 : s.input_set ≠ outm := by rw [ein]; exact (f4.ne_mat R0.input).symm
  have d4 : s.output_set ≠ outm := by rw [eou]; exact (f4.ne_mat R0.output).symm
  unfold sgdUpdate
  -- the inputs of the sample
  refine Runs.bind ((Hd.row_get_into_run R.wf R.input a1 i).mono fun _ h1 ⟨w1, k1, b1⟩ => ?_)
  have R1 := R.write w1 k1 (a1.ne_mat R.input).symm (a1.ne_mat R.output).symm o1
  have K1 : Kept s0 h0 s h1 := ⟨K.same, K.moved.tmp f1 k1⟩
  have c2 := a2.off k1 a1
  have c3 := a3.off k1 T.ne1.symm
  have c4 := a4.off k1 a1
  -- the prediction
  refine stepV (evaluatev_spec w1 R1.weights R1.bias b1) fun p h2 w2 k2 g2 b2 => ?_
  have R2 := R1.keep w2 k2
  have K2 := K1.new k2
  have np : p ≠ out := (g2.ne c3)
  have npb : p ≠ s.bias := g2.ne R1.bias
  adv k2
  refine Runs.step (Hd.size_run b2) ?_
  refine Runs.bind ((Hd.resizem_run w2 c2 1 c).mono fun _ h3 ⟨w3, k3, B3, b3⟩ => ?_)
  have R3 := R2.write w3 k3 d1 d2 o2
  have K3 : Kept s0 h0 s h3 := ⟨K2.same, K2.moved.tmp f2 k3⟩
  have b1' := b1.offm k3 c2
  have b2' := b2.offm k3 c2
  have c3' := c3.offm k3 c2
  have c4' := c4.offm k3 T.ne2.symm
  refine Runs.bind ((Hd.row_set_run w3 b3 b2' (0 : Fin 1)).mono fun _ h4 ⟨w4, k4, b4⟩ => ?_)
  have R4 := R3.write w4 k4 d1 d2 o2
  have K4 : Kept s0 h0 s h4 := ⟨K3.same, K3.moved.tmp f2 k4⟩
  replace b1' := b1'.offm k4 b3
  replace b2' := b2'.offm k4 b3
  replace c3' := c3'.offm k4 b3
  replace c4' := c4'.offm k4 T.ne2.symm
  -- the outputs of the sample
  refine Runs.bind ((Hd.row_get_into_run w4 R4.output c3' i).mono fun _ h5 ⟨w5, k5, b5⟩ => ?_)
  have R5 := R4.write w5 k5 (c3'.ne_mat R4.input).symm (c3'.ne_mat R4.output).symm o3
  have K5 : Kept s0 h0 s h5 := ⟨K4.same, K4.moved.tmp f3 k5⟩
  replace b1' := b1'.off k5 T.ne1
  replace b2' := b2'.off k5 np
  replace b4 := b4.off k5 c3'
  replace c4' := c4'.off k5 c3'
  refine Runs.bind ((Hd.row_set_run w5 c4' b5 (0 : Fin 1)).mono fun _ h6 ⟨w6, k6, b6⟩ => ?_)
  have R6 := R5.write w6 k6 d3 d4 o4
  have K6 : Kept s0 h0 s h6 := ⟨K5.same, K5.moved.tmp f4 k6⟩
  replace b1' := b1'.offm k6 c4'
  replace b2' := b2'.offm k6 c4'
  replace b5 := b5.offm k6 c4'
  replace b4 := b4.offm k6 T.ne2
  have T6 : Tmps h0 k c row yhatm out outm s h6 := ⟨⟨_, b1'⟩, ⟨_, _, _, b4⟩, ⟨_, b5⟩, ⟨_, b6⟩, T.new, T.off, T.ne1, T.ne2⟩
  obtain ⟨x, ex⟩ := cost_ok w6 b4 b6 R6.weights
  refine Runs.step ex ?_
  -- the step
  refine stepV (Hd.subn_spec w6 b2' b5) fun er h7 w7 k7 g7 b7 => ?_
  have R7 := R6.keep w7 k7
  have K7 := K6.new k7
  have T7 := T6.kept ((Kept.refl s h6).new k7)
  adv k7
  refine Verif.stepM (Hd.outer_product_spec w7 b1' b7) fun wg h8 w8 k8 g8 b8 => ?_
  have R8 := R7.keep w8 k8
  have K8 := K7.new k8
  have T8 := T7.kept ((Kept.refl s h7).new k8)
  adv k8
  refine Verif.stepM (Hd.scalar_multiplynm_spec w8 b8 lr) fun d h9 w9 k9 g9 b9 => ?_
  have R9 := R8.keep w9 k9
  have K9 := K8.new k9
  have T9 := T8.kept ((Kept.refl s h8).new k9)
  adv k9
  refine Runs.bind ((subStep_run R9 b9).mono fun s10 h10 ⟨r, e10, R10, K10⟩ => ?_)
  have T10 := T9.kept K10
  have npo : p ∉ owned s := by
    simp only [owned, List.mem_cons, List.not_mem_nil, or_false, not_or]
    exact ⟨b2'.ne_mat R9.weights, npb⟩
  have p10 := K10.moved.vec b2' npo
  have y10 := K10.moved.vec b5 o3
  have K10' := K9.trans K10
  refine stepV (Hd.subn_spec R10.wf p10 y10) fun bg h11 w11 k11 g11 b11 => ?_
  have R11 := R10.keep w11 k11
  have K11 := K10'.new k11
  have T11 := T10.kept ((Kept.refl s10 h10).new k11)
  adv k11
  refine stepV (Hd.scalar_multiplyn_spec w11 b11 lr) fun bb h12 w12 k12 g12 b12 => ?_
  have R12 := R11.keep w12 k12
  have K12 := K11.new k12
  have T12 := T11.kept ((Kept.refl s10 h11).new k12)
  adv k12
  refine Runs.bind ((Hd.sub_run w12 R12.bias b12).mono fun _ h13 ⟨w13, k13, b13⟩ => ?_)
  have K13 : Kept s10 h12 s10 h13 := ⟨rfl, (Moved.refl _ _).set (by simp [owned]) k13⟩
  have T13 := T12.kept K13
  refine Runs.of_eq rfl ⟨⟨w13, R12.input.off k13 R12.bias, R12.output.off k13 R12.bias, ?_, b13, R12.apart_input, R12.apart_output⟩,
    K12.trans K13, T13, ?_⟩
  · exact R12.weights.off k13 R12.bias
  · exact K13.moved.vec y10 (T12.off out (by simp))

/-- A product with a vector that is too short is computed with the columns there are. -/
theorem mult_vec_short (w : h.WF) {a b : Ref} {p r : Nat} {A : Matrix (Fin m) (Fin p) ℝ} {v : Fin r → ℝ} (ha : HasM h a A) (hb : HasV h b v)
    (hr : r ≤ p) : ∃ u : Fin m → ℝ, ReturnsVec (Hd.mult_vec a b) h u := by
  obtain ⟨x, rfl, la, iA⟩ := ha
  obtain ⟨z, rfl, lb, iB⟩ := hb
  obtain ⟨F, eF, cA⟩ := iA.cells w
  obtain ⟨g, eg, cB⟩ := iB.cells w
  have : ReturnsVec (Mat.mult_vec x (some z)) h fun i : Fin m => (List.range r).foldl (fun acc k => acc + F i k * g k) 0 := by
    unfold Mat.mult_vec Vec.size
    refine Runs.step (bind_ok (getSize_run (.v z) h)) (Runs.step (Mat.size_run x h) ?_)
    rw [cA.1, cB.1]
    dsimp only
    rw [if_neg (not_lt.2 hr)]
    refine Runs.newVec w ⟨rfl, rfl⟩ fun h1 w1 k1 f1 l1 s1 => Runs.fillV w1 s1 ?_
    exact Runs.step (multVecLoop_run (c := .v _) (cA.keep k1 la nofun) (cB.keep k1 lb nofun) hr nofun
      (live_ne_fresh lb rfl) _) (returnsVec_St w1 k1 f1 l1 s1 fun i => rfl)
  exact ⟨_, this⟩

theorem evaluatev_short (R : SoftmaxReady s h X Y θ) {x : Ref} {v : Fin c → ℝ} (hx : HasV h x v) (hc : c ≤ k) :
    ∃ u : Fin c → ℝ, ReturnsVec (evaluatev s x) h u := by
  have : ∃ u : Fin c → ℝ, Runs (evaluatev s x) h fun r h' => h'.WF ∧ Keeps h h' (fun _ => False) ∧ NotIn h r ∧ HasV h' r u := by
    obtain ⟨t, h1, e1, w1, k1, f1, a1⟩ := runs_iff.1 (Hd.transposen_spec R.wf R.weights).has
    obtain ⟨u, q⟩ := mult_vec_short w1 a1 (adv_hasv k1 hx) hc
    refine ⟨softmax fun i => θ.2 i + u i, ?_⟩
    unfold evaluatev
    refine Runs.step e1 ?_
    have R1 := R.keep w1 k1
    refine stepV q fun p h2 w2 k2 f2 a2 => ?_
    refine stepV (Hd.addn_spec w2 (R1.keep w2 k2).bias a2) fun p h3 w3 k3 f3 a3 => ?_
    have K3 := (k1.trans k2).trans k3
    exact (Hd.softmax_normv_spec w3 a3).has.mono fun r h4 ⟨w4, k4, f4, a4⟩ => ⟨w4, K3.trans k4, f4.mono K3, a4⟩
  obtain ⟨u, q⟩ := this
  exact ⟨u, .of_has q⟩

/-- With more classes than input columns, outputs cannot be evaluated as inputs. -/
theorem evaluatev_long (R : SoftmaxReady s h X Y θ) {x : Ref} {v : Fin c → ℝ} (hx : HasV h x v) (hc : k < c) : evaluatev s x h = .ub := by
  unfold evaluatev
  obtain ⟨t, h1, e1, w1, k1, f1, a1⟩ := runs_iff.1 (Hd.transposen_spec R.wf R.weights).has
  rw [bind_ok e1]
  have hx1 := adv_hasv k1 hx
  have hb := adv_hasv k1 R.bias
  obtain ⟨i, rfl, la, iA⟩ := a1
  obtain ⟨z, rfl, lb, iB⟩ := hx1
  obtain ⟨b, eb, -, -⟩ := hb
  have e2 : Hd.mult_vec (some (.m i)) (some (.v z)) h1 = .ok (none, h1) := by
    show Mat.mult_vec i (some z) h1 = _
    unfold Mat.mult_vec Vec.size
    dsimp only
    rw [bind_ok (bind_ok (getSize_run (.v z) h1)), bind_ok (Mat.size_run i h1), iA.1, iB.1, if_pos hc]
    rfl
  rw [bind_ok e2, eb]
  have e3 : Hd.addn (some (.v b)) none h1 = .ok (none, h1) := rfl
  rw [bind_ok e3]
  rfl

/-- The temporary objects of `train_sgd`. -/
theorem tmps_run (R : SoftmaxReady s h X Y θ) {β : Type} {C : Loc → Loc → Loc → Loc → M ℝ β} {Q : β → Heap ℝ → Prop}
    (next : ∀ row yhatm out outm h1, SoftmaxReady s h1 X Y θ → Kept s h s h1 → Tmps h k c (some row) (some yhatm) (some out) (some outm) s h1 →
      Runs (C row yhatm out outm) h1 Q) :
    Runs (do
      let row ← newVec
      resizeTo row ⟨k, 1, 1⟩
      let yhatm ← newMat
      let osize ← Hd.sizem s.output_set
      let out ← newVec
      resizeTo out ⟨osize.x, 1, 1⟩
      let outm ← newMat
      resizeTo outm ⟨osize.x, 1, 1⟩
      C row yhatm out outm) h Q := by
  refine stepNewV (n := k) R.wf fun o1 h1 v1 w1 k1 f1 a1 => ?_
  have R1 := R.keep w1 k1
  refine Runs.newM w1 fun h2 w2 k2 f2 l2 s2 => ?_
  have R2 := R1.keep w2 k2
  obtain ⟨F, cF⟩ := exists_Cells w2 s2
  have a2 : HasM h2 (some (.m h1.next)) (fun (i j : Fin 0) => F i j) := ⟨_, rfl, l2, cF.isMat fun _ _ => rfl⟩
  have f2' : NotIn h1 (some (.m h1.next)) := fun l e => by cases e; exact f2
  generalize h1.next = o2 at *
  refine Runs.step (Hd.sizem_run R2.output) ?_
  refine stepNewV (n := c) w2 fun o3 h3 v3 w3 k3 f3 a3 => ?_
  have R3 := R2.keep w3 k3
  refine stepNewM (m := 1) (n := c) w3 fun o4 h4 v4 w4 k4 f4 a4 => ?_
  have R4 := R3.keep w4 k4
  refine next _ _ _ _ h4 R4 ((((((Kept.refl s h).new k1).new k2).new k3).new k4)) ⟨⟨_, adv_hasv k4 (adv_hasv k3 (adv_hasv k2 a1))⟩,
    ⟨_, _, _, adv_hasm k4 (adv_hasm k3 a2)⟩, ⟨_, adv_hasv k4 a3⟩, ⟨_, a4⟩, ?_, ?_, ?_, ?_⟩
  · intro r hr
    simp only [List.mem_cons, List.not_mem_nil, or_false] at hr
    rcases hr with rfl | rfl | rfl | rfl
    · exact f1
    · exact f2'.mono k1
    · exact f3.mono (k1.trans k2)
    · exact f4.mono ((k1.trans k2).trans k3)
  · intro r hr
    simp only [List.mem_cons, List.not_mem_nil, or_false] at hr
    simp only [owned, List.mem_cons, List.not_mem_nil, or_false, not_or]
    rcases hr with rfl | rfl | rfl | rfl
    · exact ⟨f1.ne_mat R.weights, f1.ne R.bias⟩
    · exact ⟨f2'.ne_mat R1.weights, f2'.ne R1.bias⟩
    · exact ⟨f3.ne_mat R2.weights, f3.ne R2.bias⟩
    · exact ⟨f4.ne_mat R3.weights, f4.ne R3.bias⟩
  · exact (f3.ne (adv_hasv k2 a1)).symm
  · exact (f4.ne_mat (adv_hasm k3 a2)).symm

theorem sgd_run (R : SoftmaxReady s h X Y θ) {P : Matrix (Fin n) (Fin q) ℝ} (hp : HasM h s.y_hat P) {pick : Nat → Nat} (hpick : ∀ e, pick e < n)
    (hc : c ≤ k) (lr : ℝ) (e : Int) :
    Runs (train_sgd s pick lr e) h fun s' h' => SoftmaxTrained s h s' h' X Y
      (walk (fun t => sgdStep X Y (decay s.reg s.lambda s.alpha) lr ⟨pick (t + 1), hpick _⟩) θ (epochCount e)) := by
  unfold train_sgd
  refine Runs.congr (guarded_run R hp _ _) ?_
  refine Runs.step (Hd.sizem_run R.input) ?_
  dsimp only
  rw [if_neg (by have := hpick 0; omega)]
  refine tmps_run R (C := fun row yhatm out outm => epochs e s (fun e s => sgdBody (some row) (some yhatm) (some out) (some outm) (pick e) lr s) >>=
    fun s => forward_pass s) fun row yhatm out outm h1 R1 K1 T1 => ?_
  refine Runs.bind ((epochs_run e s _ (fun i s' h' => SoftmaxReady s' h' X Y (walk (fun t => sgdStep X Y (decay s.reg s.lambda s.alpha) lr
      ⟨pick (t + 1), hpick _⟩) θ i) ∧ Kept s h s' h' ∧ Tmps h k c (some row) (some yhatm) (some out) (some outm) s' h') ⟨R1, K1, T1⟩ ?_).mono
    fun s2 h2 ⟨R2, K2, _⟩ => (forward_run R2 K2).mono fun s3 h3 ⟨R3, K3, S3, F3⟩ => trained R3 K3 S3 F3)
  rintro i s2 h2 ⟨R2, K2, T2⟩
  refine Runs.bind ((sgdUpdate_run R R2 K2 T2 ⟨pick (i + 1), hpick _⟩ lr).mono fun s3 h3 ⟨R3, K3, T3, o3⟩ => ?_)
  rw [K2.decay] at R3
  obtain ⟨u, q⟩ := evaluatev_short R3 o3 hc
  refine stepV q fun p h4 w4 k4 f4 a4 => ?_
  exact Runs.of_eq rfl ⟨R3.keep w4 k4, K3.new k4, T3.kept ((Kept.refl s3 h3).new k4)⟩

theorem sgd_ub (R : SoftmaxReady s h X Y θ) {P : Matrix (Fin n) (Fin q) ℝ} (hp : HasM h s.y_hat P) {pick : Nat → Nat} (hpick : pick 1 < n)
    (hc : k < c) (lr : ℝ) (e : Int) : train_sgd s pick lr e h = .ub := by
  unfold train_sgd
  rw [guarded_run R hp, bind_ok (Hd.sizem_run R.input)]
  dsimp only
  rw [if_neg (by omega)]
  have key := tmps_run R (C := fun row yhatm out outm => pure (row, yhatm, out, outm))
    (Q := fun r h1 => SoftmaxReady s h1 X Y θ ∧ Kept s h s h1 ∧ Tmps h k c (some r.1) (some r.2.1) (some r.2.2.1) (some r.2.2.2) s h1)
    fun row yhatm out outm h1 R1 K1 T1 => Runs.of_eq rfl ⟨R1, K1, T1⟩
  obtain ⟨⟨row, yhatm, out, outm⟩, h1, e1, R1, K1, T1⟩ := runs_iff.1 key
  have e2 := bind_ok (k := fun r : Loc × Loc × Loc × Loc => epochs e s (fun e s => sgdBody (some r.1) (some r.2.1) (some r.2.2.1) (some r.2.2.2) (pick e) lr s) >>=
    fun s => forward_pass s) e1
  simp only [bind_assoc, pure_bind] at e2
  refine e2.trans ?_
  refine bind_ub ?_
  refine epochs_ub _ _ _ ?_
  refine ub_bind (sgdUpdate_run R R1 K1 T1 ⟨pick 1, hpick⟩ lr) fun s3 h3 ⟨R3, K3, T3, o3⟩ => ?_
  exact bind_ub (evaluatev_long R3 o3 hc)

end SoftmaxReg
end Verif
