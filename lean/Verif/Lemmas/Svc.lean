import Verif.Model.Svc
import Verif.Spec.Svc
import Verif.Lemmas.GlmBatch
import Verif.Lemmas.Cost
import Verif.Props.GlmPredict

/-! # The support vector classifier -/

namespace Verif
open Spec Finset Glm
namespace Svc
variable {n k : Nat} {h h' : Heap ℝ} {s : Glm} {X : Matrix (Fin n) (Fin k) ℝ} {y : Fin n → ℝ} {θ : Params k}

theorem sign_eq : Activation.sign_normr = signOf := funext sign_normr_eq

theorem link : Computes fns signOf := by rw [← sign_eq]; exact computes_lifts Activation.sign_normv_lifts (loss_ok rfl)

theorem hinge_spec (w : h.WF) {m : Nat} {a b : Ref} {p q : Fin m → ℝ} (ha : HasV h a p) (hb : HasV h b q) (c : ℝ) :
    ReturnsVec (Cost.hinge_loss_derivwv a b c) h fun i => Cost.hingeDeriv (p i) (q i) * c := by
  obtain ⟨a, rfl, la, ha⟩ := ha
  obtain ⟨b, rfl, lb, hb⟩ := hb
  exact (Cost.hinge_loss_derivwv_lifts c).vec w ha hb la lb

theorem cost_ok (w : h.WF) {m : Nat} {a b r : Ref} {p q : Fin m → ℝ} {v : Fin k → ℝ} (ha : HasV h a p) (hb : HasV h b q) (hr : HasV h r v)
    (c : ℝ) : ∃ x, cost a b r c h = .ok (x, h) := by
  obtain ⟨a, rfl, la, ha⟩ := ha
  obtain ⟨b, rfl, lb, hb⟩ := hb
  obtain ⟨r, rfl, lr, hr⟩ := hr
  unfold cost Cost.hinge_losswv Cost.hinge_lossv
  rw [bind_ok (Cost.lossOf_vec w ha hb), bind_ok (Reg.reg_termv_run w hr _ _ _)]
  exact ⟨_, rfl⟩

theorem ridge_ready (R : Ready s h X y θ) (l : ℝ) : Runs (ridge s l) h fun s' h' =>
    ∃ r, s' = { s with weights := r } ∧ Ready s' h' X y (fun j => decay .ridge l 0 (θ.1 j), θ.2) ∧ Moves s h s' h' := by
  unfold ridge
  refine stepV (reg_weightsv_spec R.wf R.weights l 0 .ridge) fun r h1 w1 k1 f1 a1 => ?_
  have R1 := R.keep w1 k1
  exact Runs.of_eq rfl ⟨r, rfl, ⟨w1, R.rows, R.cols, R1.input, R1.output, a1, R.bias, (f1.ne R.output).symm⟩,
    ⟨rfl, rfl, rfl, rfl, rfl, rfl, rfl, rfl⟩, k1.mono fun _ _ => nofun, .inr f1⟩

theorem sub_ready (R : Ready s h X y θ) {d : Ref} {u : Fin k → ℝ} (hd : HasV h d u) : Runs (Hd.sub s.weights d) h fun _ h' =>
    Ready s h' X y (fun j => θ.1 j - u j, θ.2) ∧ Moves s h s h' := by
  refine (Hd.sub_run R.wf R.weights hd).mono fun _ h1 q => ?_
  exact ⟨⟨q.1, R.rows, R.cols, R.input.off q.2.1 R.weights, R.output.off q.2.1 R.apart, q.2.2, R.bias, R.apart⟩, .refl s, q.2.1, .inl rfl⟩

theorem Moves.ne {s0 : Glm} {h0 : Heap ℝ} (m : Moves s0 h0 s h) {r : Ref} {p : Nat} {v : Fin p → ℝ} (hr : HasV h0 r v) (ne : r ≠ s0.weights) :
    r ≠ s.weights := by
  rcases m.fresh with q | q
  · rw [q]; exact ne
  · exact (q.ne hr).symm

/-- What an epoch of `train_gradient_descent` does. -/
noncomputable def gdStep (c : ℝ) (X : Matrix (Fin n) (Fin k) ℝ) (y : Fin n → ℝ) (lr : ℝ) (θ : Params k) : Params k :=
  (fun j => decay .ridge (lr / n) 0 (θ.1 j - (∑ i, X i j * (Cost.hingeDeriv (linear X θ i) (y i) * c)) * (lr / n)),
    θ.2 + lr * (∑ i, Cost.hingeDeriv (signOf (linear X θ i)) (y i) * c) / n)

theorem gd_run (R : Ready s h X y θ) {p : Fin n → ℝ} (hp : HasV h s.y_hat p) (c lr : ℝ) (e : Int) :
    Runs (train_gradient_descent s c lr e) h fun s' h' => Trained signOf s h s' h' X y (walk (fun _ => gdStep c X y lr) θ (epochCount e)) := by
  unfold train_gradient_descent
  refine Runs.step (needs_init_run R hp) (Runs.step (Hd.sizem_run R.input) ?_)
  refine train_run link R e _ _ fun i s1 h1 θ1 ⟨R1, S1, M1⟩ => ?_
  obtain ⟨hz, nz⟩ := S1.z rfl
  unfold gdBody
  obtain ⟨x, ex⟩ := cost_ok R1.wf S1.pred R1.output R1.weights c
  refine Runs.step ex ?_
  refine stepV (hinge_spec R1.wf hz R1.output c) fun er h2 w2 k2 f2 a2 => ?_
  have R2 := R1.keep w2 k2
  have M2 := M1.new k2
  refine stepV (gradient_spec w2 R2.input a2 _) fun d h3 w3 k3 f3 a3 => ?_
  have R3 := R2.keep w3 k3
  have M3 := M2.new k3
  have hy3 := adv_hasv k3 (adv_hasv k2 S1.pred)
  refine Runs.bind ((sub_ready R3 a3).mono fun _ h4 ⟨R4, M4⟩ => ?_)
  have hy4 := hy3.off M4.keeps S1.apart
  refine Runs.bind ((ridge_ready R4 _).mono fun s5 h5 ⟨r, e5, R5, M5⟩ => ?_)
  have hy5 := hy4.off M5.keeps S1.apart
  have ey : s5.y_hat = s1.y_hat := by rw [e5]
  rw [← ey] at hy5
  refine stepV (hinge_spec R5.wf hy5 R5.output c) fun er2 h6 w6 k6 f6 a6 => ?_
  refine Runs.step (Hd.sum_elements_run w6 a6) ?_
  obtain ⟨b, eb⟩ : ∃ b, b = s5.bias + lr * (∑ i, Cost.hingeDeriv (signOf (linear X θ1 i)) (y i) * c) / n := ⟨_, rfl⟩
  rw [← eb]
  have M6 := (((M3.trans M4).trans M5).new k6).bias b
  have R6 := (R5.keep w6 k6).setBias b
  refine (forward_inv link R6 M6).mono fun s7 h7 I => ?_
  rw [eb, R5.bias] at I
  exact I

/-- What an epoch of `train_sgd` does. -/
noncomputable def sgdStep (c : ℝ) (X : Matrix (Fin n) (Fin k) ℝ) (y : Fin n → ℝ) (lr : ℝ) (i : Fin n) (θ : Params k) : Params k :=
  (fun j => decay .ridge lr 0 (θ.1 j - X i j * (lr * (Cost.hingeDeriv (linear X θ i) (y i) * c))),
    θ.2 - lr * (Cost.hingeDeriv (linear X θ i) (y i) * c))

theorem sgd_run (R : Ready s h X y θ) {p : Fin n → ℝ} (hp : HasV h s.y_hat p) {pick : Nat → Nat} (hpick : ∀ e, pick e < n) (c lr : ℝ) (e : Int) :
    Runs (train_sgd s c pick lr e) h fun s' h' => Trained signOf s h s' h' X y
      (walk (fun i => sgdStep c X y lr ⟨pick (i + 1), hpick _⟩) θ (epochCount e)) := by
  unfold train_sgd
  have hn : 0 < n := (Nat.zero_le _).trans_lt (hpick 0)
  refine Runs.step (needs_init_run R hp) (Runs.step (Hd.sizem_run R.input) ?_)
  dsimp only
  rw [if_neg (by simpa using hn.ne')]
  refine stepNewV R.wf fun o1 h1 v1 w1 k1 f1 a1 => ?_
  have R1 := R.keep w1 k1
  refine stepNewV w1 fun o2 h2 v2 w2 k2 f2 a2 => ?_
  have R2 := R1.keep w2 k2
  refine stepNewV w2 fun o3 h3 v3 w3 k3 f3 a3 => ?_
  have R3 := R2.keep w3 k3
  have n12 : some (Loc.v o2) ≠ some (Loc.v o1) := f2.ne a1
  have n13 : some (Loc.v o3) ≠ some (Loc.v o1) := f3.ne (adv_hasv k2 a1)
  have n23 : some (Loc.v o3) ≠ some (Loc.v o2) := f3.ne a2
  have T1 : Tmp h s h3 (some (.v o1)) v1 := ⟨adv_hasv k3 (adv_hasv k2 a1), f1, f1.ne R.weights, f1.ne R.output⟩
  have T2 : Tmp h s h3 (some (.v o2)) v2 := ⟨adv_hasv k3 a2, f2.mono k1, f2.ne R1.weights, f2.ne R1.output⟩
  have T3 : Tmp h s h3 (some (.v o3)) v3 := ⟨a3, (f3.mono k2).mono k1, f3.ne R2.weights, f3.ne R2.output⟩
  have M3 : Moves s h s h3 := (((Moves.refl s h).new k1).new k2).new k3
  refine Runs.bind ((forward_pass_run link R3).mono fun s4 h4 ⟨⟨R4, _⟩, k4, z4, p4, e4⟩ => ?_)
  have M4 : Moves s h s4 h4 := M3.trans (Moves.of_new (by subst e4; exact ⟨rfl, rfl, rfl, rfl, rfl, rfl, rfl, rfl⟩) (by subst e4; rfl) k4)
  have TT4 : ∀ {m o : Nat} {v : Fin m → ℝ}, Tmp h s h3 (some (.v o)) v → Tmp h s4 h4 (some (.v o)) v := by
    intro m o v t
    have := t.keep k4
    subst e4
    exact ⟨this.has, this.new, this.weights, this.output⟩
  let I : Nat → Glm → Heap ℝ → Prop := fun i s' h' =>
    Ready s' h' X y (walk (fun i => sgdStep c X y lr ⟨pick (i + 1), hpick _⟩) θ i) ∧ Moves s h s' h' ∧
    (∃ v : Fin k → ℝ, Tmp h s' h' (some (.v o1)) v) ∧ (∃ v : Fin 1 → ℝ, Tmp h s' h' (some (.v o2)) v) ∧
    (∃ v : Fin 1 → ℝ, Tmp h s' h' (some (.v o3)) v)
  refine Runs.bind ((epochs_run e s4 _ I ⟨R4, M4, ⟨_, TT4 T1⟩, ⟨_, TT4 T2⟩, ⟨_, TT4 T3⟩⟩ ?_).mono fun s' h' J => ?_)
  · clear T1 T2 T3 TT4 M4 R4 e4 k4 M3
    rintro i s4 h4 ⟨R4, M4, ⟨u1, T1⟩, ⟨u2, T2⟩, ⟨u3, T3⟩⟩
    have st : walk (fun i => sgdStep c X y lr ⟨pick (i + 1), hpick _⟩) θ (i + 1) =
      sgdStep c X y lr ⟨pick (i + 1), hpick _⟩ (walk (fun i => sgdStep c X y lr ⟨pick (i + 1), hpick _⟩) θ i) := rfl
    show Runs _ _ fun s' h' => Ready s' h' X y (walk (fun i => sgdStep c X y lr ⟨pick (i + 1), hpick _⟩) θ (i + 1)) ∧ _
    rw [st]
    obtain ⟨η, eη⟩ : ∃ η, η = walk (fun i => sgdStep c X y lr ⟨pick (i + 1), hpick _⟩) θ i := ⟨_, rfl⟩
    rw [← eη] at R4 ⊢
    obtain ⟨q, eq⟩ : ∃ q : Fin n, q = ⟨pick (i + 1), hpick _⟩ := ⟨_, rfl⟩
    rw [← eq]
    have eq' : pick (i + 1) = q := by rw [eq]
    unfold sgdBody
    rw [eq']
    refine Runs.bind ((Hd.row_get_into_run R4.wf R4.input T1.has q).mono fun _ h5 ⟨w5, k5, a5⟩ => ?_)
    have R5 := R4.tmp T1 w5 k5
    have M5 := M4.tmp T1.new k5
    have T1 : Tmp h s4 h5 _ (X q) := ⟨a5, T1.new, T1.weights, T1.output⟩
    have T2 := T2.off k5 n12
    have T3 := T3.off k5 n13
    refine Runs.step (Hd.element_get_run w5 R5.output q) ?_
    refine Runs.bind ((Hd.element_set_run w5 T2.has 0 (y q)).mono fun _ h6 ⟨w6, k6, a6⟩ => ?_)
    have R6 := R5.tmp T2 w6 k6
    have M6 := M5.tmp T2.new k6
    have T2 : Tmp h s4 h6 _ _ := ⟨a6, T2.new, T2.weights, T2.output⟩
    have T1 := T1.off k6 n12.symm
    have T3 := T3.off k6 n23
    have el : ∑ j, η.1 j * X q j + s4.bias = linear X η q := by
      rw [R6.bias]; unfold linear; simp only [mul_comm]
    have pv := propagatev_run (s := s4) w6 T1.has R6.weights
    rw [el] at pv
    refine Runs.step pv ?_
    refine Runs.bind ((Hd.element_set_run w6 T3.has 0 _).mono fun _ h7 ⟨w7, k7, a7⟩ => ?_)
    have R7 := R6.tmp T3 w7 k7
    have M7 := M6.tmp T3.new k7
    have T3 : Tmp h s4 h7 _ _ := ⟨a7, T3.new, T3.weights, T3.output⟩
    have T1 := T1.off k7 n13.symm
    have T2 := T2.off k7 n23.symm
    obtain ⟨x, ex⟩ := cost_ok w7 T3.has T2.has R7.weights c
    refine Runs.step ex ?_
    refine stepV (hinge_spec w7 T3.has T2.has c) fun hv h8 w8 k8 f8 a8 => ?_
    have eg := Hd.element_get_run w8 a8 0
    refine Runs.step eg ?_
    simp only [Function.update_self]
    refine stepV (Hd.scalar_multiplyn_spec w8 (T1.keep k8).has _) fun d h9 w9 k9 f9 a9 => ?_
    have R9 := (R7.keep w8 k8).keep w9 k9
    have M9 := (M7.new k8).new k9
    have T1 := (T1.keep k8).keep k9
    have T2 := (T2.keep k8).keep k9
    have T3 := (T3.keep k8).keep k9
    refine Runs.bind ((sub_ready R9 a9).mono fun _ h10 ⟨R10, M10⟩ => ?_)
    refine Runs.bind ((ridge_ready R10 _).mono fun s11 h11 ⟨r, e11, R11, M11⟩ => ?_)
    have MM := M10.trans M11
    have TT : ∀ {m : Nat} {o : Nat} {v : Fin m → ℝ}, Tmp h s4 h9 (some (.v o)) v → Tmp h s11 h11 (some (.v o)) v := by
      intro m o v t
      refine ⟨t.has.off MM.keeps t.weights, t.new, Moves.ne MM t.has t.weights, ?_⟩
      rw [MM.same.output_set]; exact t.output
    obtain ⟨b, eb⟩ : ∃ b, b = s11.bias - lr * (Cost.hingeDeriv (linear X η q) (y q) * c) := ⟨_, rfl⟩
    rw [← eb]
    have R12 := R11.setBias b
    have M12 := (M9.trans MM).bias b
    refine Runs.of_eq rfl ⟨?_, M12, ⟨_, (TT T1).bias b⟩, ⟨_, (TT T2).bias b⟩, ⟨_, (TT T3).bias b⟩⟩
    rw [eb, R11.bias] at R12 ⊢
    exact R12
  · obtain ⟨R4, M4, -, -, -⟩ := J
    exact (forward_inv link R4 M4).mono fun _ _ I => I.trained

/-- What `train_mbgd` does with a batch. -/
noncomputable def mbStep {m : Nat} (c lr : ℝ) (N : Nat) (X : Matrix (Fin m) (Fin k) ℝ) (y : Fin m → ℝ) (θ : Params k) : Params k :=
  (fun j => decay .ridge (lr / N) 0 (θ.1 j), θ.2 - lr * (∑ i, Cost.hingeDeriv (signOf (linear X θ i)) (y i) * c) / N)

theorem mbgd_run (R : Ready s h X y θ) {p : Fin n → ℝ} (hp : HasV h s.y_hat p) (c lr : ℝ) (e : Int) {b K : Nat} (hb : 0 < b) (eK : n / b = K)
    (hK : 0 < K) : Runs (train_mbgd s c lr e b) h fun s' h' => Trained signOf s h s' h' X y
      (walk (roundStep hK fun _ i => mbStep c lr n (batchX X K i) (firstY y K)) θ (epochCount e * K)) := by
  unfold train_mbgd
  refine Runs.step (needs_init_run R hp) (Runs.step (Hd.sizem_run R.input) ?_)
  dsimp only
  refine Runs.bind ((overBatches_run id R hb eK hK (forward_pass fns s) _ (fun σ h' a => Ready σ h' X y a) θ
    (fun _ i => mbStep c lr n (batchX X K i) (firstY y K)) e ?_ ?_ ?_).mono fun s1 h1 ⟨R1, M1⟩ => ?_)
  · intro σ h1 a R1; exact ⟨_, R1.weights⟩
  · intro h1 w1 k1
    exact (forward_inv link (R.keep w1 k1) (Moves.refl s h1)).mono fun _ _ I => ⟨I.ready, I.moves⟩
  · intro ep i s1 h1 a Xb yb R1 hX hy ne
    dsimp only [id] at ne ⊢
    refine stepV (evaluatem_spec link R1.wf hX R1.weights) fun yh h2 w2 k2 f2 a2 => ?_
    have R2 := R1.keep w2 k2
    have M2 := (Moves.refl s1 h1).new k2
    rw [show (a.1, s1.bias) = a by rw [R1.bias]] at a2
    have ny : yh ≠ s1.weights := f2.ne R1.weights
    have hX2 := adv_hasm k2 hX
    have hy2 := adv_hasv k2 hy
    refine stepV (propagatem_spec w2 hX2 R2.weights) fun z h3 w3 k3 f3 a3 => ?_
    have R3 := R2.keep w3 k3
    have M3 := M2.new k3
    have hX3 := adv_hasm k3 hX2
    have hy3 := adv_hasv k3 hy2
    have a2 := adv_hasv k3 a2
    obtain ⟨x, ex⟩ := cost_ok w3 a3 hy3 R3.weights c
    refine Runs.step ex ?_
    refine stepV (hinge_spec w3 a3 hy3 c) fun er h4 w4 k4 f4 a4 => ?_
    have R4 := R3.keep w4 k4
    have M4 := M3.new k4
    have hX4 := adv_hasm k4 hX3
    have hy4 := adv_hasv k4 hy3
    have a2 := adv_hasv k4 a2
    refine stepV (gradient_spec w4 hX4 a4 _) fun d h5 w5 k5 f5 a5 => ?_
    have R5 := R4.keep w5 k5
    have M5 := M4.new k5
    have hX5 := adv_hasm k5 hX4
    have hy5 := adv_hasv k5 hy4
    have a2 := adv_hasv k5 a2
    refine stepV (Hd.subn_spec w5 R5.weights a5) fun d2 h6 w6 k6 f6 a6 => ?_
    have R6 := R5.keep w6 k6
    have M6 := M5.new k6
    have hX6 := adv_hasm k6 hX5
    have hy6 := adv_hasv k6 hy5
    have a2 := adv_hasv k6 a2
    refine Runs.bind ((ridge_ready R6 _).mono fun s7 h7 ⟨r, e7, R7, M7⟩ => ?_)
    have hX7 := hX6.off M7.keeps R6.weights
    have hy7 := hy6.off M7.keeps ne
    have a2 := a2.off M7.keeps ny
    refine stepV (hinge_spec R7.wf a2 hy7 c) fun er2 h8 w8 k8 f8 a8 => ?_
    refine Runs.step (Hd.sum_elements_run w8 a8) ?_
    obtain ⟨B, eB⟩ : ∃ B, B = s7.bias - lr * (∑ j, Cost.hingeDeriv (signOf (linear (batchX X K i) a j)) (firstY y K j) * c) / n := ⟨_, rfl⟩
    rw [← eB]
    have M8 := ((M6.trans M7).new k8).bias B
    have R8 := (R7.keep w8 k8).setBias B
    have hX8 := adv_hasm k8 hX7
    refine Runs.bind ((forward_pass_run link R8).mono fun s9 h9 ⟨⟨R9, _⟩, k9, z9, p9, e9⟩ => ?_)
    have M9 := M8.trans (Moves.of_new (s' := s9) (by subst e9; exact ⟨rfl, rfl, rfl, rfl, rfl, rfl, rfl, rfl⟩) (by subst e9; rfl) k9)
    refine stepV (evaluatem_spec link R9.wf (adv_hasm k9 hX8) R9.weights) fun y2 h10 w10 k10 f10 a10 => ?_
    have R10 := R9.keep w10 k10
    rw [eB, R7.bias] at R10
    exact Runs.of_eq rfl ⟨R10, M9.new k10⟩
  · exact (forward_inv link R1 M1).mono fun _ _ I => I.trained

end Svc
end Verif
