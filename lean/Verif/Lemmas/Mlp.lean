import Verif.Spec.Mlp
import Verif.Lemmas.Thread
import Verif.Lemmas.GlmMath

/-! # The multilayer perceptron: what the methods compute -/

namespace Verif
open Spec Finset
namespace Mlp
open Glm (stepWith)
variable {n k m p q : Nat} {h h' : Heap ℝ} {s : Mlp} {X : Matrix (Fin n) (Fin k) ℝ} {y : Fin n → ℝ} {θ : NetParams k m}

/-- What the object writes to. -/
def owned (s : Mlp) : List Ref := [s.y_hat, s.weights1, s.weights2, s.bias1, s.z2, s.a2]

theorem sig_eq : Activation.sigmoid_normr = logistic := rfl

theorem ready_keep (R : MlpReady s h X y θ) (w : h'.WF) (kk : Keeps h h' (fun _ => False)) : MlpReady s h' X y θ := by
  obtain ⟨w0, i, n0, hX, hy, hW, hb, hw2, e, ⟨q, Y, hY⟩, ⟨z1, z2, Z, hZ⟩, ⟨a1, a2, A, hA⟩, d1, d2⟩ := R
  adv kk
  exact ⟨w, i, n0, hX, hy, hW, hb, hw2, e, ⟨q, Y, hY⟩, ⟨z1, z2, Z, hZ⟩, ⟨a1, a2, A, hA⟩, d1, d2⟩

theorem affine_eq (A : Matrix (Fin p) (Fin k) ℝ) (θ : MParams k m) : (fun i j => (A * θ.1) i j + θ.2 j) = affine A θ := by
  funext i j; rfl

theorem propagatem_run (w : h.WF) {x z a : Ref} {A : Matrix (Fin p) (Fin k) ℝ} {θ : MParams k m} (hx : HasM h x A) (hW : HasM h s.weights1 θ.1)
    (hb : HasV h s.bias1 θ.2) {z1 z2 a1 a2 : Nat} {Z : Matrix (Fin z1) (Fin z2) ℝ} {B : Matrix (Fin a1) (Fin a2) ℝ} (hz : HasM h z Z)
    (ha : HasM h a B) (ne : z ≠ a) :
    Runs (propagatem s x z a) h fun _ h' => h'.WF ∧ Keeps h h' (fun l => some l = z ∨ some l = a) ∧ HasM h' z (affine A θ) ∧
      HasM h' a (hiddens A θ) := by
  unfold propagatem
  refine stepM (Hd.multn_spec w hx hW) fun t h1 w1 k1 f1 a1 => ?_
  have K1 := k1
  fresh f1
  adv k1
  refine stepM (Hd.add_vecn_spec w1 a1 hb) fun t2 h2 w2 k2 f2 a2 => ?_
  have K2 := K1.trans k2
  fresh f2
  adv k2
  rw [affine_eq] at a2
  refine Runs.bind ((Hd.set_from_mlpp_matrix_run w2 hz a2).mono fun _ h3 ⟨w3, k3, b3⟩ => ?_)
  have K3 : Keeps h h3 fun l => some l = z ∨ some l = a := (K2.mono fun _ _ => nofun).trans (k3.mono fun _ _ => .inl)
  wr k3
  refine stepM (Hd.lifts_mat Activation.sigmoid_normm_lifts w3 b3) fun t4 h4 w4 k4 f4 a4 => ?_
  have K4 := K3.trans (k4.mono fun _ _ => nofun)
  adv k4
  refine (Hd.set_from_mlpp_matrix_run w4 ha a4).mono fun _ h5 ⟨w5, k5, b5⟩ => ?_
  have K5 : Keeps h h5 fun l => some l = z ∨ some l = a := K4.trans (k5.mono fun _ _ => .inr)
  wr k5
  exact ⟨w5, K5, b3, b5⟩

theorem linear_eq (A : Matrix (Fin p) (Fin m) ℝ) (θ : Params m) : (fun i => (A.mulVec θ.1) i + θ.2) = linear A θ := by
  funext i; rfl

theorem evaluatem_spec (w : h.WF) {x : Ref} {A : Matrix (Fin p) (Fin k) ℝ} (hx : HasM h x A) (hW : HasM h s.weights1 θ.1.1)
    (hb : HasV h s.bias1 θ.1.2) (hw : HasV h s.weights2 θ.2.1) (e : s.bias2 = θ.2.2) : ReturnsVec (evaluatem s x) h (netOut A θ) := by
  refine .of_has ?_
  unfold evaluatem
  refine stepM (Hd.multn_spec w hx hW) fun t h1 w1 k1 f1 a1 => ?_
  have K1 := k1
  adv k1
  refine stepM (Hd.add_vecn_spec w1 a1 hb) fun t2 h2 w2 k2 f2 a2 => ?_
  have K2 := K1.trans k2
  adv k2
  rw [affine_eq] at a2
  refine stepM (Hd.lifts_mat Activation.sigmoid_normm_lifts w2 a2) fun t4 h4 w4 k4 f4 a4 => ?_
  have K4 := K2.trans k4
  adv k4
  refine stepV (Hd.mult_vec_spec w4 a4 hw) fun t5 h5 w5 k5 f5 a5 => ?_
  have K5 := K4.trans k5
  adv k5
  refine stepV (Hd.scalar_addn_spec w5 a5 s.bias2) fun t6 h6 w6 k6 f6 a6 => ?_
  have K6 := K5.trans k6
  rw [e] at a6
  replace a6 : HasV h6 t6 (linear (hiddens A θ.1) θ.2) := a6
  exact (Hd.lifts_vec Activation.sigmoid_normv_lifts w6 a6).has.mono fun r h4 ⟨w4, k4, f4, a4⟩ => ⟨w4, K6.trans k4, f4.mono K6, a4⟩

/-- The prediction for one sample. -/
theorem evaluatev_run (w : h.WF) {x : Ref} {v : Fin k → ℝ} (hx : HasV h x v) (hW : HasM h s.weights1 θ.1.1)
    (hb : HasV h s.bias1 θ.1.2) (hw : HasV h s.weights2 θ.2.1) (e : s.bias2 = θ.2.2) :
    Runs (evaluatev s x) h fun r h' => r = netOut (fun _ : Fin 1 => v) θ 0 ∧ h'.WF ∧ Keeps h h' (fun _ => False) := by
  unfold evaluatev
  refine stepM (Hd.transposen_spec w hW) fun t h1 w1 k1 f1 a1 => ?_
  have K1 := k1
  adv k1
  refine stepV (Hd.mult_vec_spec w1 a1 hx) fun t2 h2 w2 k2 f2 a2 => ?_
  have K2 := K1.trans k2
  adv k2
  refine stepV (Hd.addn_spec w2 a2 hb) fun t3 h3 w3 k3 f3 a3 => ?_
  have K3 := K2.trans k3
  adv k3
  refine stepV (Hd.lifts_vec Activation.sigmoid_normv_lifts w3 a3) fun t4 h4 w4 k4 f4 a4 => ?_
  have K4 := K3.trans k4
  adv k4
  refine Runs.step (Hd.dot_run w4 hw a4) ?_
  refine Runs.of_eq rfl ⟨?_, w4, K4⟩
  rw [sig_eq, e]
  unfold netOut linear hiddens affine
  congr 2
  refine Finset.sum_congr rfl fun a _ => ?_
  rw [mul_comm]
  congr 3
  simp only [Matrix.mulVec, dotProduct, Matrix.transpose_apply]
  exact Finset.sum_congr rfl fun j _ => mul_comm _ _

theorem propagatev_run (w : h.WF) {x z a : Ref} {v : Fin k → ℝ} {θ : MParams k m} (hx : HasV h x v) (hW : HasM h s.weights1 θ.1)
    (hb : HasV h s.bias1 θ.2) {z1 a1 : Nat} {Z : Fin z1 → ℝ} {B : Fin a1 → ℝ} (hz : HasV h z Z) (ha : HasV h a B) (ne : z ≠ a) :
    Runs (propagatev s x z a) h fun _ h' => h'.WF ∧ Keeps h h' (fun l => some l = z ∨ some l = a) ∧
      HasV h' z (affine (fun _ : Fin 1 => v) θ 0) ∧ HasV h' a (hiddens (fun _ : Fin 1 => v) θ 0) := by
  unfold propagatev
  refine stepM (Hd.transposen_spec w hW) fun t h1 w1 k1 f1 a1 => ?_
  have K1 := k1
  fresh f1
  adv k1
  refine stepV (Hd.mult_vec_spec w1 a1 hx) fun t2 h2 w2 k2 f2 a2 => ?_
  have K2 := K1.trans k2
  fresh f2
  adv k2
  refine stepV (Hd.addn_spec w2 a2 hb) fun t3 h3 w3 k3 f3 a3 => ?_
  have K3 := K2.trans k3
  fresh f3
  adv k3
  have e3 : (fun i => (θ.1.transpose.mulVec v) i + θ.2 i) = affine (fun _ : Fin 1 => v) θ 0 := by
    funext a
    unfold affine
    congr 1
    simp only [Matrix.mulVec, dotProduct, Matrix.transpose_apply]
    exact Finset.sum_congr rfl fun j _ => mul_comm _ _
  rw [e3] at a3
  refine Runs.bind ((Hd.set_from_mlpp_vector_run w3 hz a3).mono fun _ h4 ⟨w4, k4, b4⟩ => ?_)
  have K4 : Keeps h h4 fun l => some l = z ∨ some l = a := (K3.mono fun _ _ => nofun).trans (k4.mono fun _ _ => .inl)
  wr k4
  refine stepV (Hd.lifts_vec Activation.sigmoid_normv_lifts w4 b4) fun t5 h5 w5 k5 f5 a5 => ?_
  have K5 := K4.trans (k5.mono fun _ _ => nofun)
  adv k5
  refine (Hd.set_from_mlpp_vector_run w5 ha a5).mono fun _ h6 ⟨w6, k6, b6⟩ => ?_
  have K6 : Keeps h h6 fun l => some l = z ∨ some l = a := K5.trans (k6.mono fun _ _ => .inr)
  wr k6
  exact ⟨w6, K6, b4, b6⟩

theorem cost_ok (w : h.WF) {a b : Ref} {u v : Fin p → ℝ} (ha : HasV h a u) (hb : HasV h b v) {W : Matrix (Fin k) (Fin m) ℝ} {ω : Fin q → ℝ}
    (hW : HasM h s.weights1 W) (hw : HasV h s.weights2 ω) : ∃ x, cost s a b h = .ok (x, h) := by
  obtain ⟨r, er⟩ := Hd.reg_termm_ok w hW s.lambda s.alpha s.reg
  obtain ⟨r2, er2⟩ := Hd.reg_termv_ok w hw s.lambda s.alpha s.reg
  obtain ⟨x, rfl, lx, ix⟩ := ha
  obtain ⟨z, rfl, lz, iz⟩ := hb
  have e : ∃ v, Cost.log_lossv (some (.v x)) (some (.v z)) h = .ok (v, h) := ⟨_, Cost.lossOf_vec w ix iz⟩
  obtain ⟨v, e⟩ := e
  unfold cost
  exact ⟨v + r2 + r, by rw [bind_ok e, bind_ok er2, bind_ok er]; rfl⟩

/-- What a piece of training does: settings stay, and only what is owned, and the objects of `T`, are written to. -/
structure Kept (T : List Ref) (s0 : Mlp) (h0 : Heap ℝ) (s : Mlp) (h : Heap ℝ) : Prop where
  same : s = { s0 with y_hat := s.y_hat, bias2 := s.bias2 }
  moved : Moved (T ++ owned s0) (T ++ owned s) h0 h

section
variable {T : List Ref} {s0 s1 s2 : Mlp} {h0 h1 h2 : Heap ℝ}
theorem Kept.refl (T : List Ref) (s : Mlp) (h : Heap ℝ) : Kept T s h s h := ⟨rfl, Moved.refl _ _⟩
theorem Kept.trans (a : Kept T s0 h0 s1 h1) (b : Kept T s1 h1 s2 h2) : Kept T s0 h0 s2 h2 :=
  ⟨by rw [b.same, a.same], a.moved.trans b.moved⟩
theorem Kept.new (a : Kept T s0 h0 s1 h1) (k : Keeps h1 h2 (fun _ => False)) : Kept T s0 h0 s1 h2 := ⟨a.same, a.moved.new k⟩
theorem Kept.set (a : Kept T s0 h0 s1 h1) {r : Ref} (hr : r ∈ T ++ owned s1) (k : Keeps h1 h2 (some · = r)) : Kept T s0 h0 s1 h2 :=
  ⟨a.same, a.moved.set hr k⟩
theorem Kept.set2 (a : Kept T s0 h0 s1 h1) {r t : Ref} (hr : r ∈ T ++ owned s1) (ht : t ∈ T ++ owned s1)
    (k : Keeps h1 h2 fun l => some l = r ∨ some l = t) : Kept T s0 h0 s1 h2 :=
  ⟨a.same, a.moved.trans ⟨k.mono fun _ _ e => e.elim (· ▸ hr) (· ▸ ht), fun _ => .inl⟩⟩
theorem Kept.bias (a : Kept T s0 h0 s1 h1) (b : ℝ) : Kept T s0 h0 { s1 with bias2 := b } h1 := ⟨by rw [a.same], a.moved⟩
theorem Kept.decay (K : Kept T s0 h0 s h) : decay s.reg s.lambda s.alpha = decay s0.reg s0.lambda s0.alpha := by
  rw [K.same]
theorem Kept.new_y (a : Kept T s0 h0 s1 h1) {r : Ref} (f : NotIn h0 r) : Kept T s0 h0 { s1 with y_hat := r } h1 := by
  refine ⟨by rw [a.same], a.moved.own fun q hq => ?_⟩
  simp only [List.mem_append, owned, List.mem_cons, List.not_mem_nil, or_false] at hq ⊢
  rcases hq with e | rfl | e | e | e | e | e
  · exact .inl (.inl e)
  · exact .inr f
  all_goals exact .inl (.inr (by simp [e]))
end

/-- The layers hold the values of the network. -/
structure Shown (s : Mlp) (h : Heap ℝ) (X : Matrix (Fin n) (Fin k) ℝ) (θ : NetParams k m) : Prop where
  out : HasV h s.y_hat (netOut X θ)
  z : HasM h s.z2 (affine X θ.1)
  a : HasM h s.a2 (hiddens X θ.1)

theorem forward_run (R : MlpReady s h X y θ) (T : List Ref) :
    Runs (forward_pass s) h fun _ h' => MlpReady s h' X y θ ∧ Kept T s h s h' ∧ Shown s h' X θ := by
  obtain ⟨w, i, n0, hX, hy, hW, hb, hw2, e, ⟨q, Y, hY⟩, ⟨z1, z2, Z, hZ⟩, ⟨a1, a2, A, hA⟩, d1, d2⟩ := R
  have D1 := d1
  have D2 := d2
  simp only [List.nodup_cons, List.mem_cons, List.not_mem_nil, or_false, not_or, not_false_eq_true, List.nodup_nil, and_true] at d1 d2
  obtain ⟨⟨n1, n2, n3⟩, ⟨n4, n5⟩, n6⟩ := d1
  obtain ⟨⟨m1, m2, m3⟩, ⟨m4, m5⟩, m6⟩ := d2
  unfold forward_pass
  refine Runs.bind ((propagatem_run w hX hW hb hZ hA m1).mono fun _ h1 ⟨w1, k1, b1, b2⟩ => ?_)
  have K1 := (Kept.refl T s h).set2 (by simp [owned]) (by simp [owned]) k1
  wr k1
  refine stepV (Hd.mult_vec_spec w1 b2 hw2) fun t5 h5 w5 k5 f5 a5 => ?_
  have K5 := K1.new k5
  fresh f5
  adv k5
  refine stepV (Hd.scalar_addn_spec w5 a5 s.bias2) fun t6 h6 w6 k6 f6 a6 => ?_
  have K6 := K5.new k6
  fresh f6
  adv k6
  rw [e] at a6
  replace a6 : HasV h6 t6 (linear (hiddens X θ.1) θ.2) := a6
  refine stepV (Hd.lifts_vec Activation.sigmoid_normv_lifts w6 a6) fun t7 h7 w7 k7 f7 a7 => ?_
  have K7 := K6.new k7
  fresh f7
  adv k7
  refine (Hd.set_from_mlpp_vector_run w7 hY a7).mono fun _ h8 ⟨w8, k8, b8⟩ => ?_
  have K8 := K7.set (by simp [owned]) k8
  wr k8
  exact ⟨⟨w8, i, n0, hX, hy, hW, hb, hw2, e, ⟨_, _, b8⟩, ⟨_, _, _, b1⟩, ⟨_, _, _, b2⟩, D1, D2⟩, K8, b8, b1, b2⟩

theorem update2_run (R : MlpReady s h X y θ) {a er : Ref} {A : Matrix (Fin p) (Fin m) ℝ} {e : Fin p → ℝ} (ha : HasM h a A) (he : HasV h er e)
    (ne : er ≠ s.weights2) (lr : ℝ) (N : Nat) :
    Runs (update2 s a er lr N) h fun s' h' => s' = { s with bias2 := s'.bias2 } ∧
      MlpReady s' h' X y (θ.1, stepWith A (decay s.reg s.lambda s.alpha) (lr / N) e lr N θ.2) ∧ Keeps h h' (some · = s.weights2) := by
  obtain ⟨w, i, n0, hX, hy, hW, hb, hw2, eb, ⟨q, Y, hY⟩, ⟨z1, z2, Z, hZ⟩, ⟨a1, a2, B, hA⟩, d1, d2⟩ := R
  have D1 := d1
  simp only [List.nodup_cons, List.mem_cons, List.not_mem_nil, or_false, not_or, not_false_eq_true, List.nodup_nil, and_true] at d1
  obtain ⟨⟨n1, n2, n3⟩, ⟨n4, n5⟩, n6⟩ := d1
  unfold update2
  refine stepM (Hd.transposen_spec w ha) fun t h1 w1 k1 f1 b1 => ?_
  have K1 : Keeps h h1 (some · = s.weights2) := k1.mono fun _ _ => nofun
  adv k1
  refine stepV (Hd.mult_vec_spec w1 b1 he) fun t2 h2 w2 k2 f2 b2 => ?_
  have K2 := K1.trans (k2.mono fun _ _ => nofun)
  adv k2
  refine stepV (Hd.scalar_multiplyn_spec w2 b2 _) fun t3 h3 w3 k3 f3 b3 => ?_
  have K3 := K2.trans (k3.mono fun _ _ => nofun)
  fresh f3
  adv k3
  clear b1 b2
  refine Runs.bind ((Hd.sub_run w3 hw2 b3).mono fun _ h4 ⟨w4, k4, b4⟩ => ?_)
  have K4 := K3.trans k4
  wr k4
  refine stepV (Glm.reg_weightsv_spec w4 b4 _ _ _) fun t5 h5 w5 k5 f5 b5 => ?_
  have K5 := K4.trans (k5.mono fun _ _ => nofun)
  adv k5
  clear b3
  refine Runs.bind ((Hd.set_from_mlpp_vector_run w5 b4 b5).mono fun _ h6 ⟨w6, k6, b6⟩ => ?_)
  have K6 := K5.trans k6
  clear b5
  wr k6
  refine Runs.step (Hd.sum_elements_run w6 he) ?_
  refine Runs.of_eq rfl ⟨rfl, ⟨w6, i, n0, hX, hy, hW, hb, ?_, ?_, ⟨_, _, hY⟩, ⟨_, _, _, hZ⟩, ⟨_, _, _, hA⟩, D1, d2⟩, K6⟩
  · exact b6
  · show s.bias2 - _ = _
    rw [eb]; rfl

/-- The step of the hidden layer, from the derivatives `E` by its affine functions. -/
noncomputable def stepM1 (A : Matrix (Fin p) (Fin k) ℝ) (E : Matrix (Fin p) (Fin m) ℝ) (D : ℝ → ℝ) (c : ℝ) (θ : MParams k m) : MParams k m :=
  (fun j a => D (θ.1 j a - (∑ i, A i j * E i a) * c), fun a => θ.2 a - ∑ i, E i a * c)

theorem update1_run (R : MlpReady s h X y θ) {x z er : Ref} {A : Matrix (Fin p) (Fin k) ℝ} {Z : Matrix (Fin p) (Fin m) ℝ} {e : Fin p → ℝ}
    (hx : HasM h x A) (hz : HasM h z Z) (he : HasV h er e) (lr : ℝ) (N : Nat) :
    Runs (update1 s x z er lr N) h fun _ h' =>
      MlpReady s h' X y (stepM1 A (fun i a => e i * θ.2.1 a * Activation.sigmoid_derivr (Z i a)) (decay s.reg s.lambda s.alpha) (lr / N) θ.1, θ.2) ∧
      Keeps h h' fun l => some l = s.weights1 ∨ some l = s.bias1 := by
  obtain ⟨w, i, n0, hX, hy, hW, hb, hw2, eb, ⟨q, Y, hY⟩, ⟨z1, z2, Z', hZ⟩, ⟨a1, a2, B, hA⟩, d1, d2⟩ := R
  have D1 := d1
  have D2 := d2
  simp only [List.nodup_cons, List.mem_cons, List.not_mem_nil, or_false, not_or, not_false_eq_true, List.nodup_nil, and_true] at d1 d2
  obtain ⟨⟨n1, n2, n3⟩, ⟨n4, n5⟩, n6⟩ := d1
  obtain ⟨⟨m1, m2, m3⟩, ⟨m4, m5⟩, m6⟩ := d2
  unfold update1
  refine stepM (Hd.outer_product_spec w he hw2) fun t h1 w1 k1 f1 b1 => ?_
  have K1 : Keeps h h1 (fun l => some l = s.weights1 ∨ some l = s.bias1) := k1.mono fun _ _ => nofun
  adv k1
  refine stepM (Hd.lifts_mat Activation.sigmoid_derivm_lifts w1 hz) fun t2 h2 w2 k2 f2 b2 => ?_
  have K2 := K1.trans (k2.mono fun _ _ => nofun)
  adv k2
  refine stepM (Hd.hadamard_productnm_spec w2 b1 b2) fun t3 h3 w3 k3 f3 b3 => ?_
  have K3 := K2.trans (k3.mono fun _ _ => nofun)
  fresh f3
  adv k3
  clear b1 b2
  refine stepM (Hd.transposen_spec w3 hx) fun t4 h4 w4 k4 f4 b4 => ?_
  have K4 := K3.trans (k4.mono fun _ _ => nofun)
  adv k4
  refine stepM (Hd.multn_spec w4 b4 b3) fun t5 h5 w5 k5 f5 b5 => ?_
  have K5 := K4.trans (k5.mono fun _ _ => nofun)
  adv k5
  refine stepM (Hd.scalar_multiplynm_spec w5 b5 _) fun t6 h6 w6 k6 f6 b6 => ?_
  have K6 := K5.trans (k6.mono fun _ _ => nofun)
  adv k6
  clear b4 b5 hx hz he
  refine Runs.bind ((Hd.subm_run w6 hW b6).mono fun _ h7 ⟨w7, k7, b7⟩ => ?_)
  have K7 := K6.trans (k7.mono fun _ _ => .inl)
  clear b6
  wr k7
  refine stepM (Hd.reg_weightsm_spec w7 b7 s.lambda s.alpha s.reg) fun t8 h8 w8 k8 f8 b8 => ?_
  have K8 := K7.trans (k8.mono fun _ _ => nofun)
  adv k8
  refine Runs.bind ((Hd.set_from_mlpp_matrix_run w8 b7 b8).mono fun _ h9 ⟨w9, k9, b9⟩ => ?_)
  have K9 := K8.trans (k9.mono fun _ _ => .inl)
  clear b8
  wr k9
  refine stepM (Hd.scalar_multiplynm_spec w9 b3 _) fun t10 h10 w10 k10 f10 b10 => ?_
  have K10 := K9.trans (k10.mono fun _ _ => nofun)
  adv k10
  refine (Hd.subtract_matrix_rows_run w10 hb b10).mono fun _ h11 ⟨w11, k11, b11⟩ => ?_
  have K11 := K10.trans (k11.mono fun _ _ => .inr)
  wr k11
  exact ⟨⟨w11, i, n0, hX, hy, b9, b11, hw2, eb, ⟨_, _, hY⟩, ⟨_, _, _, hZ⟩, ⟨_, _, _, hA⟩, D1, D2⟩, K11⟩

/-- The step of the network. -/
noncomputable def netStep (A : Matrix (Fin p) (Fin k) ℝ) (v : Fin p → ℝ) (D : ℝ → ℝ) (lr : ℝ) (θ : NetParams k m) : NetParams k m :=
  (stepM1 A (fun i a => (netOut A θ i - v i) * (stepWith (hiddens A θ.1) D (lr / p) (fun i => netOut A θ i - v i) lr p θ.2).1 a *
    Activation.sigmoid_derivr (affine A θ.1 i a)) D (lr / p) θ.1, stepWith (hiddens A θ.1) D (lr / p) (fun i => netOut A θ i - v i) lr p θ.2)

theorem gdBody_run (R : MlpReady s h X y θ) (S : Shown s h X θ) (T : List Ref) (lr : ℝ) :
    Runs (gdBody lr s) h fun s' h' => MlpReady s' h' X y (netStep X y (decay s.reg s.lambda s.alpha) lr θ) ∧ Kept T s h s' h' ∧
      Shown s' h' X (netStep X y (decay s.reg s.lambda s.alpha) lr θ) ∧ s'.y_hat = s.y_hat := by
  unfold gdBody
  obtain ⟨c, ec⟩ := cost_ok R.wf S.out R.output R.weights1 R.weights2
  refine Runs.step ec ?_
  refine stepV (Hd.subn_spec R.wf S.out R.output) fun er h1 w1 k1 f1 b1 => ?_
  have R1 := ready_keep R w1 k1
  have K1 := (Kept.refl T s h).new k1
  have n1 := f1.ne R.weights2
  have z1 := adv_hasm k1 S.z
  rw [R.rows]
  refine Runs.bind ((update2_run R1 (adv_hasm k1 S.a) b1 n1 lr n).mono fun s2 h2 ⟨e2, R2, k2⟩ => ?_)
  have K2 : Kept T s h s2 h2 := by rw [e2]; exact (K1.set (by simp [owned]) k2).bias _
  have b2 := b1.off k2 n1
  have z2 : HasM h2 s.z2 (affine X θ.1) := z1.offm k2 (R1.weights2.ne_mat z1).symm
  have ez : s2.z2 = s.z2 := by rw [e2]
  have en : s2.n = n := R2.rows
  rw [en]
  refine Runs.bind ((update1_run R2 R2.input (ez ▸ z2) b2 lr n).mono fun _ h3 ⟨R3, k3⟩ => ?_)
  have K3 := K2.set2 (by simp [owned]) (by simp [owned]) k3
  rw [K2.decay] at R3
  refine Runs.bind ((forward_run R3 T).mono fun _ h4 ⟨R4, K4, S4⟩ => ?_)
  exact Runs.of_eq rfl ⟨R4, K3.trans K4, S4, by rw [e2]⟩

/-- A vector shown by an object that is set up, if it is one of those owned before, is the one shown before. -/
theorem own_of {s0 : Mlp} {P : Prop} (R : MlpReady s h X y θ) (same : s = { s0 with y_hat := s.y_hat, bias2 := s.bias2 }) (hz : ∃ i, s0.z2 = some (.m i))
    (ha : ∃ i, s0.a2 = some (.m i)) (hw : ∃ i, s0.weights1 = some (.m i)) (d : s.y_hat ∈ owned s0 ∨ P) : s.y_hat = s0.y_hat ∨ P := by
  refine d.imp_left fun d => ?_
  have e2 : s.weights2 = s0.weights2 := by rw [same]
  have e3 : s.bias1 = s0.bias1 := by rw [same]
  have nd := R.apart_vectors
  obtain ⟨_, _, i, ei, -, -⟩ := R.y_hat
  obtain ⟨z, ez⟩ := hz
  obtain ⟨a, ea⟩ := ha
  obtain ⟨w, ew⟩ := hw
  rw [e2, e3] at nd
  simp only [List.nodup_cons, List.mem_cons, List.not_mem_nil, or_false, not_or] at nd
  simp only [owned, List.mem_cons, List.not_mem_nil, or_false] at d
  rcases d with d | d | d | d | d | d
  · exact d
  · rw [ew, ei] at d; cases d
  · exact absurd d nd.1.1
  · exact absurd d nd.1.2.1
  · rw [ez, ei] at d; cases d
  · rw [ea, ei] at d; cases d

theorem ready_mats (R : MlpReady s h X y θ) : (∃ i, s.z2 = some (.m i)) ∧ (∃ i, s.a2 = some (.m i)) ∧ ∃ i, s.weights1 = some (.m i) := by
  obtain ⟨_, _, _, i, ei, -, -⟩ := R.z2
  obtain ⟨_, _, _, j, ej, -, -⟩ := R.a2
  obtain ⟨l, el, -, -⟩ := R.weights1
  exact ⟨⟨i, ei⟩, ⟨j, ej⟩, ⟨l, el⟩⟩

theorem trained {s0 : Mlp} {h0 : Heap ℝ} {θ0 : NetParams k m} (R0 : MlpReady s0 h0 X y θ0) (R : MlpReady s h X y θ) (K : Kept [] s0 h0 s h) (S : HasV h s.y_hat (netOut X θ)) :
    MlpTrained s0 h0 s h X y θ :=
  ⟨R, S, K.same, K.moved.keeps, own_of R K.same (ready_mats R0).1 (ready_mats R0).2.1 (ready_mats R0).2.2 (K.moved.fresh _ (List.mem_append_right _ List.mem_cons_self))⟩

theorem fillv_run (w : h.WF) {a : Ref} {v : Fin n → ℝ} (ha : HasV h a v) (x : ℝ) :
    Runs (Hd.fillv a x) h fun _ h' => h'.WF ∧ Keeps h h' (some · = a) ∧ HasV h' a fun _ : Fin n => x := by
  obtain ⟨i, rfl, l, q⟩ := ha
  have e : Hd.fillv (some (.v i)) x h = _ := fillAll_run (.v i) x h (w.len _)
  have up := updated_setBuf h (.v i) (List.replicate (h.size (.v i)).count x)
  rw [q.1, show (⟨n, 1, 1⟩ : Size).count = n by simp [Size.count],
    show List.replicate n x = SortArray.tab n (fun _ => x) by simp [SortArray.tab]] at e up
  exact (updated_setsVec w e up fun _ => rfl).hasV l

theorem gd_run (R : MlpReady s h X y θ) (lr : ℝ) (e : Int) :
    Runs (gradient_descent s lr e) h fun s' h' => MlpTrained s h s' h' X y
      (Glm.walk (fun _ => netStep X y (decay s.reg s.lambda s.alpha) lr) θ (epochCount e)) := by
  unfold gradient_descent
  rw [if_pos R.init]
  have R0 := R
  obtain ⟨w, i, n0, hX, hy, hW, hb, hw2, eb, ⟨q, Y, hY⟩, ⟨z1, z2, Z, hZ⟩, ⟨a1, a2, A, hA⟩, d1, d2⟩ := R
  have D1 := d1
  simp only [List.nodup_cons, List.mem_cons, List.not_mem_nil, or_false, not_or, not_false_eq_true, List.nodup_nil, and_true] at d1
  obtain ⟨⟨n1, n2, n3⟩, ⟨n4, n5⟩, n6⟩ := d1
  refine Runs.bind ((fillv_run w hY 0).mono fun _ h1 ⟨w1, k1, b1⟩ => ?_)
  have K1 := (Kept.refl [] s h).set (by simp [owned]) k1
  wr k1
  have R1 : MlpReady s h1 X y θ := ⟨w1, i, n0, hX, hy, hW, hb, hw2, eb, ⟨_, _, b1⟩, ⟨_, _, _, hZ⟩, ⟨_, _, _, hA⟩, D1, d2⟩
  refine Runs.bind ((forward_run R1 []).mono fun _ h2 ⟨R2, K2, S2⟩ => ?_)
  refine (Glm.epochs_run e s _ (fun i s' h' => MlpReady s' h' X y (Glm.walk (fun _ => netStep X y (decay s.reg s.lambda s.alpha) lr) θ i) ∧
    Kept [] s h s' h' ∧ Shown s' h' X (Glm.walk (fun _ => netStep X y (decay s.reg s.lambda s.alpha) lr) θ i)) ⟨R2, K1.trans K2, S2⟩ ?_).mono
    fun s3 h3 ⟨R3, K3, S3⟩ => trained R0 R3 K3 S3.out
  rintro i s3 h3 ⟨R3, K3, S3⟩
  refine (gdBody_run R3 S3 [] lr).mono fun s4 h4 ⟨R4, K4, S4, _⟩ => ?_
  rw [K3.decay] at R4 S4
  exact ⟨R4, K3.trans K4, S4⟩

/-- The step with one sample. -/
theorem netStep_one (v : Fin k → ℝ) (t : ℝ) (D : ℝ → ℝ) (lr : ℝ) (θ : NetParams k m) :
    (∀ a, (netStep (fun _ : Fin 1 => v) (fun _ => t) D lr θ).2.1 a =
      D (θ.2.1 a - hiddens (fun _ : Fin 1 => v) θ.1 0 a * (netOut (fun _ : Fin 1 => v) θ 0 - t) * lr)) ∧
    (netStep (fun _ : Fin 1 => v) (fun _ => t) D lr θ).2.2 = θ.2.2 - lr * (netOut (fun _ : Fin 1 => v) θ 0 - t) ∧
    (∀ j a, (netStep (fun _ : Fin 1 => v) (fun _ => t) D lr θ).1.1 j a = D (θ.1.1 j a - v j *
      ((netStep (fun _ : Fin 1 => v) (fun _ => t) D lr θ).2.1 a * (netOut (fun _ : Fin 1 => v) θ 0 - t) *
        Activation.sigmoid_derivr (affine (fun _ : Fin 1 => v) θ.1 0 a)) * lr)) ∧
    ∀ a, (netStep (fun _ : Fin 1 => v) (fun _ => t) D lr θ).1.2 a = θ.1.2 a -
      ((netStep (fun _ : Fin 1 => v) (fun _ => t) D lr θ).2.1 a * (netOut (fun _ : Fin 1 => v) θ 0 - t) *
        Activation.sigmoid_derivr (affine (fun _ : Fin 1 => v) θ.1 0 a)) * lr := by
  unfold netStep stepM1 stepWith
  simp only [Fin.sum_univ_one, Nat.cast_one, div_one]
  refine ⟨fun _ => trivial, trivial, fun j a => ?_, fun a => ?_⟩
  · congr 1; ring
  · ring

/-- The vectors of the loop of `sgd`. -/
structure SgdTmps (k : Nat) (row out yh lz la : Ref) (s : Mlp) (h : Heap ℝ) : Prop where
  hrow : ∃ v : Fin k → ℝ, HasV h row v
  hout : ∃ v : Fin 1 → ℝ, HasV h out v
  hyh : ∃ v : Fin 1 → ℝ, HasV h yh v
  hlz : ∃ (p : Nat) (v : Fin p → ℝ), HasV h lz v
  hla : ∃ (p : Nat) (v : Fin p → ℝ), HasV h la v
  nodup : [s.y_hat, s.weights2, s.bias1, s.output_set, row, out, yh, lz, la].Nodup

theorem sgdBody_run (R : MlpReady s h X y θ) {row out yh lz la : Ref} (T : SgdTmps k row out yh lz la s h) (i : Fin n) (lr : ℝ) :
    Runs (sgdBody row out yh lz la (i : Nat) lr s) h fun s' h' =>
      MlpReady s' h' X y (netStep (sampleX X i) (sampleY y i) (decay s.reg s.lambda s.alpha) lr θ) ∧
      Kept [row, out, yh, lz, la] s h s' h' ∧ SgdTmps k row out yh lz la s' h' := by
  obtain ⟨w, ini, n0, hX, hy, hW, hb, hw2, eb, ⟨q, Y, hY⟩, ⟨z1, z2, Z, hZ⟩, ⟨a1, a2, A, hA⟩, d1, d2⟩ := R
  obtain ⟨⟨v1, h_row⟩, ⟨v2, h_out⟩, ⟨v3, h_yh⟩, ⟨p4, v4, h_lz⟩, ⟨p5, v5, h_la⟩, nd⟩ := T
  have D2 := d2
  have ND := nd
  simp only [List.nodup_cons, List.mem_cons, List.not_mem_nil, or_false, not_or, not_false_eq_true, List.nodup_nil, and_true] at nd d2
  casesm* _ ∧ _
  unfold sgdBody
  refine Runs.bind ((Hd.row_get_into_run w hX h_row i).mono fun _ h1 ⟨w1, k1, b1⟩ => ?_)
  have K1 := (Kept.refl [row, out, yh, lz, la] s h).set (by simp) k1
  wr k1
  refine Runs.step (Hd.element_get_run w1 hy i) ?_
  refine Runs.bind ((Hd.element_set_run w1 h_out (0 : Fin 1) (y i)).mono fun _ h2 ⟨w2, k2, b2⟩ => ?_)
  have K2 := K1.set (by simp) k2
  wr k2
  refine Runs.bind ((evaluatev_run w2 b1 hW hb hw2 eb).mono fun ly h3 ⟨el, w3, k3⟩ => ?_)
  have K3 := K2.new k3
  adv k3
  refine Runs.bind ((Hd.element_set_run w3 h_yh (0 : Fin 1) ly).mono fun _ h4 ⟨w4, k4, b4⟩ => ?_)
  have K4 := K3.set (by simp) k4
  wr k4
  refine Runs.bind ((propagatev_run w4 b1 hW hb h_lz h_la (by assumption)).mono fun _ h5 ⟨w5, k5, b5, b6⟩ => ?_)
  have K5 := K4.set2 (by simp) (by simp) k5
  wr k5
  obtain ⟨c, ec⟩ := cost_ok w5 b4 b2 hW hw2
  refine Runs.step ec ?_
  refine stepV (Hd.scalar_multiplyn_spec w5 b6 (ly - y i)) fun t6 h6 w6 k6 f6 b7 => ?_
  have K6 := K5.new k6
  adv k6
  refine stepV (Hd.scalar_multiplyn_spec w6 b7 lr) fun t7 h7 w7 k7 f7 b8 => ?_
  have K7 := K6.new k7
  clear b7
  adv k7
  refine Runs.bind ((Hd.sub_run w7 hw2 b8).mono fun _ h8 ⟨w8, k8, b9⟩ => ?_)
  have K8 := K7.set (by simp [owned]) k8
  clear b8
  wr k8
  refine stepV (Glm.reg_weightsv_spec w8 b9 _ _ _) fun t9 h9 w9 k9 f9 b10 => ?_
  have K9 := K8.new k9
  adv k9
  refine Runs.bind ((Hd.set_from_mlpp_vector_run w9 b9 b10).mono fun _ h10 ⟨w10, k10, b11⟩ => ?_)
  have K10 := K9.set (by simp [owned]) k10
  clear b10
  wr k10
  dsimp only
  refine stepV (Hd.scalar_multiplyn_spec w10 b11 (ly - y i)) fun t11 h11 w11 k11 f11 b12 => ?_
  have K11 := K10.new k11
  adv k11
  refine stepV (Hd.lifts_vec Activation.sigmoid_derivv_lifts w11 b5) fun t12 h12 w12 k12 f12 b13 => ?_
  have K12 := K11.new k12
  adv k12
  refine stepV (Hd.hadamard_productn_spec w12 b12 b13) fun t13 h13 w13 k13 f13 b14 => ?_
  have K13 := K12.new k13
  clear b12 b13
  fresh f13
  adv k13
  refine stepM (Hd.outer_product_spec w13 b1 b14) fun t14 h14 w14 k14 f14 b15 => ?_
  have K14 := K13.new k14
  adv k14
  refine stepM (Hd.scalar_multiplynm_spec w14 b15 lr) fun t15 h15 w15 k15 f15 b16 => ?_
  have K15 := K14.new k15
  clear b15
  adv k15
  refine Runs.bind ((Hd.subm_run w15 hW b16).mono fun _ h16 ⟨w16, k16, b17⟩ => ?_)
  have K16 := K15.set (by simp [owned]) k16
  clear b16
  wr k16
  refine stepM (Hd.reg_weightsm_spec w16 b17 s.lambda s.alpha s.reg) fun t17 h17 w17 k17 f17 b18 => ?_
  have K17 := K16.new k17
  adv k17
  refine Runs.bind ((Hd.set_from_mlpp_matrix_run w17 b17 b18).mono fun _ h18 ⟨w18, k18, b19⟩ => ?_)
  have K18 := K17.set (by simp [owned]) k18
  clear b18
  wr k18
  refine stepV (Hd.scalar_multiplyn_spec w18 b14 lr) fun t19 h19 w19 k19 f19 b20 => ?_
  have K19 := K18.new k19
  adv k19
  refine Runs.bind ((Hd.sub_run w19 hb b20).mono fun _ h20 ⟨w20, k20, b21⟩ => ?_)
  have K20 := (K19.set (by simp [owned]) k20).bias (s.bias2 - lr * (ly - y i))
  clear b20
  wr k20
  obtain ⟨θ', eθ⟩ : ∃ θ', θ' = netStep (sampleX X i) (sampleY y i) (decay s.reg s.lambda s.alpha) lr θ := ⟨_, rfl⟩
  rw [← eθ]
  obtain ⟨q1, q2, q3, q4⟩ := netStep_one (X i) (y i) (decay s.reg s.lambda s.alpha) lr θ
  replace eθ : θ' = netStep (fun _ : Fin 1 => X i) (fun _ => y i) (decay s.reg s.lambda s.alpha) lr θ := eθ
  have R20 : MlpReady { s with bias2 := s.bias2 - lr * (ly - y i) } h20 X y θ' := by
    refine ⟨w20, ini, n0, hX, hy, ?_, ?_, ?_, ?_, ⟨_, _, hY⟩, ⟨_, _, _, hZ⟩, ⟨_, _, _, hA⟩, d1, D2⟩
    · refine cast (congrArg _ ?_) b19
      funext j a
      rw [eθ, q3, q1, el]
      rfl
    · refine cast (congrArg _ ?_) b21
      funext a
      rw [eθ, q4, q1, el]
    · refine cast (congrArg _ ?_) b11
      funext a
      rw [eθ, q1, el]
    · rw [eθ, q2, el, eb]
  refine Runs.bind ((evaluatev_run w20 b1 R20.weights1 R20.bias1 R20.weights2 R20.bias2).mono fun _ h21 ⟨_, w21, k21⟩ => ?_)
  have K21 := K20.new k21
  have R21 := ready_keep R20 w21 k21
  adv k21
  exact Runs.of_eq rfl ⟨R21, K21, ⟨⟨_, b1⟩, ⟨_, b2⟩, ⟨_, b4⟩, ⟨_, _, b5⟩, ⟨_, _, b6⟩, ND⟩⟩

/-- The vectors of `sgd`. -/
theorem sgdTmps_run (R : MlpReady s h X y θ) {β : Type} {C : Loc → Loc → Loc → Loc → Loc → M ℝ β} {Q : β → Heap ℝ → Prop}
    (next : ∀ row out yh lz la h1, MlpReady s h1 X y θ → Keeps h h1 (fun _ => False) →
      SgdTmps k (some row) (some out) (some yh) (some lz) (some la) s h1 →
      (∀ r ∈ [some row, some out, some yh, some lz, some la], NotIn h r) → Runs (C row out yh lz la) h1 Q) :
    Runs (do
      let row ← newVec
      resizeTo row ⟨k, 1, 1⟩
      let out ← newVec
      resizeTo out ⟨1, 1, 1⟩
      let yh ← newVec
      resizeTo yh ⟨1, 1, 1⟩
      let lz2 ← newVec
      let la2 ← newVec
      C row out yh lz2 la2) h Q := by
  have R0 := R
  obtain ⟨w, ini, n0, hX, hy, hW, hb, hw2, eb, ⟨q, Y, hY⟩, ⟨z1, z2, Z, hZ⟩, ⟨a1, a2, A, hA⟩, d1, d2⟩ := R
  refine stepNewV (n := k) w fun o1 h1 v1 w1 k1 f1 b1 => ?_
  have K1 := k1
  fresh f1
  adv k1
  refine stepNewV (n := 1) w1 fun o2 h2 v2 w2 k2 f2 b2 => ?_
  have K2 := K1.trans k2
  have g2 := f2.mono K1
  fresh f2
  adv k2
  refine stepNewV (n := 1) w2 fun o3 h3 v3 w3 k3 f3 b3 => ?_
  have K3 := K2.trans k3
  have g3 := f3.mono K2
  fresh f3
  adv k3
  refine Runs.newV w3 fun h4 w4 k4 g4 l4 s4 => ?_
  obtain ⟨F4, c4⟩ := exists_VCells w4 s4
  have b4 : HasV h4 (some (.v h3.next)) (fun i : Fin 0 => F4 i) := ⟨_, rfl, l4, c4.isVec fun _ => rfl⟩
  have f4 : NotIn h3 (some (.v h3.next)) := fun l e => by cases e; exact g4
  clear c4 s4 l4 g4
  generalize h3.next = o4 at *
  have K4 := K3.trans k4
  have g4 := f4.mono K3
  fresh f4
  adv k4
  refine Runs.newV w4 fun h5 w5 k5 g5 l5 s5 => ?_
  obtain ⟨F5, c5⟩ := exists_VCells w5 s5
  have b5 : HasV h5 (some (.v h4.next)) (fun i : Fin 0 => F5 i) := ⟨_, rfl, l5, c5.isVec fun _ => rfl⟩
  have f5 : NotIn h4 (some (.v h4.next)) := fun l e => by cases e; exact g5
  clear c5 s5 l5 g5
  generalize h4.next = o5 at *
  have K5 := K4.trans k5
  have g5 := f5.mono K4
  fresh f5
  adv k5
  refine next _ _ _ _ _ h5 (ready_keep R0 w5 K5) K5 ⟨⟨_, b1⟩, ⟨_, b2⟩, ⟨_, b3⟩, ⟨_, _, b4⟩, ⟨_, _, b5⟩, ?_⟩ ?_
  · simp only [List.nodup_cons, List.mem_cons, List.not_mem_nil, or_false, not_or, not_false_eq_true, List.nodup_nil, and_true] at d1 ⊢
    casesm* _ ∧ _
    repeat' apply And.intro
    all_goals first | assumption | exact Ne.symm (by assumption)
  · intro r hr
    simp only [List.mem_cons, List.not_mem_nil, or_false] at hr
    rcases hr with rfl | rfl | rfl | rfl | rfl
    exacts [f1, g2, g3, g4, g5]

theorem sgd_run (R : MlpReady s h X y θ) {pick : Nat → Nat} (hpick : ∀ e, pick e < n) (lr : ℝ) (e : Int) :
    Runs (sgd s pick lr e) h fun s' h' => MlpTrained s h s' h' X y
      (Glm.walk (fun t => netStep (sampleX X ⟨pick (t + 1), hpick _⟩) (sampleY y ⟨pick (t + 1), hpick _⟩) (decay s.reg s.lambda s.alpha) lr) θ
        (epochCount e)) := by
  unfold sgd
  rw [if_pos R.init, if_neg (by rw [R.rows]; have := hpick 0; omega)]
  refine Runs.step (Hd.sizem_run R.input) ?_
  refine sgdTmps_run R (C := fun row out yh lz la => Glm.epochs e s (fun e s => sgdBody (some row) (some out) (some yh) (some lz) (some la) (pick e) lr s)
    >>= fun s => forward_pass s >>= fun _ => pure s) fun row out yh lz la h1 R1 k1 T1 N1 => ?_
  refine Runs.bind ((Glm.epochs_run e s _ (fun i s' h' => MlpReady s' h' X y (Glm.walk (fun t => netStep (sampleX X ⟨pick (t + 1), hpick _⟩)
      (sampleY y ⟨pick (t + 1), hpick _⟩) (decay s.reg s.lambda s.alpha) lr) θ i) ∧ Kept [some row, some out, some yh, some lz, some la] s h1 s' h' ∧
      SgdTmps k (some row) (some out) (some yh) (some lz) (some la) s' h') ⟨R1, .refl _ _ _, T1⟩ ?_).mono fun s2 h2 ⟨R2, K2, _⟩ => ?_)
  · rintro i s2 h2 ⟨R2, K2, T2⟩
    refine (sgdBody_run R2 T2 ⟨pick (i + 1), hpick _⟩ lr).mono fun s3 h3 ⟨R3, K3, T3⟩ => ?_
    rw [K2.decay] at R3
    exact ⟨R3, K2.trans K3, T3⟩
  · refine Runs.bind ((forward_run R2 [some row, some out, some yh, some lz, some la]).mono fun _ h3 ⟨R3, K3, S3⟩ => Runs.of_eq rfl ?_)
    have K := K2.trans K3
    refine ⟨R3, S3.out, K.same, (k1.mono fun _ _ => nofun).trans_new K.moved.keeps fun l hl lv => ?_,
      own_of R3 K.same (ready_mats R).1 (ready_mats R).2.1 (ready_mats R).2.2 ?_⟩
    · rcases List.mem_append.1 hl with q | q
      · exact absurd lv (N1 _ q l rfl)
      · exact q
    · rcases K.moved.fresh _ (List.mem_append_right _ List.mem_cons_self) with q | q
      · exact (List.mem_append.1 q).elim (fun q => .inr (N1 _ q)) .inl
      · exact .inr (q.mono k1)

/-- The step with mini-batch `i`. -/
theorem mbgdBody_run (R : MlpReady s h X y θ) {lz la x b : Ref} {z1 z2 a1 a2 : Nat} {Z : Matrix (Fin z1) (Fin z2) ℝ} {A : Matrix (Fin a1) (Fin a2) ℝ}
    (h_lz : HasM h lz Z) (h_la : HasM h la A) (nd : [lz, la, s.z2, s.a2, s.weights1, s.input_set].Nodup) {B : Matrix (Fin p) (Fin k) ℝ} {v : Fin p → ℝ}
    (hx : HasM h x B) (hv : HasV h b v) (x1 : x ≠ lz) (x2 : x ≠ la) (x3 : x ≠ s.weights1) (v1 : b ≠ s.weights2) (lr : ℝ) :
    Runs (mbgdBody lz la x b lr s) h fun s' h' => MlpReady s' h' X y (netStep B v (decay s.reg s.lambda s.alpha) lr θ) ∧ Kept [lz, la] s h s' h' ∧
      (∃ (z1 z2 : Nat) (Z : Matrix (Fin z1) (Fin z2) ℝ), HasM h' lz Z) ∧ (∃ (z1 z2 : Nat) (Z : Matrix (Fin z1) (Fin z2) ℝ), HasM h' la Z) := by
  unfold mbgdBody
  refine stepV (evaluatem_spec R.wf hx R.weights1 R.bias1 R.weights2 R.bias2) fun o h1 w1 k1 f1 b1 => ?_
  have R1 := ready_keep R w1 k1
  have K1 := (Kept.refl [lz, la] s h).new k1
  clear R
  adv k1
  obtain ⟨w, ini, n0, hX, hy, hW, hb, hw2, eb, ⟨q, Y, hY⟩, ⟨z1, z2, Z', hZ⟩, ⟨a1, a2, A', hA⟩, d1, d2⟩ := R1
  simp only [List.nodup_cons, List.mem_cons, List.not_mem_nil, or_false, not_or, not_false_eq_true, List.nodup_nil, and_true] at nd
  casesm* _ ∧ _
  refine Runs.bind ((propagatem_run w1 hx hW hb h_lz h_la (by assumption)).mono fun _ h2 ⟨w2, k2, b2, b3⟩ => ?_)
  have K2 := K1.set2 (by simp) (by simp) k2
  wr k2
  have R2 : MlpReady s h2 X y θ := ⟨w2, ini, n0, hX, hy, hW, hb, hw2, eb, ⟨_, _, hY⟩, ⟨_, _, _, hZ⟩, ⟨_, _, _, hA⟩, d1, d2⟩
  obtain ⟨c, ec⟩ := cost_ok w2 b1 hv hW hw2
  refine Runs.step ec ?_
  refine stepV (Hd.subn_spec w2 b1 hv) fun er h3 w3 k3 f3 b4 => ?_
  have R3 := ready_keep R2 w3 k3
  have K3 := K2.new k3
  fresh f3
  adv k3
  refine Runs.step (Hd.size_run hv) ?_
  clear hX hy hW hb hY hZ hA
  refine Runs.bind ((update2_run R3 b3 b4 (by assumption) lr p).mono fun s4 h4 ⟨e4, R4, k4⟩ => ?_)
  have K4 : Kept [lz, la] s h s4 h4 := by rw [e4]; exact (K3.set (by simp [owned]) k4).bias _
  have x4 : x ≠ s4.weights1 := by rw [e4]; exact x3
  have l4 : lz ≠ s4.weights1 := by rw [e4]; assumption
  have a4 : la ≠ s4.weights1 := by rw [e4]; assumption
  wr k4
  refine Runs.bind ((update1_run R4 hx b2 b4 lr p).mono fun _ h5 ⟨R5, k5⟩ => ?_)
  have K5 := K4.set2 (by simp [owned]) (by simp [owned]) k5
  have w4b := R4.bias1
  wr k5
  rw [K4.decay] at R5
  refine stepV (evaluatem_spec R5.wf hx R5.weights1 R5.bias1 R5.weights2 R5.bias2) fun o2 h6 w6 k6 f6 b7 => ?_
  have R6 := ready_keep R5 w6 k6
  have K6 := K5.new k6
  have n1 := f6.ne R5.weights2
  have n2 := f6.ne R5.bias1
  have n3 := f6.ne R5.output
  have fo : NotIn h o2 := fun l e hl => f6 l e (K5.moved.keeps.live hl)
  adv k6
  refine Runs.of_eq rfl ⟨⟨w6, R6.init, R6.rows, R6.input, R6.output, R6.weights1, R6.bias1, R6.weights2, R6.bias2, ⟨_, _, b7⟩, R6.z2, R6.a2, ?_,
    R6.apart_matrices⟩, K6.new_y fo, ⟨_, _, _, b2⟩, ⟨_, _, _, b3⟩⟩
  have := R6.apart_vectors
  simp only [List.nodup_cons, List.mem_cons, List.not_mem_nil, or_false, not_or] at this ⊢
  exact ⟨⟨n1, n2, n3⟩, this.2⟩

/-- The mini-batches are where they were made. -/
def BatchesOk (X : Matrix (Fin n) (Fin k) ℝ) (y : Fin n → ℝ) (K : Nat) (bs : List Ref × List Ref) (L : List Ref) (h : Heap ℝ) : Prop :=
  ∀ i : Fin K, ∃ a b, bs.1[i.val]? = some a ∧ bs.2[i.val]? = some b ∧ HasM h a (batchX X K i) ∧ HasV h b (firstY y K) ∧ a ∉ L ∧ b ∉ L

theorem BatchesOk.moved {K : Nat} {bs : List Ref × List Ref} {L L' : List Ref} (B : BatchesOk X y K bs L h) (m : Moved L L' h h') :
    BatchesOk X y K bs L' h' := by
  intro i
  obtain ⟨a, b, ea, eb, ha, hb, n1, n2⟩ := B i
  exact ⟨a, b, ea, eb, m.mat ha n1, m.vec hb n2, m.notm ha n1, m.notv hb n2⟩

/-- The invariant of mini-batch training. -/
structure MbgdInv (X : Matrix (Fin n) (Fin k) ℝ) (y : Fin n → ℝ) (K : Nat) (bs : List Ref × List Ref) (lz la : Ref) (s0 : Mlp) (h0 : Heap ℝ)
    (θ : NetParams k m) (s : Mlp) (h : Heap ℝ) : Prop where
  ready : MlpReady s h X y θ
  kept : Kept [lz, la] s0 h0 s h
  batches : BatchesOk X y K bs ([lz, la] ++ owned s) h
  hz : ∃ (z1 z2 : Nat) (Z : Matrix (Fin z1) (Fin z2) ℝ), HasM h lz Z
  ha : ∃ (z1 z2 : Nat) (Z : Matrix (Fin z1) (Fin z2) ℝ), HasM h la Z

theorem mbgd_run (R : MlpReady s h X y θ) (lr : ℝ) (e : Int) {b K : Nat} (hb : 0 < b) (eK : n / b = K) (hK : 0 < K) :
    Runs (mbgd s lr e b) h fun s' h' => MlpTrained s h s' h' X y
      (Glm.walk (Glm.roundStep hK fun _ i => netStep (batchX X K i) (firstY y K) (decay s.reg s.lambda s.alpha) lr) θ (epochCount e * K)) := by
  unfold mbgd
  rw [if_pos R.init]
  refine Runs.newM R.wf fun h1 w1 k1 g1 l1 s1 => ?_
  obtain ⟨F1, c1⟩ := exists_Cells w1 s1
  have b1 : HasM h1 (some (.m h.next)) (fun (i j : Fin 0) => F1 i j) := ⟨_, rfl, l1, c1.isMat fun _ _ => rfl⟩
  have f1 : NotIn h (some (.m h.next)) := fun l e => by cases e; exact g1
  clear c1 s1 l1 g1
  generalize h.next = o1 at *
  have R1 := ready_keep R w1 k1
  refine Runs.newM w1 fun h2 w2 k2 g2 l2 s2 => ?_
  obtain ⟨F2, c2⟩ := exists_Cells w2 s2
  have b2 : HasM h2 (some (.m h1.next)) (fun (i j : Fin 0) => F2 i j) := ⟨_, rfl, l2, c2.isMat fun _ _ => rfl⟩
  have f2 : NotIn h1 (some (.m h1.next)) := fun l e => by cases e; exact g2
  clear c2 s2 l2 g2
  generalize h1.next = o2 at *
  have R2 := ready_keep R1 w2 k2
  have hb' : (b : Int) ≠ 0 := by exact_mod_cast hb.ne'
  rw [if_neg hb']
  have ek : (n : Int).tdiv (b : Int) = ((n / b : Nat) : Int) := by
    rw [Int.tdiv_eq_ediv_of_nonneg (Int.natCast_nonneg n)]; rfl
  dsimp only
  rw [R.rows, ek, Int.toNat_natCast, eK]
  obtain ⟨ia, eia, lia, hia⟩ := R2.input
  obtain ⟨oa, eoa, loa, hoa⟩ := R2.output
  rw [eia, eoa]
  refine Runs.bind ((Utilities.create_mini_batchesmv_run w2 lia loa hia hoa hK (Utilities.batch_row n K)).mono
    fun bs h3 ⟨w3, k3, ⟨lm, _, nm⟩, ⟨lv, _, nv⟩⟩ => ?_)
  have R3 := ready_keep R2 w3 k3
  have nd : ∀ r ∈ [some (Loc.m o1), some (Loc.m o2)], NotIn h r := by
    intro r hr
    simp only [List.mem_cons, List.not_mem_nil, or_false] at hr
    rcases hr with rfl | rfl
    exacts [f1, f2.mono k1]
  have old : ∀ r ∈ owned s, ∃ l, r = some l ∧ h.live l := by
    intro r hr
    obtain ⟨q, Y, hY⟩ := R.y_hat
    obtain ⟨z1, z2, Z, hZ⟩ := R.z2
    obtain ⟨a1, a2, A, hA⟩ := R.a2
    simp only [owned, List.mem_cons, List.not_mem_nil, or_false] at hr
    rcases hr with rfl | rfl | rfl | rfl | rfl | rfl
    · obtain ⟨o, e, l, -⟩ := hY; exact ⟨_, e, l⟩
    · obtain ⟨o, e, l, -⟩ := R.weights1; exact ⟨_, e, l⟩
    · obtain ⟨o, e, l, -⟩ := R.weights2; exact ⟨_, e, l⟩
    · obtain ⟨o, e, l, -⟩ := R.bias1; exact ⟨_, e, l⟩
    · obtain ⟨o, e, l, -⟩ := hZ; exact ⟨_, e, l⟩
    · obtain ⟨o, e, l, -⟩ := hA; exact ⟨_, e, l⟩
  have old2 : ∀ r ∈ [some (Loc.m o1), some (Loc.m o2)] ++ owned s, ∃ l, r = some l ∧ h2.live l := by
    intro r hr
    rcases List.mem_append.1 hr with q | q
    · simp only [List.mem_cons, List.not_mem_nil, or_false] at q
      rcases q with rfl | rfl
      · obtain ⟨o, e, l, -⟩ := b1; exact ⟨_, e, k2.live l⟩
      · obtain ⟨o, e, l, -⟩ := b2; exact ⟨_, e, l⟩
    · obtain ⟨l, e, q⟩ := old r q; exact ⟨l, e, k2.live (k1.live q)⟩
  have B3 : BatchesOk X y K bs ([some (Loc.m o1), some (Loc.m o2)] ++ owned s) h3 := by
    intro i
    obtain ⟨a, ea, fa, la, ha⟩ := nm i
    obtain ⟨c, ec, fc, lc, hc⟩ := nv i
    refine ⟨_, _, ea, ec, ⟨a, rfl, la, ha⟩, ⟨c, rfl, lc, hc⟩, fun q => ?_, fun q => ?_⟩
    · obtain ⟨l, e, q⟩ := old2 _ q; cases e; exact fa q
    · obtain ⟨l, e, q⟩ := old2 _ q; cases e; exact fc q
  have nd6 : [some (Loc.m o1), some (Loc.m o2), s.z2, s.a2, s.weights1, s.input_set].Nodup := by
    obtain ⟨z1, z2, Z, hZ⟩ := R.z2
    obtain ⟨a1, a2, A, hA⟩ := R.a2
    have := R.apart_matrices
    have hW := R.weights1
    have hX := R.input
    fresh f1
    adv k1
    fresh f2
    simp only [List.nodup_cons, List.mem_cons, List.not_mem_nil, or_false, not_or, not_false_eq_true, List.nodup_nil, and_true] at this ⊢
    casesm* _ ∧ _
    repeat' apply And.intro
    all_goals first | assumption | exact Ne.symm (by assumption)
  refine Runs.bind ((Glm.rounds_run K e s (fun _ i s => do
      let X ← Glm.batchAt bs.1 i
      let y ← Glm.batchAt bs.2 i
      mbgdBody (some (.m o1)) (some (.m o2)) X y lr s)
    (fun t s' h' => MbgdInv X y K bs (some (.m o1)) (some (.m o2)) s h3
      (Glm.walk (Glm.roundStep hK fun _ i => netStep (batchX X K i) (firstY y K) (decay s.reg s.lambda s.alpha) lr) θ t) s' h')
    ⟨R3, .refl _ _ _, B3, ⟨_, _, _, adv_hasm k3 (adv_hasm k2 b1)⟩, ⟨_, _, _, adv_hasm k3 b2⟩⟩ ?_).mono fun s4 h4 I4 => ?_)
  · rintro ep i s4 h4 hi ⟨R4, K4, B4, ⟨_, _, _, z4⟩, ⟨_, _, _, a4⟩⟩
    obtain ⟨a, c, ea, ec, ha, hc, na, nc⟩ := B4 ⟨i, hi⟩
    have r1 : Glm.batchAt bs.1 i h4 = .ok (a, h4) := by unfold Glm.batchAt; rw [show bs.1[i]? = some a from ea]; rfl
    have r2 : Glm.batchAt bs.2 i h4 = .ok (c, h4) := by unfold Glm.batchAt; rw [show bs.2[i]? = some c from ec]; rfl
    refine Runs.step r1 (Runs.step r2 ?_)
    simp only [List.mem_append, List.mem_cons, List.not_mem_nil, or_false, owned, not_or] at na nc
    have e1 : s4.z2 = s.z2 := by rw [K4.same]
    have e2 : s4.a2 = s.a2 := by rw [K4.same]
    have e3 : s4.weights1 = s.weights1 := by rw [K4.same]
    have e4 : s4.input_set = s.input_set := by rw [K4.same]
    refine (mbgdBody_run R4 z4 a4 (by rw [e1, e2, e3, e4]; exact nd6) ha hc na.1.1 na.1.2 na.2.2.1 nc.2.2.2.1 lr).mono
      fun s5 h5 ⟨R5, K5, z5, a5⟩ => ?_
    rw [K4.decay] at R5
    refine ⟨?_, K4.trans K5, B4.moved K5.moved, z5, a5⟩
    rw [Glm.walk_round hK _ θ ep i hi]
    exact R5
  · refine Runs.bind ((forward_run I4.ready [some (.m o1), some (.m o2)]).mono fun _ h5 ⟨R5, K5, S5⟩ => Runs.of_eq rfl ?_)
    have K := I4.kept.trans K5
    refine ⟨R5, S5.out, K.same, (((k1.trans k2).trans k3).mono fun _ _ => nofun).trans_new K.moved.keeps fun l hl lv => ?_,
      own_of R5 K.same (ready_mats R).1 (ready_mats R).2.1 (ready_mats R).2.2 ?_⟩
    · rcases List.mem_append.1 hl with q | q
      · exact absurd lv (nd _ q l rfl)
      · exact q
    · rcases K.moved.fresh _ (List.mem_append_right _ List.mem_cons_self) with q | q
      · exact (List.mem_append.1 q).elim (fun q => .inr (nd _ q)) .inl
      · exact .inr (q.mono ((k1.trans k2).trans k3))

end Mlp
end Verif
