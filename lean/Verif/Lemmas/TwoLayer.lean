import Verif.Spec.TwoLayer
import Verif.Lemmas.Mlp

/-! # Networks with one hidden layer: the shared pieces -/

namespace Verif
open Spec Finset

namespace Hd
variable {h : Heap ℝ} {a : Ref} {m n : Nat}
theorem adj_softmax_normv_spec (w : h.WF) {v : Fin n → ℝ} (ha : HasV h a v) (q : ∀ i, -2147483649 < v i ∧ v i < 2147483648) :
    ReturnsVec (Activation.adj_softmax_normv a) h (softmax v) := by
  obtain ⟨x, rfl, l, i⟩ := ha
  exact Activation.adj_softmax_normv_spec w i l q
theorem adj_softmax_normm_spec (w : h.WF) {A : Matrix (Fin m) (Fin n) ℝ} (ha : HasM h a A) (q : ∀ i j, -2147483649 < A i j ∧ A i j < 2147483648) :
    ReturnsMat (Activation.adj_softmax_normm a) h fun i => softmax (A i) := by
  obtain ⟨x, rfl, l, i⟩ := ha
  exact Activation.adj_softmax_normm_spec w i l q
end Hd

namespace TwoLayer
variable {n k m c p : Nat} {h : Heap ℝ} {x W1 b1 W2 b2 a z er : Ref}

theorem row_affine (W : Matrix (Fin k) (Fin m) ℝ) (v : Fin k → ℝ) (b : Fin m → ℝ) :
    (fun i => (W.transpose.mulVec v) i + b i) = affine (fun _ : Fin 1 => v) (W, b) 0 := by
  funext a
  unfold affine
  congr 1
  simp only [Matrix.mulVec, dotProduct, Matrix.transpose_apply]
  exact Finset.sum_congr rfl fun j _ => mul_comm _ _

theorem hiddenm_run (w : h.WF) {A : Matrix (Fin p) (Fin k) ℝ} {θ : MParams k m} (hx : HasM h x A) (hW : HasM h W1 θ.1) (hb : HasV h b1 θ.2) :
    Runs (hiddenm x W1 b1) h fun r h' => h'.WF ∧ Keeps h h' (fun _ => False) ∧ NotIn h r.1 ∧ NotIn h r.2 ∧ HasM h' r.1 (affine A θ) ∧
      HasM h' r.2 (hiddens A θ) := by
  unfold hiddenm
  refine stepM (Hd.multn_spec w hx hW) fun t h1 w1 k1 f1 a1 => ?_
  have K1 := k1
  adv k1
  refine stepM (Hd.add_vecn_spec w1 a1 hb) fun t2 h2 w2 k2 f2 a2 => ?_
  have K2 := K1.trans k2
  have g2 := f2.mono K1
  adv k2
  rw [Mlp.affine_eq] at a2
  refine stepM (Hd.lifts_mat Activation.sigmoid_normm_lifts w2 a2) fun t4 h4 w4 k4 f4 a4 => ?_
  have K4 := K2.trans k4
  have g4 := f4.mono K2
  adv k4
  exact Runs.of_eq rfl ⟨w4, K4, g2, g4, a2, a4⟩

theorem outm_spec (w : h.WF) {A : Matrix (Fin p) (Fin m) ℝ} {θ : MParams m c} (ha : HasM h a A) (hW : HasM h W2 θ.1) (hb : HasV h b2 θ.2) :
    ReturnsMat (outm a W2 b2) h (affine A θ) := by
  refine .of_has ?_
  unfold outm
  refine stepM (Hd.multn_spec w ha hW) fun t h1 w1 k1 f1 a1 => ?_
  have K1 := k1
  adv k1
  refine (Hd.add_vecn_spec w1 a1 hb).has.mono fun r h2 ⟨w2, k2, f2, a2⟩ => ⟨w2, K1.trans k2, f2.mono K1, ?_⟩
  rw [Mlp.affine_eq] at a2
  exact a2

theorem hiddenv_run (w : h.WF) {v : Fin k → ℝ} {θ : MParams k m} (hx : HasV h x v) (hW : HasM h W1 θ.1) (hb : HasV h b1 θ.2) :
    Runs (hiddenv x W1 b1) h fun r h' => h'.WF ∧ Keeps h h' (fun _ => False) ∧ NotIn h r.1 ∧ NotIn h r.2 ∧
      HasV h' r.1 (affine (fun _ : Fin 1 => v) θ 0) ∧ HasV h' r.2 (hiddens (fun _ : Fin 1 => v) θ 0) := by
  unfold hiddenv
  refine stepM (Hd.transposen_spec w hW) fun t h1 w1 k1 f1 a1 => ?_
  have K1 := k1
  adv k1
  refine stepV (Hd.mult_vec_spec w1 a1 hx) fun t2 h2 w2 k2 f2 a2 => ?_
  have K2 := K1.trans k2
  adv k2
  refine stepV (Hd.addn_spec w2 a2 hb) fun t3 h3 w3 k3 f3 a3 => ?_
  have K3 := K2.trans k3
  have g3 := f3.mono K2
  adv k3
  rw [row_affine] at a3
  refine stepV (Hd.lifts_vec Activation.sigmoid_normv_lifts w3 a3) fun t4 h4 w4 k4 f4 a4 => ?_
  have K4 := K3.trans k4
  have g4 := f4.mono K3
  adv k4
  exact Runs.of_eq rfl ⟨w4, K4, g3, g4, a3, a4⟩

theorem outv_spec (w : h.WF) {v : Fin m → ℝ} {θ : MParams m c} (ha : HasV h a v) (hW : HasM h W2 θ.1) (hb : HasV h b2 θ.2) :
    ReturnsVec (outv a W2 b2) h (affine (fun _ : Fin 1 => v) θ 0) := by
  refine .of_has ?_
  unfold outv
  refine stepM (Hd.transposen_spec w hW) fun t h1 w1 k1 f1 a1 => ?_
  have K1 := k1
  adv k1
  refine stepV (Hd.mult_vec_spec w1 a1 ha) fun t2 h2 w2 k2 f2 a2 => ?_
  have K2 := K1.trans k2
  adv k2
  refine (Hd.addn_spec w2 a2 hb).has.mono fun r h3 ⟨w3, k3, f3, a3⟩ => ⟨w3, K2.trans k3, f3.mono K2, ?_⟩
  rw [row_affine] at a3
  exact a3

theorem slope_spec (w : h.WF) {A : Matrix (Fin p) (Fin m) ℝ} {E : Matrix (Fin p) (Fin c) ℝ} (ha : HasM h a A) (he : HasM h er E) (r : ℝ) :
    ReturnsMat (slope a er r) h fun j b => (∑ i, A i j * E i b) * r := by
  refine .of_has ?_
  unfold slope
  refine stepM (Hd.transposen_spec w ha) fun t h1 w1 k1 f1 a1 => ?_
  have K1 := k1
  adv k1
  refine stepM (Hd.multn_spec w1 a1 he) fun t2 h2 w2 k2 f2 a2 => ?_
  have K2 := K1.trans k2
  adv k2
  refine (Hd.scalar_multiplynm_spec w2 a2 r).has.mono fun r h3 ⟨w3, k3, f3, a3⟩ => ⟨w3, K2.trans k3, f3.mono K2, ?_⟩
  exact a3

theorem back_spec (w : h.WF) {E : Matrix (Fin p) (Fin c) ℝ} {W : Matrix (Fin m) (Fin c) ℝ} {Z : Matrix (Fin p) (Fin m) ℝ} (he : HasM h er E)
    (hW : HasM h W2 W) (hz : HasM h z Z) :
    ReturnsMat (back er W2 z) h fun i a => (∑ b, E i b * W a b) * Activation.sigmoid_derivr (Z i a) := by
  refine .of_has ?_
  unfold back
  refine stepM (Hd.transposen_spec w hW) fun t h1 w1 k1 f1 a1 => ?_
  have K1 := k1
  adv k1
  refine stepM (Hd.multn_spec w1 he a1) fun t2 h2 w2 k2 f2 a2 => ?_
  have K2 := K1.trans k2
  adv k2
  refine stepM (Hd.lifts_mat Activation.sigmoid_derivm_lifts w2 hz) fun t3 h3 w3 k3 f3 a3 => ?_
  have K3 := K2.trans k3
  adv k3
  refine (Hd.hadamard_productnm_spec w3 a2 a3).has.mono fun r h4 ⟨w4, k4, f4, a4⟩ => ⟨w4, K3.trans k4, f4.mono K3, ?_⟩
  exact a4

theorem slope2v_spec (w : h.WF) {e : Fin c → ℝ} {v : Fin m → ℝ} (he : HasV h er e) (ha : HasV h a v) (r : ℝ) :
    ReturnsMat (slope2v er a r) h fun i b => v i * e b * r := by
  refine .of_has ?_
  unfold slope2v
  refine stepM (Hd.outer_product_spec w he ha) fun t h1 w1 k1 f1 a1 => ?_
  have K1 := k1
  adv k1
  refine stepM (Hd.transposen_spec w1 a1) fun t2 h2 w2 k2 f2 a2 => ?_
  have K2 := K1.trans k2
  adv k2
  refine (Hd.scalar_multiplynm_spec w2 a2 r).has.mono fun t h3 ⟨w3, k3, f3, a3⟩ => ⟨w3, K2.trans k3, f3.mono K2, ?_⟩
  refine cast (congrArg _ ?_) a3
  funext i b
  show e b * v i * r = v i * e b * r
  rw [mul_comm (v i)]

theorem backv_spec (w : h.WF) {e : Fin c → ℝ} {W : Matrix (Fin m) (Fin c) ℝ} {v : Fin m → ℝ} (he : HasV h er e) (hW : HasM h W2 W)
    (hz : HasV h z v) : ReturnsVec (backv er W2 z) h fun a => (∑ b, e b * W a b) * Activation.sigmoid_derivr (v a) := by
  refine .of_has ?_
  unfold backv
  refine stepV (Hd.mult_vec_spec w hW he) fun t h1 w1 k1 f1 a1 => ?_
  have K1 := k1
  adv k1
  refine stepV (Hd.lifts_vec Activation.sigmoid_derivv_lifts w1 hz) fun t2 h2 w2 k2 f2 a2 => ?_
  have K2 := K1.trans k2
  adv k2
  refine (Hd.hadamard_productn_spec w2 a1 a2).has.mono fun r h3 ⟨w3, k3, f3, a3⟩ => ⟨w3, K2.trans k3, f3.mono K2, ?_⟩
  refine cast (congrArg _ ?_) a3
  funext i
  congr 1
  simp only [Matrix.mulVec, dotProduct]
  exact Finset.sum_congr rfl fun b _ => mul_comm _ _

theorem slope1v_spec (w : h.WF) {v : Fin k → ℝ} {D : Fin m → ℝ} (hx : HasV h x v) (hd : HasV h er D) (r : ℝ) :
    ReturnsMat (slope1v x er r) h fun j a => v j * D a * r := by
  refine .of_has ?_
  unfold slope1v
  refine stepM (Hd.outer_product_spec w hx hd) fun t h1 w1 k1 f1 a1 => ?_
  have K1 := k1
  adv k1
  exact (Hd.scalar_multiplynm_spec w1 a1 r).has.mono fun t h3 ⟨w3, k3, f3, a3⟩ => ⟨w3, K1.trans k3, f3.mono K1, a3⟩

end TwoLayer
end Verif
