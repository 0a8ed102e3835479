import Verif.Lemmas.Cost
import Verif.Lemmas.LinAlgMatrix
import Verif.Lemmas.GramSchmidt
import Verif.Lemmas.Advance
import Verif.Lemmas.Fill
import Verif.Lemmas.RowCells
import Verif.Lemmas.New

/-! # The dual form of the support vector machine -/

namespace Verif
open Spec Finset LinAlg
variable {m n : Nat}

theorem fullV_spec {R : Type} {h : Heap R} (w : h.WF) (n : Nat) (k : R) : ReturnsVec (fullV n k) h (fun _ : Fin n => k) := by
  refine Runs.mono (Ev.fullV (h0 := h) (d := List.replicate n ()) rfl (by simp) k h w (Keeps.refl _ _)) ?_
  rintro _ h' ⟨o, rfl, h1, h2, h3, h4, h5⟩
  refine ⟨o, rfl, h1 trivial, h2, h3, h4, h5.1, fun i => ?_⟩
  rw [h5.2]; simp

theorem dotnv_run {R : Type} [CommRing R] {h : Heap R} (w : h.WF) {a b : Nat} {u v : Fin n → R} (ha : IsVec h a u) (hb : IsVec h b v) :
    dotnv (some (.v a)) (some (.v b)) h = .ok (∑ i, u i * v i, h) := by
  obtain ⟨f, ef, cf⟩ := ha.cells w
  obtain ⟨g, eg, cg⟩ := hb.cells w
  refine Eq.trans (?_ : _ = Vec.dot a (some b) h) ((Vec.dot_cells w cf cg).trans ?_)
  · rfl
  · rw [foldl_add_eq_sum, zero_add]
    simp only [ef, eg]

namespace Cost

/-- The kernel matrix with the signs of the targets. -/
noncomputable def svmKernel (X : Matrix (Fin m) (Fin n) ℝ) (y : Fin m → ℝ) : Matrix (Fin m) (Fin m) ℝ :=
  (Matrix.diagonal y).transpose * (X * X.transpose) * Matrix.diagonal y

theorem svmKernel_apply (X : Matrix (Fin m) (Fin n) ℝ) (y : Fin m → ℝ) (i j : Fin m) :
    svmKernel X y i j = y i * y j * ∑ k, X i k * X j k := by
  unfold svmKernel
  rw [Matrix.diagonal_transpose, Matrix.mul_diagonal, Matrix.diagonal_mul, Matrix.mul_apply]
  simp only [Matrix.transpose_apply]; ring

theorem svmQ_spec {h : Heap ℝ} (w : h.WF) {x y : Nat} {X : Matrix (Fin m) (Fin n) ℝ} {v : Fin m → ℝ} (hx : IsMat h x X)
    (hy : IsVec h y v) (lx : h.live (.m x)) (ly : h.live (.v y)) :
    ReturnsMat (svmQ (some (.m x)) (some (.v y))) h (svmKernel X v) := by
  unfold svmQ ReturnsMat
  refine (diagnm_spec w hy ly).bind fun o1 h1 w1 k1 f1 l1 q1 => ?_
  have k := k1
  advance k1
  refine (transposenm_spec w1 hx lx).bind fun o2 h2 w2 k2 f2 l2 q2 => ?_
  advance k2
  refine (matmultnm_spec w2 hx q2 lx l2).bind fun o3 h3 w3 k3 f3 l3 q3 => ?_
  advance k3
  refine (transposenm_spec w3 q1 l1).bind fun o4 h4 w4 k4 f4 l4 q4 => ?_
  advance k4
  refine (matmultnm_spec w4 q4 q3 l4 l3).bind fun o5 h5 w5 k5 f5 l5 q5 => ?_
  advance k5
  exact (matmultnm_spec w5 q5 q1 l5 l1).from k

theorem dual_form_svm_spec {h : Heap ℝ} (w : h.WF) {a x y : Nat} {X : Matrix (Fin m) (Fin n) ℝ} {α v : Fin m → ℝ} (ha : IsVec h a α)
    (hx : IsMat h x X) (hy : IsVec h y v) (la : h.live (.v a)) (lx : h.live (.m x)) (ly : h.live (.v y)) :
    ReturnsVal (dual_form_svm (some (.v a)) (some (.m x)) (some (.v y))) h (svmDual X v α) := by
  unfold dual_form_svm ReturnsVal
  refine (svmQ_spec w hx hy lx ly).bind fun q h1 w1 k1 f1 l1 q1 => ?_
  have k := k1
  advance k1
  obtain ⟨f, ef, cf⟩ := ha.cells w1
  refine Runs.congr (newMat_size la fun alpha_m s => do
    resizeTo alpha_m ⟨s.x, 1, 1⟩
    Mat.row_set_mlpp_vector alpha_m.id 0 (some a)
    let aQ ← matmultnm (some alpha_m) (some (.m q))
    let aT ← transposenm (some alpha_m)
    let res ← matmultnm aQ aT
    let r ← derefM res
    let alphaQ ← Mat.element_get r 0 0
    let one ← onevecnv s.x
    let d ← dotnv one (some (.v a))
    pure (-d + 0.5 * alphaQ)) ?_
  rw [cf.1]
  refine Runs.newMat w1 (s := ⟨m, 1, 1⟩) rfl fun h2 w2 k2 f2 l2 s2 => ?_
  have hne : q ≠ h1.next := fun e => f2 (e ▸ l1)
  have nl : ¬ h.live (.m h1.next) := fun e => f2 (k.live e)
  advance k2
  obtain ⟨F, cF⟩ := exists_Cells w2 s2
  obtain ⟨h3, e3, u3⟩ := Mat.rowSet_run cF cf (i := 0) (by omega)
  refine Runs.step e3 ?_
  have w3 := u3.wf w2
  have c3 := u3.cells
  have k3 : Keeps h2 h3 (· = .m h1.next) := u3.keeps
  have k := k.trans_new k3 fun l e hl => nl (e ▸ hl)
  have qm : IsMat h3 h1.next (Matrix.of fun (_ : Fin 1) j => α j) :=
    c3.isMat fun i j => by simp [ef]
  have l2 := k3.live l2
  have q1 := q1.keep k3 l1 (by simpa using hne)
  have l1 := k3.live l1
  have ha := ha.keep k3 la nofun
  have la := k3.live la
  refine (matmultnm_spec w3 qm q1 l2 l1).bind fun o4 h4 w4 k4 f4 l4 q4 => ?_
  advance k4
  refine (transposenm_spec w4 qm l2).bind fun o5 h5 w5 k5 f5 l5 q5 => ?_
  advance k5
  refine (matmultnm_spec w5 q4 q5 l4 l5).bind fun o6 h6 w6 k6 f6 l6 q6 => ?_
  advance k6
  refine Runs.step (derefM_run o6 h6) ?_
  obtain ⟨G, eG, cG⟩ := q6.cells w6
  refine Runs.step (Mat.element_get_run (i := 0) (j := 0) cG (by omega) (by omega)) ?_
  refine (fullV_spec w6 m (1 : ℝ)).bind fun o7 h7 w7 k7 f7 l7 q7 => ?_
  advance k7
  refine Runs.step (dotnv_run w7 q7 ha) ⟨?_, w7, k⟩
  have := eG 0 0
  simp only [Fin.val_zero] at this
  rw [← this]
  simp only [svmDual, Matrix.mul_apply, Matrix.transpose_apply, Matrix.of_apply, svmKernel_apply, one_mul]
  norm_num
  simp only [Finset.sum_mul]
  rw [Finset.sum_comm]
  exact Finset.sum_congr rfl fun i _ => Finset.sum_congr rfl fun j _ => by ring

theorem dual_form_svm_deriv_spec {h : Heap ℝ} (w : h.WF) {a x y : Nat} {X : Matrix (Fin m) (Fin n) ℝ} {α v : Fin m → ℝ} (ha : IsVec h a α)
    (hx : IsMat h x X) (hy : IsVec h y v) (la : h.live (.v a)) (lx : h.live (.m x)) (ly : h.live (.v y)) :
    ReturnsVec (dual_form_svm_deriv (some (.v a)) (some (.m x)) (some (.v y))) h fun i => (svmKernel X v).mulVec α i - 1 := by
  unfold dual_form_svm_deriv ReturnsVec
  refine (svmQ_spec w hx hy lx ly).bind fun q h1 w1 k1 f1 l1 q1 => ?_
  have k := k1
  advance k1
  refine (mat_vec_multnv_spec w1 q1 ha l1 la).bind fun o2 h2 w2 k2 f2 l2 q2 => ?_
  advance k2
  refine Runs.step (derefV_run a h2) (Runs.step (a := m) (h' := h2) ?_ ?_)
  · unfold Vec.size; rw [bind_ok (getSize_run _ _), ha.1]; rfl
  refine (fullV_spec w2 m (1 : ℝ)).bind fun o3 h3 w3 k3 f3 l3 q3 => ?_
  advance k3
  exact (subV_lifts.vec w3 q2 q3 l2 l3).from k

theorem svmDual_gradient (X : Matrix (Fin m) (Fin n) ℝ) (y α : Fin m → ℝ) :
    Gradient (svmDual X y) α fun i => (svmKernel X y).mulVec α i - 1 := by
  intro i
  have hu : ∀ j, HasDerivAt (fun t => Function.update α i t j) (if j = i then 1 else 0) (α i) := by
    intro j
    by_cases e : j = i
    · subst e; simpa using hasDerivAt_id' (α j)
    · simpa [e] using hasDerivAt_const (α i) (α j)
  have h1 := (HasDerivAt.fun_sum (u := Finset.univ) fun j _ => hu j).neg
  have h2 := (HasDerivAt.fun_sum (u := Finset.univ) fun j (_ : j ∈ Finset.univ) => HasDerivAt.fun_sum (u := Finset.univ) fun k (_ : k ∈ Finset.univ) =>
    (((hu j).mul (hu k)).mul_const (y j * y k)).mul_const (∑ l, X j l * X k l)).const_mul (1 / 2)
  refine HasDerivAt.congr_deriv (h1.add h2) ?_
  simp only [Function.update_eq_self]
  simp only [Matrix.mulVec, dotProduct, svmKernel_apply, Finset.sum_ite_eq', Finset.mem_univ, if_true]
  have e1 : ∀ j k, ((if j = i then (1 : ℝ) else 0) * α k + α j * (if k = i then 1 else 0)) * (y j * y k) * (∑ l, X j l * X k l) =
      (if j = i then α k * (y j * y k) * (∑ l, X j l * X k l) else 0) + if k = i then α j * (y j * y k) * (∑ l, X j l * X k l) else 0 := by
    intro j k; split <;> split <;> ring
  simp only [e1, Finset.sum_add_distrib, Finset.sum_ite_eq', Finset.mem_univ, if_true]
  rw [Finset.sum_comm]
  simp only [Finset.sum_ite_eq', Finset.mem_univ, if_true]
  have e2 : ∀ k, α k * (y k * y i) * (∑ l, X k l * X i l) = y i * y k * (∑ l, X i l * X k l) * α k := by
    intro k
    rw [show (∑ l, X k l * X i l) = ∑ l, X i l * X k l from Finset.sum_congr rfl fun _ _ => mul_comm _ _]; ring
  have e3 : ∀ k, α k * (y i * y k) * (∑ l, X i l * X k l) = y i * y k * (∑ l, X i l * X k l) * α k := by intro k; ring
  simp only [e2, e3]
  ring

end Cost
end Verif
