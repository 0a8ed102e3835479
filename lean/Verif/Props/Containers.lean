import Verif.Lemmas.GanBase
import Verif.Lemmas.LinAlgMatrix
import Verif.Props.MatrixElementwise
import Verif.Props.TensorOps
import Verif.Props.LinAlgElementwise

/-!
# C03, C17, C26, C30, C32, C50: flat indices, constant vectors, diagonal matrices, cube roots
-/

namespace Verif
open Spec LinAlg
variable {R : Type} {m n d r c : Nat}

theorem idxOk_of_lt {i n : Nat} (hi : i < n) : idxOk (i : Int) n = true := by simp [idxOk, hi]
theorem idxOk_of_not {p : Int} {n : Nat} (hp : ¬ Valid p n) : idxOk p n = false := by
  unfold Valid at hp; unfold idxOk; simp only [decide_eq_false_iff_not]; exact hp

/-- **C17**, the flat index `i * columns + j` reads and writes the cell `(i, j)`: `element_get_index` and `element_set_index` do what
`element_get(i, j)` and `element_set(i, j)` do. -/
theorem C17_matrix_index [Zero R] (h : Heap R) (w : h.WF) (o : Nat) (A : Matrix (Fin m) (Fin n) R) (hA : IsMat h o A)
    (i : Fin m) (j : Fin n) (v : R) :
    Mat.element_get_index o ((i.val * n + j.val : Nat) : Int) h = .ok (A i j, h) ∧
    SetsMat (Mat.element_set_index o ((i.val * n + j.val : Nat) : Int) v) h o (fun i' j' => if i' = i ∧ j' = j then v else A i' j') := by
  have hlt : i.val * n + j.val < (h.buf (.m o)).length := (List.getElem?_eq_some_iff.mp (hA.2 i j)).1
  have hc : i.val * n + j.val < (h.size (.m o)).count := by rw [← w.len]; exact hlt
  constructor
  · unfold Mat.element_get_index
    rw [bind_ok (Mat.size_run o h), if_pos (idxOk_of_lt hc), Int.toNat_natCast]
    exact load_ok (hA.2 i j)
  · refine Runs.congr ?_ (C17_matrix_cells h w o A hA i j v).2
    unfold Mat.element_set_index Mat.element_set
    rw [bind_ok (Mat.size_run o h), bind_ok (Mat.size_run o h), if_pos (idxOk_of_lt hc), hA.1]
    dsimp only
    rw [if_pos (idxOk_of_lt j.isLt), if_pos (idxOk_of_lt i.isLt), Int.toNat_natCast, ← Int.natCast_mul, ← Int.natCast_add,
      Int.toNat_natCast]

/-- **C32**, the flat index `y * columns + x + columns * rows * z` reads and writes the cell `(z, y, x)`. -/
theorem C32_tensor_index [Zero R] (h : Heap R) (w : h.WF) (o : Nat) (T : Fin d → Fin r → Fin c → R) (hT : IsTen h o T)
    (z : Fin d) (y : Fin r) (x : Fin c) (v : R) :
    Ten.element_get_index o ((y.val * c + x.val + c * r * z.val : Nat) : Int) h = .ok (T z y x, h) ∧
    SetsTen (Ten.element_set_index o ((y.val * c + x.val + c * r * z.val : Nat) : Int) v) h o
      (fun z' y' x' => if z' = z ∧ y' = y ∧ x' = x then v else T z' y' x') := by
  have hlt : y.val * c + x.val + c * r * z.val < (h.buf (.t o)).length := (List.getElem?_eq_some_iff.mp (hT.2 z y x)).1
  have hc : y.val * c + x.val + c * r * z.val < (h.size (.t o)).count := by rw [← w.len]; exact hlt
  have sz : Ten.size o h = .ok (h.size (.t o), h) := getSize_run _ _
  constructor
  · unfold Ten.element_get_index
    rw [bind_ok sz, if_pos (idxOk_of_lt hc), Int.toNat_natCast]
    exact load_ok (hT.2 z y x)
  · refine Runs.congr ?_ (C32_tensor_cells h w o T hT z y x v).2
    unfold Ten.element_set_index Ten.element_set
    rw [bind_ok sz, bind_ok sz, if_pos (idxOk_of_lt hc), hT.1]
    dsimp only
    rw [if_pos (idxOk_of_lt x.isLt), if_pos (idxOk_of_lt y.isLt), if_pos (idxOk_of_lt z.isLt), Int.toNat_natCast]
    congr 1

/-- **C03**, flat indices outside the object: reads give 0, writes do nothing, for matrices and tensors. -/
theorem C03_flat_index [Zero R] (h : Heap R) (o : Nat) (p : Int) (v : R) :
    (¬ Valid p (h.size (.m o)).count → Mat.element_get_index o p h = .ok (0, h) ∧ Mat.element_set_index o p v h = .ok ((), h)) ∧
    (¬ Valid p (h.size (.t o)).count → Ten.element_get_index o p h = .ok (0, h) ∧ Ten.element_set_index o p v h = .ok ((), h)) := by
  have f : ∀ {p n}, ¬ Valid p n → ¬ (idxOk p n = true) := fun hp => by rw [idxOk_of_not hp]; exact Bool.false_ne_true
  refine ⟨fun hp => ⟨?_, ?_⟩, fun hp => ⟨?_, ?_⟩⟩
  · unfold Mat.element_get_index; rw [bind_ok (Mat.size_run o h), if_neg (f hp)]; rfl
  · unfold Mat.element_set_index; rw [bind_ok (Mat.size_run o h), if_neg (f hp)]; rfl
  · unfold Ten.element_get_index Ten.size; rw [bind_ok (getSize_run (.t o) h), if_neg (f hp)]; rfl
  · unfold Ten.element_set_index Ten.size; rw [bind_ok (getSize_run (.t o) h), if_neg (f hp)]; rfl

/-- A 2 × 3 matrix has such a cell, and no cell with flat index 6. -/
example : ∃ (h : Heap ℝ) (A : Matrix (Fin 2) (Fin 3) ℝ), h.WF ∧ IsMat h 0 A ∧ ¬ Valid 6 (h.size (.m 0)).count :=
  ⟨Heap.ofLists 0 [] [(3, 2, [1, 2, 3, 4, 5, 6])], fun i j => (i.val * 3 + j.val + 1 : Nat), Heap.ofLists_wf _ _ _ (by simp),
    ⟨rfl, fun i j => by fin_cases i <;> fin_cases j <;> simp [Heap.ofLists] <;> norm_num⟩, by
      simp [Valid, Heap.ofLists, Size.count]⟩

/-- **C26**, `vecn_zero(n)`, `vecn_one(n)`, `vecn_full(n, k)` (and the static `create_vec_*`) are new constant vectors of `n` elements. -/
theorem C26_constant_vectors (h : Heap ℝ) (w : h.WF) (n : Nat) (k : Int) :
    ReturnsVec (Vec.vecn_zero (R := ℝ) n) h (fun _ : Fin n => 0) ∧ ReturnsVec (Vec.vecn_one (R := ℝ) n) h (fun _ : Fin n => 1) ∧
    ReturnsVec (Vec.vecn_full (R := ℝ) n k) h (fun _ : Fin n => (k : ℝ)) :=
  ⟨zero_run w n, one_run w n, const_run w n k⟩

/-- **C26**, `diagnm()` of a vector is the square matrix with that diagonal and zeros elsewhere. -/
theorem C26_vector_diag [Zero R] (h : Heap R) (w : h.WF) (a : Nat) (v : Fin n → R) (hv : IsVec h a v) (la : h.live (.v a)) :
    ReturnsMat (Vec.diagnm a) h (Matrix.diagonal v) := by
  refine Runs.congr ?_ (diagnm_spec w hv la)
  unfold Vec.diagnm diagnm Vec.size Mat.diagLoop
  rw [newMat_size la, bind_ok (derefV_run a h), bind_assoc, bind_ok (getSize_run (.v a) h)]
  rfl

/-- **C30**, `subtract_matrix_rowsb(a, B)` makes this vector `a` minus all rows of `B`; this vector may be `a` itself. -/
theorem C30_subtract_matrix_rowsb (h : Heap ℝ) (w : h.WF) (t a b : Nat) (u : Fin n → ℝ) (B : Matrix (Fin m) (Fin n) ℝ) (hu : IsVec h a u)
    (hB : IsMat h b B) (lb : h.live (.m b)) :
    SetsVec (Vec.subtract_matrix_rowsb t (some a) (some b)) h t (fun j => u j - ∑ i, B i j) := by
  unfold Vec.subtract_matrix_rowsb
  refine Runs.step rfl (Runs.step (getSize_run (.m b) h) (Runs.step rfl (Runs.step (getSize_run (.v a) h) ?_)))
  rw [hu.1, hB.1]
  simp only [if_true]
  refine Runs.bind ((Vec.set_from_spec w (t := t) hu).mono fun _ h1 ⟨w1, k1, u1⟩ => ?_)
  have hB1 := hB.keep k1 lb nofun
  refine Runs.mono (show SetsVec _ h1 t _ from Runs.congr ?_ (Vec.subtract_matrix_rows_spec w1 u1 hB1)) fun _ h2 ⟨w2, k2, u2⟩ => ⟨w2, k1.trans k2, u2⟩
  unfold Vec.subtract_matrix_rows Vec.size
  rw [show (deref (Option.map Loc.m (some b)) >>= _) h1 = _ from bind_ok rfl, bind_ok (getSize_run (.m b) h1), bind_assoc,
    bind_ok (getSize_run (.v t) h1), hB1.1, u1.1]
  simp only [pure_bind, if_true]

/-- **C50**, `cbrtnm` and `cbrtnv` raise every element to the power 1/3; a null operand gives null. -/
theorem C50_cbrt [MathFns R] [LT R] [DecidableLT R] [Neg R] [Zero R] [Add R] [Mul R] [One R] [IntCast R] [Div R] :
    (Lifts Loc.m (fun x : R => MathFns.pow x (1 / ((3 : Int) : R))) cbrtnm ∧ Rejects1 (R := R) Loc.m cbrtnm) ∧
    (Lifts Loc.v (fun x : R => MathFns.pow x (1 / ((3 : Int) : R))) cbrtnv ∧ Rejects1 (R := R) Loc.v cbrtnv) := by
  have a := C50_matrix1 (R := R) (1 / ((3 : Int) : R))
  have b := C50_vector1 (R := R) (1 / ((3 : Int) : R))
  exact ⟨a.2.2.2.2.2.2.2.2, b.2.2.2.2.2.2.2.2.1⟩

end Verif
