import Verif.Lemmas.MatrixOps
import Verif.Lemmas.Example
import Mathlib.LinearAlgebra.Matrix.Notation
import Mathlib.Tactic.FinCases

/-!
# C19, C20, C30: products, transposition, matrix-vector operations

`IsMat h o A`: object `o` contains the mathematical matrix `A` (Verif/Spec/Matrix.lean). The arithmetic is that of any
(non-unital, non-associative) semiring: sums are finite sums, nothing is rounded.
-/

namespace Verif
open Spec
variable {R : Type} {m n p : Nat}

/-! ## C19: matrix product -/

/-- **C19**, `multn`: the result is a new matrix containing `A * B`; `a` and `b` may be the same object. -/
theorem C19_multn [NonUnitalNonAssocSemiring R] (h : Heap R) (w : h.WF) (a b : Nat) (A : Matrix (Fin m) (Fin n) R)
    (B : Matrix (Fin n) (Fin p) R) (hA : IsMat h a A) (hB : IsMat h b B) (la : h.live (.m a)) (lb : h.live (.m b)) :
    ReturnsMat (Mat.multn a (some b)) h (A * B) := Mat.multn_spec w hA hB la lb

/-- **C19**, `multb`, into a matrix that is neither operand. Missing: a target that is an operand, see
`C19_multb_aliased_fails`. -/
theorem C19_multb_partial [NonUnitalNonAssocSemiring R] (h : Heap R) (w : h.WF) (t a b : Nat) (A : Matrix (Fin m) (Fin n) R)
    (B : Matrix (Fin n) (Fin p) R) (hA : IsMat h a A) (hB : IsMat h b B) (la : h.live (.m a)) (lb : h.live (.m b))
    (ta : t ≠ a) (tb : t ≠ b) : SetsMat (Mat.multb t (some a) (some b)) h t (A * B) :=
  Mat.multb_spec w hA hB la lb ta tb

/-- **C19**, `mult` (in place), by a matrix other than the receiver. Missing: `a.mult(a)`, see `C19_mult_self_fails`. -/
theorem C19_mult_partial [NonUnitalNonAssocSemiring R] (h : Heap R) (w : h.WF) (a b : Nat) (A : Matrix (Fin m) (Fin n) R)
    (B : Matrix (Fin n) (Fin p) R) (hA : IsMat h a A) (hB : IsMat h b B) (la : h.live (.m a)) (lb : h.live (.m b))
    (hab : a ≠ b) : SetsMat (Mat.mult a (some b)) h a (A * B) := Mat.mult_spec w hA hB la lb hab

/-- **C19** is false of `a.mult(a)`: whatever the square matrix is, it becomes the zero matrix. -/
theorem C19_mult_self_fails [NonUnitalNonAssocSemiring R] (h : Heap R) (w : h.WF) (a : Nat) (A : Matrix (Fin n) (Fin n) R)
    (hA : IsMat h a A) (la : h.live (.m a)) : SetsMat (Mat.mult a (some a)) h a (0 : Matrix (Fin n) (Fin n) R) := by
  unfold Mat.mult
  refine Runs.step (Mat.size_run a h) (Runs.step (Mat.size_run a h) ?_)
  rw [hA.1]
  simp only [if_true]
  refine (Mat.unN_id_spec w hA la).bind fun o h1 w1 k1 f1 l1 hA1 => ?_
  obtain ⟨F, eF, cA⟩ := hA1.cells w1
  have na : Loc.m o ≠ .m a := fun e => f1 (e ▸ la)
  refine Runs.step (derefM_run o h1) (Runs.step (Mat.size_run o h1) ?_)
  rw [cA.1]
  refine Runs.ensureM w1 rfl fun h2 w2 k2 n2 s2 _ => Runs.fill w2 s2 ?_
  have cA2 := cA.keep k2 l1 na
  refine Runs.step (Mat.size_run a _) (Runs.step (Mat.size_run a _) ?_)
  rw [Gr_size, s2]
  have e : Mat.multLoop (.m o) (.m a) (.m a) n n n n n n (Gr h2 (.m a) n n fun _ _ => (0 : R)) =
      .ok ((), Gr h2 (.m a) n n fun _ _ => (0 : R)) := by
    unfold Mat.multLoop
    refine forN_eq n (fun _ => Gr h2 (.m a) n n fun _ _ => (0 : R)) _ _ rfl fun i hi => ?_
    refine forN_eq n (fun _ => Gr h2 (.m a) n n fun _ _ => (0 : R)) _ _ rfl fun k hk => ?_
    refine forN_eq n (fun _ => Gr h2 (.m a) n n fun _ _ => (0 : R)) _ _ rfl fun j hj => ?_
    rw [bind_ok (load_Gr hi hj), bind_ok (load_Gr_ne na (cA2.get hi hk)), bind_ok (load_Gr hk hj), store_Gr _ hi hj]
    congr 3
    funext x y
    simp [upd2]
  exact Runs.of_eq e (setsMat_Gr w2 ((k1.mono fun _ _ => False.elim).trans k2) s2 fun i j => rfl)

/-- **C19** is false of `a.multb(a, b)`: here `[[1,2],[3,4]] * [[5,6],[7,8]]` gives the zero matrix instead of
`[[19,22],[43,50]]`. -/
theorem C19_multb_aliased_fails :
    (Mat.multb 0 (some 0) (some 1) (Heap.ofLists (0 : Int) [] [(2, 2, [1, 2, 3, 4]), (2, 2, [5, 6, 7, 8])])).bufOf (.m 0) =
      some [0, 0, 0, 0] := by decide +kernel

/-- The hypotheses are met, for instance by these operands. -/
example : (Mat.multn 0 (some 1) (Heap.ofLists (9 : Int) [] [(2, 2, [1, 2, 3, 4]), (1, 2, [5, 6])])).bufOf (.m 2) =
    some [17, 39] := by decide +kernel
example : IsMat (Heap.ofLists (9 : Int) [] [(2, 2, [1, 2, 3, 4]), (1, 2, [5, 6])]) 0 (!![1, 2; 3, 4]) := by
  refine ⟨rfl, ?_⟩; intro i j; fin_cases i <;> fin_cases j <;> rfl

/-- **C09 (matrix product).** Null or non-conformable operands change nothing. -/
theorem C09_matrix_mult_rejects [Zero R] [Add R] [Mul R] (h : Heap R) (t a b : Nat) :
    Mat.mult a none h = .ok ((), h) ∧ Mat.multn a none h = .ok (none, h) ∧
    Mat.multb t none (some b) h = .ok ((), h) ∧ Mat.multb t (some a) none h = .ok ((), h) ∧
    ((h.size (.m a)).x ≠ (h.size (.m b)).y →
      Mat.mult a (some b) h = .ok ((), h) ∧ Mat.multn a (some b) h = .ok (none, h) ∧
      Mat.multb t (some a) (some b) h = .ok ((), h)) := by
  refine ⟨rfl, rfl, rfl, rfl, fun hne => ⟨?_, ?_, ?_⟩⟩
  · unfold Mat.mult; dsimp only; rw [bind_ok (Mat.size_run b h), bind_ok (Mat.size_run a h), if_neg hne]; rfl
  · unfold Mat.multn; dsimp only; rw [bind_ok (Mat.size_run b h), bind_ok (Mat.size_run a h), if_neg hne]; rfl
  · unfold Mat.multb; dsimp only; rw [bind_ok (Mat.size_run a h), bind_ok (Mat.size_run b h), if_neg hne]; rfl

/-! ## C20: transpose -/

/-- **C20**, in place. -/
theorem C20_transpose (h : Heap R) (w : h.WF) (a : Nat) (A : Matrix (Fin m) (Fin n) R) (hA : IsMat h a A)
    (la : h.live (.m a)) : SetsMat (Mat.transpose a) h a A.transpose := Mat.transpose_spec w hA la

/-- **C20**, `transposen`. -/
theorem C20_transposen (h : Heap R) (w : h.WF) (a : Nat) (A : Matrix (Fin m) (Fin n) R) (hA : IsMat h a A)
    (la : h.live (.m a)) : ReturnsMat (Mat.transposen a) h A.transpose := Mat.transposen_spec w hA la

/-- **C20**, `transposeb` into another matrix. Missing: `a.transposeb(a)`, see `C20_transposeb_aliased_fails`. -/
theorem C20_transposeb_partial (h : Heap R) (w : h.WF) (t a : Nat) (A : Matrix (Fin m) (Fin n) R) (hA : IsMat h a A)
    (la : h.live (.m a)) (ta : t ≠ a) : SetsMat (Mat.transposeb t (some a)) h t A.transpose :=
  Mat.transposeb_spec w hA la ta

/-- **C20**: transposing twice gives back the matrix. -/
theorem C20_transpose_twice (h : Heap R) (w : h.WF) (a : Nat) (A : Matrix (Fin m) (Fin n) R) (hA : IsMat h a A)
    (la : h.live (.m a)) : SetsMat (do Mat.transpose a; Mat.transpose a) h a A := by
  refine Runs.bind (Runs.mono (Mat.transpose_spec w hA la) ?_)
  rintro _ h' ⟨w', k, hA'⟩
  refine Runs.mono (Mat.transpose_spec w' hA' (k.live la)) ?_
  rintro _ h'' ⟨w'', k', hA''⟩
  exact ⟨w'', k.trans k', hA''⟩

/-- **C20** is false of `a.transposeb(a)`: `[[1,2],[3,4]]` becomes `[[1,2],[2,4]]`. -/
theorem C20_transposeb_aliased_fails :
    (Mat.transposeb 0 (some 0) (Heap.ofLists (0 : Int) [] [(2, 2, [1, 2, 3, 4])])).bufOf (.m 0) = some [1, 2, 2, 4] := by
  decide +kernel

example : (Mat.transpose 0 (Heap.ofLists (0 : Int) [] [(3, 2, [1, 2, 3, 4, 5, 6])])).bufOf (.m 0) =
    some [1, 4, 2, 5, 3, 6] := by decide +kernel

/-! ## C30: matrix-vector operations -/

/-- **C30**, `mult_vec` is the matrix-vector product. -/
theorem C30_mult_vec [NonUnitalNonAssocSemiring R] (h : Heap R) (w : h.WF) (a b : Nat) (A : Matrix (Fin m) (Fin n) R)
    (v : Fin n → R) (hA : IsMat h a A) (hB : IsVec h b v) (la : h.live (.m a)) (lb : h.live (.v b)) :
    ReturnsVec (Mat.mult_vec a (some b)) h (A.mulVec v) := Mat.mult_vec_spec w hA hB la lb

/-- **C30**, `mult_veco`, into a vector other than the operand. -/
theorem C30_mult_veco [NonUnitalNonAssocSemiring R] (h : Heap R) (w : h.WF) (a b t : Nat) (A : Matrix (Fin m) (Fin n) R)
    (v : Fin n → R) (hA : IsMat h a A) (hB : IsVec h b v) (la : h.live (.m a)) (lb : h.live (.v b)) (tb : t ≠ b) :
    SetsVec (Mat.mult_veco a (some b) (some t)) h t (A.mulVec v) := Mat.mult_veco_spec w hA hB la lb tb

/-- **C09 (mult_vec)** is false: a vector shorter than the rows is accepted, the remaining columns are ignored. -/
theorem C09_mult_vec_accepts_short_fails :
    (Mat.mult_vec 0 (some 0) (Heap.ofLists (0 : Int) [[10]] [(2, 2, [1, 2, 3, 4])])).bufOf (.v 2) = some [10, 30] := by
  decide +kernel

/-- **C30**, `add_vec`, `add_vecn`, `add_vecb` add the vector to every row; the target of `add_vecb` may be its operand. -/
theorem C30_add_vec [Add R] (h : Heap R) (w : h.WF) (t a b : Nat) (A : Matrix (Fin m) (Fin n) R) (v : Fin n → R)
    (hA : IsMat h a A) (hB : IsVec h b v) (la : h.live (.m a)) (lb : h.live (.v b)) :
    SetsMat (Mat.add_vec a (some b)) h a (fun i j => A i j + v j) ∧
    ReturnsMat (Mat.add_vecn a (some b)) h (fun i j => A i j + v j) ∧
    SetsMat (Mat.add_vecb t (some a) (some b)) h t (fun i j => A i j + v j) :=
  ⟨Mat.add_vec_spec w hA hB, Mat.add_vecn_spec w hA hB la lb, Mat.add_vecb_spec w hA hB la lb⟩

example : (Mat.add_vecb 0 (some 0) (some 0) (Heap.ofLists (0 : Int) [[10, 20]] [(2, 2, [1, 2, 3, 4])])).bufOf (.m 0) =
    some [11, 22, 13, 24] := by decide +kernel

/-- **C30**, `outer_product(a, b)` has cells `a_i * b_j`. -/
theorem C30_outer_product [Mul R] (h : Heap R) (w : h.WF) (t a b : Nat) (u : Fin m → R) (v : Fin n → R)
    (hA : IsVec h a u) (hB : IsVec h b v) (la : h.live (.v a)) (lb : h.live (.v b)) :
    SetsMat (Mat.outer_product t (some a) (some b)) h t (Matrix.vecMulVec u v) ∧
    ReturnsMat (Mat.outer_productn (some a) (some b)) h (Matrix.vecMulVec u v) :=
  ⟨Mat.outer_product_spec w hA hB la lb, Mat.outer_productn_spec w hA hB la lb⟩

/-- **C30**, `flatten` lists the cells row by row. -/
theorem C30_flatten (h : Heap R) (w : h.WF) (a : Nat) (A : Matrix (Fin m) (Fin n) R) (hA : IsMat h a A) (la : h.live (.m a)) :
    Runs (Mat.flatten a) h fun r h' => ∃ o, r = some (.v o) ∧ ¬ h.live (.v o) ∧ h'.live (.v o) ∧ h'.WF ∧
      Keeps h h' (fun _ => False) ∧ h'.size (.v o) = ⟨n * m, 1, 1⟩ ∧
      ∀ (i : Fin m) (j : Fin n), (h'.buf (.v o))[i.val * n + j.val]? = some (A i j) := Mat.flatten_spec w hA la

/-- **C30**, `flatteno`. -/
theorem C30_flatteno (h : Heap R) (w : h.WF) (a t : Nat) (A : Matrix (Fin m) (Fin n) R) (hA : IsMat h a A)
    (la : h.live (.m a)) :
    Runs (Mat.flatteno a (some t)) h fun _ h' => h'.WF ∧
      Keeps h h' (· = .v t) ∧ h'.size (.v t) = ⟨n * m, 1, 1⟩ ∧
      ∀ (i : Fin m) (j : Fin n), (h'.buf (.v t))[i.val * n + j.val]? = some (A i j) := Mat.flatteno_spec w hA la

example : (Mat.flatten 0 (Heap.ofLists (0 : Int) [] [(2, 3, [1, 2, 3, 4, 5, 6])])).bufOf (.v 1) =
    some [1, 2, 3, 4, 5, 6] := by decide +kernel

end Verif
