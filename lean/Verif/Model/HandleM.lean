import Verif.Model.Handle
import Verif.Model.Softmax

/-! # More method calls through handles, on matrices

As in Model/Handle.lean: each definition is the method of the same name of `Model/Vector.lean` or `Model/Matrix.lean`. -/

namespace Verif.Hd
noncomputable section

/-- `a->subn(b)` of matrices, mlpp_matrix.cpp:738-757. -/
def subnm (a b : Ref) : M ℝ Ref := do Mat.subn (← derefM a) b.mat
/-- `a->sub(b)` of matrices, mlpp_matrix.cpp:725-737. -/
def subm (a b : Ref) : M ℝ Unit := do Mat.sub (← derefM a) b.mat
/-- `a->hadamard_productn(b)` of matrices, mlpp_matrix.cpp:893-912. -/
def hadamard_productnm (a b : Ref) : M ℝ Ref := do Mat.hadamard_productn (← derefM a) b.mat
/-- `a->add_vecn(b)`, mlpp_matrix.cpp:2847-2867. -/
def add_vecn (a b : Ref) : M ℝ Ref := do Mat.add_vecn (← derefM a) b.vec
/-- `a->add_vec(b)`, mlpp_matrix.cpp:2831-2845. -/
def add_vec (a b : Ref) : M ℝ Unit := do Mat.add_vec (← derefM a) b.vec
/-- `a->multb(b, c)`, mlpp_matrix.cpp:846-878. -/
def multb (a b c : Ref) : M ℝ Unit := do Mat.multb (← derefM a) b.mat c.mat
/-- `a->set_from_mlpp_matrix(b)`, mlpp_matrix.cpp:453-460. -/
def set_from_mlpp_matrix (a b : Ref) : M ℝ Unit := do Mat.set_from_mlpp_matrix (← derefM a) b.mat
/-- `a->row_set_mlpp_vector(i, row)`, mlpp_matrix.cpp:389-401. -/
def row_set_mlpp_vector (a : Ref) (i : Int) (row : Ref) : M ℝ Unit := do Mat.row_set_mlpp_vector (← derefM a) i row.vec
/-- `a->resize(size)` of a matrix, mlpp_matrix.cpp:259-273. -/
def resizem (a : Ref) (s : Size) : M ℝ Unit := do resizeTo (.m (← derefM a)) s
/-- `a->resize(n)` of a vector, mlpp_vector.cpp:159-170. -/
def resizev (a : Ref) (n : Nat) : M ℝ Unit := do resizeTo (.v (← derefV a)) ⟨n, 1, 1⟩

/-- `a->outer_product(b)`, mlpp_vector.cpp:1407-1425. -/
def outer_product (a b : Ref) : M ℝ Ref := do Vec.outer_product (← derefV a) b.vec
/-- `a->subtract_matrix_rows(B)`, mlpp_vector.cpp:1358-1371. -/
def subtract_matrix_rows (a B : Ref) : M ℝ Unit := do Vec.subtract_matrix_rows (← derefV a) B.mat
/-- `a->set_from_mlpp_vector(b)`, mlpp_vector.cpp:259-269. -/
def set_from_mlpp_vector (a b : Ref) : M ℝ Unit := do Vec.set_from_mlpp_vector (← derefV a) b.vec
/-- `a->fill(x)` of a vector, mlpp_vector.cpp:172-176. -/
def fillv (a : Ref) (x : ℝ) : M ℝ Unit := do fillAll (.v (← derefV a)) x

end
end Verif.Hd
