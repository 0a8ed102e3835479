import Verif.Model.Matrix
import Verif.Model.Reg

/-!
# Method calls through handles

`a->f(b)`: the handle `a` is dereferenced (null: undefined behaviour); an argument is a handle, possibly null. Each definition is the
method of `Model/Vector.lean` or `Model/Matrix.lean` of the same name, cited there.
-/

namespace Verif
variable {R : Type}

/-- The vector a handle of type `Ref<MLPPVector>` refers to; conversion as in platform/sfw.h:19319-19331. -/
def Ref.vec : Ref → Option Nat
  | some (.v i) => some i
  | _ => none

/-- The matrix a handle of type `Ref<MLPPMatrix>` refers to; conversion as in platform/sfw.h:19319-19331. -/
def Ref.mat : Ref → Option Nat
  | some (.m i) => some i
  | _ => none

namespace Hd
noncomputable section

/-- `a->addn(b)`, mlpp_vector.cpp:561-578. -/
def addn (a b : Ref) : M ℝ Ref := do Vec.addn (← derefV a) b.vec
/-- `a->subn(b)`, mlpp_vector.cpp:610-627. -/
def subn (a b : Ref) : M ℝ Ref := do Vec.subn (← derefV a) b.vec
/-- `a->add(b)`, mlpp_vector.cpp:550-560. -/
def add (a b : Ref) : M ℝ Unit := do Vec.add (← derefV a) b.vec
/-- `a->sub(b)`, mlpp_vector.cpp:599-609. -/
def sub (a b : Ref) : M ℝ Unit := do Vec.sub (← derefV a) b.vec
/-- `a->hadamard_productn(b)`, mlpp_vector.cpp:379-398. -/
def hadamard_productn (a b : Ref) : M ℝ Ref := do Vec.hadamard_productn (← derefV a) b.vec
/-- `a->division_element_wisen(b)`, mlpp_vector.cpp:436-455. -/
def division_element_wisen (a b : Ref) : M ℝ Ref := do Vec.division_element_wisen (← derefV a) b.vec
/-- `a->maxn(b)`, mlpp_vector.cpp:1082-1106. -/
def maxn (a b : Ref) : M ℝ Ref := do Vec.maxn (← derefV a) b.vec
/-- `a->scalar_multiplyn(k)`, mlpp_vector.cpp:482-495. -/
def scalar_multiplyn (a : Ref) (k : ℝ) : M ℝ Ref := do Vec.scalar_multiplyn (← derefV a) k
/-- `a->scalar_addn(k)`, mlpp_vector.cpp:518-532. -/
def scalar_addn (a : Ref) (k : ℝ) : M ℝ Ref := do Vec.scalar_addn (← derefV a) k
/-- `a->sqrtn()`, mlpp_vector.cpp:830-843. -/
def sqrtn (a : Ref) : M ℝ Ref := do Vec.sqrtn (← derefV a)
/-- `a->absn()`, mlpp_vector.cpp:909-922. -/
def absn (a : Ref) : M ℝ Ref := do Vec.absn (← derefV a)
/-- `a->exponentiaten(p)`, mlpp_vector.cpp:795-808. -/
def exponentiaten (a : Ref) (p : ℝ) : M ℝ Ref := do Vec.exponentiaten (← derefV a) p
/-- `a->sum_elements()`, mlpp_vector.cpp:1342-1350. -/
def sum_elements (a : Ref) : M ℝ ℝ := do Vec.sum_elements (← derefV a)
/-- `a->dot(b)`, mlpp_vector.cpp:868-881. -/
def dot (a b : Ref) : M ℝ ℝ := do Vec.dot (← derefV a) b.vec
/-- `a->size()` of a vector, mlpp_vector.h:94. -/
def size (a : Ref) : M ℝ Nat := do Vec.size (← derefV a)
/-- `a->element_get(i)`, mlpp_vector.h:107-110. -/
def element_get (a : Ref) (i : Int) : M ℝ ℝ := do Vec.element_get (← derefV a) i
/-- `a->element_set(i, x)`, mlpp_vector.h:112-115. -/
def element_set (a : Ref) (i : Int) (x : ℝ) : M ℝ Unit := do Vec.element_set (← derefV a) i x

/-- `a->transposen()`, mlpp_matrix.cpp:1134-1149. -/
def transposen (a : Ref) : M ℝ Ref := do Mat.transposen (← derefM a)
/-- `a->multn(b)`, mlpp_matrix.cpp:813-845. -/
def multn (a b : Ref) : M ℝ Ref := do Mat.multn (← derefM a) b.mat
/-- `a->mult_vec(b)`, mlpp_matrix.cpp:2779-2804. -/
def mult_vec (a b : Ref) : M ℝ Ref := do Mat.mult_vec (← derefM a) b.vec
/-- `a->inverse()`, mlpp_matrix.cpp:1773-1775. -/
def inverse (a : Ref) : M ℝ Ref := do Mat.inverse (← derefM a)
/-- `a->scalar_multiplyn(k)` of a matrix, mlpp_matrix.cpp:1178-1188. -/
def scalar_multiplynm (a : Ref) (k : ℝ) : M ℝ Ref := do Mat.scalar_multiplyn (← derefM a) k
/-- `a->addn(b)` of matrices, mlpp_matrix.cpp:685-704. -/
def addnm (a b : Ref) : M ℝ Ref := do Mat.addn (← derefM a) b.mat
/-- `a->size()` of a matrix, mlpp_matrix.h:92. -/
def sizem (a : Ref) : M ℝ Size := do Mat.size (← derefM a)
/-- `a->row_get_into_mlpp_vector(i, row)`, mlpp_matrix.cpp:345-360. -/
def row_get_into (a : Ref) (i : Int) (row : Ref) : M ℝ Unit := do Mat.row_get_into_mlpp_vector (← derefM a) i row.vec

end
end Hd
end Verif
