import Verif.Base
import Mathlib.Data.Matrix.Basic

/-!
# Specification vocabulary for matrices and vectors

What it means for a matrix object to contain a mathematical matrix (Mathlib's `Matrix (Fin rows) (Fin cols) R`), for a
call to return a new object, and for a call to leave existing objects alone.
-/

namespace Verif.Spec
variable {R : Type} {m n : Nat}

/-- Matrix object `o` has `m` rows and `n` columns, and its cell in row `i`, column `j` is `A i j`. -/
def IsMat (h : Heap R) (o : Nat) (A : Matrix (Fin m) (Fin n) R) : Prop :=
  h.size (.m o) = ⟨n, m, 1⟩ ∧ ∀ (i : Fin m) (j : Fin n), (h.buf (.m o))[i.val * n + j.val]? = some (A i j)

/-- Vector object `o` has `n` elements, element `i` being `v i`. -/
def IsVec (h : Heap R) (o : Nat) (v : Fin n → R) : Prop :=
  h.size (.v o) = ⟨n, 1, 1⟩ ∧ ∀ i : Fin n, (h.buf (.v o))[i.val]? = some (v i)

/-- Every object that existed before, except those in `S`, is the same as before; no object disappeared. -/
def Keeps (h h' : Heap R) (S : Loc → Prop) : Prop :=
  h.next ≤ h'.next ∧ ∀ l, h.live l → ¬ S l → h'.buf l = h.buf l ∧ h'.size l = h.size l

/-- The call returns a handle to a newly created matrix containing `A`, and changes no existing object. -/
def ReturnsMat (c : M R Ref) (h : Heap R) (A : Matrix (Fin m) (Fin n) R) : Prop :=
  Runs c h fun r h' => ∃ o, r = some (.m o) ∧ ¬ h.live (.m o) ∧ h'.live (.m o) ∧ h'.WF ∧
    Keeps h h' (fun _ => False) ∧ IsMat h' o A

/-- The call returns a handle to a newly created vector containing `v`, and changes no existing object. -/
def ReturnsVec (c : M R Ref) (h : Heap R) (v : Fin n → R) : Prop :=
  Runs c h fun r h' => ∃ o, r = some (.v o) ∧ ¬ h.live (.v o) ∧ h'.live (.v o) ∧ h'.WF ∧
    Keeps h h' (fun _ => False) ∧ IsVec h' o v

/-- The call makes matrix `o` contain `A`, and changes no other existing object. -/
def SetsMat (c : M R Unit) (h : Heap R) (o : Nat) (A : Matrix (Fin m) (Fin n) R) : Prop :=
  Runs c h fun _ h' => h'.WF ∧ Keeps h h' (· = .m o) ∧ IsMat h' o A

/-- The call makes vector `o` contain `v`, and changes no other existing object. -/
def SetsVec (c : M R Unit) (h : Heap R) (o : Nat) (v : Fin n → R) : Prop :=
  Runs c h fun _ h' => h'.WF ∧ Keeps h h' (· = .v o) ∧ IsVec h' o v

/-- The call returns the number `x` and changes no existing object. -/
def ReturnsVal {α : Type} (c : M R α) (h : Heap R) (x : α) : Prop :=
  Runs c h fun r h' => r = x ∧ h'.WF ∧ Keeps h h' (fun _ => False)

/-- The matrix with ones on the main diagonal. -/
def eyeRect (R : Type) [Zero R] [One R] (m n : Nat) : Matrix (Fin m) (Fin n) R := fun i j => if i.val = j.val then 1 else 0

/-- `A` with the first entries of its diagonal replaced by those of `v`. -/
def diagReplace {k : Nat} (A : Matrix (Fin m) (Fin n) R) (v : Fin k → R) : Matrix (Fin m) (Fin n) R := fun i j =>
  if i.val = j.val then (if h : i.val < k then v ⟨i.val, h⟩ else A i j) else A i j

end Verif.Spec
