import Verif.Spec.Matrix

/-! # Specification vocabulary for tensors -/

namespace Verif.Spec
variable {R : Type} {d r c : Nat}

/-- Tensor object `o` has `d` slices of `r` rows and `c` columns, and its cell in slice `z`, row `y`, column `x` is
`T z y x`. -/
def IsTen (h : Heap R) (o : Nat) (T : Fin d → Fin r → Fin c → R) : Prop :=
  h.size (.t o) = ⟨c, r, d⟩ ∧
    ∀ z y x, (h.buf (.t o))[y.val * c + x.val + c * r * z.val]? = some (T z y x)

/-- The call makes tensor `o` contain `T`, and changes no other existing object. -/
def SetsTen (k : M R Unit) (h : Heap R) (o : Nat) (T : Fin d → Fin r → Fin c → R) : Prop :=
  Runs k h fun _ h' => h'.WF ∧ Keeps h h' (· = .t o) ∧ IsTen h' o T

/-- The cell in slice `z`, row `y`, column `x`, or zero if there is no such cell. -/
def cellOrZero [Zero R] (T : Fin d → Fin r → Fin c → R) (z y x : Nat) : R :=
  if h : z < d ∧ y < r ∧ x < c then T ⟨z, h.1⟩ ⟨y, h.2.1⟩ ⟨x, h.2.2⟩ else 0

end Verif.Spec
