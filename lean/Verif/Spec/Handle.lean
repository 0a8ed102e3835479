import Verif.Spec.Matrix

/-! # Specification vocabulary for handles -/

namespace Verif.Spec
variable {R : Type} {m n : Nat}

/-- The handle refers to an existing vector with the elements `v`. -/
def HasV (h : Heap R) (r : Ref) (v : Fin n → R) : Prop := ∃ a, r = some (.v a) ∧ h.live (.v a) ∧ IsVec h a v

/-- The handle refers to an existing matrix with the cells `A`. -/
def HasM (h : Heap R) (r : Ref) (A : Matrix (Fin m) (Fin n) R) : Prop := ∃ a, r = some (.m a) ∧ h.live (.m a) ∧ IsMat h a A

/-- The handle refers to no object that exists in `h`. -/
def NotIn (h : Heap R) (r : Ref) : Prop := ∀ l, r = some l → ¬ h.live l

end Verif.Spec
