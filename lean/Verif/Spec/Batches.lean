import Verif.Spec.Matrix

/-! # Specification vocabulary for mini-batches -/

namespace Verif.Spec

/-- `bs` cuts the list `xs` into `k` consecutive pieces: all of them have `n / k` elements, except that the last also has the
remaining `n % k`. -/
def Batches {α : Type} (xs : List α) (k : Nat) (bs : List (List α)) : Prop :=
  bs.flatten = xs ∧ bs.length = k ∧
    ∀ (i : Nat) (hi : i < bs.length), (bs[i]).length = if i + 1 = k then xs.length / k + xs.length % k else xs.length / k

/-- `rs` are `k` different matrices, created since `h`, the `i`-th one containing `A i`. -/
def NewMats {R : Type} {m n k : Nat} (h h' : Heap R) (rs : List Ref) (A : Fin k → Matrix (Fin m) (Fin n) R) : Prop :=
  rs.length = k ∧ rs.Nodup ∧
    ∀ i : Fin k, ∃ o, rs[i.val]? = some (some (.m o)) ∧ ¬ h.live (.m o) ∧ h'.live (.m o) ∧ IsMat h' o (A i)

/-- `rs` are `k` different vectors, created since `h`, the `i`-th one containing `v i`. -/
def NewVecs {R : Type} {n k : Nat} (h h' : Heap R) (rs : List Ref) (v : Fin k → Fin n → R) : Prop :=
  rs.length = k ∧ rs.Nodup ∧
    ∀ i : Fin k, ∃ o, rs[i.val]? = some (some (.v o)) ∧ ¬ h.live (.v o) ∧ h'.live (.v o) ∧ IsVec h' o (v i)

end Verif.Spec
