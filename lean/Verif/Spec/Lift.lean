import Verif.Spec.Elementwise
import Verif.Spec.Matrix

/-!
# Specification vocabulary for functions applied to every element

`mk` is the class of the objects: `Loc.v` (vectors) or `Loc.m` (matrices).
-/

namespace Verif.Spec
variable {R : Type}

/-- The call returns a handle to a newly created object with extents `s` and cells `d`, and changes no existing object. -/
def ReturnsNew (mk : Nat → Loc) (c : M R Ref) (h : Heap R) (s : Size) (d : List R) : Prop :=
  Runs c h fun r h' => ∃ o, r = some (mk o) ∧ ¬ h.live (mk o) ∧ h'.live (mk o) ∧ h'.WF ∧
    Keeps h h' (fun _ => False) ∧ Holds h' (mk o) s d

/-- `op(z)` is a new object of the same shape as `z` whose every cell is `f` of the cell of `z`. -/
def Lifts (mk : Nat → Loc) (f : R → R) (op : Ref → M R Ref) : Prop :=
  ∀ (h : Heap R), h.WF → ∀ z, h.live (mk z) →
    ReturnsNew mk (op (some (mk z))) h (h.size (mk z)) ((h.buf (mk z)).map f)

/-- For `a`, `b` of the same shape, `op(a, b)` is a new object of that shape whose every cell is `f` of their cells. -/
def Lifts2 (mk : Nat → Loc) (f : R → R → R) (op : Ref → Ref → M R Ref) : Prop :=
  ∀ (h : Heap R), h.WF → ∀ a b, h.live (mk a) → h.live (mk b) → h.size (mk a) = h.size (mk b) →
    ReturnsNew mk (op (some (mk a)) (some (mk b))) h (h.size (mk a)) (List.zipWith f (h.buf (mk a)) (h.buf (mk b)))

/-- A null operand, an operand of another class, or operands of different shapes: nothing changes and null is returned. -/
def Rejects2 (mk : Nat → Loc) (op : Ref → Ref → M R Ref) : Prop :=
  ∀ (h : Heap R) (a b : Ref), ((¬ ∃ i j, a = some (mk i) ∧ b = some (mk j)) ∨
    ∃ i j, a = some (mk i) ∧ b = some (mk j) ∧ h.size (mk i) ≠ h.size (mk j)) → op a b h = .ok (none, h)

/-- A null operand or an operand of another class: nothing changes and null is returned. -/
def Rejects1 (mk : Nat → Loc) (op : Ref → M R Ref) : Prop :=
  ∀ (h : Heap R) (a : Ref), (¬ ∃ i, a = some (mk i)) → op a h = .ok (none, h)

end Verif.Spec

namespace Verif.Spec
variable {R : Type}

/-- The call returns one handle per entry of `l`, in order, to newly created, pairwise different matrices; the matrix made for the
entry `z` has extents and cells `g z`. It changes no existing object. -/
def ReturnsList {α : Type} (c : M R (List Ref)) (h : Heap R) (l : List α) (g : α → Size × List R) : Prop :=
  Runs c h fun r h' => ∃ os : List Nat, r = os.map (fun o => some (.m o)) ∧ os.Nodup ∧ h'.WF ∧ Keeps h h' (fun _ => False) ∧
    List.Forall₂ (fun z o => ¬ h.live (.m o) ∧ h'.live (.m o) ∧ Holds h' (.m o) (g z).1 (g z).2) l os

/-- `op` on a list of matrices: a list of new matrices, entry by entry `f` of the cells. -/
def MapsList (f : R → R) (op : List Ref → M R (List Ref)) : Prop :=
  ∀ h : Heap R, h.WF → ∀ zs : List Nat, (∀ z ∈ zs, h.live (.m z)) →
    ReturnsList (op (zs.map fun z => some (.m z))) h zs fun z => (h.size (.m z), (h.buf (.m z)).map f)

/-- `op` on two lists of matrices of equal length, the entries of the same shapes. -/
def MapsList2 (f : R → R → R) (op : List Ref → List Ref → M R (List Ref)) : Prop :=
  ∀ h : Heap R, h.WF → ∀ zs : List (Nat × Nat),
    (∀ z ∈ zs, h.live (.m z.1) ∧ h.live (.m z.2) ∧ h.size (.m z.1) = h.size (.m z.2)) →
    ReturnsList (op (zs.map fun z => some (.m z.1)) (zs.map fun z => some (.m z.2))) h zs
      fun z => (h.size (.m z.1), List.zipWith f (h.buf (.m z.1)) (h.buf (.m z.2)))

end Verif.Spec
