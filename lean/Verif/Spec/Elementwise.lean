import Verif.Base

/-!
# Specification of element-wise methods

`mk` is the class of the objects: `Loc.v`, `Loc.m` or `Loc.t`. `this`, `a`, `b` may be equal: every aliasing is included.
-/

namespace Verif.Spec
variable {R : Type}

/-- Object `o` has extents `s` and cells `d`. -/
def Holds (h : Heap R) (o : Loc) (s : Size) (d : List R) : Prop := h.size o = s ∧ h.buf o = d

/-- No object other than `o` changed. -/
def OthersSame (h h' : Heap R) (o : Loc) : Prop := ∀ l, l ≠ o → h'.buf l = h.buf l ∧ h'.size l = h.size l

/-- The three variants of a two-operand element-wise method compute `f` at every cell. -/
structure ElemBinary (mk : Nat → Loc) (f : R → R → R) (opIn : Nat → Option Nat → M R Unit)
    (opN : Nat → Option Nat → M R Ref) (opB : Nat → Option Nat → Option Nat → M R Unit) : Prop where
  /-- `this.op(b)` -/
  inPlace : ∀ (h : Heap R), h.WF → ∀ this b, h.size (mk this) = h.size (mk b) →
    Runs (opIn this (some b)) h fun _ h' => h'.WF ∧ OthersSame h h' (mk this) ∧
      Holds h' (mk this) (h.size (mk this)) (List.zipWith f (h.buf (mk this)) (h.buf (mk b)))
  /-- `this.opn(b)` -/
  new : ∀ (h : Heap R), h.WF → ∀ this b, h.live (mk this) → h.live (mk b) → h.size (mk this) = h.size (mk b) →
    Runs (opN this (some b)) h fun r h' => ∃ o, r = some (mk o) ∧ ¬ h.live (mk o) ∧ h'.WF ∧ OthersSame h h' (mk o) ∧
      Holds h' (mk o) (h.size (mk this)) (List.zipWith f (h.buf (mk this)) (h.buf (mk b)))
  /-- `this.opb(a, b)` -/
  into : ∀ (h : Heap R), h.WF → ∀ this a b, h.size (mk a) = h.size (mk b) →
    Runs (opB this (some a) (some b)) h fun _ h' => h'.WF ∧ OthersSame h h' (mk this) ∧
      Holds h' (mk this) (h.size (mk a)) (List.zipWith f (h.buf (mk a)) (h.buf (mk b)))

/-- A null operand, or operands of different extents, change nothing; the 'n' variant then returns null. -/
structure RejectsBinary (mk : Nat → Loc) (opIn : Nat → Option Nat → M R Unit)
    (opN : Nat → Option Nat → M R Ref) (opB : Nat → Option Nat → Option Nat → M R Unit) : Prop where
  null : ∀ (h : Heap R) this a, opIn this none h = .ok ((), h) ∧ opN this none h = .ok (none, h) ∧
    opB this none (some a) h = .ok ((), h) ∧ opB this (some a) none h = .ok ((), h) ∧ opB this none none h = .ok ((), h)
  inPlace : ∀ (h : Heap R) this b, h.size (mk this) ≠ h.size (mk b) → opIn this (some b) h = .ok ((), h)
  new : ∀ (h : Heap R) this b, h.size (mk this) ≠ h.size (mk b) → opN this (some b) h = .ok (none, h)
  into : ∀ (h : Heap R) this a b, h.size (mk a) ≠ h.size (mk b) → opB this (some a) (some b) h = .ok ((), h)

/-- The three variants of a one-operand element-wise method compute `f` at every cell. -/
structure ElemUnary (mk : Nat → Loc) (f : R → R) (opIn : Nat → M R Unit)
    (opN : Nat → M R Ref) (opB : Nat → Option Nat → M R Unit) : Prop where
  /-- `this.op()` -/
  inPlace : ∀ (h : Heap R), h.WF → ∀ this,
    Runs (opIn this) h fun _ h' => h'.WF ∧ OthersSame h h' (mk this) ∧
      Holds h' (mk this) (h.size (mk this)) ((h.buf (mk this)).map f)
  /-- `this.opn()` -/
  new : ∀ (h : Heap R), h.WF → ∀ this, h.live (mk this) →
    Runs (opN this) h fun r h' => ∃ o, r = some (mk o) ∧ ¬ h.live (mk o) ∧ h'.WF ∧ OthersSame h h' (mk o) ∧
      Holds h' (mk o) (h.size (mk this)) ((h.buf (mk this)).map f)
  /-- `this.opb(a)` -/
  into : ∀ (h : Heap R), h.WF → ∀ this a,
    Runs (opB this (some a)) h fun _ h' => h'.WF ∧ OthersSame h h' (mk this) ∧
      Holds h' (mk this) (h.size (mk a)) ((h.buf (mk a)).map f)

end Verif.Spec
