/-!
# The execution model

Outcomes, the heap of library objects, and the loop combinators every modelled method is written with.

* `Out.crash` : the library aborts on purpose (`CRASH_COND`, `CRASH_BAD_INDEX`, platform/sfw.h).
* `Out.ub`    : C++ undefined behaviour: access outside the allocation, dereference of a null `Ref`.

Memory that was allocated but never written (`memrealloc`, platform/sfw.h) holds *arbitrary* values: the heap
carries an oracle `junk`, and every theorem is about every oracle.
-/

namespace Verif

/-- Result of running a piece of C++: normal return, deliberate abort, or undefined behaviour. -/
inductive Out (α : Type) where
  | ok (a : α) : Out α
  | crash : Out α
  | ub : Out α

/-- Extents of an object. A vector of `n` elements is `⟨n,1,1⟩`, a `MLPPMatrix` uses `x` (columns) and `y` (rows)
with `z = 1`, a `MLPPTensor3` uses all three.
Models `_size`: core/mlpp_vector.h:296, core/mlpp_matrix.h (`Size2i _size`), core/mlpp_tensor3.h (`Size3i _size`). -/
structure Size where
  x : Nat
  y : Nat
  z : Nat
deriving DecidableEq, Repr

/-- Number of cells. Models `size()` (mlpp_vector.h:94), `data_size()` (mlpp_matrix.h, mlpp_tensor3.h). -/
def Size.count (s : Size) : Nat := s.x * s.y * s.z

/-- Identity of an object: a vector, a matrix or a 3-tensor (C++ object address + static type). -/
inductive Loc where
  | v (id : Nat)
  | m (id : Nat)
  | t (id : Nat)
deriving DecidableEq, Repr

def Loc.id : Loc → Nat
  | .v i => i
  | .m i => i
  | .t i => i

/-- `Ref<T>`: a reference-counted handle, possibly null. -/
abbrev Ref := Option Loc

/-- The heap: for every object its data array (`_data`, empty list = NULL) and its `_size`;
`next` is the number of the next object to be created; `junk`/`clock` supply the arbitrary contents of freshly
allocated memory. -/
structure Heap (R : Type) where
  buf : Loc → List R
  size : Loc → Size
  next : Nat
  junk : Nat → Nat → R
  clock : Nat

variable {R : Type} {α β σ : Type}

/-- Computations on the heap. -/
def M (R : Type) (α : Type) : Type := Heap R → Out (α × Heap R)

namespace M

def pure (a : α) : M R α := fun h => .ok (a, h)

def bind (m : M R α) (k : α → M R β) : M R β := fun h =>
  match m h with
  | .ok (a, h') => k a h'
  | .crash => .crash
  | .ub => .ub

instance : Monad (M R) where
  pure := M.pure
  bind := M.bind

end M

/-- Deliberate abort. -/
def crash : M R α := fun _ => .crash
/-- Undefined behaviour. -/
def ub : M R α := fun _ => .ub

/-- Replace the data array of one object. -/
def Heap.setBuf (h : Heap R) (l : Loc) (d : List R) : Heap R :=
  { h with buf := fun l' => if l' = l then d else h.buf l' }

/-- Replace the extents of one object. -/
def Heap.setSize (h : Heap R) (l : Loc) (s : Size) : Heap R :=
  { h with size := fun l' => if l' = l then s else h.size l' }

/-- Read `_size` of an object. -/
def getSize (l : Loc) : M R Size := fun h => .ok (h.size l, h)

/-- Write `_size` of an object. -/
def putSize (l : Loc) (s : Size) : M R Unit := fun h => .ok ((), h.setSize l s)

/-- `_data == NULL`. -/
def isNull (l : Loc) : M R Bool := fun h => .ok ((h.buf l).isEmpty, h)

/-- `_data[i]` as an rvalue; outside the allocation it is undefined behaviour. -/
def load (l : Loc) (i : Nat) : M R R := fun h =>
  match (h.buf l)[i]? with
  | some v => .ok (v, h)
  | none => .ub

/-- `_data[i] = v`; outside the allocation it is undefined behaviour. -/
def store (l : Loc) (i : Nat) (v : R) : M R Unit := fun h =>
  if i < (h.buf l).length then .ok ((), h.setBuf l ((h.buf l).set i v)) else .ub

/-- The contents of a block of `n` cells obtained by `memrealloc` from a block with contents `d`. -/
def growTo (d : List R) (n : Nat) (junk : Nat → R) : List R :=
  d.take n ++ (List.range (n - d.length)).map junk

/-- `_data = memrealloc(_data, n * sizeof(real_t))`, platform/sfw.h `Memory::realloc_static`.
Out-of-memory is not modelled. -/
def memrealloc (l : Loc) (n : Nat) : M R Unit := fun h =>
  .ok ((), { h.setBuf l (growTo (h.buf l) n (h.junk h.clock)) with clock := h.clock + 1 })

/-- `memfree(_data); _data = NULL;` -/
def memfree (l : Loc) : M R Unit := fun h => .ok ((), h.setBuf l [])

/-- `r.instance()`: create a fresh object through the default constructor (`_size` = zero, `_data = NULL`),
mlpp_vector.cpp:1459-1462, mlpp_matrix.cpp and mlpp_tensor3.cpp default constructors. -/
def newVec : M R Loc := fun h =>
  .ok (.v h.next, { (h.setBuf (.v h.next) []).setSize (.v h.next) ⟨0, 1, 1⟩ with next := h.next + 1 })
def newMat : M R Loc := fun h =>
  .ok (.m h.next, { (h.setBuf (.m h.next) []).setSize (.m h.next) ⟨0, 0, 1⟩ with next := h.next + 1 })
def newTen : M R Loc := fun h =>
  .ok (.t h.next, { (h.setBuf (.t h.next) []).setSize (.t h.next) ⟨0, 0, 0⟩ with next := h.next + 1 })

/-- `r->...`: a null handle is dereferenced only in undefined executions. -/
def deref (r : Ref) : M R Loc :=
  match r with
  | some l => pure l
  | none => ub

/-- `for (int i = lo; i < lo + cnt; ++i) body`, with the local variables `s` updated by the body. -/
def loop (lo cnt : Nat) (s : σ) (body : Nat → σ → M R σ) : M R σ :=
  match cnt with
  | 0 => pure s
  | c + 1 => do
    let s' ← body lo s
    loop (lo + 1) c s' body

/-- `for (int i = 0; i < n; ++i) body`. -/
def forN (n : Nat) (body : Nat → M R Unit) : M R Unit :=
  loop 0 n () (fun i _ => body i)

/-- `for (int i = 0; i < n; ++i) s = body(i, s)`. -/
def foldN (n : Nat) (s : σ) (body : Nat → σ → M R σ) : M R σ :=
  loop 0 n s body

/-- `ERR_FAIL_INDEX(p, n)`: the index is acceptable. -/
def idxOk (p : Int) (n : Nat) : Bool := decide (0 ≤ p ∧ p < (n : Int))

/-! ## Reading the outcome of a computation -/

/-- `m`, started in `h`, returns normally with a result and a final heap that satisfy `Q`. -/
def Runs (m : M R α) (h : Heap R) (Q : α → Heap R → Prop) : Prop :=
  match m h with
  | .ok (a, h') => Q a h'
  | .crash => False
  | .ub => False

/-- The contents of one object after a normal return (for worked examples). -/
def Out.bufOf (o : Out (α × Heap R)) (l : Loc) : Option (List R) :=
  match o with
  | .ok (_, h) => some (h.buf l)
  | _ => none

/-- The value returned by a normal return (for worked examples). -/
def Out.valOf (o : Out (α × Heap R)) : Option α :=
  match o with
  | .ok (a, _) => some a
  | _ => none

/-- The outcome is undefined behaviour (for worked examples). -/
def Out.isUb {α : Type} : Out α → Bool
  | .ub => true
  | _ => false

/-- Heap well-formedness: `_size` and the allocation agree for every object. -/
structure Heap.WF (h : Heap R) : Prop where
  len : ∀ l, (h.buf l).length = (h.size l).count
  vec : ∀ i, (h.size (.v i)).y = 1 ∧ (h.size (.v i)).z = 1
  mat : ∀ i, (h.size (.m i)).z = 1

/-- An object that exists. -/
def Heap.live (h : Heap R) (l : Loc) : Prop := l.id < h.next

/-- The start of a program: no objects. -/
def Heap.init (junk : Nat → Nat → R) : Heap R where
  buf := fun _ => []
  size := fun l => match l with
    | .v _ => ⟨0, 1, 1⟩
    | .m _ => ⟨0, 0, 1⟩
    | .t _ => ⟨0, 0, 0⟩
  next := 0
  junk := junk
  clock := 0

end Verif
