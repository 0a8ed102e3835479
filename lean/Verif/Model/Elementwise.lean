import Verif.Base

/-!
# Shared shapes of methods

The element-wise methods of `MLPPVector`, `MLPPMatrix` and `MLPPTensor3` are written three times in the source, once
per class, each time with the same statements. The shapes are given here once, for an object of any of the
three classes; `Verif/Model/Vector.lean`, `Matrix.lean`, `Tensor.lean` instantiate them method by method.
-/

namespace Verif
variable {R : Type}

/-- `resize(s)`: mlpp_vector.cpp:159-170, mlpp_matrix.cpp:485-501, mlpp_tensor3.cpp (`resize`).
Only for non-negative extents. -/
def resizeTo (l : Loc) (s : Size) : M R Unit := do
  putSize l s
  if s.count = 0 then memfree l else memrealloc l s.count

/-- `if (unlikely(size() != s)) { resize(s); }`, e.g. mlpp_vector.cpp:406-408. -/
def ensureSize (l : Loc) (s : Size) : M R Unit := do
  let t ← getSize l
  if t = s then pure () else resizeTo l s

/-- `r.instance()` for an object of the class of `l`. -/
def newLike : Loc → M R Loc
  | .v _ => newVec
  | .m _ => newMat
  | .t _ => newTen

/-- Body of the unary loops: `out_ptr[i] = f(a_ptr[i])`, e.g. mlpp_vector.cpp:663-665. -/
def unLoop (f : R → R) (a out : Loc) (n : Nat) : M R Unit :=
  forN n fun i => do
    let x ← load a i
    store out i (f x)

/-- Body of the binary loops: `out_ptr[i] = f(a_ptr[i], b_ptr[i])`, e.g. mlpp_vector.cpp:375-377. -/
def binLoop (f : R → R → R) (a b out : Loc) (n : Nat) : M R Unit :=
  forN n fun i => do
    let x ← load a i
    let y ← load b i
    store out i (f x y)

/-- In-place unary method, shape of mlpp_vector.cpp:648-654 (`log`). -/
def unIn (f : R → R) (this : Loc) : M R Unit := do
  let s ← getSize this
  unLoop f this this s.count

/-- 'n' unary method (returns a new object), shape of mlpp_vector.cpp:655-668 (`logn`). -/
def unN (f : R → R) (this : Loc) : M R Ref := do
  let out ← newLike this
  let s ← getSize this
  resizeTo out s
  unLoop f this out s.count
  pure (some out)

/-- 'b' unary method (`this` receives the result), shape of mlpp_vector.cpp:669-681 (`logb`): a null operand is
rejected, and `this` is resized unconditionally. -/
def unB (f : R → R) (this : Loc) (a : Ref) : M R Unit :=
  match a with
  | none => pure ()
  | some a => do
    let s ← getSize a
    resizeTo this s
    unLoop f a this s.count

/-- 'b' unary method with conditional resize, shape of mlpp_vector.cpp:533-548 (`scalar_addb`). -/
def unBC (f : R → R) (this : Loc) (a : Ref) : M R Unit :=
  match a with
  | none => pure ()
  | some a => do
    let s ← getSize a
    ensureSize this s
    unLoop f a this s.count

/-- 'b' unary method with conditional resize and no null check, shape of mlpp_vector.cpp:496-509
(`scalar_multiplyb`): a null operand is dereferenced. -/
def unBX (f : R → R) (this : Loc) (a : Ref) : M R Unit := do
  let a ← deref a
  let s ← getSize a
  ensureSize this s
  unLoop f a this s.count

/-- In-place binary method, shape of mlpp_vector.cpp:366-378 (`hadamard_product`). -/
def binIn (f : R → R → R) (this : Loc) (b : Ref) : M R Unit :=
  match b with
  | none => pure ()
  | some b => do
    let s ← getSize this
    let sb ← getSize b
    if s = sb then binLoop f this b this s.count else pure ()

/-- 'n' binary method, shape of mlpp_vector.cpp:561-578 (`addn`). Some methods create the result object before
the size check; the object is then dropped, which is not observable. -/
def binN (f : R → R → R) (this : Loc) (b : Ref) : M R Ref :=
  match b with
  | none => pure none
  | some b => do
    let s ← getSize this
    let sb ← getSize b
    if s = sb then do
      let out ← newLike this
      resizeTo out s
      binLoop f this b out s.count
      pure (some out)
    else pure none

/-- 'b' binary method with conditional resize, shape of mlpp_vector.cpp:399-417 (`hadamard_productb`). -/
def binB (f : R → R → R) (this : Loc) (a b : Ref) : M R Unit :=
  match a, b with
  | some a, some b => do
    let s ← getSize a
    let sb ← getSize b
    if s = sb then do
      ensureSize this s
      binLoop f a b this s.count
    else pure ()
  | _, _ => pure ()

/-- 'b' binary method with unconditional resize, shape of mlpp_vector.cpp:457-473 (`division_element_wiseb`). -/
def binBR (f : R → R → R) (this : Loc) (a b : Ref) : M R Unit :=
  match a, b with
  | some a, some b => do
    let s ← getSize a
    let sb ← getSize b
    if s = sb then do
      resizeTo this s
      binLoop f a b this s.count
    else pure ()
  | _, _ => pure ()

/-- In-place `fill(v)`, mlpp_vector.cpp:172-176, mlpp_matrix.cpp (`fill`), mlpp_tensor3.cpp (`fill`). -/
def fillAll (this : Loc) (v : R) : M R Unit := do
  let s ← getSize this
  forN s.count fun i => store this i v

/-- Copy of contents, shape of mlpp_vector.cpp:259-269 (`set_from_mlpp_vector`). -/
def setFrom (this : Loc) (p_from : Ref) : M R Unit :=
  match p_from with
  | none => pure ()
  | some a => do
    let s ← getSize a
    ensureSize this s
    unLoop id a this s.count

/-- `duplicate_fast()`, mlpp_vector.cpp:240-247, mlpp_matrix.cpp, mlpp_tensor3.cpp. -/
def duplicateFast (this : Loc) : M R Ref := do
  let ret ← newLike this
  setFrom ret (some this)
  pure (some ret)

/-- `set_data`/`set_from_vector`/...: contents from a plain array `xs` of matching length; the shape is handled by
the caller. Shape of mlpp_vector.cpp:53-56. The array operand lives outside the object heap. -/
def storeList (this : Loc) (xs : List R) : M R Unit :=
  forN xs.length fun i =>
    match xs[i]? with
    | some x => store this i x
    | none => ub

/-- Reading all cells out, shape of mlpp_vector.cpp:218-230 (`to_pool_vector`). -/
def readAll (this : Loc) (n : Nat) : M R (List R) :=
  foldN n [] fun i acc => do
    let x ← load this i
    pure (acc ++ [x])

end Verif
