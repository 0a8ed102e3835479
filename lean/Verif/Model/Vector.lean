import Verif.Scalar
import Verif.Model.Elementwise

/-! # `MLPPVector` (core/mlpp_vector.h, core/mlpp_vector.cpp) -/

namespace Verif
namespace Vec
variable {R : Type}

/-- `size()`, mlpp_vector.h:94. -/
def size (this : Nat) : M R Nat := do
  let s ← getSize (.v this)
  pure s.x

/-- `resize(p_size)`, mlpp_vector.cpp:159-170. A negative size asks `memrealloc` for an impossible amount of memory
and ends in `CRASH_COND_MSG(!_data, "Out of memory")` (release build; DEBUG padding arithmetic is not modelled). -/
def resize (this : Nat) (p_size : Int) : M R Unit :=
  if p_size < 0 then crash else resizeTo (.v this) ⟨p_size.toNat, 1, 1⟩

/-- `clear()`, mlpp_vector.h:84. -/
def clear (this : Nat) : M R Unit := resize this 0

/-- `reset()`, mlpp_vector.h:85-91. -/
def reset (this : Nat) : M R Unit := do
  if ← isNull (.v this) then pure () else do
    memfree (.v this)
    putSize (.v this) ⟨0, 1, 1⟩

/-- `element_get(p_index)`, mlpp_vector.h:107-110. -/
def element_get [Zero R] (this : Nat) (p_index : Int) : M R R := do
  let n ← size this
  if idxOk p_index n then load (.v this) p_index.toNat else pure 0

/-- `element_set(p_index, p_val)`, mlpp_vector.h:112-115. -/
def element_set (this : Nat) (p_index : Int) (p_val : R) : M R Unit := do
  let n ← size this
  if idxOk p_index n then store (.v this) p_index.toNat p_val else pure ()

/-- `operator[]` used as a read, mlpp_vector.h:98-101: an index out of range aborts. -/
def index_get (this : Nat) (p_index : Int) : M R R := do
  let n ← size this
  if idxOk p_index n then load (.v this) p_index.toNat else crash

/-- `push_back(p_elem)`, mlpp_vector.cpp:59-66. -/
def push_back (this : Nat) (p_elem : R) : M R Unit := do
  let n ← size this
  putSize (.v this) ⟨n + 1, 1, 1⟩
  memrealloc (.v this) (n + 1)
  store (.v this) n p_elem

/-- `append_mlpp_vector(p_other)`, mlpp_vector.cpp:68-89. `other_ptr` is fetched after the reallocation, as in the
source, so appending a vector to itself is covered. -/
def append_mlpp_vector (this : Nat) (p_other : Option Nat) : M R Unit :=
  match p_other with
  | none => pure ()
  | some other => do
    let other_size ← size other
    if other_size = 0 then pure () else do
      let start_offset ← size this
      putSize (.v this) ⟨start_offset + other_size, 1, 1⟩
      memrealloc (.v this) (start_offset + other_size)
      forN other_size fun i => do
        let x ← load (.v other) i
        store (.v this) (start_offset + i) x

/-- `remove(p_index)`, mlpp_vector.cpp:91-108. -/
def remove (this : Nat) (p_index : Int) : M R Unit := do
  let n ← size this
  if idxOk p_index n then do
    let n' := n - 1
    putSize (.v this) ⟨n', 1, 1⟩
    if n' = 0 then memfree (.v this) else do
      loop p_index.toNat (n' - p_index.toNat) () fun i _ => do
        let x ← load (.v this) (i + 1)
        store (.v this) i x
      memrealloc (.v this) n'
  else pure ()

/-- `remove_unordered(p_index)`, mlpp_vector.cpp:112-128. -/
def remove_unordered (this : Nat) (p_index : Int) : M R Unit := do
  let n ← size this
  if idxOk p_index n then do
    let n' := n - 1
    putSize (.v this) ⟨n', 1, 1⟩
    if n' = 0 then memfree (.v this) else do
      if (n' : Int) > p_index then do
        let x ← load (.v this) n'
        store (.v this) p_index.toNat x
      memrealloc (.v this) n'
  else pure ()

/-- The loop of `find`: `cnt` positions remain, the next one is `i`. -/
def findFrom [BEq R] (l : Loc) (p_val : R) : (cnt i : Nat) → M R Int
  | 0, _ => pure (-1)
  | c + 1, i => do
    let x ← load l i
    if x == p_val then pure (i : Int) else findFrom l p_val c (i + 1)

/-- `find(p_val, p_from)`, mlpp_vector.cpp:191-198. With a negative `p_from` the first access is `_data[p_from]`,
outside the allocation (undefined), as soon as the loop runs. -/
def find [BEq R] (this : Nat) (p_val : R) (p_from : Int) : M R Int := do
  let n ← size this
  if p_from < 0 then ub else findFrom (.v this) p_val (n - p_from.toNat) p_from.toNat

/-- `erase(p_val)`, mlpp_vector.cpp:130-135. `p_val` is passed by value in the model; a reference to an element of
the same vector is not modelled. -/
def erase [BEq R] (this : Nat) (p_val : R) : M R Unit := do
  let idx ← find this p_val 0
  if idx ≥ 0 then remove this idx else pure ()

/-- The `while (true)` loop of `erase_multiple_unordered`, with fuel; running out of fuel is reported as `ub`, so a
theorem of normal return includes termination. -/
def eraseLoop [BEq R] (this : Nat) (p_val : R) : (fuel : Nat) → (p_from : Int) → (count : Nat) → M R Nat
  | 0, _, _ => ub
  | f + 1, p_from, count => do
    let idx ← find this p_val p_from
    if idx = -1 then pure count else do
      remove_unordered this idx
      eraseLoop this p_val f idx (count + 1)

/-- `erase_multiple_unordered(p_val)`, mlpp_vector.cpp:137-151. -/
def erase_multiple_unordered [BEq R] (this : Nat) (p_val : R) : M R Nat := do
  let n ← size this
  eraseLoop this p_val (n + 1) 0 0

/-- `invert()`, mlpp_vector.cpp:153-157. -/
def invert (this : Nat) : M R Unit := do
  let n ← size this
  forN (n / 2) fun i => do
    let x ← load (.v this) i
    let y ← load (.v this) (n - i - 1)
    store (.v this) i y
    store (.v this) (n - i - 1) x

/-- `fill(p_val)`, mlpp_vector.cpp:172-176. -/
def fill (this : Nat) (p_val : R) : M R Unit := fillAll (.v this) p_val

/-- `insert(p_pos, p_val)`, mlpp_vector.cpp:178-189. The loop counts `i` down from `_size - 1` to `p_pos + 1`;
the model counts `k` up and uses `i = _size - 1 - k`. -/
def insert (this : Nat) (p_pos : Int) (p_val : R) : M R Unit := do
  let n ← size this
  if idxOk p_pos (n + 1) then
    if p_pos = (n : Int) then push_back this p_val
    else do
      resize this ((n : Int) + 1)
      forN (n - p_pos.toNat) fun k => do
        let x ← load (.v this) (n - k - 1)
        store (.v this) (n - k) x
      store (.v this) p_pos.toNat p_val
  else pure ()

/-- The scan of `ordered_insert`: first position whose element is greater than `p_val`. -/
def scanGreater [LT R] [DecidableLT R] (l : Loc) (p_val : R) : (cnt i : Nat) → M R Nat
  | 0, i => pure i
  | c + 1, i => do
    let x ← load l i
    if p_val < x then pure i else scanGreater l p_val c (i + 1)

/-- `ordered_insert(p_val)`, mlpp_vector.cpp:200-208. -/
def ordered_insert [LT R] [DecidableLT R] (this : Nat) (p_val : R) : M R Unit := do
  let n ← size this
  let i ← scanGreater (.v this) p_val n 0
  insert this (i : Int) p_val

/-- `to_vector`, `to_pool_vector`, `get_data`: mlpp_vector.cpp:35-47, 210-230. -/
def get_data (this : Nat) : M R (List R) := do
  let n ← size this
  readAll (.v this) n

/-- `set_data`, `set_from_pool_vector`: mlpp_vector.cpp:48-57, 282-291. -/
def set_data (this : Nat) (p_from : List R) : M R Unit := do
  let n ← size this
  if n = p_from.length then pure () else resize this p_from.length
  storeList (.v this) p_from

/-- `set_from_vector`, mlpp_vector.cpp:271-280 (resizes twice). -/
def set_from_vector (this : Nat) (p_from : List R) : M R Unit := do
  let n ← size this
  if n = p_from.length then pure () else resize this p_from.length
  resize this p_from.length
  storeList (.v this) p_from

/-- `set_from_mlpp_vector`, mlpp_vector.cpp:259-269. -/
def set_from_mlpp_vector (this : Nat) (p_from : Option Nat) : M R Unit :=
  setFrom (.v this) (p_from.map .v)

/-- `duplicate_fast`, mlpp_vector.cpp:240-257. -/
def duplicate_fast (this : Nat) : M R Ref := duplicateFast (.v this)

/-- The loop of `is_equal_approx`, with early exit. -/
def eqLoop [BEq R] [LT R] [DecidableLT R] [Sub R] [Neg R] [Zero R] (a b : Loc) (tol : R) : (cnt i : Nat) → M R Bool
  | 0, _ => pure true
  | c + 1, i => do
    let x ← load a i
    let y ← load b i
    if isEqualApproxS x y tol then eqLoop a b tol c (i + 1) else pure false

/-- `is_equal_approx(p_with, tolerance)`: mlpp_vector.cpp:293-311, same text in mlpp_matrix.cpp and
mlpp_tensor3.cpp (there with `data_size()`). -/
def is_equal_approx [BEq R] [LT R] [DecidableLT R] [Sub R] [Neg R] [Zero R] (this : Loc) (p_with : Ref) (tol : R) :
    M R Bool :=
  match p_with with
  | none => pure false
  | some w =>
    if this = w then pure true else do
      let s ← getSize this
      let t ← getSize w
      if s = t then eqLoop this w tol s.count 0 else pure false

/-- `vsize += A[i]->size()` over the list of handles; null handles are dereferenced. mlpp_vector.cpp:314-317. -/
def sumSizes : List (Option Nat) → M R Nat
  | [] => pure 0
  | r :: rs => do
    let l ← deref (r.map .v)
    let s ← getSize l
    let t ← sumSizes rs
    pure (s.x + t)

/-- The copy loop of `flatten_vectors`, mlpp_vector.cpp:324-334. -/
def flattenLoop (out : Loc) : (a_index : Nat) → List (Option Nat) → M R Unit
  | _, [] => pure ()
  | k, r :: rs => do
    let l ← deref (r.map .v)
    let s ← getSize l
    forN s.x fun j => do
      let x ← load l j
      store out (k + j) x
    flattenLoop out (k + s.x) rs

/-- `flatten_vectorsn(A)`, mlpp_vector.cpp:337-364. -/
def flatten_vectorsn (A : List (Option Nat)) : M R Ref := do
  let a ← newVec
  let vsize ← sumSizes A
  resizeTo a ⟨vsize, 1, 1⟩
  flattenLoop a 0 A
  pure (some a)

/-! ## Element-wise binary methods -/

/-- mlpp_vector.cpp:366-378. -/
def hadamard_product [Mul R] (this : Nat) (b : Option Nat) : M R Unit := binIn (· * ·) (.v this) (b.map .v)
/-- mlpp_vector.cpp:379-398. -/
def hadamard_productn [Mul R] (this : Nat) (b : Option Nat) : M R Ref := binN (· * ·) (.v this) (b.map .v)
/-- mlpp_vector.cpp:399-417. -/
def hadamard_productb [Mul R] (this : Nat) (a b : Option Nat) : M R Unit :=
  binB (· * ·) (.v this) (a.map .v) (b.map .v)

/-- `division_element_wise`, mlpp_vector.cpp:419-434: the results are written through the data pointer of a freshly
created, empty local vector `out`. -/
def division_element_wise [Div R] (this : Nat) (b : Option Nat) : M R Unit :=
  match b with
  | none => pure ()
  | some b => do
    let out ← newVec
    let s ← getSize (.v this)
    let sb ← getSize (.v b)
    if s = sb then binLoop (· / ·) (.v this) (.v b) out s.count else pure ()
/-- mlpp_vector.cpp:436-455. -/
def division_element_wisen [Div R] (this : Nat) (b : Option Nat) : M R Ref := binN (· / ·) (.v this) (b.map .v)
/-- mlpp_vector.cpp:457-473. -/
def division_element_wiseb [Div R] (this : Nat) (a b : Option Nat) : M R Unit :=
  binBR (· / ·) (.v this) (a.map .v) (b.map .v)

/-- mlpp_vector.cpp:550-560. -/
def add [Add R] (this : Nat) (b : Option Nat) : M R Unit := binIn (· + ·) (.v this) (b.map .v)
/-- mlpp_vector.cpp:561-578. -/
def addn [Add R] (this : Nat) (b : Option Nat) : M R Ref := binN (· + ·) (.v this) (b.map .v)
/-- mlpp_vector.cpp:579-597. -/
def addb [Add R] (this : Nat) (a b : Option Nat) : M R Unit := binB (· + ·) (.v this) (a.map .v) (b.map .v)

/-- mlpp_vector.cpp:599-609. -/
def sub [Sub R] (this : Nat) (b : Option Nat) : M R Unit := binIn (· - ·) (.v this) (b.map .v)
/-- mlpp_vector.cpp:610-627. -/
def subn [Sub R] (this : Nat) (b : Option Nat) : M R Ref := binN (· - ·) (.v this) (b.map .v)
/-- mlpp_vector.cpp:628-646. -/
def subb [Sub R] (this : Nat) (a b : Option Nat) : M R Unit := binB (· - ·) (.v this) (a.map .v) (b.map .v)

/-- mlpp_vector.cpp:1063-1081. -/
def max [LT R] [DecidableLT R] (this : Nat) (b : Option Nat) : M R Unit := binIn maxC (.v this) (b.map .v)
/-- mlpp_vector.cpp:1082-1106. -/
def maxn [LT R] [DecidableLT R] (this : Nat) (b : Option Nat) : M R Ref := binN maxC (.v this) (b.map .v)
/-- mlpp_vector.cpp:1107-1132. -/
def maxb [LT R] [DecidableLT R] (this : Nat) (a b : Option Nat) : M R Unit :=
  binB maxC (.v this) (a.map .v) (b.map .v)

/-- mlpp_vector.cpp:1134-1152. -/
def min [LT R] [DecidableLT R] (this : Nat) (b : Option Nat) : M R Unit := binIn minC (.v this) (b.map .v)
/-- mlpp_vector.cpp:1153-1177. -/
def minn [LT R] [DecidableLT R] (this : Nat) (b : Option Nat) : M R Ref := binN minC (.v this) (b.map .v)
/-- mlpp_vector.cpp:1178-1203. -/
def minb [LT R] [DecidableLT R] (this : Nat) (a b : Option Nat) : M R Unit :=
  binB minC (.v this) (a.map .v) (b.map .v)

/-! ## Scalar methods -/

/-- mlpp_vector.cpp:475-481. -/
def scalar_multiply [Mul R] (this : Nat) (k : R) : M R Unit := unIn (· * k) (.v this)
/-- mlpp_vector.cpp:482-495. -/
def scalar_multiplyn [Mul R] (this : Nat) (k : R) : M R Ref := unN (· * k) (.v this)
/-- mlpp_vector.cpp:496-509 (no null check). -/
def scalar_multiplyb [Mul R] (this : Nat) (k : R) (a : Option Nat) : M R Unit := unBX (· * k) (.v this) (a.map .v)

/-- mlpp_vector.cpp:511-517. -/
def scalar_add [Add R] (this : Nat) (k : R) : M R Unit := unIn (· + k) (.v this)
/-- mlpp_vector.cpp:518-532. -/
def scalar_addn [Add R] (this : Nat) (k : R) : M R Ref := unN (· + k) (.v this)
/-- mlpp_vector.cpp:533-548. -/
def scalar_addb [Add R] (this : Nat) (k : R) (a : Option Nat) : M R Unit := unBC (· + k) (.v this) (a.map .v)

/-! ## Element-wise functions -/
section
variable [MathFns R]

/-- mlpp_vector.cpp:648-654. -/
def log (this : Nat) : M R Unit := unIn MathFns.log (.v this)
/-- mlpp_vector.cpp:655-668. -/
def logn (this : Nat) : M R Ref := unN MathFns.log (.v this)
/-- mlpp_vector.cpp:669-681. -/
def logb (this : Nat) (a : Option Nat) : M R Unit := unB MathFns.log (.v this) (a.map .v)

/-- mlpp_vector.cpp:683-689. -/
def log10 (this : Nat) : M R Unit := unIn MathFns.log10 (.v this)
/-- mlpp_vector.cpp:690-703. -/
def log10n (this : Nat) : M R Ref := unN MathFns.log10 (.v this)
/-- mlpp_vector.cpp:704-716. -/
def log10b (this : Nat) (a : Option Nat) : M R Unit := unB MathFns.log10 (.v this) (a.map .v)

/-- mlpp_vector.cpp:718-724. -/
def exp (this : Nat) : M R Unit := unIn MathFns.exp (.v this)
/-- mlpp_vector.cpp:725-738. -/
def expn (this : Nat) : M R Ref := unN MathFns.exp (.v this)
/-- mlpp_vector.cpp:739-751. -/
def expb (this : Nat) (a : Option Nat) : M R Unit := unB MathFns.exp (.v this) (a.map .v)

/-- mlpp_vector.cpp:753-759. -/
def erf (this : Nat) : M R Unit := unIn MathFns.erf (.v this)
/-- mlpp_vector.cpp:760-773. -/
def erfn (this : Nat) : M R Ref := unN MathFns.erf (.v this)
/-- mlpp_vector.cpp:774-786. -/
def erfb (this : Nat) (a : Option Nat) : M R Unit := unB MathFns.erf (.v this) (a.map .v)

/-- mlpp_vector.cpp:788-794. -/
def exponentiate (this : Nat) (p : R) : M R Unit := unIn (MathFns.pow · p) (.v this)
/-- mlpp_vector.cpp:795-808. -/
def exponentiaten (this : Nat) (p : R) : M R Ref := unN (MathFns.pow · p) (.v this)
/-- mlpp_vector.cpp:809-821. -/
def exponentiateb (this : Nat) (a : Option Nat) (p : R) : M R Unit := unB (MathFns.pow · p) (.v this) (a.map .v)

/-- mlpp_vector.cpp:823-829. -/
def sqrt (this : Nat) : M R Unit := unIn MathFns.sqrt (.v this)
/-- mlpp_vector.cpp:830-843. -/
def sqrtn (this : Nat) : M R Ref := unN MathFns.sqrt (.v this)
/-- mlpp_vector.cpp:844-856. -/
def sqrtb (this : Nat) (a : Option Nat) : M R Unit := unB MathFns.sqrt (.v this) (a.map .v)

/-- mlpp_vector.cpp:858-860. -/
def cbrt [Div R] [NatCast R] (this : Nat) : M R Unit := exponentiate this (((1 : Nat) : R) / ((3 : Nat) : R))
/-- mlpp_vector.cpp:861-863. -/
def cbrtn [Div R] [NatCast R] (this : Nat) : M R Ref := exponentiaten this (((1 : Nat) : R) / ((3 : Nat) : R))
/-- mlpp_vector.cpp:864-866. -/
def cbrtb [Div R] [NatCast R] (this : Nat) (a : Option Nat) : M R Unit :=
  exponentiateb this a (((1 : Nat) : R) / ((3 : Nat) : R))

/-- mlpp_vector.cpp:993-999. -/
def sin (this : Nat) : M R Unit := unIn MathFns.sin (.v this)
/-- mlpp_vector.cpp:1000-1013. -/
def sinn (this : Nat) : M R Ref := unN MathFns.sin (.v this)
/-- mlpp_vector.cpp:1014-1026. -/
def sinb (this : Nat) (a : Option Nat) : M R Unit := unB MathFns.sin (.v this) (a.map .v)

/-- mlpp_vector.cpp:1028-1034. The source calls `Math::sqrt` here. -/
def cos (this : Nat) : M R Unit := unIn MathFns.sqrt (.v this)
/-- mlpp_vector.cpp:1035-1048. -/
def cosn (this : Nat) : M R Ref := unN MathFns.cos (.v this)
/-- mlpp_vector.cpp:1049-1061. -/
def cosb (this : Nat) (a : Option Nat) : M R Unit := unB MathFns.cos (.v this) (a.map .v)
end

/-- mlpp_vector.cpp:902-908. -/
def abs [LT R] [DecidableLT R] [Neg R] [Zero R] (this : Nat) : M R Unit := unIn absC (.v this)
/-- mlpp_vector.cpp:909-922. -/
def absn [LT R] [DecidableLT R] [Neg R] [Zero R] (this : Nat) : M R Ref := unN absC (.v this)
/-- mlpp_vector.cpp:923-935. -/
def absb [LT R] [DecidableLT R] [Neg R] [Zero R] (this : Nat) (a : Option Nat) : M R Unit :=
  unB absC (.v this) (a.map .v)

/-! ## Constructors -/

/-- `vecn_zero(n)`, `create_vec_zero(n)`: mlpp_vector.cpp:937-945, 965-973. -/
def vecn_zero [Zero R] (n : Int) : M R Ref := do
  let vec ← newVec
  resize vec.id n
  fill vec.id 0
  pure (some vec)

/-- `vecn_one(n)`, `create_vec_one(n)`: mlpp_vector.cpp:946-954, 974-982. -/
def vecn_one [One R] (n : Int) : M R Ref := do
  let vec ← newVec
  resize vec.id n
  fill vec.id 1
  pure (some vec)

/-- `vecn_full(n, k)`, `create_vec_full(n, k)`: mlpp_vector.cpp:955-963, 983-991. `k` is an `int`. -/
def vecn_full [IntCast R] (n : Int) (k : Int) : M R Ref := do
  let vec ← newVec
  resize vec.id n
  fill vec.id (k : R)
  pure (some vec)

/-! ## Reductions -/

/-- `dot(b)`, mlpp_vector.cpp:868-881. -/
def dot [Zero R] [Add R] [Mul R] (this : Nat) (b : Option Nat) : M R R :=
  match b with
  | none => pure 0
  | some b => do
    let n ← size this
    let nb ← size b
    if n = nb then
      foldN n 0 fun i c => do
        let x ← load (.v this) i
        let y ← load (.v b) i
        pure (c + x * y)
    else pure 0

/-- `euclidean_distance_squared(b)`, mlpp_vector.cpp:1304-1319. -/
def euclidean_distance_squared [Zero R] [Add R] [Sub R] [Mul R] (this : Nat) (b : Option Nat) : M R R :=
  match b with
  | none => pure 0
  | some b => do
    let n ← size this
    let nb ← size b
    if n = nb then
      foldN n 0 fun i c => do
        let x ← load (.v this) i
        let y ← load (.v b) i
        pure (c + (x - y) * (x - y))
    else pure 0

/-- `euclidean_distance(b)`, mlpp_vector.cpp:1288-1303. -/
def euclidean_distance [Zero R] [Add R] [Sub R] [Mul R] [MathFns R] (this : Nat) (b : Option Nat) : M R R :=
  match b with
  | none => pure 0
  | some b => do
    let n ← size this
    let nb ← size b
    if n = nb then do
      let dist ← foldN n 0 fun i c => do
        let x ← load (.v this) i
        let y ← load (.v b) i
        pure (c + (x - y) * (x - y))
      pure (MathFns.sqrt dist)
    else pure 0

/-- `norm_sq()`, mlpp_vector.cpp:1332-1340. -/
def norm_sq [Zero R] [Add R] [Mul R] (this : Nat) : M R R := do
  let n ← size this
  foldN n 0 fun i c => do
    let x ← load (.v this) i
    pure (c + x * x)

/-- `norm_2()`, mlpp_vector.cpp:1321-1330. -/
def norm_2 [Zero R] [Add R] [Mul R] [MathFns R] (this : Nat) : M R R := do
  let n ← size this
  let n_sq ← foldN n 0 fun i c => do
    let x ← load (.v this) i
    pure (c + x * x)
  pure (MathFns.sqrt n_sq)

/-- `sum_elements()`, mlpp_vector.cpp:1342-1350. -/
def sum_elements [Zero R] [Add R] (this : Nat) : M R R := do
  let n ← size this
  foldN n 0 fun i c => do
    let x ← load (.v this) i
    pure (c + x)

/-- `max_element()`, mlpp_vector.cpp:1205-1219. -/
def max_element [LT R] [DecidableLT R] [Neg R] [HasInf R] (this : Nat) : M R R := do
  let n ← size this
  foldN n (-(HasInf.inf : R)) fun i m => do
    let x ← load (.v this) i
    pure (if m < x then x else m)

/-- `max_element_index()`, mlpp_vector.cpp:1220-1236. -/
def max_element_index [LT R] [DecidableLT R] [Neg R] [HasInf R] (this : Nat) : M R Int := do
  let n ← size this
  let r ← foldN n (-(HasInf.inf : R), (-1 : Int)) fun i p => do
    let x ← load (.v this) i
    pure (if p.1 < x then (x, (i : Int)) else p)
  pure r.2

/-- `min_element()`, mlpp_vector.cpp:1238-1252. -/
def min_element [LT R] [DecidableLT R] [HasInf R] (this : Nat) : M R R := do
  let n ← size this
  foldN n (HasInf.inf : R) fun i m => do
    let x ← load (.v this) i
    pure (if x < m then x else m)

/-- `min_element_index()`, mlpp_vector.cpp:1253-1269. -/
def min_element_index [LT R] [DecidableLT R] [HasInf R] (this : Nat) : M R Int := do
  let n ← size this
  let r ← foldN n ((HasInf.inf : R), (-1 : Int)) fun i p => do
    let x ← load (.v this) i
    pure (if x < p.1 then (x, (i : Int)) else p)
  pure r.2

/-- `cross(b)`, mlpp_vector.cpp:883-900 (no null check). -/
def cross [Zero R] [Sub R] [Mul R] [Neg R] (this : Nat) (b : Option Nat) : M R Ref := do
  let bl ← deref (b.map .v)
  let b := bl.id
  let a1 ← element_get this 1
  let b2 ← element_get b 2
  let a2 ← element_get this 2
  let b1 ← element_get b 1
  let a0 ← element_get this 0
  let b0 ← element_get b 0
  let det1 := a1 * b2 - a2 * b1
  let det2 := -(a0 * b2 - a2 * b0)
  let det3 := a0 * b1 - a1 * b0
  let ret ← newVec
  resize ret.id 3
  element_set ret.id 0 det1
  element_set ret.id 1 det2
  element_set ret.id 2 det3
  pure (some ret)

/-- `outer_product(b)`, mlpp_vector.cpp:1407-1425 (no null check). The result is a matrix; `element_set(i, j, v)` on
it is the bounds-checked write at index `i * _size.x + j` (mlpp_matrix.h). -/
def outer_product [Mul R] (this : Nat) (b : Option Nat) : M R Ref := do
  let C ← newMat
  let bl ← deref (b.map .v)
  let sb ← getSize bl
  let sa ← getSize (.v this)
  resizeTo C ⟨sb.x, sa.x, 1⟩
  forN sa.x fun i => do
    let curr_a ← load (.v this) i
    forN sb.x fun j => do
      let y ← load bl j
      store C (i * sb.x + j) (curr_a * y)
  pure (some C)

/-- `diagnm()`, mlpp_vector.cpp:1427-1442. -/
def diagnm [Zero R] (this : Nat) : M R Ref := do
  let B ← newMat
  let s ← getSize (.v this)
  resizeTo B ⟨s.x, s.x, 1⟩
  fillAll B 0
  forN s.x fun i => do
    let x ← load (.v this) i
    store B (i * s.x + i) x
  pure (some B)

/-- The double loop of `subtract_matrix_rows*`, mlpp_vector.cpp:1366-1370. -/
def subRowsLoop [Sub R] (this : Loc) (B : Loc) (bs : Size) : M R Unit :=
  forN bs.y fun i =>
    forN bs.x fun j => do
      let c ← load this j
      let x ← load B (i * bs.x + j)
      store this j (c - x)

/-- `subtract_matrix_rows(B)`, mlpp_vector.cpp:1358-1371 (no null check). -/
def subtract_matrix_rows [Sub R] (this : Nat) (B : Option Nat) : M R Unit := do
  let Bl ← deref (B.map .m)
  let bs ← getSize Bl
  let n ← size this
  if bs.x = n then subRowsLoop (.v this) Bl bs else pure ()

/-- `subtract_matrix_rowsn(B)`, mlpp_vector.cpp:1372-1389 (no null check). -/
def subtract_matrix_rowsn [Sub R] (this : Nat) (B : Option Nat) : M R Ref := do
  let c ← duplicate_fast this
  let cl ← deref c
  let Bl ← deref (B.map .m)
  let bs ← getSize Bl
  let cs ← getSize cl
  if bs.x = cs.x then do
    subRowsLoop cl Bl bs
    pure c
  else pure c

/-- `subtract_matrix_rowsb(a, B)`, mlpp_vector.cpp:1390-1405 (no null check). -/
def subtract_matrix_rowsb [Sub R] (this : Nat) (a B : Option Nat) : M R Unit := do
  let Bl ← deref (B.map .m)
  let bs ← getSize Bl
  let al ← deref (a.map .v)
  let as ← getSize al
  if bs.x = as.x then do
    set_from_mlpp_vector this a
    subRowsLoop (.v this) Bl bs
  else pure ()

end Vec
end Verif
