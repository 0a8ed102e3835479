import Verif.Scalar
import Verif.Model.Elementwise
import Verif.Model.Vector

/-!
# `MLPPMatrix` (core/mlpp_matrix.h, core/mlpp_matrix.cpp)

`_size.x` is the number of columns, `_size.y` the number of rows, cells are stored row by row. Extents are natural
numbers: calls that would give a matrix a negative extent are outside the model, and so is overflow of `int`.
-/

namespace Verif

/-- `r->...` where `r` is a handle to a matrix. -/
def derefM {R : Type} (r : Ref) : M R Nat :=
  match r with
  | some (.m i) => pure i
  | _ => ub

/-- `r->...` where `r` is a handle to a vector. -/
def derefV {R : Type} (r : Ref) : M R Nat :=
  match r with
  | some (.v i) => pure i
  | _ => ub

namespace Mat
variable {R : Type}

/-- `size()`, mlpp_matrix.h:92. -/
def size (this : Nat) : M R Size := getSize (.m this)

/-- `resize(Size2i(cols, rows))`, mlpp_matrix.cpp:259-275. -/
def resize (this : Nat) (cols rows : Nat) : M R Unit := resizeTo (.m this) ⟨cols, rows, 1⟩

/-- `clear()`, mlpp_matrix.h:81. -/
def clear (this : Nat) : M R Unit := resize this 0 0

/-- `reset()`, mlpp_matrix.h:82-88: does nothing at all when there is no allocation. -/
def reset (this : Nat) : M R Unit := do
  if ← isNull (.m this) then pure () else do
    memfree (.m this)
    putSize (.m this) ⟨0, 0, 1⟩

/-- `element_get_index(p_index)`, mlpp_matrix.h:109-113. -/
def element_get_index [Zero R] (this : Nat) (p_index : Int) : M R R := do
  let s ← size this
  if idxOk p_index s.count then load (.m this) p_index.toNat else pure 0

/-- `element_set_index(p_index, p_val)`, mlpp_matrix.h:115-119. -/
def element_set_index (this : Nat) (p_index : Int) (p_val : R) : M R Unit := do
  let s ← size this
  if idxOk p_index s.count then store (.m this) p_index.toNat p_val else pure ()

/-- `element_get(p_index_y, p_index_x)`, mlpp_matrix.h:121-126. -/
def element_get [Zero R] (this : Nat) (p_index_y p_index_x : Int) : M R R := do
  let s ← size this
  if idxOk p_index_x s.x then
    if idxOk p_index_y s.y then load (.m this) (p_index_y * s.x + p_index_x).toNat else pure 0
  else pure 0

/-- `element_set(p_index_y, p_index_x, p_val)`, mlpp_matrix.h:128-133. -/
def element_set (this : Nat) (p_index_y p_index_x : Int) (p_val : R) : M R Unit := do
  let s ← size this
  if idxOk p_index_x s.x then
    if idxOk p_index_y s.y then store (.m this) (p_index_y * s.x + p_index_x).toNat p_val else pure ()
  else pure ()

/-- `get_data()`, mlpp_matrix.cpp:42-62; also `to_flat_vector`, `to_flat_pool_vector`, mlpp_matrix.cpp:414-434. -/
def get_data (this : Nat) : M R (Size × List R) := do
  let s ← size this
  let xs ← readAll (.m this) s.count
  pure (s, xs)

/-- `set_data([s, pl])`, mlpp_matrix.cpp:63-85; an array that does not have two entries is rejected and not modelled. -/
def set_data (this : Nat) (p_from : (Nat × Nat) × List R) : M R Unit := do
  let ds := p_from.1.1 * p_from.1.2
  if ds = p_from.2.length then do
    let t ← size this
    if t = ⟨p_from.1.1, p_from.1.2, 1⟩ then pure () else resize this p_from.1.1 p_from.1.2
    storeList (.m this) p_from.2
  else pure ()

/-- `row_add(p_row)`, `row_add_pool_vector(p_row)`, mlpp_matrix.cpp:87-136. -/
def row_add (this : Nat) (p_row : List R) : M R Unit := do
  if p_row.length = 0 then pure () else do
    let s ← size this
    if s.x = 0 then putSize (.m this) ⟨p_row.length, s.y, 1⟩ else pure ()
    let s ← size this
    if s.x = p_row.length then do
      let ci := s.count
      putSize (.m this) ⟨s.x, s.y + 1, 1⟩
      memrealloc (.m this) (s.x * (s.y + 1))
      forN p_row.length fun i =>
        match p_row[i]? with
        | some v => store (.m this) (ci + i) v
        | none => ub
    else pure ()

/-- `row_add_mlpp_vector(p_row)`, mlpp_matrix.cpp:138-165. -/
def row_add_mlpp_vector (this : Nat) (p_row : Option Nat) : M R Unit :=
  match p_row with
  | none => pure ()
  | some r => do
    let n ← Vec.size r
    if n = 0 then pure () else do
      let s ← size this
      if s.x = 0 then putSize (.m this) ⟨n, s.y, 1⟩ else pure ()
      let s ← size this
      if s.x = n then do
        let ci := s.count
        putSize (.m this) ⟨s.x, s.y + 1, 1⟩
        memrealloc (.m this) (s.x * (s.y + 1))
        forN n fun i => do
          let v ← load (.v r) i
          store (.m this) (ci + i) v
      else pure ()

/-- `rows_add_mlpp_matrix(p_other)`, mlpp_matrix.cpp:167-196. `other_ptr` is fetched after the reallocation. -/
def rows_add_mlpp_matrix (this : Nat) (p_other : Option Nat) : M R Unit :=
  match p_other with
  | none => pure ()
  | some o => do
    let os ← size o
    if os.count = 0 then pure () else do
      let s ← size this
      if s.x = 0 then putSize (.m this) ⟨os.x, s.y, 1⟩ else pure ()
      let s ← size this
      if os.x = s.x then do
        let start_offset := s.count
        putSize (.m this) ⟨s.x, s.y + os.y, 1⟩
        memrealloc (.m this) (s.x * (s.y + os.y))
        forN os.count fun i => do
          let v ← load (.m o) i
          store (.m this) (start_offset + i) v
      else pure ()

/-- `row_remove(p_index)`, mlpp_matrix.cpp:198-217. -/
def row_remove (this : Nat) (p_index : Int) : M R Unit := do
  let s ← size this
  if idxOk p_index s.y then do
    let y' := s.y - 1
    putSize (.m this) ⟨s.x, y', 1⟩
    let ds := s.x * y'
    if ds = 0 then memfree (.m this) else do
      loop (p_index.toNat * s.x) (ds - p_index.toNat * s.x) () fun i _ => do
        let v ← load (.m this) (i + s.x)
        store (.m this) i v
      memrealloc (.m this) ds
  else pure ()

/-- `row_remove_unordered(p_index)`, mlpp_matrix.cpp:221-245. -/
def row_remove_unordered (this : Nat) (p_index : Int) : M R Unit := do
  let s ← size this
  if idxOk p_index s.y then do
    let y' := s.y - 1
    putSize (.m this) ⟨s.x, y', 1⟩
    let ds := s.x * y'
    if ds = 0 then memfree (.m this) else do
      let start_ind := p_index.toNat * s.x
      let last_row_start_ind := y' * s.x
      if start_ind = last_row_start_ind then pure () else
        forN s.x fun i => do
          let v ← load (.m this) (last_row_start_ind + i)
          store (.m this) (start_ind + i) v
      memrealloc (.m this) ds
  else pure ()

/-- `row_swap(p_index_1, p_index_2)`, mlpp_matrix.cpp:247-257. -/
def row_swap (this : Nat) (p_index_1 p_index_2 : Int) : M R Unit := do
  let s ← size this
  if idxOk p_index_1 s.y then
    if idxOk p_index_2 s.y then
      forN s.x fun i => do
        let v ← load (.m this) (p_index_1.toNat * s.x + i)
        let w ← load (.m this) (p_index_2.toNat * s.x + i)
        store (.m this) (p_index_1.toNat * s.x + i) w
        store (.m this) (p_index_2.toNat * s.x + i) v
    else pure ()
  else pure ()

/-- `row_get_vector(p_index_y)`, `row_get_pool_vector(p_index_y)`, mlpp_matrix.cpp:277-320. -/
def row_get_vector (this : Nat) (p_index_y : Int) : M R (List R) := do
  let s ← size this
  if idxOk p_index_y s.y then
    foldN s.x [] fun i acc => do
      let v ← load (.m this) (p_index_y.toNat * s.x + i)
      pure (acc ++ [v])
  else pure []

/-- The copy loop of `row_get_*mlpp_vector`, mlpp_matrix.cpp:338-340, 357-359. -/
def rowCopy (this : Nat) (out : Nat) (y cols : Nat) : M R Unit :=
  forN cols fun i => do
    let v ← load (.m this) (y * cols + i)
    store (.v out) i v

/-- `row_get_mlpp_vector(p_index_y)`, mlpp_matrix.cpp:322-343. -/
def row_get_mlpp_vector (this : Nat) (p_index_y : Int) : M R Ref := do
  let s ← size this
  if idxOk p_index_y s.y then do
    let ret ← newVec
    if s.x = 0 then pure (some ret) else do
      resizeTo ret ⟨s.x, 1, 1⟩
      rowCopy this ret.id p_index_y.toNat s.x
      pure (some ret)
  else pure none

/-- `row_get_into_mlpp_vector(p_index_y, target)`, mlpp_matrix.cpp:345-360. -/
def row_get_into_mlpp_vector (this : Nat) (p_index_y : Int) (target : Option Nat) : M R Unit :=
  match target with
  | none => pure ()
  | some t => do
    let s ← size this
    if idxOk p_index_y s.y then do
      ensureSize (.v t) ⟨s.x, 1, 1⟩
      rowCopy this t p_index_y.toNat s.x
    else pure ()

/-- `row_set_vector(p_index_y, p_row)`, `row_set_pool_vector`, mlpp_matrix.cpp:362-387. -/
def row_set_vector (this : Nat) (p_index_y : Int) (p_row : List R) : M R Unit := do
  let s ← size this
  if p_row.length = s.x then
    if idxOk p_index_y s.y then
      forN s.x fun i =>
        match p_row[i]? with
        | some v => store (.m this) (p_index_y.toNat * s.x + i) v
        | none => ub
    else pure ()
  else pure ()

/-- `row_set_mlpp_vector(p_index_y, p_row)`, mlpp_matrix.cpp:389-401. -/
def row_set_mlpp_vector (this : Nat) (p_index_y : Int) (p_row : Option Nat) : M R Unit :=
  match p_row with
  | none => pure ()
  | some r => do
    let n ← Vec.size r
    let s ← size this
    if n = s.x then
      if idxOk p_index_y s.y then
        forN s.x fun i => do
          let v ← load (.v r) i
          store (.m this) (p_index_y.toNat * s.x + i) v
      else pure ()
    else pure ()

/-- `fill(p_val)`, mlpp_matrix.cpp:403-412. -/
def fill (this : Nat) (p_val : R) : M R Unit := fillAll (.m this) p_val

/-- `set_from_mlpp_matrix(p_from)`, mlpp_matrix.cpp:453-460 (unconditional `resize`). -/
def set_from_mlpp_matrix (this : Nat) (p_from : Option Nat) : M R Unit := unB id (.m this) (p_from.map .m)

/-- `duplicate_fast()`, mlpp_matrix.cpp:444-451, with `set_from_mlpp_matrixr`, mlpp_matrix.cpp:462-467. -/
def duplicate_fast (this : Nat) : M R Ref := unN id (.m this)

/-- `set_from_vectors(p_from)`, `set_from_arrays(p_from)`, mlpp_matrix.cpp:537-592: a row of the wrong length is
skipped, so its cells keep whatever the allocation held. -/
def set_from_vectors (this : Nat) (p_from : List (List R)) : M R Unit :=
  match p_from with
  | [] => reset this
  | r0 :: _ => do
    resize this r0.length p_from.length
    let s ← size this
    if s.count = 0 then reset this else
      forN p_from.length fun i =>
        match p_from[i]? with
        | none => ub
        | some r =>
          if r.length = s.x then
            forN s.x fun j =>
              match r[j]? with
              | some v => store (.m this) (i * s.x + j) v
              | none => ub
          else pure ()

/-- `is_equal_approx(p_with, tolerance)`, mlpp_matrix.cpp:3021-3041. -/
def is_equal_approx [BEq R] [LT R] [DecidableLT R] [Sub R] [Neg R] [Zero R] (this : Nat) (p_with : Option Nat) (tol : R) :
    M R Bool := Vec.is_equal_approx (.m this) (p_with.map .m) tol

/-! ## Element-wise methods -/

/-- mlpp_matrix.cpp:672-684. -/
def add [Add R] (this : Nat) (b : Option Nat) : M R Unit := binIn (· + ·) (.m this) (b.map .m)
/-- mlpp_matrix.cpp:685-704. -/
def addn [Add R] (this : Nat) (b : Option Nat) : M R Ref := binN (· + ·) (.m this) (b.map .m)
/-- mlpp_matrix.cpp:705-723. -/
def addb [Add R] (this : Nat) (a b : Option Nat) : M R Unit := binB (· + ·) (.m this) (a.map .m) (b.map .m)

/-- mlpp_matrix.cpp:725-737. -/
def sub [Sub R] (this : Nat) (b : Option Nat) : M R Unit := binIn (· - ·) (.m this) (b.map .m)
/-- mlpp_matrix.cpp:738-757. -/
def subn [Sub R] (this : Nat) (b : Option Nat) : M R Ref := binN (· - ·) (.m this) (b.map .m)
/-- mlpp_matrix.cpp:758-776. -/
def subb [Sub R] (this : Nat) (a b : Option Nat) : M R Unit := binB (· - ·) (.m this) (a.map .m) (b.map .m)

/-- mlpp_matrix.cpp:880-892. -/
def hadamard_product [Mul R] (this : Nat) (b : Option Nat) : M R Unit := binIn (· * ·) (.m this) (b.map .m)
/-- mlpp_matrix.cpp:893-912. -/
def hadamard_productn [Mul R] (this : Nat) (b : Option Nat) : M R Ref := binN (· * ·) (.m this) (b.map .m)
/-- mlpp_matrix.cpp:913-931. -/
def hadamard_productb [Mul R] (this : Nat) (a b : Option Nat) : M R Unit :=
  binB (· * ·) (.m this) (a.map .m) (b.map .m)

/-- mlpp_matrix.cpp:1066-1078. -/
def division_element_wise [Div R] (this : Nat) (b : Option Nat) : M R Unit := binIn (· / ·) (.m this) (b.map .m)
/-- mlpp_matrix.cpp:1079-1098. -/
def division_element_wisen [Div R] (this : Nat) (b : Option Nat) : M R Ref := binN (· / ·) (.m this) (b.map .m)
/-- mlpp_matrix.cpp:1099-1117. -/
def division_element_wiseb [Div R] (this : Nat) (a b : Option Nat) : M R Unit :=
  binB (· / ·) (.m this) (a.map .m) (b.map .m)

/-- mlpp_matrix.cpp:1983-1995. -/
def max [LT R] [DecidableLT R] (this : Nat) (b : Option Nat) : M R Unit := binIn maxC (.m this) (b.map .m)
/-- mlpp_matrix.cpp:1996-2015. -/
def maxn [LT R] [DecidableLT R] (this : Nat) (b : Option Nat) : M R Ref := binN maxC (.m this) (b.map .m)
/-- mlpp_matrix.cpp:2016-2034. -/
def maxb [LT R] [DecidableLT R] (this : Nat) (a b : Option Nat) : M R Unit :=
  binB maxC (.m this) (a.map .m) (b.map .m)

/-- mlpp_matrix.cpp:2036-2048. -/
def min [LT R] [DecidableLT R] (this : Nat) (b : Option Nat) : M R Unit := binIn minC (.m this) (b.map .m)
/-- mlpp_matrix.cpp:2049-2068. -/
def minn [LT R] [DecidableLT R] (this : Nat) (b : Option Nat) : M R Ref := binN minC (.m this) (b.map .m)
/-- mlpp_matrix.cpp:2069-2087. -/
def minb [LT R] [DecidableLT R] (this : Nat) (a b : Option Nat) : M R Unit :=
  binB minC (.m this) (a.map .m) (b.map .m)

/-- mlpp_matrix.cpp:1171-1177. -/
def scalar_multiply [Mul R] (this : Nat) (k : R) : M R Unit := unIn (· * k) (.m this)
/-- mlpp_matrix.cpp:1178-1188. -/
def scalar_multiplyn [Mul R] (this : Nat) (k : R) : M R Ref := do
  let AN ← duplicate_fast this
  let an ← derefM AN
  unIn (· * k) (.m an)
  pure AN
/-- mlpp_matrix.cpp:1189-1202: the loop reads the target's own cells (`an_ptr = ptrw()`), not those of `A`. -/
def scalar_multiplyb [Mul R] (this : Nat) (k : R) (a : Option Nat) : M R Unit :=
  match a with
  | none => pure ()
  | some a => do
    let s ← size a
    ensureSize (.m this) s
    unIn (· * k) (.m this)

/-- mlpp_matrix.cpp:1204-1210. -/
def scalar_add [Add R] (this : Nat) (k : R) : M R Unit := unIn (· + k) (.m this)
/-- mlpp_matrix.cpp:1211-1221. -/
def scalar_addn [Add R] (this : Nat) (k : R) : M R Ref := do
  let AN ← duplicate_fast this
  let an ← derefM AN
  unIn (· + k) (.m an)
  pure AN
/-- mlpp_matrix.cpp:1222-1235: the loop reads the target's own cells, not those of `A`. -/
def scalar_addb [Add R] (this : Nat) (k : R) (a : Option Nat) : M R Unit :=
  match a with
  | none => pure ()
  | some a => do
    let s ← size a
    ensureSize (.m this) s
    unIn (· + k) (.m this)

section
variable [MathFns R]

/-- mlpp_matrix.cpp:1237-1245. -/
def log (this : Nat) : M R Unit := unIn MathFns.log (.m this)
/-- mlpp_matrix.cpp:1246-1261. -/
def logn (this : Nat) : M R Ref := unN MathFns.log (.m this)
/-- mlpp_matrix.cpp:1262-1279. -/
def logb (this : Nat) (a : Option Nat) : M R Unit := unBC MathFns.log (.m this) (a.map .m)

/-- mlpp_matrix.cpp:1281-1289. -/
def log10 (this : Nat) : M R Unit := unIn MathFns.log10 (.m this)
/-- mlpp_matrix.cpp:1290-1305. -/
def log10n (this : Nat) : M R Ref := unN MathFns.log10 (.m this)
/-- mlpp_matrix.cpp:1306-1323. -/
def log10b (this : Nat) (a : Option Nat) : M R Unit := unBC MathFns.log10 (.m this) (a.map .m)

/-- mlpp_matrix.cpp:1325-1333. -/
def exp (this : Nat) : M R Unit := unIn MathFns.exp (.m this)
/-- mlpp_matrix.cpp:1334-1349. -/
def expn (this : Nat) : M R Ref := unN MathFns.exp (.m this)
/-- mlpp_matrix.cpp:1350-1367. -/
def expb (this : Nat) (a : Option Nat) : M R Unit := unBC MathFns.exp (.m this) (a.map .m)

/-- mlpp_matrix.cpp:1369-1377. -/
def erf (this : Nat) : M R Unit := unIn MathFns.erf (.m this)
/-- mlpp_matrix.cpp:1378-1393. -/
def erfn (this : Nat) : M R Ref := unN MathFns.erf (.m this)
/-- mlpp_matrix.cpp:1394-1411. -/
def erfb (this : Nat) (a : Option Nat) : M R Unit := unBC MathFns.erf (.m this) (a.map .m)

/-- mlpp_matrix.cpp:1413-1421. -/
def exponentiate (this : Nat) (p : R) : M R Unit := unIn (MathFns.pow · p) (.m this)
/-- mlpp_matrix.cpp:1422-1437. -/
def exponentiaten (this : Nat) (p : R) : M R Ref := unN (MathFns.pow · p) (.m this)
/-- mlpp_matrix.cpp:1438-1455. -/
def exponentiateb (this : Nat) (a : Option Nat) (p : R) : M R Unit := unBC (MathFns.pow · p) (.m this) (a.map .m)

/-- mlpp_matrix.cpp:1457-1465. -/
def sqrt (this : Nat) : M R Unit := unIn MathFns.sqrt (.m this)
/-- mlpp_matrix.cpp:1466-1481. -/
def sqrtn (this : Nat) : M R Ref := unN MathFns.sqrt (.m this)
/-- mlpp_matrix.cpp:1482-1499. -/
def sqrtb (this : Nat) (a : Option Nat) : M R Unit := unBC MathFns.sqrt (.m this) (a.map .m)

/-- mlpp_matrix.cpp:1501-1503. -/
def cbrt [Div R] [NatCast R] (this : Nat) : M R Unit := exponentiate this (((1 : Nat) : R) / ((3 : Nat) : R))
/-- mlpp_matrix.cpp:1504-1506. -/
def cbrtn [Div R] [NatCast R] (this : Nat) : M R Ref := exponentiaten this (((1 : Nat) : R) / ((3 : Nat) : R))
/-- mlpp_matrix.cpp:1507-1509. -/
def cbrtb [Div R] [NatCast R] (this : Nat) (a : Option Nat) : M R Unit :=
  exponentiateb this a (((1 : Nat) : R) / ((3 : Nat) : R))

/-- mlpp_matrix.cpp:1819-1827. -/
def sin (this : Nat) : M R Unit := unIn MathFns.sin (.m this)
/-- mlpp_matrix.cpp:1828-1843. -/
def sinn (this : Nat) : M R Ref := unN MathFns.sin (.m this)
/-- mlpp_matrix.cpp:1844-1859. -/
def sinb (this : Nat) (a : Option Nat) : M R Unit := unBC MathFns.sin (.m this) (a.map .m)

/-- mlpp_matrix.cpp:1861-1869. -/
def cos (this : Nat) : M R Unit := unIn MathFns.cos (.m this)
/-- mlpp_matrix.cpp:1870-1885. -/
def cosn (this : Nat) : M R Ref := unN MathFns.cos (.m this)
/-- mlpp_matrix.cpp:1886-1901. -/
def cosb (this : Nat) (a : Option Nat) : M R Unit := unBC MathFns.cos (.m this) (a.map .m)
end

/-- mlpp_matrix.cpp:1547-1555. -/
def abs [LT R] [DecidableLT R] [Neg R] [Zero R] (this : Nat) : M R Unit := unIn absC (.m this)
/-- mlpp_matrix.cpp:1556-1571. -/
def absn [LT R] [DecidableLT R] [Neg R] [Zero R] (this : Nat) : M R Ref := unN absC (.m this)
/-- mlpp_matrix.cpp:1572-1589. -/
def absb [LT R] [DecidableLT R] [Neg R] [Zero R] (this : Nat) (a : Option Nat) : M R Unit :=
  unBC absC (.m this) (a.map .m)

/-! ## Products -/

/-- The triple loop of `mult*`: `c[i][j] += a[i][k] * b[k][j]`, mlpp_matrix.cpp:799-810, 829-840, 866-877.
`ca`, `cb`, `cc` are the numbers of columns `calculate_index` multiplies by. -/
def multLoop [Add R] [Mul R] (a b c : Loc) (rows mid cols ca cb cc : Nat) : M R Unit :=
  forN rows fun i =>
    forN mid fun k =>
      forN cols fun j => do
        let z ← load c (i * cc + j)
        let x ← load a (i * ca + k)
        let y ← load b (k * cb + j)
        store c (i * cc + j) (z + x * y)

/-- `mult(B)`, mlpp_matrix.cpp:778-812. -/
def mult [Zero R] [Add R] [Mul R] (this : Nat) (b : Option Nat) : M R Unit :=
  match b with
  | none => pure ()
  | some b => do
    let bs ← size b
    let s ← size this
    if s.x = bs.y then do
      let A ← duplicate_fast this
      let a ← derefM A
      let as ← size a
      ensureSize (.m this) ⟨bs.x, as.y, 1⟩
      fill this 0
      let cs ← size this
      let bs' ← size b
      multLoop (.m a) (.m b) (.m this) as.y bs.y bs.x as.x bs'.x cs.x
    else pure ()

/-- `multn(B)`, mlpp_matrix.cpp:813-845. -/
def multn [Zero R] [Add R] [Mul R] (this : Nat) (b : Option Nat) : M R Ref :=
  match b with
  | none => pure none
  | some b => do
    let bs ← size b
    let s ← size this
    if s.x = bs.y then do
      let C ← newMat
      resizeTo C ⟨bs.x, s.y, 1⟩
      fillAll C 0
      let cs ← getSize C
      multLoop (.m this) (.m b) C s.y bs.y bs.x s.x bs.x cs.x
      pure (some C)
    else pure none

/-- `multb(A, B)`, mlpp_matrix.cpp:846-878. -/
def multb [Zero R] [Add R] [Mul R] (this : Nat) (a b : Option Nat) : M R Unit :=
  match a, b with
  | some a, some b => do
    let as ← size a
    let bs ← size b
    if as.x = bs.y then do
      ensureSize (.m this) ⟨bs.x, as.y, 1⟩
      fill this 0
      let as' ← size a
      let bs' ← size b
      let cs ← size this
      multLoop (.m a) (.m b) (.m this) as.y bs.y bs.x as'.x bs'.x cs.x
    else pure ()
  | _, _ => pure ()

/-- The double loop of `transpose*`: `at[j][i] = a[i][j]`, mlpp_matrix.cpp:1128-1132, 1142-1146, 1164-1168. -/
def transLoop (a out : Loc) (rows cols ca co : Nat) : M R Unit :=
  forN rows fun i =>
    forN cols fun j => do
      let x ← load a (i * ca + j)
      store out (j * co + i) x

/-- `transpose()`, mlpp_matrix.cpp:1119-1133. -/
def transpose (this : Nat) : M R Unit := do
  let A ← duplicate_fast this
  let a ← derefM A
  let as ← size a
  resize this as.y as.x
  let s ← size this
  transLoop (.m a) (.m this) as.y as.x as.x s.x

/-- `transposen()`, mlpp_matrix.cpp:1134-1149. -/
def transposen (this : Nat) : M R Ref := do
  let AT ← newMat
  let s ← size this
  resizeTo AT ⟨s.y, s.x, 1⟩
  let ts ← getSize AT
  transLoop (.m this) AT s.y s.x s.x ts.x
  pure (some AT)

/-- `transposeb(A)`, mlpp_matrix.cpp:1150-1169. -/
def transposeb (this : Nat) (a : Option Nat) : M R Unit :=
  match a with
  | none => pure ()
  | some a => do
    let as ← size a
    ensureSize (.m this) ⟨as.y, as.x, 1⟩
    let as' ← size a
    let s ← size this
    transLoop (.m a) (.m this) as.y as.x as'.x s.x

/-- One output row of `kronecker_product*`: the list of scaled copies of the row in `row_tmp`,
mlpp_matrix.cpp:962-966, 1006-1010, 1053-1057. -/
def kronRow [Mul R] (a : Loc) (ca i : Nat) (row_tmp : Nat) (cols : Nat) : M R (List (Option Nat)) :=
  foldN cols [] fun k acc => do
    let x ← load a (i * ca + k)
    let r ← Vec.scalar_multiplyn row_tmp x
    let v ← derefV r
    pure (acc ++ [some v])

/-- The loops of `kronecker_product*`, mlpp_matrix.cpp:957-973, 1001-1017, 1048-1064. -/
def kronLoop [Mul R] (a : Loc) (b out row_tmp : Nat) (rows cols ca brows : Nat) : M R Unit :=
  forN rows fun i =>
    forN brows fun j => do
      row_get_into_mlpp_vector b j (some row_tmp)
      let row ← kronRow a ca i row_tmp cols
      let fl ← Vec.flatten_vectorsn row
      let f ← derefV fl
      row_set_mlpp_vector out ((i * brows + j : Nat) : Int) (some f)

/-- `kronecker_product(B)`, mlpp_matrix.cpp:933-976: the loops run over the extents of the *resized* target. -/
def kronecker_product [Mul R] (this : Nat) (b : Option Nat) : M R Unit :=
  match b with
  | none => pure ()
  | some b => do
    let as ← size this
    let bs ← size b
    let A ← duplicate_fast this
    let a ← derefM A
    resize this (bs.x * as.x) (bs.y * as.y)
    let row_tmp ← newVec
    resizeTo row_tmp ⟨bs.x, 1, 1⟩
    let s ← size this
    kronLoop (.m a) b this row_tmp.id s.y s.x as.x bs.y

/-- `kronecker_productn(B)`, mlpp_matrix.cpp:977-1022. -/
def kronecker_productn [Mul R] (this : Nat) (b : Option Nat) : M R Ref :=
  match b with
  | none => pure none
  | some b => do
    let as ← size this
    let bs ← size b
    let C ← newMat
    resizeTo C ⟨bs.x * as.x, bs.y * as.y, 1⟩
    let row_tmp ← newVec
    resizeTo row_tmp ⟨bs.x, 1, 1⟩
    kronLoop (.m this) b C.id row_tmp.id as.y as.x as.x bs.y
    pure (some C)

/-- `kronecker_productb(A, B)`, mlpp_matrix.cpp:1023-1065. -/
def kronecker_productb [Mul R] (this : Nat) (a b : Option Nat) : M R Unit :=
  match a, b with
  | some a, some b => do
    let as ← size a
    let bs ← size b
    resize this (bs.x * as.x) (bs.y * as.y)
    let row_tmp ← newVec
    resizeTo row_tmp ⟨bs.x, 1, 1⟩
    let as' ← size a
    kronLoop (.m a) b this row_tmp.id as.y as.x as'.x bs.y
  | _, _ => pure ()

/-! ## Determinant, adjoint, inverse -/

/-- The inner loop `for k` of `detb`, mlpp_matrix.cpp:1622-1629, with the local variable `sub_j`. -/
def detRow [Zero R] (a B : Nat) (d i j sub_i : Nat) : M R Nat :=
  foldN d 0 fun k sub_j =>
    if k = i then pure sub_j else do
      let x ← element_get a j k
      element_set B sub_i sub_j x
      pure (sub_j + 1)

/-- `detb(A, d)`, mlpp_matrix.cpp:1599-1636, for `d ≥ 0`. The recursive call is `B->det(d - 1)`, which is
`detb(B, d - 1)` because `d - 1 ≠ -1` inside the loop (mlpp_matrix.cpp:1591-1597). -/
def detb [Zero R] [One R] [Neg R] [Add R] [Sub R] [Mul R] [NatCast R] [MathFns R] (a : Nat) : (d : Nat) → M R R
  | 2 => do
    let x ← element_get a 0 0
    let y ← element_get a 1 1
    let z ← element_get a 0 1
    let w ← element_get a 1 0
    pure (x * y - z * w)
  | 0 => do
    let B ← newMat
    resizeTo B ⟨0, 0, 1⟩
    fillAll B 0
    pure 0
  | d' + 1 => do
    let B ← newMat
    resizeTo B ⟨d' + 1, d' + 1, 1⟩
    fillAll B 0
    foldN (d' + 1) 0 fun i deter => do
      let _ ← loop 1 d' 0 fun j sub_i => do
        let _ ← detRow a B.id (d' + 1) i j sub_i
        pure (sub_i + 1)
      let x ← element_get a 0 i
      let m ← detb B.id d'
      pure (deter + MathFns.pow (-1 : R) (i : R) * x * m)

/-- `det()`, mlpp_matrix.cpp:1591-1597 with the default argument `-1`. -/
def det [Zero R] [One R] [Neg R] [Add R] [Sub R] [Mul R] [NatCast R] [MathFns R] (this : Nat) : M R R := do
  let s ← size this
  detb this s.y

/-- `trace()`, mlpp_matrix.cpp:1637-1647. -/
def trace [Zero R] [Add R] (this : Nat) : M R R := do
  let s ← size this
  foldN (Nat.min s.x s.y) 0 fun i t => do
    let x ← element_get this i i
    pure (t + x)

/-- The loops of `cofactor*`, mlpp_matrix.cpp:1656-1667, 1679-1690, with the local variables `(sub_i, sub_j)`. -/
def cofLoop [Zero R] (this cof : Nat) (n i j : Nat) : M R (Nat × Nat) :=
  foldN n (0, 0) fun row p =>
    foldN n p fun col p =>
      if row ≠ i ∧ col ≠ j then do
        let x ← element_get this row col
        element_set cof p.1 p.2 x
        let sub_j := p.2 + 1
        if (sub_j : Int) = (n : Int) - 1 then pure (p.1 + 1, 0) else pure (p.1, sub_j)
      else pure p

/-- `cofactor(n, i, j)`, mlpp_matrix.cpp:1649-1671. -/
def cofactor [Zero R] (this : Nat) (n i j : Nat) : M R Ref := do
  let cof ← newMat
  let s ← size this
  resizeTo cof s
  let _ ← cofLoop this cof.id n i j
  pure (some cof)

/-- The body of `adjoint*` after the size check, mlpp_matrix.cpp:1704-1734, 1746-1771. -/
def adjLoop [Zero R] [One R] [Neg R] [Add R] [Sub R] [Mul R] [NatCast R] [MathFns R] (this adj : Nat) (n : Nat) :
    M R Unit := do
  if n = 1 then element_set adj 0 0 1
  else if n = 2 then do
    let d ← element_get this 1 1
    element_set adj 0 0 d
    let a ← element_get this 0 0
    element_set adj 1 1 a
    let b ← element_get this 0 1
    element_set adj 0 1 (-b)
    let c ← element_get this 1 0
    element_set adj 1 0 (-c)
  else
    forN n fun i =>
      forN n fun j => do
        let cof ← cofactor this n i j
        let c ← derefM cof
        let d ← detb c (n - 1)
        element_set adj j i ((if (i + j) % 2 = 0 then (1 : R) else -1) * d)

/-- `adjoint()`, mlpp_matrix.cpp:1696-1735. -/
def adjoint [Zero R] [One R] [Neg R] [Add R] [Sub R] [Mul R] [NatCast R] [MathFns R] (this : Nat) : M R Ref := do
  let s ← size this
  if s.x = s.y then do
    let adj ← newMat
    resizeTo adj s
    adjLoop this adj.id s.y
    pure (some adj)
  else pure none

/-- `adjointo(out)`, mlpp_matrix.cpp:1736-1772. -/
def adjointo [Zero R] [One R] [Neg R] [Add R] [Sub R] [Mul R] [NatCast R] [MathFns R] (this : Nat) (out : Option Nat) :
    M R Unit :=
  match out with
  | none => pure ()
  | some out => do
    let s ← size this
    if s.x = s.y then do
      ensureSize (.m out) s
      adjLoop this out s.y
    else pure ()

/-- `inverse()`, mlpp_matrix.cpp:1773-1775. C++ leaves open whether `adjoint()` or `det()` runs first; neither
changes an existing object. -/
def inverse [Zero R] [One R] [Neg R] [Add R] [Sub R] [Mul R] [Div R] [NatCast R] [MathFns R] (this : Nat) : M R Ref := do
  let A ← adjoint this
  let a ← derefM A
  let d ← det this
  scalar_multiplyn a (1 / d)

/-- `inverseo(out)`, mlpp_matrix.cpp:1776-1780. -/
def inverseo [Zero R] [One R] [Neg R] [Add R] [Sub R] [Mul R] [Div R] [NatCast R] [MathFns R] (this : Nat)
    (out : Option Nat) : M R Unit :=
  match out with
  | none => pure ()
  | some out => do
    let A ← inverse this
    let a ← derefM A
    set_from_mlpp_matrix out (some a)

/-- `pinverse()`, mlpp_matrix.cpp:1782-1784. -/
def pinverse [Zero R] [One R] [Neg R] [Add R] [Sub R] [Mul R] [Div R] [NatCast R] [MathFns R] (this : Nat) : M R Ref := do
  let AA ← multn this (some this)
  let aa ← derefM AA
  let T ← transposen aa
  let t ← derefM T
  let I ← inverse t
  let i ← derefM I
  let AT ← transposen this
  let at' ← derefM AT
  multn i (some at')

/-! ## Constructors -/

/-- `matn_zero(n, m)`, mlpp_matrix.cpp:1791-1799. -/
def matn_zero [Zero R] (n m : Nat) : M R Ref := do
  let mat ← newMat
  resizeTo mat ⟨m, n, 1⟩
  fillAll mat 0
  pure (some mat)

/-- `matn_one(n, m)`, mlpp_matrix.cpp:1800-1808. -/
def matn_one [One R] (n m : Nat) : M R Ref := do
  let mat ← newMat
  resizeTo mat ⟨m, n, 1⟩
  fillAll mat 1
  pure (some mat)

/-- `matn_full(n, m, k)`, mlpp_matrix.cpp:1809-1817. `k` is an `int`. -/
def matn_full [IntCast R] (n m : Nat) (k : Int) : M R Ref := do
  let mat ← newMat
  resizeTo mat ⟨m, n, 1⟩
  fillAll mat (k : R)
  pure (some mat)

/-- The diagonal loop, mlpp_matrix.cpp:2132-2134, 2152-2154. -/
def diagOnes [One R] (l : Loc) (d cols : Nat) : M R Unit :=
  forN d fun i => store l (i * cols + i) 1

/-- `identity()`, mlpp_matrix.cpp:2125-2135. -/
def identity [Zero R] [One R] (this : Nat) : M R Unit := do
  fill this 0
  let s ← size this
  diagOnes (.m this) (Nat.min s.x s.y) s.x

/-- `identityn()`, mlpp_matrix.cpp:2136-2143. -/
def identityn [Zero R] [One R] (this : Nat) : M R Ref := do
  let im ← newMat
  let s ← size this
  resizeTo im s
  identity im.id
  pure (some im)

/-- `identity_mat(d)`, `create_identity_mat(d)`, mlpp_matrix.cpp:2144-2172. -/
def identity_mat [Zero R] [One R] (d : Nat) : M R Ref := do
  let im ← newMat
  resizeTo im ⟨d, d, 1⟩
  fillAll im 0
  diagOnes im d d
  pure (some im)

/-- `matrix_powern(n)`, mlpp_matrix.cpp:1511-1530. -/
def matrix_powern [Zero R] [One R] [Neg R] [Add R] [Sub R] [Mul R] [Div R] [NatCast R] [MathFns R] (this : Nat) (n : Int) :
    M R Ref := do
  let s ← size this
  if n = 0 then identity_mat s.y else do
    let B ← identity_mat s.y
    let b ← derefM B
    let A ← if n < 0 then inverse this else pure (some (.m this))
    let a ← derefM A
    forN n.natAbs fun _ => mult b (some a)
    pure B

/-- `create_rotation_matrix(theta, axis)`, mlpp_matrix.cpp:1903-1965. Each listed cell is one assignment through the
data pointer; the cell values are those of the source. -/
def create_rotation_matrix [Zero R] [One R] [Neg R] [MathFns R] (theta : R) (axis : Int) : M R Ref := do
  let r ← newMat
  let c := MathFns.cos theta
  let s := MathFns.sin theta
  if axis = -1 then do
    resizeTo r ⟨2, 2, 1⟩
    storeList r [c, -s, c, c]
  else if axis = 0 then do
    resizeTo r ⟨3, 3, 1⟩
    storeList r [1, 0, 0, 0, c, -s, 0, s, c]
  else if axis = 1 then do
    resizeTo r ⟨3, 3, 1⟩
    storeList r [c, 0, s, 0, 1, 0, -s, 0, c]
  else if axis = 2 then do
    resizeTo r ⟨3, 3, 1⟩
    storeList r [c, -s, 0, s, c, 0, 1, 0, 0]
  else pure ()
  pure (some r)

/-- `rotaten(theta, axis)`, mlpp_matrix.cpp:1972-1976. -/
def rotaten [Zero R] [One R] [Neg R] [Add R] [Mul R] [MathFns R] (this : Nat) (theta : R) (axis : Int) : M R Ref := do
  let rm ← create_rotation_matrix theta axis
  let r ← derefM rm
  multn this (some r)

/-! ## Vectors and matrices -/

/-- `flatten()`, mlpp_matrix.cpp:2689-2704. -/
def flatten (this : Nat) : M R Ref := do
  let s ← size this
  let res ← newVec
  resizeTo res ⟨s.count, 1, 1⟩
  unLoop id (.m this) res s.count
  pure (some res)

/-- `flatteno(out)`, mlpp_matrix.cpp:2705-2720. -/
def flatteno (this : Nat) (out : Option Nat) : M R Unit :=
  match out with
  | none => pure ()
  | some out => do
    let s ← size this
    ensureSize (.v out) ⟨s.count, 1, 1⟩
    unLoop id (.m this) (.v out) s.count

/-- The double loop of `mult_vec*`, mlpp_matrix.cpp:2795-2801, 2823-2829. -/
def multVecLoop [Add R] [Mul R] (a b c : Loc) (rows bn ca : Nat) : M R Unit :=
  forN rows fun i =>
    forN bn fun k => do
      let z ← load c i
      let x ← load a (i * ca + k)
      let y ← load b k
      store c i (z + x * y)

/-- `mult_vec(b)`, mlpp_matrix.cpp:2779-2804. The check is `_size.x < b->size()`: a shorter vector is accepted. -/
def mult_vec [Zero R] [Add R] [Mul R] (this : Nat) (b : Option Nat) : M R Ref :=
  match b with
  | none => pure none
  | some b => do
    let n ← Vec.size b
    let s ← size this
    if s.x < n then pure none else do
      let c ← newVec
      resizeTo c ⟨s.y, 1, 1⟩
      fillAll c 0
      multVecLoop (.m this) (.v b) c s.y n s.x
      pure (some c)

/-- `mult_veco(b, out)`, mlpp_matrix.cpp:2805-2829. -/
def mult_veco [Zero R] [Add R] [Mul R] (this : Nat) (b out : Option Nat) : M R Unit :=
  match out, b with
  | some out, some b => do
    let n ← Vec.size b
    let s ← size this
    if s.x < n then pure () else do
      ensureSize (.v out) ⟨s.y, 1, 1⟩
      fillAll (.v out) 0
      multVecLoop (.m this) (.v b) (.v out) s.y n s.x
  | _, _ => pure ()

/-- `solve(b)`, mlpp_matrix.cpp:2722-2724. -/
def solve [Zero R] [One R] [Neg R] [Add R] [Sub R] [Mul R] [Div R] [NatCast R] [MathFns R] (this : Nat) (b : Option Nat) :
    M R Ref := do
  let I ← inverse this
  let i ← derefM I
  mult_vec i b

/-- The double loop of `add_vec*`, mlpp_matrix.cpp:2839-2845, 2860-2865, 2883-2888. -/
def addVecLoop [Add R] (a b out : Loc) (rows cols : Nat) : M R Unit :=
  forN rows fun i =>
    forN cols fun j => do
      let x ← load a (i * cols + j)
      let y ← load b j
      store out (i * cols + j) (x + y)

/-- `add_vec(b)`, mlpp_matrix.cpp:2831-2846. -/
def add_vec [Add R] (this : Nat) (b : Option Nat) : M R Unit :=
  match b with
  | none => pure ()
  | some b => do
    let n ← Vec.size b
    let s ← size this
    if s.x = n then addVecLoop (.m this) (.v b) (.m this) s.y s.x else pure ()

/-- `add_vecn(b)`, mlpp_matrix.cpp:2847-2868. -/
def add_vecn [Add R] (this : Nat) (b : Option Nat) : M R Ref :=
  match b with
  | none => pure none
  | some b => do
    let n ← Vec.size b
    let s ← size this
    if s.x = n then do
      let ret ← newMat
      resizeTo ret s
      addVecLoop (.m this) (.v b) ret s.y s.x
      pure (some ret)
    else pure none

/-- `add_vecb(A, b)`, mlpp_matrix.cpp:2869-2889. -/
def add_vecb [Add R] (this : Nat) (a b : Option Nat) : M R Unit :=
  match a, b with
  | some a, some b => do
    let as ← size a
    let n ← Vec.size b
    if as.x = n then do
      ensureSize (.m this) as
      addVecLoop (.m a) (.v b) (.m this) as.y as.x
    else pure ()
  | _, _ => pure ()

/-- The double loop of `outer_product*`, mlpp_matrix.cpp:2903-2909, 2924-2930. -/
def outerLoop [Mul R] (out : Nat) (a b : Loc) (rows cols : Nat) : M R Unit :=
  forN rows fun i => do
    let curr_a ← load a i
    forN cols fun j => do
      let y ← load b j
      element_set out i j (curr_a * y)

/-- `outer_product(a, b)`, mlpp_matrix.cpp:2891-2910. -/
def outer_product [Mul R] (this : Nat) (a b : Option Nat) : M R Unit :=
  match a, b with
  | some a, some b => do
    let nb ← Vec.size b
    let na ← Vec.size a
    ensureSize (.m this) ⟨nb, na, 1⟩
    outerLoop this (.v a) (.v b) na nb
  | _, _ => pure ()

/-- `outer_productn(a, b)`, mlpp_matrix.cpp:2911-2932. -/
def outer_productn [Mul R] (a b : Option Nat) : M R Ref :=
  match a, b with
  | some a, some b => do
    let C ← newMat
    let nb ← Vec.size b
    let na ← Vec.size a
    resizeTo C ⟨nb, na, 1⟩
    outerLoop C.id (.v a) (.v b) na nb
    pure (some C)
  | _, _ => pure none

/-- The diagonal loop `b_ptr[calculate_index(i, i)] = a_ptr[i]`, mlpp_matrix.cpp:2947-2949. -/
def diagLoop (out a : Loc) (ms cols : Nat) : M R Unit :=
  forN ms fun i => do
    let x ← load a i
    store out (i * cols + i) x

/-- `diagonal_set(a)`, mlpp_matrix.cpp:2934-2951. -/
def diagonal_set (this : Nat) (a : Option Nat) : M R Unit :=
  match a with
  | none => pure ()
  | some a => do
    let n ← Vec.size a
    let s ← size this
    diagLoop (.m this) (.v a) (Nat.min (Nat.min s.x s.y) n) s.x

/-- `diagonal_setn(a)`, mlpp_matrix.cpp:2952-2974. -/
def diagonal_setn (this : Nat) (a : Option Nat) : M R Ref :=
  match a with
  | none => pure none
  | some a => do
    let B ← duplicate_fast this
    let b ← derefM B
    let n ← Vec.size a
    let s ← size this
    diagLoop (.m b) (.v a) (Nat.min (Nat.min s.x s.y) n) s.x
    pure B

/-- `diagonal_zeroed(a)`, mlpp_matrix.cpp:2975-2994: the matrix is zeroed before the handle is checked. -/
def diagonal_zeroed [Zero R] (this : Nat) (a : Option Nat) : M R Unit := do
  fill this 0
  match a with
  | none => pure ()
  | some a => do
    let n ← Vec.size a
    let s ← size this
    diagLoop (.m this) (.v a) (Nat.min (Nat.min s.x s.y) n) s.x

/-- `diagonal_zeroedn(a)`, mlpp_matrix.cpp:2995-3019. -/
def diagonal_zeroedn [Zero R] (this : Nat) (a : Option Nat) : M R Ref :=
  match a with
  | none => pure none
  | some a => do
    let B ← newMat
    let s ← size this
    resizeTo B s
    fillAll B 0
    let n ← Vec.size a
    diagLoop B (.v a) (Nat.min (Nat.min s.x s.y) n) s.x
    pure (some B)

end Mat
end Verif
