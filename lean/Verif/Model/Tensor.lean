import Verif.Model.Matrix

/-!
# `MLPPTensor3` (core/mlpp_tensor3.h, core/mlpp_tensor3.cpp)

`_size.x` is the number of columns, `_size.y` the number of rows, `_size.z` the number of z slices; slices are stored one
after the other, each row by row. Extents are natural numbers: calls that would give a tensor a negative extent are outside
the model, and so is overflow of `int`. The methods that exchange data with `Image` (mlpp_tensor3.cpp:700-1404)
are in Model/Image.lean.
-/

namespace Verif

/-- `r->...` where `r` is a handle to a tensor. -/
def derefT {R : Type} (r : Ref) : M R Nat :=
  match r with
  | some (.t i) => pure i
  | _ => ub

namespace Ten
variable {R : Type}

/-- `size()`, mlpp_tensor3.h:98. -/
def size (this : Nat) : M R Size := getSize (.t this)

/-- `resize(Size3i(x, y, z))`, mlpp_tensor3.cpp:249-265. -/
def resize (this : Nat) (s : Size) : M R Unit := resizeTo (.t this) s

/-- `shape_set(p_size)`, mlpp_tensor3.cpp:267-276. -/
def shape_set (this : Nat) (p_size : Size) : M R Unit := do
  let s ← size this
  if s.count = p_size.count then putSize (.t this) p_size else pure ()

/-- `clear()`, mlpp_tensor3.h:82. -/
def clear (this : Nat) : M R Unit := resize this ⟨0, 0, 0⟩

/-- `reset()`, mlpp_tensor3.h:83-89: does nothing at all when there is no allocation. -/
def reset (this : Nat) : M R Unit := do
  if ← isNull (.t this) then pure () else do
    memfree (.t this)
    putSize (.t this) ⟨0, 0, 0⟩

/-- `element_get_index(p_index)`, mlpp_tensor3.h:121-125. -/
def element_get_index [Zero R] (this : Nat) (p_index : Int) : M R R := do
  let s ← size this
  if idxOk p_index s.count then load (.t this) p_index.toNat else pure 0

/-- `element_set_index(p_index, p_val)`, mlpp_tensor3.h:127-131. -/
def element_set_index (this : Nat) (p_index : Int) (p_val : R) : M R Unit := do
  let s ← size this
  if idxOk p_index s.count then store (.t this) p_index.toNat p_val else pure ()

/-- `element_get(p_index_z, p_index_y, p_index_x)`, mlpp_tensor3.h:133-141. -/
def element_get [Zero R] (this : Nat) (p_index_z p_index_y p_index_x : Int) : M R R := do
  let s ← size this
  if idxOk p_index_x s.x then
    if idxOk p_index_y s.y then
      if idxOk p_index_z s.z then load (.t this) (p_index_y * s.x + p_index_x + s.x * s.y * p_index_z).toNat
      else pure 0
    else pure 0
  else pure 0

/-- `element_set(p_index_z, p_index_y, p_index_x, p_val)`, mlpp_tensor3.h:143-151. -/
def element_set (this : Nat) (p_index_z p_index_y p_index_x : Int) (p_val : R) : M R Unit := do
  let s ← size this
  if idxOk p_index_x s.x then
    if idxOk p_index_y s.y then
      if idxOk p_index_z s.z then store (.t this) (p_index_y * s.x + p_index_x + s.x * s.y * p_index_z).toNat p_val
      else pure ()
    else pure ()
  else pure ()

/-- `get_data()`, mlpp_tensor3.cpp:39-59; also `to_flat_vector`, `to_flat_pool_vector`, mlpp_tensor3.cpp:1979-1999. -/
def get_data (this : Nat) : M R (Size × List R) := do
  let s ← size this
  let xs ← readAll (.t this) s.count
  pure (s, xs)

/-- `set_data([s, pl])`, mlpp_tensor3.cpp:60-82; an array that does not have two entries is rejected and not modelled. -/
def set_data (this : Nat) (p_from : Size × List R) : M R Unit := do
  if p_from.1.count = p_from.2.length then do
    let t ← size this
    if t = p_from.1 then pure () else resize this p_from.1
    storeList (.t this) p_from.2
  else pure ()

/-! ## z slices -/

/-- `z_slice_add(p_row)`, `z_slice_add_pool_vector(p_row)`, mlpp_tensor3.cpp:84-129. -/
def z_slice_add (this : Nat) (p_row : List R) : M R Unit := do
  if p_row.length = 0 then pure () else do
    let s ← size this
    if s.x * s.y = p_row.length then do
      putSize (.t this) ⟨s.x, s.y, s.z + 1⟩
      memrealloc (.t this) (s.x * s.y * (s.z + 1))
      forN p_row.length fun i =>
        match p_row[i]? with
        | some v => store (.t this) (s.count + i) v
        | none => ub
    else pure ()

/-- `z_slice_add_mlpp_vector(p_row)`, mlpp_tensor3.cpp:131-156. -/
def z_slice_add_mlpp_vector (this : Nat) (p_row : Option Nat) : M R Unit :=
  match p_row with
  | none => pure ()
  | some r => do
    let n ← Vec.size r
    if n = 0 then pure () else do
      let s ← size this
      if s.x * s.y = n then do
        putSize (.t this) ⟨s.x, s.y, s.z + 1⟩
        memrealloc (.t this) (s.x * s.y * (s.z + 1))
        forN n fun i => do
          let v ← load (.v r) i
          store (.t this) (s.count + i) v
      else pure ()

/-- `z_slice_add_mlpp_matrix(p_matrix)`, mlpp_tensor3.cpp:158-184. -/
def z_slice_add_mlpp_matrix (this : Nat) (p_matrix : Option Nat) : M R Unit :=
  match p_matrix with
  | none => pure ()
  | some m => do
    let ms ← Mat.size m
    if ms.count = 0 then pure () else do
      let s ← size this
      if s.x = ms.x ∧ s.y = ms.y then do
        putSize (.t this) ⟨s.x, s.y, s.z + 1⟩
        memrealloc (.t this) (s.x * s.y * (s.z + 1))
        forN ms.count fun i => do
          let v ← load (.m m) i
          store (.t this) (s.count + i) v
      else pure ()

/-- `z_slice_remove(p_index)`, mlpp_tensor3.cpp:186-207. -/
def z_slice_remove (this : Nat) (p_index : Int) : M R Unit := do
  let s ← size this
  if idxOk p_index s.z then do
    let z' := s.z - 1
    putSize (.t this) ⟨s.x, s.y, z'⟩
    let ds := s.x * s.y * z'
    if ds = 0 then memfree (.t this) else do
      let fmds := s.x * s.y
      loop (fmds * p_index.toNat) (ds - fmds * p_index.toNat) () fun i _ => do
        let v ← load (.t this) (i + fmds)
        store (.t this) i v
      memrealloc (.t this) ds
  else pure ()

/-- `z_slice_remove_unordered(p_index)`, mlpp_tensor3.cpp:211-233. The cells of the last slice are addressed as
`_data[ds + i]` where `i` is already an offset from the start of the tensor. -/
def z_slice_remove_unordered (this : Nat) (p_index : Int) : M R Unit := do
  let s ← size this
  if idxOk p_index s.z then do
    let z' := s.z - 1
    putSize (.t this) ⟨s.x, s.y, z'⟩
    let ds := s.x * s.y * z'
    if ds = 0 then memfree (.t this) else do
      let start_ind := s.x * s.y * p_index.toNat
      let end_ind := s.x * s.y * (p_index.toNat + 1)
      loop start_ind (end_ind - start_ind) () fun i _ => do
        let v ← load (.t this) (ds + i)
        store (.t this) i v
      memrealloc (.t this) ds
  else pure ()

/-- `z_slice_swap(p_index_1, p_index_2)`, mlpp_tensor3.cpp:235-247. -/
def z_slice_swap (this : Nat) (p_index_1 p_index_2 : Int) : M R Unit := do
  let s ← size this
  if idxOk p_index_1 s.z then
    if idxOk p_index_2 s.z then do
      let ind1_start := s.x * s.y * p_index_1.toNat
      let ind2_start := s.x * s.y * p_index_2.toNat
      forN (s.x * s.y) fun i => do
        let v ← load (.t this) (ind1_start + i)
        let w ← load (.t this) (ind2_start + i)
        store (.t this) (ind1_start + i) w
        store (.t this) (ind2_start + i) v
    else pure ()
  else pure ()

/-- The loops `row_ptr[i] = _data[ind_start + i]` that copy `n` consecutive cells into a vector or matrix, e.g.
mlpp_tensor3.cpp:345-347, 483-485, 527-529. -/
def copyOut (this : Nat) (start n : Nat) (out : Loc) : M R Unit :=
  forN n fun i => do
    let v ← load (.t this) (start + i)
    store out i v

/-- The loops `row_ptr[i] = _data[ind_start + i]` that copy `n` consecutive cells into a plain array, e.g.
mlpp_tensor3.cpp:434-436. -/
def readFrom (this : Nat) (start n : Nat) : M R (List R) :=
  foldN n [] fun i acc => do
    let v ← load (.t this) (start + i)
    pure (acc ++ [v])

/-- The loops `_data[ind_start + i] = row_ptr[i]` that copy `n` cells from a vector or matrix, e.g.
mlpp_tensor3.cpp:412-414, 603-605. -/
def copyIn (this : Nat) (start n : Nat) (src : Loc) : M R Unit :=
  forN n fun i => do
    let v ← load src i
    store (.t this) (start + i) v

/-- The loops `_data[ind_start + i] = row_ptr[i]` that copy from a plain array, e.g. mlpp_tensor3.cpp:567-569. -/
def writeTo (this : Nat) (start : Nat) (xs : List R) (n : Nat) : M R Unit :=
  forN n fun i =>
    match xs[i]? with
    | some v => store (.t this) (start + i) v
    | none => ub

/-- `z_slice_get_vector(p_index_z)`, `z_slice_get_pool_vector(p_index_z)`, mlpp_tensor3.cpp:417-464. -/
def z_slice_get_vector (this : Nat) (p_index_z : Int) : M R (List R) := do
  let s ← size this
  if idxOk p_index_z s.z then readFrom this (s.x * s.y * p_index_z.toNat) (s.x * s.y) else pure []

/-- `z_slice_get_mlpp_vector(p_index_z)`, mlpp_tensor3.cpp:466-489. -/
def z_slice_get_mlpp_vector (this : Nat) (p_index_z : Int) : M R Ref := do
  let s ← size this
  if idxOk p_index_z s.z then do
    let ret ← newVec
    if s.x * s.y = 0 then pure (some ret) else do
      resizeTo ret ⟨s.x * s.y, 1, 1⟩
      copyOut this (s.x * s.y * p_index_z.toNat) (s.x * s.y) ret
      pure (some ret)
  else pure none

/-- `z_slice_get_into_mlpp_vector(p_index_z, target)`, mlpp_tensor3.cpp:491-508. The target is not checked. -/
def z_slice_get_into_mlpp_vector (this : Nat) (p_index_z : Int) (target : Option Nat) : M R Unit := do
  let s ← size this
  if idxOk p_index_z s.z then do
    let t ← derefV (target.map .v)
    ensureSize (.v t) ⟨s.x * s.y, 1, 1⟩
    copyOut this (s.x * s.y * p_index_z.toNat) (s.x * s.y) (.v t)
  else pure ()

/-- `z_slice_get_mlpp_matrix(p_index_z)`, mlpp_tensor3.cpp:510-533. -/
def z_slice_get_mlpp_matrix (this : Nat) (p_index_z : Int) : M R Ref := do
  let s ← size this
  if idxOk p_index_z s.z then do
    let ret ← newMat
    if s.x * s.y = 0 then pure (some ret) else do
      resizeTo ret ⟨s.x, s.y, 1⟩
      copyOut this (s.x * s.y * p_index_z.toNat) (s.x * s.y) ret
      pure (some ret)
  else pure none

/-- `z_slice_get_into_mlpp_matrix(p_index_z, target)`, mlpp_tensor3.cpp:535-553. The target is not checked. -/
def z_slice_get_into_mlpp_matrix (this : Nat) (p_index_z : Int) (target : Option Nat) : M R Unit := do
  let s ← size this
  if idxOk p_index_z s.z then do
    let t ← derefM (target.map .m)
    ensureSize (.m t) ⟨s.x, s.y, 1⟩
    copyOut this (s.x * s.y * p_index_z.toNat) (s.x * s.y) (.m t)
  else pure ()

/-- `z_slice_set_vector(p_index_z, p_row)`, `z_slice_set_pool_vector`, mlpp_tensor3.cpp:555-588. -/
def z_slice_set_vector (this : Nat) (p_index_z : Int) (p_row : List R) : M R Unit := do
  let s ← size this
  if idxOk p_index_z s.z then
    if p_row.length = s.x * s.y then writeTo this (s.x * s.y * p_index_z.toNat) p_row (s.x * s.y) else pure ()
  else pure ()

/-- `z_slice_set_mlpp_vector(p_index_z, p_row)`, mlpp_tensor3.cpp:590-606. -/
def z_slice_set_mlpp_vector (this : Nat) (p_index_z : Int) (p_row : Option Nat) : M R Unit := do
  let s ← size this
  if idxOk p_index_z s.z then
    match p_row with
    | none => pure ()
    | some r => do
      let n ← Vec.size r
      if n = s.x * s.y then copyIn this (s.x * s.y * p_index_z.toNat) (s.x * s.y) (.v r) else pure ()
  else pure ()

/-- `z_slice_set_mlpp_matrix(p_index_z, p_mat)`, mlpp_tensor3.cpp:608-624. -/
def z_slice_set_mlpp_matrix (this : Nat) (p_index_z : Int) (p_mat : Option Nat) : M R Unit := do
  let s ← size this
  if idxOk p_index_z s.z then
    match p_mat with
    | none => pure ()
    | some m => do
      let ms ← Mat.size m
      if ms.x = s.x ∧ ms.y = s.y then copyIn this (s.x * s.y * p_index_z.toNat) (s.x * s.y) (.m m) else pure ()
  else pure ()

/-! ## Rows -/

/-- `row_get_vector(p_index_z, p_index_y)`, mlpp_tensor3.cpp:278-299: `p_index_z` is checked and then not used. -/
def row_get_vector (this : Nat) (p_index_z p_index_y : Int) : M R (List R) := do
  let s ← size this
  if idxOk p_index_y s.y then
    if idxOk p_index_z s.z then readFrom this (p_index_y.toNat * s.x) s.x else pure []
  else pure []

/-- `row_get_pool_vector(p_index_z, p_index_y)`, mlpp_tensor3.cpp:301-324. -/
def row_get_pool_vector (this : Nat) (p_index_z p_index_y : Int) : M R (List R) := do
  let s ← size this
  if idxOk p_index_y s.y then
    if idxOk p_index_z s.z then readFrom this (p_index_y.toNat * s.x + s.x * s.y * p_index_z.toNat) s.x else pure []
  else pure []

/-- `row_get_mlpp_vector(p_index_z, p_index_y)`, mlpp_tensor3.cpp:326-349. -/
def row_get_mlpp_vector (this : Nat) (p_index_z p_index_y : Int) : M R Ref := do
  let s ← size this
  if idxOk p_index_y s.y then
    if idxOk p_index_z s.z then do
      let ret ← newVec
      if s.x = 0 then pure (some ret) else do
        resizeTo ret ⟨s.x, 1, 1⟩
        copyOut this (p_index_y.toNat * s.x + s.x * s.y * p_index_z.toNat) s.x ret
        pure (some ret)
    else pure none
  else pure none

/-- `row_get_into_mlpp_vector(p_index_z, p_index_y, target)`, mlpp_tensor3.cpp:351-368. -/
def row_get_into_mlpp_vector (this : Nat) (p_index_z p_index_y : Int) (target : Option Nat) : M R Unit :=
  match target with
  | none => pure ()
  | some t => do
    let s ← size this
    if idxOk p_index_y s.y then
      if idxOk p_index_z s.z then do
        ensureSize (.v t) ⟨s.x, 1, 1⟩
        copyOut this (p_index_y.toNat * s.x + s.x * s.y * p_index_z.toNat) s.x (.v t)
      else pure ()
    else pure ()

/-- `row_set_vector(p_index_z, p_index_y, p_row)`, `row_set_pool_vector`, mlpp_tensor3.cpp:370-399. -/
def row_set_vector (this : Nat) (p_index_z p_index_y : Int) (p_row : List R) : M R Unit := do
  let s ← size this
  if p_row.length = s.x then
    if idxOk p_index_y s.y then
      if idxOk p_index_z s.z then writeTo this (p_index_y.toNat * s.x + s.x * s.y * p_index_z.toNat) p_row s.x
      else pure ()
    else pure ()
  else pure ()

/-- `row_set_mlpp_vector(p_index_z, p_index_y, p_row)`, mlpp_tensor3.cpp:401-415. -/
def row_set_mlpp_vector (this : Nat) (p_index_z p_index_y : Int) (p_row : Option Nat) : M R Unit :=
  match p_row with
  | none => pure ()
  | some r => do
    let n ← Vec.size r
    let s ← size this
    if n = s.x then
      if idxOk p_index_y s.y then
        if idxOk p_index_z s.z then copyIn this (p_index_y.toNat * s.x + s.x * s.y * p_index_z.toNat) s.x (.v r)
        else pure ()
      else pure ()
    else pure ()

/-! ## x and y slices -/

/-- `x_slice_get_into(p_index_x, target)`, mlpp_tensor3.cpp:626-640: the cell is read as
`element_get(z, p_index_x, y)`, that is with the row and column indices exchanged. -/
def x_slice_get_into [Zero R] (this : Nat) (p_index_x : Int) (target : Option Nat) : M R Unit := do
  let s ← size this
  if idxOk p_index_x s.x then
    match target with
    | none => pure ()
    | some t => do
      ensureSize (.m t) ⟨s.y, s.z, 1⟩
      forN s.z fun z => forN s.y fun y => do
        let v ← element_get this (z : Int) p_index_x (y : Int)
        Mat.element_set t (z : Int) (y : Int) v
  else pure ()

/-- `x_slice_get(p_index_x)`, mlpp_tensor3.cpp:641-650. -/
def x_slice_get [Zero R] (this : Nat) (p_index_x : Int) : M R Ref := do
  let s ← size this
  if idxOk p_index_x s.x then do
    let m ← newMat
    x_slice_get_into this p_index_x (some m.id)
    pure (some m)
  else pure none

/-- `x_slice_set(p_index_x, p_mat)`, mlpp_tensor3.cpp:651-661. -/
def x_slice_set [Zero R] (this : Nat) (p_index_x : Int) (p_mat : Option Nat) : M R Unit := do
  let s ← size this
  if idxOk p_index_x s.x then
    match p_mat with
    | none => pure ()
    | some m => do
      let ms ← Mat.size m
      if ms.x = s.y ∧ ms.y = s.z then
        forN s.z fun z => forN s.y fun y => do
          let v ← Mat.element_get m (z : Int) (y : Int)
          element_set this (z : Int) p_index_x (y : Int) v
      else pure ()
  else pure ()

/-- `y_slice_get_into(p_index_y, target)`, mlpp_tensor3.cpp:663-677: the size of the target is compared with
`(_size.y, _size.z)` but set to `(_size.x, _size.z)`, and the cell is read as `element_get(z, x, p_index_y)`. -/
def y_slice_get_into [Zero R] (this : Nat) (p_index_y : Int) (target : Option Nat) : M R Unit := do
  let s ← size this
  if idxOk p_index_y s.y then
    match target with
    | none => pure ()
    | some t => do
      let ts ← Mat.size t
      if ts = ⟨s.y, s.z, 1⟩ then pure () else Mat.resize t s.x s.z
      forN s.z fun z => forN s.x fun x => do
        let v ← element_get this (z : Int) (x : Int) p_index_y
        Mat.element_set t (z : Int) (x : Int) v
  else pure ()

/-- `y_slice_get(p_index_y)`, mlpp_tensor3.cpp:678-687. -/
def y_slice_get [Zero R] (this : Nat) (p_index_y : Int) : M R Ref := do
  let s ← size this
  if idxOk p_index_y s.y then do
    let m ← newMat
    y_slice_get_into this p_index_y (some m.id)
    pure (some m)
  else pure none

/-- `y_slice_set(p_index_y, p_mat)`, mlpp_tensor3.cpp:688-698. -/
def y_slice_set [Zero R] (this : Nat) (p_index_y : Int) (p_mat : Option Nat) : M R Unit := do
  let s ← size this
  if idxOk p_index_y s.y then
    match p_mat with
    | none => pure ()
    | some m => do
      let ms ← Mat.size m
      if ms.x = s.y ∧ ms.y = s.z then
        forN s.z fun z => forN s.x fun x => do
          let v ← Mat.element_get m (z : Int) (x : Int)
          element_set this (z : Int) (x : Int) p_index_y v
      else pure ()
  else pure ()

/-! ## Whole tensors -/

/-- `fill(p_val)`, mlpp_tensor3.cpp:1968-1977. -/
def fill (this : Nat) (p_val : R) : M R Unit := fillAll (.t this) p_val

/-- `set_from_mlpp_tensor3(p_from)`, mlpp_tensor3.cpp:2018-2029 (unconditional `resize`). -/
def set_from_mlpp_tensor3 (this : Nat) (p_from : Option Nat) : M R Unit := unB id (.t this) (p_from.map .t)

/-- `duplicate_fast()`, mlpp_tensor3.cpp:2009-2016, with `set_from_mlpp_tensor3r`, mlpp_tensor3.cpp:2031-2040. -/
def duplicate_fast (this : Nat) : M R Ref := unN id (.t this)

/-- `set_from_mlpp_matrix(p_from)`, mlpp_tensor3.cpp:2042-2054, and `set_from_mlpp_matrixr`, 2056-2066. -/
def set_from_mlpp_matrix (this : Nat) (p_from : Option Nat) : M R Unit :=
  match p_from with
  | none => pure ()
  | some m => do
    let ms ← Mat.size m
    resize this ⟨ms.x, ms.y, 1⟩
    unLoop id (.m m) (.t this) ms.count

/-- `set_from_mlpp_vectors(p_from)`, `set_from_mlpp_vectors_array(p_from)`, mlpp_tensor3.cpp:2068-2099, 2138-2171: an
entry that is null or has the wrong length is skipped, so its cells keep whatever the allocation held. -/
def set_from_mlpp_vectors (this : Nat) (p_from : List (Option Nat)) : M R Unit :=
  match p_from with
  | [] => reset this
  | none :: _ => reset this
  | some v0 :: _ => do
    let n ← Vec.size v0
    resize this ⟨n, p_from.length, 1⟩
    let s ← size this
    if s.count = 0 then reset this else
      forN p_from.length fun i =>
        match p_from[i]? with
        | none => ub
        | some none => pure ()
        | some (some r) => do
          let k ← Vec.size r
          if k = s.x then copyIn this (i * s.x) s.x (.v r) else pure ()

/-- `set_from_mlpp_matricess(p_from)`, `set_from_mlpp_matrices_array(p_from)`, mlpp_tensor3.cpp:2101-2136, 2173-2209: an
entry that is null or has the wrong size is skipped, so its cells keep whatever the allocation held. -/
def set_from_mlpp_matrices (this : Nat) (p_from : List (Option Nat)) : M R Unit :=
  match p_from with
  | [] => reset this
  | none :: _ => reset this
  | some m0 :: _ => do
    let ms ← Mat.size m0
    resize this ⟨ms.x, ms.y, p_from.length⟩
    let s ← size this
    if s.count = 0 then reset this else
      forN p_from.length fun i =>
        match p_from[i]? with
        | none => ub
        | some none => pure ()
        | some (some r) => do
          let k ← Mat.size r
          if k.x = s.x ∧ k.y = s.y then copyIn this (s.x * s.y * i) (s.x * s.y) (.m r) else pure ()

/-- `is_equal_approx(p_with, tolerance)`, mlpp_tensor3.cpp:2211-2232. -/
def is_equal_approx [BEq R] [LT R] [DecidableLT R] [Sub R] [Neg R] [Zero R] (this : Nat) (p_with : Option Nat) (tol : R) :
    M R Bool := Vec.is_equal_approx (.t this) (p_with.map .t) tol

/-- `flatten()`, mlpp_tensor3.cpp:1874-1889. -/
def flatten (this : Nat) : M R Ref := do
  let s ← size this
  let res ← newVec
  resizeTo res ⟨s.count, 1, 1⟩
  unLoop id (.t this) res s.count
  pure (some res)

/-- `flatteno(out)`, mlpp_tensor3.cpp:1890-1905. -/
def flatteno (this : Nat) (out : Option Nat) : M R Unit :=
  match out with
  | none => pure ()
  | some v => do
    let s ← size this
    ensureSize (.v v) ⟨s.count, 1, 1⟩
    unLoop id (.t this) (.v v) s.count

/-- `tensor_vec_mult(b)`, mlpp_tensor3.cpp:1921-1940. -/
def tensor_vec_mult [Zero R] [Add R] [Mul R] (this : Nat) (b : Option Nat) : M R Ref := do
  let s ← size this
  let C ← newMat
  resizeTo C ⟨s.y, s.z, 1⟩
  let row_tmp ← newVec
  resizeTo row_tmp ⟨s.x, 1, 1⟩
  forN s.z fun i => forN s.y fun j => do
    row_get_into_mlpp_vector this (i : Int) (j : Int) (some row_tmp.id)
    let d ← Vec.dot row_tmp.id b
    Mat.element_set C.id (i : Int) (j : Int) d
  pure (some C)

/-! ## Element-wise methods -/

/-- mlpp_tensor3.cpp:1406-1418. -/
def add [Add R] (this : Nat) (b : Option Nat) : M R Unit := binIn (· + ·) (.t this) (b.map .t)
/-- mlpp_tensor3.cpp:1419-1438. -/
def addn [Add R] (this : Nat) (b : Option Nat) : M R Ref := binN (· + ·) (.t this) (b.map .t)
/-- mlpp_tensor3.cpp:1439-1457. -/
def addb [Add R] (this : Nat) (a b : Option Nat) : M R Unit := binB (· + ·) (.t this) (a.map .t) (b.map .t)

/-- mlpp_tensor3.cpp:1459-1471. -/
def sub [Sub R] (this : Nat) (b : Option Nat) : M R Unit := binIn (· - ·) (.t this) (b.map .t)
/-- mlpp_tensor3.cpp:1472-1491. -/
def subn [Sub R] (this : Nat) (b : Option Nat) : M R Ref := binN (· - ·) (.t this) (b.map .t)
/-- mlpp_tensor3.cpp:1492-1510. -/
def subb [Sub R] (this : Nat) (a b : Option Nat) : M R Unit := binB (· - ·) (.t this) (a.map .t) (b.map .t)

/-- mlpp_tensor3.cpp:1512-1524. -/
def division_element_wise [Div R] (this : Nat) (b : Option Nat) : M R Unit := binIn (· / ·) (.t this) (b.map .t)
/-- mlpp_tensor3.cpp:1525-1545. -/
def division_element_wisen [Div R] (this : Nat) (b : Option Nat) : M R Ref := binN (· / ·) (.t this) (b.map .t)
/-- mlpp_tensor3.cpp:1546-1565. -/
def division_element_wiseb [Div R] (this : Nat) (a b : Option Nat) : M R Unit :=
  binB (· / ·) (.t this) (a.map .t) (b.map .t)

/-- mlpp_tensor3.cpp:1722-1734. -/
def hadamard_product [Mul R] (this : Nat) (b : Option Nat) : M R Unit := binIn (· * ·) (.t this) (b.map .t)
/-- mlpp_tensor3.cpp:1735-1755. -/
def hadamard_productn [Mul R] (this : Nat) (b : Option Nat) : M R Ref := binN (· * ·) (.t this) (b.map .t)
/-- mlpp_tensor3.cpp:1756-1775. -/
def hadamard_productb [Mul R] (this : Nat) (a b : Option Nat) : M R Unit :=
  binB (· * ·) (.t this) (a.map .t) (b.map .t)

/-- mlpp_tensor3.cpp:1777-1789, `MAX(a, b)` is `a > b ? a : b` (platform/sfw.h:565-567). -/
def max [LT R] [DecidableLT R] (this : Nat) (b : Option Nat) : M R Unit := binIn maxC (.t this) (b.map .t)
/-- mlpp_tensor3.cpp:1790-1809. -/
def maxn [LT R] [DecidableLT R] (this : Nat) (b : Option Nat) : M R Ref := binN maxC (.t this) (b.map .t)
/-- mlpp_tensor3.cpp:1810-1828. -/
def maxb [LT R] [DecidableLT R] (this : Nat) (a b : Option Nat) : M R Unit :=
  binB maxC (.t this) (a.map .t) (b.map .t)

/-- mlpp_tensor3.cpp:1567-1575. -/
def sqrt [MathFns R] (this : Nat) : M R Unit := unIn MathFns.sqrt (.t this)
/-- mlpp_tensor3.cpp:1576-1591. -/
def sqrtn [MathFns R] (this : Nat) : M R Ref := unN MathFns.sqrt (.t this)
/-- mlpp_tensor3.cpp:1592-1609. -/
def sqrtb [MathFns R] (this : Nat) (a : Option Nat) : M R Unit := unBC MathFns.sqrt (.t this) (a.map .t)

/-- mlpp_tensor3.cpp:1611-1619. -/
def exponentiate [MathFns R] (this : Nat) (p : R) : M R Unit := unIn (MathFns.pow · p) (.t this)
/-- mlpp_tensor3.cpp:1620-1635. -/
def exponentiaten [MathFns R] (this : Nat) (p : R) : M R Ref := unN (MathFns.pow · p) (.t this)
/-- mlpp_tensor3.cpp:1636-1653. -/
def exponentiateb [MathFns R] (this : Nat) (a : Option Nat) (p : R) : M R Unit :=
  unBC (MathFns.pow · p) (.t this) (a.map .t)

/-- mlpp_tensor3.cpp:1830-1838. -/
def abs [LT R] [DecidableLT R] [Neg R] [Zero R] (this : Nat) : M R Unit := unIn absC (.t this)
/-- mlpp_tensor3.cpp:1839-1854. -/
def absn [LT R] [DecidableLT R] [Neg R] [Zero R] (this : Nat) : M R Ref := unN absC (.t this)
/-- mlpp_tensor3.cpp:1855-1872. -/
def absb [LT R] [DecidableLT R] [Neg R] [Zero R] (this : Nat) (a : Option Nat) : M R Unit := unBC absC (.t this) (a.map .t)

/-- mlpp_tensor3.cpp:1655-1661. -/
def scalar_multiply [Mul R] (this : Nat) (k : R) : M R Unit := unIn (· * k) (.t this)
/-- mlpp_tensor3.cpp:1662-1672. -/
def scalar_multiplyn [Mul R] (this : Nat) (k : R) : M R Ref := do
  let AN ← duplicate_fast this
  let an ← derefT AN
  unIn (· * k) (.t an)
  pure AN
/-- mlpp_tensor3.cpp:1673-1687: the operand `A` only determines the size. -/
def scalar_multiplyb [Mul R] (this : Nat) (k : R) (a : Option Nat) : M R Unit :=
  match a with
  | none => pure ()
  | some a => do
    let s ← size a
    ensureSize (.t this) s
    unIn (· * k) (.t this)

/-- mlpp_tensor3.cpp:1689-1695. -/
def scalar_add [Add R] (this : Nat) (k : R) : M R Unit := unIn (· + k) (.t this)
/-- mlpp_tensor3.cpp:1696-1706. -/
def scalar_addn [Add R] (this : Nat) (k : R) : M R Ref := do
  let AN ← duplicate_fast this
  let an ← derefT AN
  unIn (· + k) (.t an)
  pure AN
/-- mlpp_tensor3.cpp:1707-1720: the operand `A` only determines the size. -/
def scalar_addb [Add R] (this : Nat) (k : R) (a : Option Nat) : M R Unit :=
  match a with
  | none => pure ()
  | some a => do
    let s ← size a
    ensureSize (.t this) s
    unIn (· + k) (.t this)

end Ten
end Verif
