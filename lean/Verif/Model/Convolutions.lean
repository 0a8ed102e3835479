import Verif.Model.Handle
import Verif.Model.Tensor
import Verif.Model.Stat
import Verif.Model.LinAlgMatrix
import Mathlib.Analysis.SpecialFunctions.Complex.Arg

/-!
# `MLPPConvolutions` and `MLPPTransforms` (core/convolutions.cpp, core/transforms.cpp)

`real_t` is the real numbers. `int` does not overflow. A matrix or vector with a negative extent (a filter larger than the padded input) is
not modelled further: the model calls it undefined behaviour, as it does a division by the stride 0.
-/

namespace Verif
namespace Convolutions
noncomputable section

/-- `m->resize(Size2i(c, r))`. -/
def resizeMat (l : Loc) (c r : Int) : M ℝ Unit := if c < 0 ∨ r < 0 then ub else resizeTo l ⟨c.toNat, r.toNat, 1⟩

/-- `v->resize(n)`. -/
def resizeVec (l : Loc) (n : Int) : M ℝ Unit := if n < 0 then ub else resizeTo l ⟨n.toNat, 1, 1⟩

/-- `t->resize(Size3i(c, r, d))`. -/
def resizeTen (l : Loc) (c r d : Int) : M ℝ Unit := if c < 0 ∨ r < 0 ∨ d < 0 then ub else resizeTo l ⟨c.toNat, r.toNat, d.toNat⟩

/-- The value of a cell of `padded_input`, convolutions.cpp:63-67. -/
def paddedCell (input : Nat) (size : Size) (P i j : Int) : M ℝ ℝ :=
  if i - P < 0 ∨ j - P < 0 ∨ i - P > (size.y : Int) - 1 ∨ j - P > (size.x : Int) - 1 then pure 0
  else Mat.element_get input (i - P) (j - P)

/-- The padding, convolutions.cpp:53-72: the input itself if `P` is 0, else a new matrix. -/
def padded (input : Nat) (size : Size) (P : Int) : M ℝ Nat :=
  if P ≠ 0 then do
    let padded_input ← newMat
    resizeMat padded_input (size.y + 2 * P) (size.y + 2 * P)
    forN (size.y + 2 * P).toNat fun i =>
      forN (size.y + 2 * P).toNat fun j => do
        let v ← paddedCell input size P i j
        Mat.element_set padded_input.id (i : Int) (j : Int) v
    pure padded_input.id
  else pure input

/-- The cell read at position `(k, p)` of the window number `(i, j)`: convolutions.cpp:91-101, 222-232. -/
def windowCell (input : Nat) (S : Int) (i j k p : Nat) : M ℝ ℝ :=
  if i = 0 ∧ j = 0 then Mat.element_get input (i + k) (j + p)
  else if i = 0 then Mat.element_get input (i + k) (j + (S - 1) + p)
  else if j = 0 then Mat.element_get input (i + (S - 1) + k) (j + p)
  else Mat.element_get input (i + (S - 1) + k) (j + (S - 1) + p)

/-- The loops that copy a window into a vector, convolutions.cpp:87-106, 218-237. -/
def gather (input out : Nat) (S : Int) (F : Nat) (i j : Nat) : M ℝ Unit := do
  let _ ← foldN F 0 fun k current_index =>
    foldN F current_index fun p current_index => do
      let val ← windowCell input S i j k p
      Vec.element_set out (current_index : Int) val
      pure (current_index + 1)
  pure ()

/-- `(N - F + 2 * P) / S + 1`, convolutions.cpp:51, 126, 206, 261. -/
def mapSize (N F P S : Int) : Int := (N - F + 2 * P).tdiv S + 1

/-- `convolve_2d(p_input, filter, S, P)`, convolutions.cpp:43-113. -/
def convolve_2d (p_input filter : Ref) (S P : Int) : M ℝ Ref := do
  let input ← derefM p_input
  let input_size ← Mat.size input
  let flt ← derefM filter
  let filter_size ← Mat.size flt
  if S = 0 then ub else do
    let map_size := mapSize input_size.y filter_size.y P S
    let input ← padded input input_size P
    let feature_map ← newMat
    resizeMat feature_map map_size map_size
    let ff ← Mat.flatten flt
    let filter_flattened ← derefV ff
    let convolving_input ← newVec
    resizeVec convolving_input (filter_size.y * filter_size.y)
    forN map_size.toNat fun i =>
      forN map_size.toNat fun j => do
        gather input convolving_input.id S filter_size.y i j
        let d ← Vec.dot convolving_input.id (some filter_flattened)
        Mat.element_set feature_map.id (i : Int) (j : Int) d
    pure (some feature_map)

/-! ## Pooling -/

/-- `PoolType`, convolutions.h:55-59. -/
inductive PoolType | average | min | max
deriving DecidableEq

/-- The branch on `type`, convolutions.cpp:239-246, 283-290. -/
def poolOf [HasInf ℝ] (type : PoolType) (v : Ref) : M ℝ ℝ :=
  match type with
  | .average => Stat.meanv v.vec
  | .min => LinAlg.minvr v
  | .max => LinAlg.maxvr v

/-- `pool_2d(input, F, S, type)`, convolutions.cpp:200-251. -/
def pool_2d [HasInf ℝ] (input : Ref) (F S : Int) (type : PoolType) : M ℝ Ref := do
  let input ← derefM input
  let input_size ← Mat.size input
  if S = 0 then ub else do
    let map_size := mapSize input_size.y F 0 S
    let pooled_map ← newMat
    resizeMat pooled_map map_size map_size
    let pooling_input ← newVec
    resizeVec pooling_input (F * F)
    forN map_size.toNat fun i =>
      forN map_size.toNat fun j => do
        gather input pooling_input.id S F.toNat i j
        let d ← poolOf type (some pooling_input)
        Mat.element_set pooled_map.id (i : Int) (j : Int) d
    pure (some pooled_map)

/-- `pool_3d(input, F, S, type)`, convolutions.cpp:253-276. -/
def pool_3d [HasInf ℝ] (input : Ref) (F S : Int) (type : PoolType) : M ℝ Ref := do
  let input ← derefT input
  let input_size ← Ten.size input
  let z_slice ← newMat
  resizeMat z_slice input_size.x input_size.y
  if S = 0 then ub else do
    let map_size := mapSize input_size.y F 0 S
    let pooled_map ← newTen
    resizeTen pooled_map map_size map_size input_size.z
    forN input_size.z fun i => do
      Ten.z_slice_get_into_mlpp_matrix input (i : Int) (some z_slice.id)
      let p ← pool_2d (some z_slice) F S type
      Ten.z_slice_set_mlpp_matrix pooled_map.id (i : Int) p.mat
    pure (some pooled_map)

/-- `global_pool_2d(input, type)`, convolutions.cpp:278-291. -/
def global_pool_2d [HasInf ℝ] (input : Ref) (type : PoolType) : M ℝ ℝ := do
  let input ← derefM input
  let f ← Mat.flatten input
  poolOf type f

/-- `global_pool_3d(input, type)`, convolutions.cpp:293-311. -/
def global_pool_3d [HasInf ℝ] (input : Ref) (type : PoolType) : M ℝ Ref := do
  let input ← derefT input
  let input_size ← Ten.size input
  let pooled_map ← newVec
  resizeVec pooled_map input_size.z
  let z_slice ← newMat
  resizeMat z_slice input_size.x input_size.y
  forN input_size.z fun i => do
    Ten.z_slice_get_into_mlpp_matrix input (i : Int) (some z_slice.id)
    let d ← global_pool_2d (some z_slice) type
    Vec.element_set pooled_map.id (i : Int) d
  pure (some pooled_map)

/-! ## Volumes -/

/-- The value of a cell of a slice of `padded_input`, convolutions.cpp:143-147: the indices of `element_get(z, y, x)` are given in the order
row, column, slice. -/
def paddedCell3 (input : Nat) (size : Size) (P i j : Int) (c : Nat) : M ℝ ℝ :=
  if i - P < 0 ∨ j - P < 0 ∨ i - P > (size.y : Int) - 1 ∨ j - P > (size.x : Int) - 1 then pure 0
  else Ten.element_get input (i - P) (j - P) c

/-- The padding, convolutions.cpp:128-155. -/
def padded3 (input : Nat) (size : Size) (P : Int) : M ℝ Nat :=
  if P ≠ 0 then do
    let padded_input ← newTen
    let slice ← newMat
    resizeMat slice (size.y + 2 * P) (size.y + 2 * P)
    resizeTen padded_input (size.y + 2 * P) (size.y + 2 * P) size.z
    forN size.z fun c => do
      forN (size.y + 2 * P).toNat fun i =>
        forN (size.y + 2 * P).toNat fun j => do
          let v ← paddedCell3 input size P i j c
          Mat.element_set slice.id (i : Int) (j : Int) v
      Ten.z_slice_set_mlpp_matrix padded_input.id (c : Int) (some slice.id)
    pure padded_input.id
  else pure input

/-- The cell read at position `(k, p)` of the window number `(i, j)` for channel `t`, convolutions.cpp:175-185: the indices of
`element_get(z, y, x)` are given in the order row, column, slice. -/
def windowCell3 (input : Nat) (S : Int) (i j t k p : Nat) : M ℝ ℝ :=
  if i = 0 ∧ j = 0 then Ten.element_get input (i + k) (j + p) t
  else if i = 0 then Ten.element_get input (i + k) (j + (S - 1) + p) t
  else if j = 0 then Ten.element_get input (i + (S - 1) + k) (j + p) t
  else Ten.element_get input (i + (S - 1) + k) (j + (S - 1) + p) t

/-- The loops that copy a window of all channels into a vector, convolutions.cpp:170-191. -/
def gather3 (input out : Nat) (S : Int) (F depth : Nat) (i j : Nat) : M ℝ Unit := do
  let _ ← foldN depth 0 fun t current_index =>
    foldN F current_index fun k current_index =>
      foldN F current_index fun p current_index => do
        let val ← windowCell3 input S i j t k p
        Vec.element_set out (current_index : Int) val
        pure (current_index + 1)
  pure ()

/-- `convolve_3d(p_input, filter, S, P)`, convolutions.cpp:115-198. `int` division of the numbers of slices. -/
def convolve_3d (p_input filter : Ref) (S P : Int) : M ℝ Ref := do
  let input ← derefT p_input
  let input_size ← Ten.size input
  let flt ← derefT filter
  let filter_size ← Ten.size flt
  if S = 0 ∨ input_size.z = 0 then ub else do
    let C := filter_size.z / input_size.z
    let map_size := mapSize input_size.y filter_size.y P S
    let input ← padded3 input input_size P
    let feature_map ← newTen
    resizeTen feature_map map_size map_size C
    let ff ← Ten.flatten flt
    let filter_flattened ← derefV ff
    let convolving_input ← newVec
    resizeVec convolving_input (input_size.z * filter_size.y * filter_size.y)
    forN C fun c =>
      forN map_size.toNat fun i =>
        forN map_size.toNat fun j => do
          gather3 input convolving_input.id S filter_size.y input_size.z i j
          let d ← Vec.dot convolving_input.id (some filter_flattened)
          Ten.element_set feature_map.id (c : Int) (i : Int) (j : Int) d
    pure (some feature_map)

/-! ## Filters -/

/-- `gaussian_2d(x, y, std)`, convolutions.cpp:313-316. -/
def gaussian_2d (x y std : ℝ) : ℝ := 1 / (2 * Real.pi * (std * std)) * Real.exp (-(x * x + y * y) / 2 * (std * std))

/-- `gaussian_filter_2d(size, std)`, convolutions.cpp:318-332: the coordinates are computed in `int`. -/
def gaussian_filter_2d (size : Int) (std : ℝ) : M ℝ Ref := do
  let filter ← newMat
  resizeMat filter size size
  forN size.toNat fun i =>
    forN size.toNat fun j => do
      let val := gaussian_2d (((i : Int) - (size - 1).tdiv 2 : Int) : ℝ) (((size - 1).tdiv 2 - (j : Int) : Int) : ℝ) std
      Mat.element_set filter.id (i : Int) (j : Int) val
  pure (some filter)

/-- The value of a cell of `dx`, convolutions.cpp:348-354: the last column is recognised by the number of *rows*. -/
def dxCell (input : Nat) (size : Size) (i j : Nat) : M ℝ ℝ :=
  if j ≠ 0 ∧ (j : Int) ≠ (size.y : Int) - 1 then do
    let a ← Mat.element_get input (i : Int) ((j : Int) + 1)
    let b ← Mat.element_get input (i : Int) ((j : Int) - 1)
    pure (a - b)
  else if j = 0 then Mat.element_get input (i : Int) ((j : Int) + 1)
  else do
    let b ← Mat.element_get input (i : Int) ((j : Int) - 1)
    pure (-b)

/-- `dx(input)`, convolutions.cpp:339-359. -/
def dx (input : Ref) : M ℝ Ref := do
  let input ← derefM input
  let input_size ← Mat.size input
  let deriv ← newMat
  resizeTo deriv input_size
  forN input_size.y fun i =>
    forN input_size.x fun j => do
      let v ← dxCell input input_size i j
      Mat.element_set deriv.id (i : Int) (j : Int) v
  pure (some deriv)

/-- The value of a cell of `dy`, convolutions.cpp:370-376. -/
def dyCell (input : Nat) (size : Size) (i j : Nat) : M ℝ ℝ :=
  if i ≠ 0 ∧ (i : Int) ≠ (size.y : Int) - 1 then do
    let a ← Mat.element_get input ((i : Int) - 1) (j : Int)
    let b ← Mat.element_get input ((i : Int) + 1) (j : Int)
    pure (a - b)
  else if i = 0 then do
    let b ← Mat.element_get input ((i : Int) + 1) (j : Int)
    pure (-b)
  else Mat.element_get input ((i : Int) - 1) (j : Int)

/-- `dy(input)`, convolutions.cpp:361-381. -/
def dy (input : Ref) : M ℝ Ref := do
  let input ← derefM input
  let input_size ← Mat.size input
  let deriv ← newMat
  resizeTo deriv input_size
  forN input_size.y fun i =>
    forN input_size.x fun j => do
      let v ← dyCell input input_size i j
      Mat.element_set deriv.id (i : Int) (j : Int) v
  pure (some deriv)

/-- `a->hadamard_productn(b)` of matrices, cited in Model/Matrix.lean. -/
def had (a b : Ref) : M ℝ Ref := do Mat.hadamard_productn (← derefM a) b.mat

/-- `grad_magnitude(input)`, convolutions.cpp:383-390. -/
def grad_magnitude (input : Ref) : M ℝ Ref := do
  let a ← dx input
  let b ← dx input
  let x_deriv_2 ← had a b
  let c ← dy input
  let d ← dy input
  let y_deriv_2 ← had c d
  let s ← Hd.addnm x_deriv_2 y_deriv_2
  Mat.sqrtn (← derefM s)

/-- `Math::atan2(y, x)`: the angle of the point `(x, y)`. -/
def atan2 (y x : ℝ) : ℝ := Complex.arg ⟨x, y⟩

/-- `grad_orientation(input)`, convolutions.cpp:392-409. -/
def grad_orientation (input : Ref) : M ℝ Ref := do
  let deriv ← newMat
  let s ← Hd.sizem input
  resizeTo deriv s
  let deriv_size ← Mat.size deriv.id
  let x_deriv ← dx input
  let y_deriv ← dy input
  let xd ← derefM x_deriv
  let yd ← derefM y_deriv
  forN deriv_size.y fun i =>
    forN deriv_size.x fun j => do
      let y ← Mat.element_get yd (i : Int) (j : Int)
      let x ← Mat.element_get xd (i : Int) (j : Int)
      Mat.element_set deriv.id (i : Int) (j : Int) (atan2 y x)
  pure (some deriv)

/-- `compute_mv(input)`, convolutions.cpp:440-464: the three matrices. `GAUSSIAN_PADDING` is `((y - 1) + 3 - y) / 2 = 1`. -/
def compute_mv (input : Ref) : M ℝ (Ref × Ref × Ref) := do
  let _ ← Hd.sizem input
  let x_deriv ← dx input
  let y_deriv ← dy input
  let gaussian_filter ← gaussian_filter_2d 3 1
  let xx ← had x_deriv x_deriv
  let xx_deriv ← convolve_2d xx gaussian_filter 1 1
  let yy ← had y_deriv y_deriv
  let yy_deriv ← convolve_2d yy gaussian_filter 1 1
  let xy ← had x_deriv y_deriv
  let xy_deriv ← convolve_2d xy gaussian_filter 1 1
  pure (xx_deriv, yy_deriv, xy_deriv)

/-- `compute_m(input)`, convolutions.cpp:411-438: the first part has the text of `compute_mv`. -/
def compute_m (input : Ref) : M ℝ Ref := do
  let q ← compute_mv input
  let ds ← Hd.sizem q.1
  let m ← newTen
  resizeTo m ⟨ds.x, ds.y, 3⟩
  Ten.z_slice_set_mlpp_matrix m.id 0 q.1.mat
  Ten.z_slice_set_mlpp_matrix m.id 1 q.2.1.mat
  Ten.z_slice_set_mlpp_matrix m.id 2 q.2.2.mat
  pure (some m)

/-- The branch on the sign, convolutions.cpp:492-498. -/
def cornerType (e : ℝ) : Char := if e > 0 then 'C' else if e < 0 then 'E' else 'N'

/-- `a->subn(b)` of matrices, cited in Model/Matrix.lean. -/
def subm (a b : Ref) : M ℝ Ref := do Mat.subn (← derefM a) b.mat

/-- `r` in `harris_corner_detection`, convolutions.cpp:467-479. -/
def harris_r (input : Ref) : M ℝ Ref := do
  let q ← compute_mv input
  let m01 ← had q.1 q.2.1
  let m22 ← had q.2.2 q.2.2
  let det ← subm m01 m22
  let trace ← Hd.addnm q.1 q.2.1
  let tt ← had trace trace
  let kt ← Hd.scalar_multiplynm tt 0.05
  subm det kt

/-- `harris_corner_detection(input)`, convolutions.cpp:466-503: the result as a list of rows. -/
def harris_corner_detection (input : Ref) : M ℝ (List (List Char)) := do
  let r ← harris_r input
  let rm ← derefM r
  let r_size ← Mat.size rm
  foldN r_size.y [] fun i image_types => do
    let row ← foldN r_size.x [] fun j row => do
      let e ← Mat.element_get rm (i : Int) (j : Int)
      pure (row ++ [cornerType e])
    pure (image_types ++ [row])

/-- `memnew(MLPPMatrix(arr, y, x))`, mlpp_matrix.cpp:3146-3156. -/
def ofArray (arr : List ℝ) (y x : Nat) : M ℝ Ref := do
  let m ← newMat
  resizeTo m ⟨x, y, 1⟩
  forN (x * y) fun i => store m i (arr.getD i 0)
  pure (some m)

/-- The fields of `MLPPConvolutions`, convolutions.h:99-106. -/
structure Filters where
  prewitt_horizontal : Ref
  prewitt_vertical : Ref
  sobel_horizontal : Ref
  sobel_vertical : Ref
  scharr_horizontal : Ref
  scharr_vertical : Ref
  roberts_horizontal : Ref
  roberts_vertical : Ref

/-- `MLPPConvolutions()`, convolutions.cpp:530-578. -/
def create : M ℝ Filters := do
  let ph ← ofArray [1, 1, 1, 0, 0, 0, -1, -1, -1] 3 3
  let pv ← ofArray [1, 0, -1, 1, 0, -1, 1, 0, -1] 3 3
  let sh ← ofArray [1, 2, 1, 0, 0, 0, -1, -2, -1] 3 3
  let sv ← ofArray [-1, 0, 1, -2, 0, 2, -1, 0, 1] 3 3
  let ch ← ofArray [3, 10, 3, 0, 0, 0, -3, -10, -3] 3 3
  let cv ← ofArray [3, 0, -3, 10, 0, -10, 3, 0, -3] 3 3
  let rh ← ofArray [0, 1, -1, 0] 2 2
  let rv ← ofArray [1, 0, 0, -1] 2 2
  pure ⟨ph, pv, sh, sv, ch, cv, rh, rv⟩

end
end Convolutions

namespace Transforms
noncomputable section

/-- The sum in `discrete_cosine_transform`, transforms.cpp:74-78. -/
def dctSum (A : Nat) (size : Size) (M' : ℝ) (i j : Nat) : M ℝ ℝ :=
  foldN size.y 0 fun k sum =>
    foldN size.x sum fun f sum => do
      let a ← Mat.element_get A (k : Int) (f : Int)
      pure (sum + a * Real.cos ((Real.pi * i * (2 * k + 1)) / (2 * M')) * Real.cos ((Real.pi * j * (2 * f + 1)) / (2 * M')))

/-- `discrete_cosine_transform(p_A)`, transforms.cpp:43-84. -/
def discrete_cosine_transform (p_A : Ref) : M ℝ Ref := do
  let a ← derefM p_A
  let r ← Mat.scalar_addn a (-128)
  let A ← derefM r
  let size ← Mat.size A
  let B ← newMat
  resizeTo B size
  let M' : ℝ := size.y
  let inv_sqrt_M := 1 / Real.sqrt M'
  let s2M := Real.sqrt (2 / M')
  forN size.y fun i =>
    forN size.x fun j => do
      let alphaI := if i = 0 then inv_sqrt_M else s2M
      let alphaJ := if j = 0 then inv_sqrt_M else s2M
      let sum ← dctSum A size M' i j
      Mat.element_set B.id (i : Int) (j : Int) (sum * alphaI * alphaJ)
  pure (some B)

end
end Transforms
end Verif
