import Verif.Model.Tensor
import Verif.Real

/-! # Images: the exchange of data between matrices, tensors and `Image`

Models the parts of platform/image.cpp that mlpp_matrix.cpp and mlpp_tensor3.cpp use, and the functions of these two files that read and write images.
Simplifications: numbers are real, also the `float` components of `Color`; of the formats only those with one byte for each channel are modelled
(`FORMAT_L8` to `FORMAT_RGBA8`; the others are not made by this library); mipmaps and the lock (which only guards against `resize` and `create` by the caller
during the call) are left out; channel flags are not negative. -/

namespace Verif
noncomputable section

/-- `Color`, sfw.h:9933-9942, by components: red, green, blue, alpha. -/
abbrev Color := Fin 4 → ℝ

/-- `Color()`, sfw.h:10118-10123. -/
def Color.default : Color := ![0, 0, 0, 1]

/-- `Image::Format`, image.h:24-39, the formats of one byte for each channel. -/
inductive Img.Fmt where
  | l8 | la8 | r8 | rg8 | rgb8 | rgba8

/-- `Image`, image.h:66-69. The bytes of `data` are grouped by pixels, row by row. -/
structure Img where
  width : Nat
  height : Nat
  format : Img.Fmt
  px : List (List Nat)

namespace Img

/-- A new `Image`: no data, image.cpp (constructor). -/
def empty : Img := ⟨0, 0, .l8, []⟩

/-- `uint8_t(CLAMP(v * 255.0, 0, 255))`, image.cpp:2383 and others; `CLAMP`, sfw.h:579. -/
def byte (v : ℝ) : Nat := ⌊if v * 255 < 0 then 0 else if v * 255 > 255 then 255 else v * 255⌋₊

/-- The bytes `set_pixel` writes, image.cpp:2381-2408; `get_v`, sfw.cpp:13056-13060. -/
def encode : Fmt → Color → List Nat
  | .l8, c => [byte (max (max (c 0) (c 1)) (c 2))]
  | .la8, c => [byte (max (max (c 0) (c 1)) (c 2)), byte (c 3)]
  | .r8, c => [byte (c 0)]
  | .rg8, c => [byte (c 0), byte (c 1)]
  | .rgb8, c => [byte (c 0), byte (c 1), byte (c 2)]
  | .rgba8, c => [byte (c 0), byte (c 1), byte (c 2), byte (c 3)]

/-- Byte `i` of a pixel, divided by 255, image.cpp:2290 and others. -/
def part (p : List Nat) (i : Nat) : ℝ := (p.getD i 0 : ℝ) / 255

/-- The colour `get_pixel` makes of the bytes, image.cpp:2288-2319. -/
def decode : Fmt → List Nat → Color
  | .l8, p => ![part p 0, part p 0, part p 0, 1]
  | .la8, p => ![part p 0, part p 0, part p 0, part p 1]
  | .r8, p => ![part p 0, 0, 0, 1]
  | .rg8, p => ![part p 0, part p 1, 0, 1]
  | .rgb8, p => ![part p 0, part p 1, part p 2, 1]
  | .rgba8, p => ![part p 0, part p 1, part p 2, part p 3]

/-- `get_pixel(p_x, p_y)`, image.cpp:2276-2362. With `DEBUG_ENABLED` (`dbg`) an index out of range gives `Color()`, without the pixel is read at
`p_y * width + p_x` whatever the indices are. -/
def get_pixel (dbg : Bool) (i : Img) (p_x p_y : Nat) : M ℝ Color :=
  if dbg = true ∧ ¬ (p_x < i.width ∧ p_y < i.height) then pure Color.default
  else match i.px[p_y * i.width + p_x]? with
    | some p => pure (decode i.format p)
    | none => ub

/-- `set_pixel(p_x, p_y, p_color)`, image.cpp:2368-2451. -/
def set_pixel (dbg : Bool) (i : Img) (p_x p_y : Nat) (c : Color) : M ℝ Img :=
  if dbg = true ∧ ¬ (p_x < i.width ∧ p_y < i.height) then pure i
  else if p_y * i.width + p_x < i.px.length then pure { i with px := i.px.set (p_y * i.width + p_x) (encode i.format c) }
  else ub

/-- The size is one `create` and `resize` accept, image.cpp:740-743, 1463-1466, 1486-1489. -/
def sizeOk (w h : Nat) : Bool := decide (0 < w ∧ 0 < h ∧ w ≤ 16384 ∧ h ≤ 16384)

/-- The number of bytes of a pixel, image.cpp:52-83. -/
def pixelSize : Fmt → Nat
  | .l8 => 1 | .la8 => 2 | .r8 => 1 | .rg8 => 2 | .rgb8 => 3 | .rgba8 => 4

/-- `create(p_width, p_height, false, p_format)`, image.cpp:1462-1483: all bytes are zero. -/
def create (i : Img) (w h : Nat) (f : Fmt) : Img :=
  if sizeOk w h then ⟨w, h, f, List.replicate (w * h) (List.replicate (pixelSize f) 0)⟩ else i

/-- `create(p_width, p_height, false, FORMAT_L8, p_data)`, image.cpp:1485-1502, image.h:150-163. -/
def create_l8 (i : Img) (w h : Nat) (data : List Nat) : Img :=
  if sizeOk w h then if data.length = w * h then ⟨w, h, .l8, data.map fun b => [b]⟩ else i else i

/-- `clear()`, image.cpp:1288-1292. -/
def clear (i : Img) : Img := { i with width := 0, height := 0, px := [] }

/-- `resize(p_width, p_height, INTERPOLATE_NEAREST)`, image.cpp:733-973: refused by an image without data. All callers overwrite every pixel afterwards, so
the pixels are set to zero here instead of being interpolated. -/
def resize (i : Img) (w h : Nat) : Img :=
  if i.px.length = 0 then i
  else if sizeOk w h then if w = i.width ∧ h = i.height then i else ⟨w, h, i.format, List.replicate (w * h) (List.replicate (pixelSize i.format) 0)⟩
  else i

end Img

/-- `static_cast<uint8_t>(x)`, mlpp_matrix.cpp:3070, mlpp_tensor3.cpp:780: undefined when the truncated value does not fit. -/
def toU8 (x : ℝ) : M ℝ Nat := if -1 < x ∧ x < 256 then pure ⌊x⌋₊ else ub

open Classical in
/-- The loop `wptr[i] = static_cast<uint8_t>(get(i) * 255.0)`. -/
def bytesOf (n : Nat) (get : Nat → M ℝ ℝ) : M ℝ (List Nat) :=
  foldN n [] fun i acc => do
    let v ← get i
    let b ← toU8 (v * 255)
    pure (acc ++ [b])

/-- The loop over all pixels of an image that sets each of them, e.g. mlpp_tensor3.cpp:902-914. -/
def paint (dbg : Bool) (w h : Nat) (i : Img) (color : Nat → Nat → M ℝ Color) : M ℝ Img :=
  foldN h i fun y i => foldN w i fun x i => do
    let c ← color x y
    Img.set_pixel dbg i x y c

namespace Mat

/-- `get_into_image(out)`, mlpp_matrix.cpp:3052-3074. The target afterwards is the result. -/
def get_into_image (this : Nat) (out : Option Img) : M ℝ (Option Img) :=
  match out with
  | none => pure none
  | some i => do
    let s ← size this
    if s.x * s.y = 0 then pure (some i.clear) else do
      let arr ← bytesOf (s.x * s.y) fun k => load (.m this) k
      pure (some (i.create_l8 s.x s.y arr))

/-- `get_as_image()`, mlpp_matrix.cpp:3043-3050. -/
def get_as_image (this : Nat) : M ℝ (Option Img) := get_into_image this (some Img.empty)

/-- The loop of `set_from_image`, mlpp_matrix.cpp:3089-3095. -/
def imageLoop (dbg : Bool) (this : Nat) (i : Img) (ch : Fin 4) (w h : Nat) : M ℝ Unit :=
  forN h fun y => forN w fun x => do
    let c ← Img.get_pixel dbg i x y
    element_set this (y : Int) (x : Int) (c ch)

/-- `set_from_image(p_img, p_image_channel)`, mlpp_matrix.cpp:3075-3098. -/
def set_from_image (dbg : Bool) (this : Nat) (p_img : Option Img) (p_image_channel : Int) : M ℝ Unit :=
  match p_img with
  | none => pure ()
  | some i =>
    if hc : 0 ≤ p_image_channel ∧ p_image_channel < 4 then do
      ensureSize (.m this) ⟨i.width, i.height, 1⟩
      imageLoop dbg this i ⟨p_image_channel.toNat, by omega⟩ i.width i.height
    else pure ()

end Mat

namespace Ten

/-- The channels a flag names, in order, e.g. mlpp_tensor3.cpp:706-728; `IMAGE_CHANNEL_FLAG_*`, mlpp_tensor3.h:193-196. -/
def channels (flags : Nat) : List (Fin 4) := (List.finRange 4).filter fun k => flags.testBit k

/-- The first channel a flag names, mlpp_tensor3.cpp:991-1000. -/
def firstChannel (flags : Nat) : Option (Fin 4) := (channels flags).head?

/-- Writes components of a colour to cells with row `y` and column `x`: slice `z` gets component `k`, for all `(z, k)` of the list. -/
def putColor (this : Nat) (y x : Nat) (c : Color) : List (Int × Fin 4) → M ℝ Unit
  | [] => pure ()
  | (z, k) :: L => do
    element_set this z (y : Int) (x : Int) (c k)
    putColor this y x c L

/-- The loop over all pixels that writes to slices, e.g. mlpp_tensor3.cpp:748-756. -/
def putImage (dbg : Bool) (this : Nat) (i : Img) (L : List (Int × Fin 4)) (w h : Nat) : M ℝ Unit :=
  forN h fun y => forN w fun x => do
    let c ← Img.get_pixel dbg i x y
    putColor this y x c L

/-- Reads a colour from cells with row `y` and column `x`: component `k` is read from slice `z`, for all `(k, z)` of the list, mlpp_tensor3.cpp:827-843. -/
def getColor (this : Nat) (y x : Nat) : List (Fin 4 × Int) → Color → M ℝ Color
  | [], c => pure c
  | (k, z) :: L, c => do
    let v ← element_get this z (y : Int) (x : Int)
    getColor this y x L (Function.update c k v)

/-- All the components in the list are `e`, the others those of `Color()`, mlpp_tensor3.cpp:904-910. -/
def spread (L : List (Fin 4)) (e : ℝ) : Color := fun k => if k ∈ L then e else Color.default k

/-- Slice indices are -1 or in range, e.g. mlpp_tensor3.cpp:791-805. -/
def indicesOk (n : Nat) (L : List Int) : Bool := L.all fun i => i == -1 || idxOk i n

/-- The components that are read, with their slices, mlpp_tensor3.cpp:827-841. -/
def sources (r g b a : Int) : List (Fin 4 × Int) := [((0 : Fin 4), r), (1, g), (2, b), (3, a)].filter fun p => p.2 != -1

/-- The slices that are written, with their components, mlpp_tensor3.cpp:1063-1077. -/
def targets (r g b a : Int) : List (Int × Fin 4) := [(r, (0 : Fin 4)), (g, 1), (b, 2), (a, 3)].filter fun p => p.1 != -1

/-- `z_slices_add_image(p_img, p_channels)`, mlpp_tensor3.cpp:700-760: it is the number of rows, not of slices, that is increased. -/
def z_slices_add_image (dbg : Bool) (this : Nat) (p_img : Option Img) (p_channels : Nat) : M ℝ Unit :=
  match p_img with
  | none => pure ()
  | some i =>
    if (channels p_channels).length = 0 then pure ()
    else do
      let s0 ← size this
      if s0 = ⟨0, 0, 0⟩ then resize this ⟨i.width, i.height, (channels p_channels).length⟩ else pure ()
      let s ← size this
      if i.width = s.x ∧ i.height = s.y then do
        resize this ⟨s.x, s.y + (channels p_channels).length, s.z⟩
        putImage dbg this i ((channels p_channels).zipIdx.map fun p => (((s.y + p.2 : Nat) : Int), p.1)) s.x s.y
      else pure ()

/-- `z_slice_get_image(p_index_z)`, mlpp_tensor3.cpp:762-789. -/
def z_slice_get_image (this : Nat) (p_index_z : Int) : M ℝ (Option Img) := do
  let s ← size this
  if idxOk p_index_z s.z then
    if s.count = 0 then pure (some Img.empty) else do
      let arr ← bytesOf (s.x * s.y) fun k => load (.t this) (s.x * s.y * p_index_z.toNat + k)
      pure (some (Img.empty.create_l8 s.x s.y arr))
  else pure none

/-- `z_slices_get_image(p_index_r, p_index_g, p_index_b, p_index_a)`, mlpp_tensor3.cpp:790-850. -/
def z_slices_get_image (dbg : Bool) (this : Nat) (r g b a : Int) : M ℝ (Option Img) := do
  let s ← size this
  if indicesOk s.z [r, g, b, a] then
    if s.count = 0 then pure (some Img.empty) else do
      let i ← paint dbg s.x s.y (Img.empty.create s.x s.y .rgba8) fun x y => getColor this y x (sources r g b a) Color.default
      pure (some i)
  else pure none

/-- `z_slice_get_into_image(p_target, p_index_z, p_target_channels)`, mlpp_tensor3.cpp:852-920. -/
def z_slice_get_into_image (dbg : Bool) (this : Nat) (p_target : Option Img) (p_index_z : Int) (flags : Nat) : M ℝ (Option Img) := do
  let s ← size this
  if idxOk p_index_z s.z then
    match p_target with
    | none => pure none
    | some i =>
      if (channels flags).length = 0 then pure (some i)
      else if s.count = 0 then pure (some i.clear) else do
        let i ← paint dbg s.x s.y (i.resize s.x s.y) fun x y => do
          let e ← element_get this p_index_z (y : Int) (x : Int)
          pure (spread (channels flags) e)
        pure (some i)
  else pure p_target

/-- `z_slices_get_into_image(p_target, p_index_r, p_index_g, p_index_b, p_index_a)`, mlpp_tensor3.cpp:921-991. -/
def z_slices_get_into_image (dbg : Bool) (this : Nat) (p_target : Option Img) (r g b a : Int) : M ℝ (Option Img) :=
  match p_target with
  | none => pure none
  | some i => do
    let s ← size this
    if indicesOk s.z [r, g, b, a] then
      if s.count = 0 then pure (some i.clear) else do
        let i ← paint dbg s.x s.y (i.resize s.x s.y) fun x y => getColor this y x (sources r g b a) Color.default
        pure (some i)
    else pure (some i)

/-- `z_slice_set_image(p_img, p_index_z, p_image_channel_flag)`, mlpp_tensor3.cpp:993-1028. -/
def z_slice_set_image (dbg : Bool) (this : Nat) (p_img : Option Img) (p_index_z : Int) (flag : Nat) : M ℝ Unit :=
  match p_img with
  | none => pure ()
  | some i => do
    let s ← size this
    if idxOk p_index_z s.z then
      match firstChannel flag with
      | none => pure ()
      | some k => if i.width = s.x ∧ i.height = s.y then putImage dbg this i [(p_index_z, k)] s.x s.y else pure ()
    else pure ()

/-- `z_slices_set_image(p_img, p_index_r, p_index_g, p_index_b, p_index_a)`, mlpp_tensor3.cpp:1029-1082. -/
def z_slices_set_image (dbg : Bool) (this : Nat) (p_img : Option Img) (r g b a : Int) : M ℝ Unit :=
  match p_img with
  | none => pure ()
  | some i => do
    let s ← size this
    if indicesOk s.z [r, g, b, a] then
      if i.width = s.x ∧ i.height = s.y then putImage dbg this i (targets r g b a) s.x s.y else pure ()
    else pure ()

/-- `set_from_image(p_img, p_channels)`, mlpp_tensor3.cpp:1084-1134. -/
def set_from_image (dbg : Bool) (this : Nat) (p_img : Option Img) (p_channels : Nat) : M ℝ Unit :=
  match p_img with
  | none => pure ()
  | some i =>
    if (channels p_channels).length = 0 then pure ()
    else do
      resize this ⟨i.width, i.height, (channels p_channels).length⟩
      putImage dbg this i ((channels p_channels).zipIdx.map fun p => ((p.2 : Int), p.1)) i.width i.height

/-- `x_slice_get_image(p_index_x)`, mlpp_tensor3.cpp:1136-1164: the cells are read as `element_get(z, p_index_x, y)`. -/
def x_slice_get_image (this : Nat) (p_index_x : Int) : M ℝ (Option Img) := do
  let s ← size this
  if idxOk p_index_x s.x then
    if s.count = 0 then pure (some Img.empty) else do
      let arr ← bytesOf (s.z * s.y) fun k => element_get this ((k / s.y : Nat) : Int) p_index_x ((k % s.y : Nat) : Int)
      pure (some (Img.empty.create_l8 s.y s.z arr))
  else pure none

/-- `x_slice_get_into_image(p_target, p_index_x, p_target_channels)`, mlpp_tensor3.cpp:1165-1233: the loop over `y` ends at the number of slices, the loop
over `z` at the number of rows. -/
def x_slice_get_into_image (dbg : Bool) (this : Nat) (p_target : Option Img) (p_index_x : Int) (flags : Nat) : M ℝ (Option Img) := do
  let s ← size this
  if idxOk p_index_x s.x then
    match p_target with
    | none => pure none
    | some i =>
      if (channels flags).length = 0 then pure (some i)
      else if s.count = 0 then pure (some i.clear) else do
        let i ← paint dbg s.y s.z (i.resize s.y s.z) fun z y => do
          let e ← element_get this (z : Int) (y : Int) p_index_x
          pure (spread (channels flags) e)
        pure (some i)
  else pure p_target

/-- The loop of `x_slice_set_image`, mlpp_tensor3.cpp:1257-1263. -/
def xImageLoop (dbg : Bool) (this : Nat) (i : Img) (k : Fin 4) (p_index_x : Int) (w h : Nat) : M ℝ Unit :=
  forN h fun y => forN w fun z => do
    let c ← Img.get_pixel dbg i z y
    element_set this (z : Int) (y : Int) p_index_x (c k)

/-- `x_slice_set_image(p_img, p_index_x, p_image_channel_flag)`, mlpp_tensor3.cpp:1234-1269. -/
def x_slice_set_image (dbg : Bool) (this : Nat) (p_img : Option Img) (p_index_x : Int) (flag : Nat) : M ℝ Unit :=
  match p_img with
  | none => pure ()
  | some i => do
    let s ← size this
    if idxOk p_index_x s.x then
      match firstChannel flag with
      | none => pure ()
      | some k => if i.width = s.y ∧ i.height = s.z then xImageLoop dbg this i k p_index_x s.y s.z else pure ()
    else pure ()

/-- `y_slice_get_image(p_index_y)`, mlpp_tensor3.cpp:1271-1299: the cells are read as `element_get(z, x, p_index_y)`. -/
def y_slice_get_image (this : Nat) (p_index_y : Int) : M ℝ (Option Img) := do
  let s ← size this
  if idxOk p_index_y s.y then
    if s.count = 0 then pure (some Img.empty) else do
      let arr ← bytesOf (s.z * s.x) fun k => element_get this ((k / s.x : Nat) : Int) ((k % s.x : Nat) : Int) p_index_y
      pure (some (Img.empty.create_l8 s.x s.z arr))
  else pure none

/-- `y_slice_get_into_image(p_target, p_index_y, p_target_channels)`, mlpp_tensor3.cpp:1300-1368: the loop over `x` ends at the number of slices, the loop
over `z` at the number of columns. -/
def y_slice_get_into_image (dbg : Bool) (this : Nat) (p_target : Option Img) (p_index_y : Int) (flags : Nat) : M ℝ (Option Img) := do
  let s ← size this
  if idxOk p_index_y s.y then
    match p_target with
    | none => pure none
    | some i =>
      if (channels flags).length = 0 then pure (some i)
      else if s.count = 0 then pure (some i.clear) else do
        let i ← paint dbg s.x s.z (i.resize s.x s.z) fun z x => do
          let e ← element_get this (z : Int) p_index_y (x : Int)
          pure (spread (channels flags) e)
        pure (some i)
  else pure p_target

/-- The loop of `y_slice_set_image`, mlpp_tensor3.cpp:1391-1397. -/
def yImageLoop (dbg : Bool) (this : Nat) (i : Img) (k : Fin 4) (p_index_y : Int) (w h : Nat) : M ℝ Unit :=
  forN h fun z => forN w fun x => do
    let c ← Img.get_pixel dbg i x z
    element_set this (z : Int) p_index_y (x : Int) (c k)

/-- `y_slice_set_image(p_img, p_index_y, p_image_channel_flag)`, mlpp_tensor3.cpp:1369-1404. -/
def y_slice_set_image (dbg : Bool) (this : Nat) (p_img : Option Img) (p_index_y : Int) (flag : Nat) : M ℝ Unit :=
  match p_img with
  | none => pure ()
  | some i => do
    let s ← size this
    if idxOk p_index_y s.y then
      match firstChannel flag with
      | none => pure ()
      | some k => if i.width = s.x ∧ i.height = s.z then yImageLoop dbg this i k p_index_y s.x s.z else pure ()
    else pure ()

end Ten
end
end Verif
