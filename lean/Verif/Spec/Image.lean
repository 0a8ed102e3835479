import Verif.Model.Image
import Verif.Spec.Matrix
import Verif.Spec.Tensor

/-! # Specification vocabulary for images -/

namespace Verif.Spec
noncomputable section
variable {w h : Nat}

/-- The image has data for all its pixels. -/
def Good (i : Img) : Prop := i.px.length = i.width * i.height

/-- The colour of the pixel in column `x` and row `y`. -/
def colorAt (i : Img) (x y : Nat) : Color := ((i.px[y * i.width + x]?).map (Img.decode i.format)).getD Color.default

/-- An image of one byte per pixel, `w` columns and `h` rows, whose pixels are `255 * v`, rounded down. -/
def Gray (i : Img) (v : Fin h → Fin w → ℝ) : Prop :=
  i.width = w ∧ i.height = h ∧ i.format = .l8 ∧ i.px.length = w * h ∧ ∀ (y : Fin h) (x : Fin w), i.px[y.val * w + x.val]? = some [⌊v y x * 255⌋₊]

/-- An image in the format `f`, of `w` columns and `h` rows, whose pixels have been set to the given colours. -/
def Painted (i : Img) (f : Img.Fmt) (c : Fin h → Fin w → Color) : Prop :=
  i.width = w ∧ i.height = h ∧ i.format = f ∧ i.px.length = w * h ∧ ∀ (y : Fin h) (x : Fin w), i.px[y.val * w + x.val]? = some (Img.encode f (c y x))

/-- The channels a format has; a grey value is in all three of red, green and blue. -/
def HasChannel : Img.Fmt → Fin 4 → Prop
  | .r8, k => k = 0
  | .rg8, k => k = 0 ∨ k = 1
  | .rgb8, k => k ≠ 3
  | .rgba8, _ => True
  | .l8, _ => False
  | .la8, k => k = 3

/-- The channels a set of flags names (1 red, 2 green, 4 blue, 8 alpha), in this order. -/
def named (flags : Nat) : List (Fin 4) := (List.finRange 4).filter fun k => flags.testBit k

/-- The first channel a set of flags names is `k`. -/
def FirstNamed (flags : Nat) (k : Fin 4) : Prop := flags.testBit k = true ∧ ∀ j < k, flags.testBit j = false

/-- The argument for "slice `z`" or "no slice". -/
def sliceArg {d : Nat} : Option (Fin d) → Int
  | none => -1
  | some z => (z.val : Int)

/-- The colour whose components are the given ones, or else those of `Color()`: black, not transparent. -/
def colorOf (v : Fin 4 → Option ℝ) : Color := fun k => (v k).getD (if k = 3 then 1 else 0)

end
end Verif.Spec
