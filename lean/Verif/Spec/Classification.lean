import Mathlib.Data.Real.Basic
import Mathlib.Data.Fintype.Card

/-! # Specification vocabulary for classification metrics -/

namespace Verif.Spec
open Classical

/-- How many entries of a list of (prediction, label) pairs are the pair `(p, q)`. -/
noncomputable def tally (l : List (ℝ × ℝ)) (p q : ℝ) : ℝ := (l.count (p, q) : ℝ)

/-- All predictions and labels are `0` or `1`. -/
def Binary (l : List (ℝ × ℝ)) : Prop := ∀ x ∈ l, (x.1 = 0 ∨ x.1 = 1) ∧ (x.2 = 0 ∨ x.2 = 1)

/-- The integer `y` is the nearest integer to `x`, halves being rounded away from zero. -/
def Nearest (x : ℝ) (y : Int) : Prop := |x - y| ≤ 1 / 2 ∧ (|x - y| = 1 / 2 → |x| < |(y : ℝ)|)

/-- The fraction of the indices that satisfy `P`. -/
noncomputable def fraction {n : Nat} (P : Fin n → Prop) : ℝ := ((Finset.univ.filter P).card : ℝ) / n

end Verif.Spec
