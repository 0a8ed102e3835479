import Verif.Lemmas.SortHeap
import Verif.Lemmas.Elementwise
import Verif.Lemmas.Example

/-!
# C06: `sort()`
-/

namespace Verif
open SortArray
variable {R : Type}

/-- **C06.** If `<` is a strict weak order (true of floating point values without NaN), `sort()` terminates without any
access outside the array, and afterwards the vector holds the same elements, with their multiplicities, in
non-decreasing order (no element is less than an earlier one); nothing else changes. -/
theorem C06_sort [LT R] [DecidableLT R] (hasymm : ∀ a b : R, a < b → ¬ b < a)
    (htrans : ∀ a b c : R, ¬ b < a → ¬ c < b → ¬ c < a) (h : Heap R) (w : h.WF) (this : Nat) :
    Runs (Vec.sort this) h fun _ h' =>
      (h'.buf (.v this)).Perm (h.buf (.v this)) ∧ ((h'.buf (.v this)).Pairwise fun a b => ¬ b < a) ∧
      h'.size (.v this) = h.size (.v this) ∧
      ∀ l, l ≠ .v this → h'.buf l = h.buf l ∧ h'.size l = h.size l := by
  have o : SWO R := ⟨hasymm, htrans⟩
  have hx : (h.size (.v this)).x = (h.buf (.v this)).length := by
    rw [w.len, Size.count, (w.vec this).1, (w.vec this).2]; simp
  unfold Vec.sort
  by_cases e : (h.size (.v this)).x = 0
  · have hb : h.buf (.v this) = [] := List.length_eq_zero_iff.mp (by omega)
    refine Runs.of_eq (a := ()) (h' := h) (by rw [bind_ok (getSize_run _ _), if_pos e]; rfl) ⟨List.Perm.refl _, ?_, rfl, fun _ _ => ⟨rfl, rfl⟩⟩
    rw [hb]; exact List.Pairwise.nil
  · obtain ⟨g, g1, g2, g3⟩ := sort_range_run (h := h) (l := .v this) (n := (h.buf (.v this)).length) o
      fun i => (h.buf (.v this))[i]?.getD (h.junk 0 0)
    have est : St h (.v this) (h.buf (.v this)).length (fun i => (h.buf (.v this))[i]?.getD (h.junk 0 0)) = h := by
      unfold St
      rw [← tab_of_list, setBuf_self]
    rw [est] at g1
    refine Runs.of_eq (a := ()) (h' := St h (.v this) (h.buf (.v this)).length g)
      (by rw [bind_ok (getSize_run _ _), if_neg e, hx]; exact g1) ⟨?_, ?_, rfl, ?_⟩
    · unfold St
      rw [setBuf_buf_same]
      refine g2.perm.trans ?_
      rw [← tab_of_list]
    · unfold St
      rw [setBuf_buf_same, List.pairwise_iff_getElem]
      intro i j hi hj hij
      simp only [tab_length] at hi hj
      have := g3 i j (Nat.zero_le _) hij hj
      simpa [tab, SortArray.le] using this
    · intro l hl
      exact ⟨setBuf_buf_ne _ _ hl, rfl⟩

/-- The hypotheses hold for the integers, and e.g. for a vector of 20 elements (more than the threshold of the insertion
sort) with repetitions. -/
example : (Vec.sort 0 (Heap.ofLists (0 : Int) [[7, 3, 9, 3, 1, 0, -4, 8, 8, 2, 5, 6, 3, 11, 10, 4, -1, 12, 13, 7]] [])).bufOf (.v 0)
    = some [-4, -1, 0, 1, 2, 3, 3, 3, 4, 5, 6, 7, 7, 8, 8, 9, 10, 11, 12, 13] := by decide +kernel
example : (∀ a b : Int, a < b → ¬ b < a) ∧ ∀ a b c : Int, ¬ b < a → ¬ c < b → ¬ c < a :=
  ⟨fun a b => by omega, fun a b c => by omega⟩

/-- Numbers and a NaN (`none`): every comparison with the NaN is false. -/
structure WithNaN where
  val : Option Nat

/-- `<` on them. -/
def WithNaN.ltb (a b : WithNaN) : Bool :=
  match a.val, b.val with
  | some x, some y => decide (x < y)
  | _, _ => false

instance : LT WithNaN := ⟨fun a b => a.ltb b = true⟩
instance : DecidableLT WithNaN := fun a b => inferInstanceAs (Decidable (a.ltb b = true))

/-- A vector of 33 elements with one NaN in the middle. -/
def nanVector : List WithNaN :=
  (([20] ++ (List.range 15).map (· + 1)).map fun x => ⟨some x⟩) ++ [⟨none⟩] ++
    (((List.range 15).map (· + 30)) ++ [19]).map fun x => ⟨some x⟩

/-- **C06**, why NaN must be excluded: on this vector `sort()` reads in front of the array. -/
theorem C06_nan_fails : (Vec.sort 0 (Heap.ofLists ⟨none⟩ [nanVector] [])).isUb = true := by decide +kernel

end Verif
