import Verif.Lemmas.Elementwise

/-! # Heaps for worked examples -/

namespace Verif
variable {R : Type}

/-- Vector `i` holds the `i`-th list of `vs`, matrix `i` holds the `i`-th entry of `ms` (columns, rows, cells). -/
def Heap.ofLists (j : R) (vs : List (List R)) (ms : List (Nat × Nat × List R)) : Heap R where
  buf := fun l => match l with
    | .v i => vs.getD i []
    | .m i => (ms.getD i (0, 0, [])).2.2
    | .t _ => []
  size := fun l => match l with
    | .v i => ⟨(vs.getD i []).length, 1, 1⟩
    | .m i => ⟨(ms.getD i (0, 0, [])).1, (ms.getD i (0, 0, [])).2.1, 1⟩
    | .t _ => ⟨0, 0, 0⟩
  next := vs.length + ms.length
  junk := fun _ _ => j
  clock := 0

theorem Heap.ofLists_wf (j : R) (vs : List (List R)) (ms : List (Nat × Nat × List R))
    (hm : ∀ m ∈ ms, m.2.2.length = m.1 * m.2.1) : (Heap.ofLists j vs ms).WF := by
  refine ⟨?_, fun _ => ⟨rfl, rfl⟩, fun _ => rfl⟩
  intro l
  match l with
  | .v i => simp [ofLists, Size.count]
  | .t i => simp [ofLists, Size.count]
  | .m i =>
    simp only [ofLists, Size.count, Nat.mul_one]
    by_cases hi : i < ms.length
    · rw [List.getD_eq_getElem?_getD, List.getElem?_eq_getElem hi]
      exact hm _ (List.getElem_mem hi)
    · rw [List.getD_eq_getElem?_getD, List.getElem?_eq_none (by omega)]
      rfl

end Verif
