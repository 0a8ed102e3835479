import Verif.Lemmas.Elementwise

/-! # Heaps with tensors for worked examples -/

namespace Verif
variable {R : Type}

/-- Tensor `i` holds the `i`-th entry of `ts` (shape, cells). -/
def Heap.ofTens (j : R) (ts : List (Size × List R)) : Heap R where
  buf := fun l => match l with
    | .t i => (ts.getD i (⟨0, 0, 0⟩, [])).2
    | _ => []
  size := fun l => match l with
    | .v _ => ⟨0, 1, 1⟩
    | .m _ => ⟨0, 0, 1⟩
    | .t i => (ts.getD i (⟨0, 0, 0⟩, [])).1
  next := ts.length
  junk := fun _ _ => j
  clock := 0

theorem Heap.ofTens_wf (j : R) (ts : List (Size × List R)) (hm : ∀ m ∈ ts, m.2.length = m.1.count) : (Heap.ofTens j ts).WF := by
  refine ⟨?_, fun _ => ⟨rfl, rfl⟩, fun _ => rfl⟩
  intro l
  match l with
  | .v i => simp [ofTens, Size.count]
  | .m i => simp [ofTens, Size.count]
  | .t i =>
    simp only [ofTens]
    by_cases hi : i < ts.length
    · rw [List.getD_eq_getElem?_getD, List.getElem?_eq_getElem hi]
      exact hm _ (List.getElem_mem hi)
    · rw [List.getD_eq_getElem?_getD, List.getElem?_eq_none (by omega)]
      rfl

end Verif
