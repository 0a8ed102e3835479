import Verif.Spec.Batches
import Verif.Lemmas.RowCells
import Verif.Lemmas.Advance

/-! # Loops that create one object in each round -/

namespace Verif
open Spec
variable {R : Type}

/-- `rs` are different objects created since `h1`; the `t`-th satisfies `P t`. -/
def NewAll (h1 h : Heap R) (rs : List Ref) (P : Nat → Loc → Heap R → Prop) : Prop :=
  rs.Nodup ∧ ∀ t, t < rs.length → ∃ l, rs[t]? = some (some l) ∧ ¬ h1.live l ∧ h.live l ∧ P t l h

theorem NewAll.nil (h1 h : Heap R) (P : Nat → Loc → Heap R → Prop) : NewAll h1 h [] P := ⟨List.nodup_nil, by simp⟩

theorem NewAll.snoc {h1 h h' : Heap R} {rs : List Ref} {P : Nat → Loc → Heap R → Prop} {S : Loc → Prop} (na : NewAll h1 h rs P)
    (kp : Keeps h h' S) (hS : ∀ l, h.live l → S l → h1.live l)
    (st : ∀ t l, h.live l → ¬ S l → P t l h → P t l h') {l : Loc} (k1 : h1.next ≤ h.next) (hl : ¬ h.live l) (hl' : h'.live l)
    (hP : P rs.length l h') : NewAll h1 h' (rs ++ [some l]) P := by
  refine ⟨?_, ?_⟩
  · rw [List.nodup_append]
    refine ⟨na.1, by simp, ?_⟩
    intro a ha b hb e
    rw [List.mem_singleton] at hb
    obtain ⟨t, ht, e2⟩ := List.mem_iff_getElem.mp ha
    obtain ⟨l', e3, _, hlive, _⟩ := na.2 t ht
    rw [List.getElem?_eq_getElem ht, e2, e, hb] at e3
    cases e3
    exact hl hlive
  · intro t ht
    rw [List.length_append, List.length_singleton] at ht
    by_cases e : t = rs.length
    · subst e
      refine ⟨l, by simp, fun q => hl ?_, hl', hP⟩
      unfold Heap.live at *; omega
    · obtain ⟨l', e3, n1, n2, p⟩ := na.2 t (by omega)
      refine ⟨l', by rw [List.getElem?_append_left (by omega)]; exact e3, n1, kp.live n2, ?_⟩
      exact st t l' n2 (fun q => n1 (hS _ n2 q)) p

/-- The existing objects are kept when the only changed ones are newer. -/
theorem Spec.Keeps.newer {h0 h h' : Heap R} {S : Loc → Prop} (k : Keeps h0 h (fun _ => False)) (k' : Keeps h h' S)
    (hS : ∀ l, S l → ¬ h0.live l) : Keeps h0 h' (fun _ => False) :=
  ⟨Nat.le_trans k.1 k'.1, fun l hl _ => by
    obtain ⟨a, b⟩ := k.2 l hl nofun
    obtain ⟨c, d⟩ := k'.2 l (k.live hl) fun q => hS l q hl
    exact ⟨c.trans a, d.trans b⟩⟩

/-- One row copied from matrix `a` to matrix `b` through the vector `row`. -/
theorem Mat.copyRow_run {h : Heap R} (w : h.WF) {a b row c r r' : Nat} {F G : Nat → Nat → R} (ca : Cells h (.m a) c r F)
    (cb : Cells h (.m b) c r' G) {i j : Nat} (hi : i < r) (hj : j < r') :
    Runs (do Mat.row_get_into_mlpp_vector a (i : Int) (some row); Mat.row_set_mlpp_vector b (j : Int) (some row)) h fun _ h' =>
      h'.WF ∧ h'.next = h.next ∧ Keeps h h' (fun l => l = .v row ∨ l = .m b) ∧
        Cells h' (.m b) c r' (fun x y => if x = j then F i y else G x y) := by
  obtain ⟨h1, e1, u1⟩ := Mat.rowGet_run (v := row) w ca hi
  refine Runs.step e1 ?_
  obtain ⟨h2, e2, u2⟩ := Mat.rowSet_run (cb.upd u1 (by nofun)) u1.cells hj
  refine Runs.of_eq e2 ⟨u2.wf (u1.wf w), u2.next.trans u1.next, ?_, u2.cells⟩
  exact (u1.keeps.mono fun l _ e => Or.inl e).trans (u2.keeps.mono fun l _ e => Or.inr e)

end Verif
