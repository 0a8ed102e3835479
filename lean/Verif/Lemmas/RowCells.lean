import Verif.Lemmas.New
import Verif.Lemmas.RowOps
import Verif.Lemmas.MatrixInv

/-! # Rows of a matrix given by its cells -/

namespace Verif
open Spec SortArray
variable {R : Type}

/-- Matrix `o` becomes the `r` by `c` matrix with cells `F`; nothing else changes. -/
abbrev MSet (h h' : Heap R) (o c r : Nat) (F : Nat → Nat → R) : Prop :=
  Updated h h' (.m o) ⟨c, r, 1⟩ (tab (c * r) (flat c F))

/-- Vector `o` becomes the vector of the `n` elements `f`; nothing else changes. -/
abbrev VSet (h h' : Heap R) (o n : Nat) (f : Nat → R) : Prop := Updated h h' (.v o) ⟨n, 1, 1⟩ (tab n f)

theorem MSet.wf {h h' : Heap R} {o c r : Nat} {F : Nat → Nat → R} (u : MSet h h' o c r F) (w : h.WF) : h'.WF :=
  Updated.wf u w (by simp [Size.count]) nofun (fun _ _ => rfl)

theorem VSet.wf {h h' : Heap R} {o n : Nat} {f : Nat → R} (u : VSet h h' o n f) (w : h.WF) : h'.WF :=
  Updated.wf u w (by simp [Size.count]) (fun _ _ => ⟨rfl, rfl⟩) nofun

theorem MSet.cells {h h' : Heap R} {o c r : Nat} {F : Nat → Nat → R} (u : MSet h h' o c r F) : Cells h' (.m o) c r F :=
  ⟨u.size, u.buf⟩

theorem VSet.cells {h h' : Heap R} {o n : Nat} {f : Nat → R} (u : VSet h h' o n f) : VCells h' (.v o) n f :=
  ⟨u.size, u.buf⟩

theorem Cells.upd {h h' : Heap R} {l o : Loc} {c r : Nat} {F : Nat → Nat → R} {s : Size} {d : List R} (a : Cells h l c r F)
    (u : Updated h h' o s d) (hne : l ≠ o) : Cells h' l c r F := a.ofEq (u.bufFrame l hne) (u.sizeFrame l hne)

theorem VCells.upd {h h' : Heap R} {l o : Loc} {n : Nat} {f : Nat → R} {s : Size} {d : List R} (a : VCells h l n f)
    (u : Updated h h' o s d) (hne : l ≠ o) : VCells h' l n f := by
  unfold VCells; rw [u.bufFrame l hne, u.sizeFrame l hne]; exact a

namespace Mat

/-- The copy loop of the row getters. -/
theorem rowGet_run {h : Heap R} (w : h.WF) {o v c r : Nat} {F : Nat → Nat → R} (a : Cells h (.m o) c r F) {i : Nat} (hi : i < r) :
    ∃ h', row_get_into_mlpp_vector o (i : Int) (some v) h = .ok ((), h') ∧ VSet h h' v c (F i) := by
  unfold row_get_into_mlpp_vector
  dsimp only
  rw [bind_ok (Mat.size_run o h), a.1]
  dsimp only
  rw [if_pos (idxOk_nat hi), Int.toNat_natCast]
  obtain ⟨d, cl, e, hd, _⟩ := ensureSize_run (.v v) ⟨c, 1, 1⟩ h (w.len _)
  rw [bind_ok e]
  have hd' : d.length = c := by simpa [Size.count] using hd
  unfold rowCopy
  rw [storeForN_run (.v v) c 0 _ (tab c (F i)) _ (by simp) (by simp [hd'])]
  · refine ⟨_, rfl, ?_, ?_, ?_, ?_, rfl, rfl⟩
    · rw [setBuf_buf_same]
      unfold overwrite
      rw [List.drop_of_length_le (by simp [hd'])]; simp
    · simp
    · intro l hl; simp [setBuf_buf, hl]
    · intro l hl; simp [setSize_size, hl]
  · intro j hj
    have g := a.get hi hj
    rw [bind_ok (load_ok (by simpa [setBuf_buf] using g)), Nat.zero_add]
    congr 1
    simp [SortArray.tab]

theorem rowSet_run {h : Heap R} {o v c r : Nat} {F : Nat → Nat → R} {f : Nat → R} (a : Cells h (.m o) c r F)
    (b : VCells h (.v v) c f) {i : Nat} (hi : i < r) :
    ∃ h', row_set_mlpp_vector o (i : Int) (some v) h = .ok ((), h') ∧ MSet h h' o c r (fun x y => if x = i then f y else F x y) := by
  unfold row_set_mlpp_vector
  dsimp only
  have sz : Vec.size v h = .ok (c, h) := by
    unfold Vec.size
    rw [bind_ok (getSize_run _ _), b.1]; rfl
  rw [bind_ok sz, bind_ok (Mat.size_run o h), a.1]
  dsimp only
  rw [if_pos rfl, if_pos (idxOk_nat hi), Int.toNat_natCast]
  refine ⟨Gr h (.m o) c r (fun x y => if x = i then f y else F x y), ?_, Gr_updated h _ _ a.1⟩
  refine (forN_eq c (fun k => Gr h (.m o) c r (fun x y => if x = i ∧ y < k then f y else F x y)) _ h ?_ ?_).trans ?_
  · simpa using a.self
  · intro k hk
    have e : (h.buf (.v v))[k]? = some (f k) := b.get hk
    rw [bind_ok (load_Gr_ne (by nofun) e), store_Gr _ hi hk]
    congr 2
    refine Gr_congr fun x y _ _ => ?_
    simp only [upd2]; grind
  · congr 2
    exact Gr_congr fun x y _ hy => by simp [hy]

end Mat
end Verif
