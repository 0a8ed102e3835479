import Verif.Lemmas.LiftSpec

/-! # Loops that fill a vector or a matrix -/

namespace Verif
open Spec SortArray
variable {R : Type} {m n : Nat} {β : Type}

theorem self_St {h : Heap R} {l : Loc} {n : Nat} (hd : (h.buf l).length = n) : ∃ f, h = St h l n f := by
  refine ⟨fun i => (h.buf l)[i]?.getD (h.junk 0 0), ?_⟩
  have := tab_of_list (h.buf l) (h.junk 0 0)
  rw [hd] at this
  unfold St; rw [← this, setBuf_self]

theorem load_St_ne {h : Heap R} {l l' : Loc} {n : Nat} {f : Nat → R} (hne : l' ≠ l) {p : Nat} {v : R}
    (e : (h.buf l')[p]? = some v) : load l' p (St h l n f) = .ok (v, St h l n f) := load_ne hne e

/-- A loop that stores `g i` into element `i` of `l`. -/
theorem fillLoop {h : Heap R} {l : Loc} {n : Nat} (hd : (h.buf l).length = n) (body : Nat → M R Unit) (g : Nat → R)
    (hb : ∀ i f, i < n → body i (St h l n f) = store l i (g i) (St h l n f)) :
    forN n body h = .ok ((), St h l n g) := by
  obtain ⟨f, e⟩ := self_St hd
  refine (forN_eq n (fun k => St h l n fun i => if i < k then g i else f i) body h (by simpa using e) ?_).trans ?_
  · intro i hi
    rw [hb i _ hi, store_St _ hi]
    congr 2
    unfold St tab; congr 1; refine List.map_congr_left fun a _ => ?_
    simp only [upd]; grind
  · congr 2
    unfold St tab; congr 1; refine List.map_congr_left fun a ha => ?_
    rw [if_pos (List.mem_range.mp ha)]

/-- A double loop that stores `g i j` into row `i`, column `j` of `l`. -/
theorem fillLoop2 {h : Heap R} {l : Loc} {c r : Nat} (hd : (h.buf l).length = c * r) (body : Nat → Nat → M R Unit)
    (g : Nat → Nat → R) (hb : ∀ i j F, i < r → j < c →
      body i j (Gr h l c r F) = .ok ((), Gr h l c r (upd2 F i j (g i j)))) :
    forN r (fun i => forN c (body i)) h = .ok ((), Gr h l c r g) := by
  have e := self_Gr (h := h) (l := l) (c := c) (r := r) hd
  have := forN_cells (Gr h l c r) r c body (fun i j _ => g i j) (fun i j => ((h.buf l)[i * c + j]?).getD (h.junk 0 0))
    (fun i j K hi hj => hb i j K hi hj)
  rw [← e] at this
  rw [this]
  congr 2
  exact Gr_congr fun i j hi hj => by rw [if_pos ⟨hi, hj⟩]

/-- The elements of a vector are read and folded. -/
theorem foldN_cells {σ : Type} {h : Heap R} {l : Loc} {n : Nat} {f : Nat → R} (a : VCells h l n f) (s : σ) (g : σ → R → σ) :
    foldN n s (fun i c => do let x ← load l i; pure (g c x)) h = .ok ((List.range n).foldl (fun c i => g c (f i)) s, h) := by
  rw [foldN_load l n s g h (by rw [a.2, tab_length]), a.2, tab, List.foldl_map]

theorem VCells.len {h : Heap R} {l : Loc} {n : Nat} {f : Nat → R} (a : VCells h l n f) : (h.buf l).length = n := by
  rw [a.2, tab_length]

theorem VCells.eq {h : Heap R} {o : Nat} {f : Nat → R} {v : Fin n → R} (a : VCells h (.v o) n f) (b : IsVec h o v) (i : Fin n) :
    v i = f i := by
  have := b.2 i; rw [a.get i.2] at this; exact (Option.some.inj this).symm

end Verif
