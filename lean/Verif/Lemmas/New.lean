import Verif.Lemmas.MatrixOps
import Verif.Lemmas.Reduce
import Verif.Lemmas.Rows

/-! # Creating objects with `instance()` -/

namespace Verif
open Spec SortArray
variable {R : Type} {m n : Nat} {α β : Type}

theorem Runs.newM {h : Heap R} (w : h.WF) {k : Loc → M R β} {Q : β → Heap R → Prop}
    (hk : ∀ h1 : Heap R, h1.WF → Keeps h h1 (fun _ => False) → ¬ h.live (.m h.next) → h1.live (.m h.next) →
      h1.size (.m h.next) = ⟨0, 0, 1⟩ → Runs (k (.m h.next)) h1 Q) :
    Runs (Verif.newMat >>= k) h Q := by
  refine Runs.step (show Verif.newMat h = .ok (.m h.next, _) from rfl) ?_
  have cr : Created h { (h.setBuf (.m h.next) []).setSize (.m h.next) ⟨0, 0, 1⟩ with next := h.next + 1 }
      (.m h.next) ⟨0, 0, 1⟩ [] :=
    ⟨rfl, by simp, by simp, fun l hl => by simp [setBuf_buf, hl], fun l hl => by simp [setSize_size, hl], rfl, rfl⟩
  exact hk _ (cr.wf w rfl nofun (fun _ _ => rfl)) (cr.keeps _) (Nat.lt_irrefl _) (Nat.lt_succ_self _) cr.size

theorem Runs.newV {h : Heap R} (w : h.WF) {k : Loc → M R β} {Q : β → Heap R → Prop}
    (hk : ∀ h1 : Heap R, h1.WF → Keeps h h1 (fun _ => False) → ¬ h.live (.v h.next) → h1.live (.v h.next) →
      h1.size (.v h.next) = ⟨0, 1, 1⟩ → Runs (k (.v h.next)) h1 Q) :
    Runs (Verif.newVec >>= k) h Q := by
  refine Runs.step (show Verif.newVec h = .ok (.v h.next, _) from rfl) ?_
  have cr : Created h { (h.setBuf (.v h.next) []).setSize (.v h.next) ⟨0, 1, 1⟩ with next := h.next + 1 }
      (.v h.next) ⟨0, 1, 1⟩ [] :=
    ⟨rfl, by simp, by simp, fun l hl => by simp [setBuf_buf, hl], fun l hl => by simp [setSize_size, hl], rfl, rfl⟩
  exact hk _ (cr.wf w rfl (fun _ _ => ⟨rfl, rfl⟩) nofun) (cr.keeps _) (Nat.lt_irrefl _) (Nat.lt_succ_self _) cr.size

/-! ## Filling a matrix or a vector cell by cell -/

theorem Cells.congr {h : Heap R} {l : Loc} {c r : Nat} {F G : Nat → Nat → R} (a : Cells h l c r F)
    (e : ∀ i j, i < r → j < c → F i j = G i j) : Cells h l c r G := by
  refine ⟨a.1, ?_⟩
  rw [a.2, flat_congr e]

theorem VCells.congr {h : Heap R} {l : Loc} {n : Nat} {f g : Nat → R} (a : VCells h l n f) (e : ∀ i, i < n → f i = g i) :
    VCells h l n g := by
  refine ⟨a.1, ?_⟩
  rw [a.2]; exact List.map_congr_left fun i hi => e i (List.mem_range.mp hi)

theorem exists_Cells {h : Heap R} (w : h.WF) {l : Loc} {c r : Nat} (hs : h.size l = ⟨c, r, 1⟩) : ∃ F, Cells h l c r F :=
  ⟨_, hs, exists_cells (h.buf l) (h.junk 0 0) (by rw [w.len, hs, count_mat])⟩

theorem exists_VCells {h : Heap R} (w : h.WF) {l : Loc} {n : Nat} (hs : h.size l = ⟨n, 1, 1⟩) : ∃ f, VCells h l n f := by
  have hl : (h.buf l).length = n := by rw [w.len, hs, count_vec]
  refine ⟨fun i => (h.buf l)[i]?.getD (h.junk 0 0), hs, ?_⟩
  have := tab_of_list (h.buf l) (h.junk 0 0)
  rw [hl] at this; exact this

theorem Mat.set_cells {h : Heap R} (w : h.WF) {o c r : Nat} {F : Nat → Nat → R} (a : Cells h (.m o) c r F) {i j : Nat}
    (hi : i < r) (hj : j < c) (v : R) :
    Runs (Mat.element_set o (i : Int) (j : Int) v) h fun _ h' => h'.WF ∧ Keeps h h' (· = .m o) ∧ h'.next = h.next ∧
      Cells h' (.m o) c r (upd2 F i j v) := by
  have e : Gr h (.m o) c r F = h := by unfold Gr; rw [← a.2, setBuf_self]
  have := Mat.element_set_run F a.1 hi hj v
  rw [e] at this
  exact Runs.of_eq this ⟨Gr_wf w _ a.1, (Gr_updated h _ _ a.1).keeps, rfl, Gr_cells h o c r _ a.1⟩

theorem Vec.set_cells {h : Heap R} (w : h.WF) {o n : Nat} {f : Nat → R} (a : VCells h (.v o) n f) {i : Nat}
    (hi : i < n) (v : R) :
    Runs (Vec.element_set o (i : Int) v) h fun _ h' => h'.WF ∧ Keeps h h' (· = .v o) ∧ h'.next = h.next ∧
      VCells h' (.v o) n (upd f i v) := by
  have hlt : i < (h.buf (.v o)).length := by rw [a.2, tab_length]; exact hi
  have e : Vec.element_set o (i : Int) v h = .ok ((), h.setBuf (.v o) ((h.buf (.v o)).set i v)) := by
    unfold Vec.element_set
    rw [bind_ok (Vec.size_run w o)]
    rw [if_pos (show idxOk (i : Int) (h.vec o).length = true from idxOk_nat hlt), Int.toNat_natCast, store_ok _ hlt]
  have u := updated_setBuf h (.v o) ((h.buf (.v o)).set i v)
  refine Runs.of_eq e ⟨u.wf w (by rw [List.length_set, w.len]) (fun _ _ => w.vec o) nofun, u.keeps, rfl, a.1, ?_⟩
  rw [setBuf_buf_same, a.2, tab_set]

theorem Vec.get_cells [Zero R] {h : Heap R} (w : h.WF) {o n : Nat} {f : Nat → R} (a : VCells h (.v o) n f) {i : Nat}
    (hi : i < n) : Vec.element_get o (i : Int) h = .ok (f i, h) := by
  have hlt : i < (h.buf (.v o)).length := by rw [a.2, tab_length]; exact hi
  unfold Vec.element_get
  rw [bind_ok (Vec.size_run w o)]
  rw [if_pos (show idxOk (i : Int) (h.vec o).length = true from idxOk_nat hlt), Int.toNat_natCast]
  exact load_ok (a.get hi)

/-- A double loop that fills the cells of `o` and otherwise preserves `P`. -/
theorem Runs.cells2 {l : Loc} {c r : Nat} (rows cols : Nat) (P : Heap R → Prop) (G : Nat → Nat → R)
    (body : Nat → Nat → M R Unit) {h : Heap R} (hP : P h) {F : Nat → Nat → R} (hF : Cells h l c r F)
    (hb : ∀ i j h' F', i < rows → j < cols → P h' → Cells h' l c r F' →
      Runs (body i j) h' fun _ h'' => P h'' ∧ Cells h'' l c r (upd2 F' i j (G i j))) :
    Runs (Verif.forN rows fun i => Verif.forN cols (body i)) h fun _ h' => P h' ∧
      Cells h' l c r (fun a b => if a < rows ∧ b < cols then G a b else F a b) := by
  refine (Runs.forN rows (fun k h' => P h' ∧ Cells h' l c r (fun a b => if a < k ∧ b < cols then G a b else F a b)) _ h
    ⟨hP, by simpa using hF⟩ ?_).mono fun _ _ q => q
  intro i h1 hi ⟨p1, c1⟩
  refine (Runs.forN cols (fun k h' => P h' ∧ Cells h' l c r (fun a b => if (a < i ∧ b < cols) ∨ (a = i ∧ b < k) then G a b else F a b))
    _ h1 ⟨p1, by simpa using c1⟩ ?_).mono ?_
  · intro j h2 hj ⟨p2, c2⟩
    refine (hb i j h2 _ hi hj p2 c2).mono fun _ h3 ⟨p3, c3⟩ => ⟨p3, c3.congr fun a b _ _ => ?_⟩
    simp only [upd2]; grind
  · intro _ h2 ⟨p2, c2⟩
    exact ⟨p2, c2.congr fun a b _ _ => by grind⟩

/-- A loop that fills the elements of `l` and otherwise preserves `P`. -/
theorem Runs.cells1 {l : Loc} {n : Nat} (cnt : Nat) (P : Heap R → Prop) (g : Nat → R)
    (body : Nat → M R Unit) {h : Heap R} (hP : P h) {f : Nat → R} (hF : VCells h l n f)
    (hb : ∀ i h' f', i < cnt → P h' → VCells h' l n f' →
      Runs (body i) h' fun _ h'' => P h'' ∧ VCells h'' l n (upd f' i (g i))) :
    Runs (Verif.forN cnt body) h fun _ h' => P h' ∧ VCells h' l n (fun a => if a < cnt then g a else f a) := by
  refine (Runs.forN cnt (fun k h' => P h' ∧ VCells h' l n (fun a => if a < k then g a else f a)) _ h
    ⟨hP, by simpa using hF⟩ ?_).mono fun _ _ q => q
  intro i h1 hi ⟨p1, c1⟩
  refine (hb i h1 _ hi p1 c1).mono fun _ h3 ⟨p3, c3⟩ => ⟨p3, c3.congr fun a _ => ?_⟩
  simp only [upd]; grind

theorem VUpd.vcells {h h' : Heap R} {o n : Nat} {f : Nat → R} (u : VUpd h h' o (tab n f)) : VCells h' (.v o) n f :=
  ⟨by rw [u.size, tab_length], u.buf⟩

theorem Vec.dot_cells [Zero R] [Add R] [Mul R] {h : Heap R} (w : h.WF) {a b n : Nat} {f g : Nat → R} (ca : VCells h (.v a) n f)
    (cb : VCells h (.v b) n g) :
    Vec.dot a (some b) h = .ok ((List.range n).foldl (fun acc i => acc + f i * g i) 0, h) := by
  rw [Vec.dot_run w a b (by rw [ca.2, cb.2, tab_length, tab_length]), ca.2, cb.2]
  congr 2
  unfold tab
  rw [List.zip_map', List.foldl_map]

end Verif
