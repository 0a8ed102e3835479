import Verif.Lemmas.SliceApi
import Verif.Lemmas.ElementwiseSpec
import Verif.Lemmas.Example
import Verif.Props.VectorMisc

/-!
# C33, C34, C03, C11, C15, C16 (tensors): `MLPPTensor3` as a list of z slices

For an arbitrary element type (IEEE floats included) and arbitrary contents of uninitialised memory. The specification
is `Verif/Spec/Slices.lean`.
-/

namespace Verif
open Spec
variable {R : Type}

/-- Tensor `o` stores exactly the stack `t`: the extents are those of `t`, every slice has `cols * rows` cells, and the
cells in memory are the slices one after the other. -/
def StoresT (h : Heap R) (o : Nat) (t : Stack R) : Prop :=
  h.size (.t o) = ⟨t.cols, t.rows, t.slices.length⟩ ∧ (∀ x ∈ t.slices, x.length = t.cols * t.rows) ∧
    h.buf (.t o) = t.slices.flatten

theorem THolds.init (junk : Nat → Nat → R) :
    THolds (Heap.init junk) ⟨fun _ => ⟨0, 0, []⟩, fun _ => ⟨0, 0, []⟩, fun _ => []⟩ :=
  ⟨init_wf junk, rfl, fun _ => ⟨rfl, rfl⟩, fun _ => ⟨rfl, rfl, by intro x hx; simp at hx⟩⟩

theorem THolds.stores {h : Heap R} {s : TState R} (r : THolds h s) (o : Nat) : StoresT h o (s.tens o) :=
  ⟨(r.tens o).size, (r.tens o).good, (r.tens o).buf⟩

/-- Every well-formed heap stores some state. -/
theorem THolds.exists {h : Heap R} (w : h.WF) : ∃ s, THolds h s := by
  refine ⟨⟨fun o => ⟨(h.size (.t o)).x, (h.size (.t o)).y,
      chunks ((h.size (.t o)).x * (h.size (.t o)).y) (h.size (.t o)).z (h.buf (.t o))⟩,
    fun o => ⟨(h.size (.m o)).x, (h.size (.m o)).y, h.buf (.m o)⟩, absV h⟩, w, rfl, fun o => ⟨?_, rfl⟩, TRep.exists w⟩
  have := w.mat o
  cases e : h.size (.m o) with
  | mk x y z => rw [e] at this; simp only at this; subst this; simp only [e]

/-- **C33.** Any sequence of the tensor calls that are handled correctly (`TOp.ok`), on fresh objects, returns normally,
answers what the specification allows, and the tensors hold the slices the specification says. Missing: the calls excluded
by `TOp.ok`, for which the claim is false (`C33_remove_unordered_fails`, `C33_get_into_null_fails`). -/
theorem C33_tensor_is_list_of_slices_partial [Zero R] (junk : Nat → Nat → R) (ops : List (TOp R))
    (ok : ∀ op ∈ ops, op.ok) :
    ∃ answers h' s', Ten.execAll ops (Heap.init junk) = .ok (answers, h') ∧
      TRun ⟨fun _ => ⟨0, 0, []⟩, fun _ => ⟨0, 0, []⟩, fun _ => []⟩ ops answers s' ∧
      (∀ o, StoresT h' o (s'.tens o)) ∧ (∀ i, h'.buf (.v i) = s'.vecs i) ∧ (∀ o, h'.buf (.m o) = (s'.mats o).cells) := by
  obtain ⟨as, h', s', e, m, r⟩ := ten_execAll_sound ops (THolds.init junk) ok
  exact ⟨as, h', s', e, m, r.stores, fun i => by rw [r.vecs]; rfl, fun o => (r.mats o).2⟩

/-- A history: slices added, swapped, removed, a row replaced. -/
example : (Ten.execAll (R := Int) [.resize 0 2 1 0, .z_slice_add 0 [1, 2], .z_slice_add 0 [3, 4], .z_slice_add 0 [5, 6],
      .z_slice_swap 0 0 2, .z_slice_remove 0 1, .z_slice_add 0 [7, 8], .row_set_vector 0 1 0 [0, 9],
      .z_slice_remove_unordered 0 0, .z_slice_get_into_mlpp_vector 0 1 (some 3)]
      (Heap.init fun _ _ => 99)).bufOf (.t 0) = some [7, 8, 0, 9] := by decide +kernel

/-- **C33**, one call in any well-formed heap whose objects hold the state `s`. -/
theorem C33_tensor_slice_step_partial [Zero R] (h : Heap R) (w : h.WF) (s : TState R)
    (hv : ∀ i, h.buf (.v i) = s.vecs i)
    (hm : ∀ o, h.size (.m o) = ⟨(s.mats o).cols, (s.mats o).rows, 1⟩ ∧ h.buf (.m o) = (s.mats o).cells)
    (ht : ∀ o, StoresT h o (s.tens o)) (op : TOp R) (ok : op.ok) :
    ∃ a h' s', Ten.exec op h = .ok (a, h') ∧ TRel s op a s' ∧ h'.WF ∧ (∀ o, StoresT h' o (s'.tens o)) ∧
      (∀ i, h'.buf (.v i) = s'.vecs i) ∧
      (∀ o, h'.size (.m o) = ⟨(s'.mats o).cols, (s'.mats o).rows, 1⟩ ∧ h'.buf (.m o) = (s'.mats o).cells) := by
  obtain ⟨a, h', s', e, m, r⟩ := ten_exec_sound (s := s)
    ⟨w, (funext hv).symm, hm, fun o => ⟨(ht o).1, (ht o).2.2, (ht o).2.1⟩⟩ op ok
  exact ⟨a, h', s', e, m, r.wf, r.stores, fun i => by rw [r.vecs]; rfl, r.mats⟩

/-- **C33** is false of `z_slice_remove_unordered(z)` for every slice but the first: the first cell it reads lies outside
the tensor. -/
theorem C33_remove_unordered_fails (h : Heap R) (o : Nat) (t : Stack R) (ht : StoresT h o t) (k : Nat)
    (hk : k < t.slices.length) (hk0 : 0 < k) (hc : 0 < t.cols * t.rows) :
    Ten.z_slice_remove_unordered o (k : Int) h = .ub :=
  Ten.z_slice_remove_unordered_ub ⟨ht.1, ht.2.2, ht.2.1⟩ hk hk0 hc

/-- A witness: two slices of one cell; removing the second one. -/
example : ((do Ten.set_data 0 (⟨1, 1, 2⟩, [1, 2]); Ten.z_slice_remove_unordered 0 1 : M Int Unit)
    (Heap.init fun _ _ => 0)).isUb = true := by decide +kernel

/-- **C33** is false of `z_slice_get_into_mlpp_vector`, `z_slice_get_into_mlpp_matrix` with a null target: the target is
dereferenced without a check. -/
theorem C33_get_into_null_fails (h : Heap R) (o : Nat) (z : Int) (hz : Valid z (h.size (.t o)).z) :
    Ten.z_slice_get_into_mlpp_vector o z none h = .ub ∧ Ten.z_slice_get_into_mlpp_matrix o z none h = .ub := by
  have : idxOk z (h.size (.t o)).z = true := idxOk_iff.mpr hz
  constructor
  · unfold Ten.z_slice_get_into_mlpp_vector; rw [bind_ok (Ten.size_run o h), if_pos this]; rfl
  · unfold Ten.z_slice_get_into_mlpp_matrix; rw [bind_ok (Ten.size_run o h), if_pos this]; rfl

/-- **C33**: `z_slice_get_mlpp_vector(z)`, `z_slice_get_mlpp_matrix(z)` return a new object holding slice `z`; nothing else
changes. -/
theorem C33_z_slice_get_new (h : Heap R) (o : Nat) (t : Stack R) (ht : StoresT h o t) (hl : h.live (.t o)) (k : Nat)
    (x : List R) (hk : t.slices[k]? = some x) (hc : 0 < t.cols * t.rows) :
    (Runs (Ten.z_slice_get_mlpp_vector o (k : Int)) h fun r h' => ∃ v, r = some (.v v) ∧ ¬ h.live (.v v) ∧
      h'.buf (.v v) = x ∧ h'.size (.v v) = ⟨x.length, 1, 1⟩ ∧ OthersSame h h' (.v v)) ∧
    (Runs (Ten.z_slice_get_mlpp_matrix o (k : Int)) h fun r h' => ∃ m, r = some (.m m) ∧ ¬ h.live (.m m) ∧
      h'.buf (.m m) = x ∧ h'.size (.m m) = ⟨t.cols, t.rows, 1⟩ ∧ OthersSame h h' (.m m)) := by
  have rep : TRep h o t := ⟨ht.1, ht.2.2, ht.2.1⟩
  have hlt := (List.getElem?_eq_some_iff.mp hk).1
  have hxl := rep.good x (List.mem_of_getElem? hk)
  have hb := Ten.slice_bound rep hlt (a := 0) (n := t.cols * t.rows) (by omega)
  rw [Nat.zero_add] at hb
  have hs := flatten_slice rep.good hk (a := 0) (n := t.cols * t.rows) (by omega)
  rw [Nat.zero_add, List.drop_zero, List.take_of_length_le (l := x) (by omega)] at hs
  have hne : t.cols * t.rows ≠ 0 := by omega
  constructor
  · unfold Ten.z_slice_get_mlpp_vector
    refine Runs.step (Ten.size_run o h) ?_
    rw [rep.size]
    dsimp only
    rw [if_pos (idxOk_nat hlt), Int.toNat_natCast]
    simp only [if_neg hne]
    obtain ⟨h', e, c⟩ := Ten.new_run (h := h) o (t.cols * t.rows * k) (t.cols * t.rows) (.v 0) ⟨t.cols * t.rows, 1, 1⟩ hl hb
      (by rw [count_vec])
    rw [rep.buf, hs] at c
    exact Runs.of_eq e ⟨h.next, rfl, by simp [Heap.live, Loc.id], c.buf, by rw [hxl]; exact c.size, fun l hl' =>
      ⟨c.bufFrame l hl', c.sizeFrame l hl'⟩⟩
  · unfold Ten.z_slice_get_mlpp_matrix
    refine Runs.step (Ten.size_run o h) ?_
    rw [rep.size]
    dsimp only
    rw [if_pos (idxOk_nat hlt), Int.toNat_natCast]
    simp only [if_neg hne]
    obtain ⟨h', e, c⟩ := Ten.new_run (h := h) o (t.cols * t.rows * k) (t.cols * t.rows) (.m 0) ⟨t.cols, t.rows, 1⟩ hl hb
      (by rw [count_mat])
    rw [rep.buf, hs] at c
    exact Runs.of_eq e ⟨h.next, rfl, by simp [Heap.live, Loc.id], c.buf, c.size, fun l hl' =>
      ⟨c.bufFrame l hl', c.sizeFrame l hl'⟩⟩

/-! ## C34 -/

/-- **C34**: `row_get_pool_vector(z, y)` and `row_get_mlpp_vector(z, y)` give row `y` of slice `z`, and so does
`row_get_vector` of the first slice. Missing: `row_get_vector` of the other slices (`C34_row_get_vector_fails`). -/
theorem C34_row_get_partial (h : Heap R) (o : Nat) (t : Stack R) (ht : StoresT h o t) (hl : h.live (.t o)) (z y : Nat)
    (x : List R) (hz : t.slices[z]? = some x) (hy : y < t.rows) (hc : 0 < t.cols) :
    Ten.row_get_pool_vector o (z : Int) (y : Int) h = .ok (rowOf t.cols x y, h) ∧
    (Runs (Ten.row_get_mlpp_vector o (z : Int) (y : Int)) h fun r h' => ∃ v, r = some (.v v) ∧ ¬ h.live (.v v) ∧
      h'.buf (.v v) = rowOf t.cols x y ∧ h'.size (.v v) = ⟨t.cols, 1, 1⟩ ∧ OthersSame h h' (.v v)) ∧
    (z = 0 → Ten.row_get_vector o (z : Int) (y : Int) h = .ok (rowOf t.cols x y, h)) := by
  have rep : TRep h o t := ⟨ht.1, ht.2.2, ht.2.1⟩
  have hlt := (List.getElem?_eq_some_iff.mp hz).1
  have hyc := Ten.row_in (cols := t.cols) hy
  have hb := Ten.slice_bound rep hlt hyc
  refine ⟨Ten.row_get_run rep hz hy, ?_, ?_⟩
  · unfold Ten.row_get_mlpp_vector
    refine Runs.step (Ten.size_run o h) ?_
    rw [rep.size]
    dsimp only
    rw [if_pos (idxOk_nat hy), if_pos (idxOk_nat hlt), Int.toNat_natCast, Int.toNat_natCast]
    simp only [if_neg (show t.cols ≠ 0 by omega)]
    obtain ⟨h', e, c⟩ := Ten.new_run (h := h) o (y * t.cols + t.cols * t.rows * z) t.cols (.v 0) ⟨t.cols, 1, 1⟩ hl hb
      (by rw [count_vec])
    rw [rep.buf, flatten_slice rep.good hz hyc] at c
    exact Runs.of_eq e ⟨h.next, rfl, by simp [Heap.live, Loc.id], c.buf, c.size, fun l hl' =>
      ⟨c.bufFrame l hl', c.sizeFrame l hl'⟩⟩
  · rintro rfl
    have e := Ten.row_get_run rep hz hy
    rw [← e]
    unfold Ten.row_get_vector Ten.row_get_pool_vector
    rw [bind_ok (Ten.size_run o h), bind_ok (Ten.size_run o h), Int.toNat_natCast]
    simp

/-- **C34** is false of `row_get_vector(z, y)`: it returns row `y` of the *first* slice whatever `z` is. -/
theorem C34_row_get_vector_fails (h : Heap R) (o : Nat) (t : Stack R) (ht : StoresT h o t) (z y : Nat) (x0 : List R)
    (hz : z < t.slices.length) (h0 : t.slices[0]? = some x0) (hy : y < t.rows) :
    Ten.row_get_vector o (z : Int) (y : Int) h = .ok (rowOf t.cols x0 y, h) := by
  have rep : TRep h o t := ⟨ht.1, ht.2.2, ht.2.1⟩
  have e := Ten.row_get_run rep h0 hy
  have h0' := (List.getElem?_eq_some_iff.mp h0).1
  unfold Ten.row_get_pool_vector at e
  rw [bind_ok (Ten.size_run o h), rep.size] at e
  dsimp only at e
  rw [if_pos (idxOk_nat hy), if_pos (idxOk_nat h0'), Int.toNat_natCast, Int.toNat_natCast, Nat.mul_zero, Nat.add_zero] at e
  unfold Ten.row_get_vector
  rw [bind_ok (Ten.size_run o h), rep.size]
  dsimp only
  rw [if_pos (idxOk_nat hy), if_pos (idxOk_nat hz), Int.toNat_natCast]
  exact e

/-- A witness: row 0 of slice 1 is `[3, 4]`, the answer is `[1, 2]`. -/
example : (match (do Ten.set_data 0 (⟨2, 1, 2⟩, [1, 2, 3, 4]); Ten.row_get_vector 0 1 0 : M Int (List Int))
    (Heap.init fun _ _ => 0) with | .ok (l, _) => l | _ => []) = [1, 2] := by decide +kernel

/-- **C34**: what `row_set_vector` / `row_set_mlpp_vector` put at `(z, y)` is what `row_get_pool_vector` and
`row_get_into_mlpp_vector` find there, and all other rows of all slices are as before. -/
theorem C34_row_set_get (h : Heap R) (w : h.WF) (o : Nat) (t : Stack R) (ht : StoresT h o t) (z y : Nat) (p : List R)
    (hz : z < t.slices.length) (hy : y < t.rows) (hp : p.length = t.cols) :
    Runs (Ten.row_set_vector o (z : Int) (y : Int) p) h fun _ h' =>
      Ten.row_get_pool_vector o (z : Int) (y : Int) h' = .ok (p, h') ∧
      (∀ v, Runs (Ten.row_get_into_mlpp_vector o (z : Int) (y : Int) (some v)) h' fun _ h'' => h''.buf (.v v) = p) ∧
      (∀ z' y' : Nat, z' < t.slices.length → y' < t.rows → (z' ≠ z ∨ y' ≠ y) → ∀ q,
        Ten.row_get_pool_vector o (z' : Int) (y' : Int) h = .ok (q, h) →
        Ten.row_get_pool_vector o (z' : Int) (y' : Int) h' = .ok (q, h')) ∧
      OthersSame h h' (.t o) := by
  have rep : TRep h o t := ⟨ht.1, ht.2.2, ht.2.1⟩
  obtain ⟨h', e, u⟩ := Ten.row_set_vector_run rep hz hy p hp
  have hx : t.slices[z]? = some t.slices[z] := List.getElem?_eq_getElem hz
  generalize t.slices[z] = x at hx
  have hxl := rep.good x (List.mem_of_getElem? hx)
  have rep' := u.rep
  have hyc := Ten.row_in (cols := t.cols) hy
  have hnew : (t.slices.modify z (withRow t.cols · y p))[z]? = some (withRow t.cols x y p) := by
    rw [List.getElem?_modify, hx]; simp
  have hrow : rowOf t.cols (withRow t.cols x y p) y = p := by
    rw [withRow_eq_overwrite hp]
    apply List.ext_getElem?
    intro i
    unfold rowOf
    rw [List.getElem?_take, List.getElem?_drop, overwrite_getElem? _ _ _ (by omega)]
    split_ifs <;> first | omega | (congr 1; omega) | (rw [List.getElem?_eq_none (by omega)])
  have g1 := Ten.row_get_run rep' hnew hy
  dsimp only at g1
  rw [hrow] at g1
  refine Runs.of_eq e ⟨g1, fun v => ?_, ?_, fun l hl => ⟨u.upd.bufFrame l hl, u.upd.sizeFrame l hl⟩⟩
  · obtain ⟨h'', e2, u2⟩ := Ten.row_get_into_run (u.wf w) rep' (v := v) hnew hy
    dsimp only at u2
    rw [hrow] at u2
    exact Runs.of_eq e2 u2.buf
  · intro z' y' hz' hy' hne q hq
    have hx' : t.slices[z']? = some t.slices[z'] := List.getElem?_eq_getElem hz'
    rw [Ten.row_get_run rep hx' hy'] at hq
    have hqv : rowOf t.cols t.slices[z'] y' = q := by injection hq with hq; exact (Prod.mk.inj hq).1
    by_cases ez : z' = z
    · subst ez
      have hxe : t.slices[z'] = x := by rw [List.getElem?_eq_getElem hz'] at hx; exact Option.some.inj hx
      rw [hxe] at hqv
      have := Ten.row_get_run rep' hnew hy'
      dsimp only at this
      rw [this, ← hqv]
      congr 2
      rw [withRow_eq_overwrite hp]
      have hy2 := Ten.row_in (cols := t.cols) hy'
      have hdis : y' * t.cols + t.cols ≤ y * t.cols ∨ y * t.cols + t.cols ≤ y' * t.cols := by
        rcases Nat.lt_or_gt_of_ne (hne.resolve_left (by simp)) with hlt | hlt
        · left; rw [← Nat.succ_mul]; exact Nat.mul_le_mul_right _ hlt
        · right; rw [← Nat.succ_mul]; exact Nat.mul_le_mul_right _ hlt
      apply List.ext_getElem?
      intro i
      unfold rowOf
      rw [List.getElem?_take, List.getElem?_take, List.getElem?_drop, List.getElem?_drop,
        overwrite_getElem? _ _ _ (by omega)]
      split_ifs <;> first | rfl | omega
    · have hz2 : (t.slices.modify z (withRow t.cols · y p))[z']? = some t.slices[z'] := by
        rw [List.getElem?_modify, hx']; simp [Ne.symm ez]
      have := Ten.row_get_run rep' hz2 hy'
      dsimp only at this
      rw [this, ← hqv]

/-! ## C03 (tensors) -/

/-- **C03 (tensors).** With an index outside the valid range `element_get` answers 0 and nothing changes; `element_set`, the
slice and row setters and getters, `z_slice_swap` and the slice removals do nothing at all. -/
theorem C03_tensor_bad_index [Zero R] (h : Heap R) (o : Nat) (z y x : Int) (v : R) (p : List R) (r : Option Nat) :
    (¬(Valid z (h.size (.t o)).z ∧ Valid y (h.size (.t o)).y ∧ Valid x (h.size (.t o)).x) →
      Ten.element_get o z y x h = .ok (0, h) ∧ Ten.element_set o z y x v h = .ok ((), h)) ∧
    (¬(Valid z (h.size (.t o)).z ∧ Valid y (h.size (.t o)).y) →
      Ten.row_get_vector o z y h = .ok ([], h) ∧ Ten.row_get_pool_vector o z y h = .ok ([], h) ∧
      Ten.row_get_mlpp_vector o z y h = .ok (none, h) ∧ Ten.row_get_into_mlpp_vector o z y r h = .ok ((), h) ∧
      Ten.row_set_vector o z y p h = .ok ((), h) ∧ Ten.row_set_mlpp_vector o z y r h = .ok ((), h)) ∧
    (¬Valid z (h.size (.t o)).z →
      Ten.z_slice_remove o z h = .ok ((), h) ∧ Ten.z_slice_remove_unordered o z h = .ok ((), h) ∧
      (∀ z', Ten.z_slice_swap o z z' h = .ok ((), h) ∧ Ten.z_slice_swap o z' z h = .ok ((), h)) ∧
      Ten.z_slice_get_vector o z h = .ok ([], h) ∧ Ten.z_slice_get_mlpp_vector o z h = .ok (none, h) ∧
      Ten.z_slice_get_mlpp_matrix o z h = .ok (none, h) ∧ Ten.z_slice_get_into_mlpp_vector o z r h = .ok ((), h) ∧
      Ten.z_slice_get_into_mlpp_matrix o z r h = .ok ((), h) ∧ Ten.z_slice_set_vector o z p h = .ok ((), h) ∧
      Ten.z_slice_set_mlpp_vector o z r h = .ok ((), h) ∧ Ten.z_slice_set_mlpp_matrix o z r h = .ok ((), h)) ∧
    (¬Valid x (h.size (.t o)).x → Ten.x_slice_get o x h = .ok (none, h) ∧ Ten.x_slice_get_into o x r h = .ok ((), h) ∧
      Ten.x_slice_set o x r h = .ok ((), h)) ∧
    (¬Valid y (h.size (.t o)).y → Ten.y_slice_get o y h = .ok (none, h) ∧ Ten.y_slice_get_into o y r h = .ok ((), h) ∧
      Ten.y_slice_set o y r h = .ok ((), h)) := by
  have sz := Ten.size_run o h
  generalize hsz : h.size (.t o) = s at *
  have iff : ∀ (p : Int) (n : Nat), Valid p n ↔ idxOk p n = true := fun p n => idxOk_iff.symm
  simp only [iff]
  refine ⟨fun hv => ?_, fun hv => ?_, fun hv => ?_, fun hv => ?_, fun hv => ?_⟩
  · unfold Ten.element_get Ten.element_set
    rw [bind_ok sz, bind_ok sz]
    constructor <;> (split_ifs <;> first | rfl | exact absurd ⟨by assumption, by assumption, by assumption⟩ hv)
  · refine ⟨?_, ?_, ?_, ?_, ?_, ?_⟩
    · unfold Ten.row_get_vector; rw [bind_ok sz]
      split_ifs <;> first | rfl | exact absurd ⟨by assumption, by assumption⟩ hv
    · unfold Ten.row_get_pool_vector; rw [bind_ok sz]
      split_ifs <;> first | rfl | exact absurd ⟨by assumption, by assumption⟩ hv
    · unfold Ten.row_get_mlpp_vector; rw [bind_ok sz]
      split_ifs <;> first | rfl | exact absurd ⟨by assumption, by assumption⟩ hv
    · cases r with
      | none => rfl
      | some r =>
        unfold Ten.row_get_into_mlpp_vector; dsimp only; rw [bind_ok sz]
        split_ifs <;> first | rfl | exact absurd ⟨by assumption, by assumption⟩ hv
    · unfold Ten.row_set_vector; rw [bind_ok sz]
      split_ifs <;> first | rfl | exact absurd ⟨by assumption, by assumption⟩ hv
    · cases r with
      | none => rfl
      | some r =>
        unfold Ten.row_set_mlpp_vector; dsimp only
        rw [bind_ok (show Vec.size r h = .ok ((h.size (.v r)).x, h) from rfl), bind_ok sz]
        split_ifs <;> first | rfl | exact absurd ⟨by assumption, by assumption⟩ hv
  · refine ⟨?_, ?_, fun z' => ⟨?_, ?_⟩, ?_, ?_, ?_, ?_, ?_, ?_, ?_, ?_⟩
    · unfold Ten.z_slice_remove; rw [bind_ok sz, if_neg hv]; rfl
    · unfold Ten.z_slice_remove_unordered; rw [bind_ok sz, if_neg hv]; rfl
    · unfold Ten.z_slice_swap; rw [bind_ok sz, if_neg hv]; rfl
    · unfold Ten.z_slice_swap; rw [bind_ok sz, if_neg hv]; split_ifs <;> rfl
    · unfold Ten.z_slice_get_vector; rw [bind_ok sz, if_neg hv]; rfl
    · unfold Ten.z_slice_get_mlpp_vector; rw [bind_ok sz, if_neg hv]; rfl
    · unfold Ten.z_slice_get_mlpp_matrix; rw [bind_ok sz, if_neg hv]; rfl
    · unfold Ten.z_slice_get_into_mlpp_vector; rw [bind_ok sz, if_neg hv]; rfl
    · unfold Ten.z_slice_get_into_mlpp_matrix; rw [bind_ok sz, if_neg hv]; rfl
    · unfold Ten.z_slice_set_vector; rw [bind_ok sz, if_neg hv]; rfl
    · unfold Ten.z_slice_set_mlpp_vector; rw [bind_ok sz, if_neg hv]; rfl
    · unfold Ten.z_slice_set_mlpp_matrix; rw [bind_ok sz, if_neg hv]; rfl
  · refine ⟨?_, ?_, ?_⟩
    · unfold Ten.x_slice_get; rw [bind_ok sz, if_neg hv]; rfl
    · unfold Ten.x_slice_get_into; rw [bind_ok sz, if_neg hv]; rfl
    · unfold Ten.x_slice_set; rw [bind_ok sz, if_neg hv]; rfl
  · refine ⟨?_, ?_, ?_⟩
    · unfold Ten.y_slice_get; rw [bind_ok sz, if_neg hv]; rfl
    · unfold Ten.y_slice_get_into; rw [bind_ok sz, if_neg hv]; rfl
    · unfold Ten.y_slice_set; rw [bind_ok sz, if_neg hv]; rfl

/-- A bad index on a tensor that has cells. -/
example : (match (do Ten.set_data 0 (⟨2, 1, 2⟩, [1, 2, 3, 4]); Ten.element_get 0 2 0 0 : M Int Int)
    (Heap.init fun _ _ => 7) with | .ok (v, _) => v | _ => 1) = 0 := by decide +kernel

/-! ## C11 (tensors) -/

theorem TRel.frame [Zero R] {s s' : TState R} {op : TOp R} {a : TAns R} (r : TRel s op a s') {k : Nat}
    (hk : op.target ≠ some k) : s'.tens k = s.tens k := by
  have put : ∀ i t, some i ≠ some k → (s.putT i t).tens k = s.tens k := fun i l h => by
    have : k ≠ i := fun e => h (by rw [e])
    simp [TState.putT, this]
  have two : ∀ {P : Prop} {o : Nat} {t : Stack R}, ((P → s' = s.putT o t) ∧ (¬P → s' = s)) → some o ≠ some k →
      s'.tens k = s.tens k := by
    intro P o t hp hok
    by_cases h : P
    · rw [hp.1 h]; exact put _ _ hok
    · rw [hp.2 h]
  cases op with
  | size o => rw [r.2]
  | element_get o z y x => rw [r.1]
  | element_set o z y x c => exact two r.2 hk
  | z_slice_add o l => rw [r.2]; exact put _ _ hk
  | z_slice_add_mlpp_vector o v =>
    cases v with
    | none => rw [r.2]
    | some v => rw [r.2]; exact put _ _ hk
  | z_slice_add_mlpp_matrix o m =>
    cases m with
    | none => rw [r.2]
    | some m => exact two r.2 hk
  | z_slice_remove o z => exact two r.2 hk
  | z_slice_remove_unordered o z =>
    by_cases h : Valid z (s.tens o).slices.length
    · obtain ⟨l, e, _⟩ := r.2.1 h
      rw [e]; exact put _ _ hk
    · rw [r.2.2 h]
  | z_slice_swap o z z' => exact two r.2 hk
  | z_slice_get_vector o z => rw [r.1]
  | z_slice_get_into_mlpp_vector o z v =>
    cases v with
    | none => rw [r.2]
    | some v =>
      by_cases h : Valid z (s.tens o).slices.length
      · obtain ⟨l, _, e⟩ := r.2.1 h
        rw [e]; rfl
      · rw [r.2.2 h]
  | z_slice_get_into_mlpp_matrix o z v =>
    cases v with
    | none => rw [r.2]
    | some v =>
      by_cases h : Valid z (s.tens o).slices.length
      · obtain ⟨l, _, e⟩ := r.2.1 h
        rw [e]; rfl
      · rw [r.2.2 h]
  | z_slice_set_vector o z l => exact two r.2 hk
  | z_slice_set_mlpp_vector o z v =>
    cases v with
    | none => rw [r.2]
    | some v => exact two r.2 hk
  | z_slice_set_mlpp_matrix o z v =>
    cases v with
    | none => rw [r.2]
    | some v => exact two r.2 hk
  | row_get o z y => rw [r.1]
  | row_get_into_mlpp_vector o z y v =>
    cases v with
    | none => rw [r.2]
    | some v =>
      by_cases h : (s.tens o).hasRow z y
      · obtain ⟨l, _, e⟩ := r.2.1 h
        rw [e]; rfl
      · rw [r.2.2 h]
  | row_set_vector o z y l => exact two r.2 hk
  | row_set_mlpp_vector o z y v =>
    cases v with
    | none => rw [r.2]
    | some v => exact two r.2 hk
  | fill o c => rw [r.2]; exact put _ _ hk
  | set_from_tensor o v =>
    cases v with
    | none => rw [r.2]
    | some v => rw [r.2]; exact put _ _ hk
  | set_from_matrix o v =>
    cases v with
    | none => rw [r.2]
    | some v => rw [r.2]; exact put _ _ hk
  | clear o => rw [r.2]; exact put _ _ hk
  | reset o => rw [r.2]; exact put _ _ hk
  | resize o c rr d => obtain ⟨_, l, e, _⟩ := r; rw [e]; exact put _ _ hk
  | shape_set o c rr d =>
    by_cases h : (s.tens o).cols * (s.tens o).rows * (s.tens o).slices.length = c * rr * d
    · obtain ⟨l, e, _⟩ := r.2.1 h
      rw [e]; exact put _ _ hk
    · rw [r.2.2 h]

theorem TRun.frame [Zero R] {s s' : TState R} {ops : List (TOp R)} {as : List (TAns R)}
    (r : TRun s ops as s') {k : Nat} (hk : ∀ op ∈ ops, op.target ≠ some k) : s'.tens k = s.tens k := by
  induction r with
  | nil => rfl
  | cons r1 _ ih => rw [ih fun op h => hk op (by simp [h]), TRel.frame r1 (hk _ (by simp))]

/-- **C11 (tensors).** `duplicate_fast()` returns a new tensor with the same extents and cells, and after any further
history of (well-behaved) tensor calls that is not made on one of the two, that one still has the contents it had. -/
theorem C11_tensor_duplicate_independent [Zero R] (h : Heap R) (w : h.WF) (this : Nat) (hl : h.live (.t this)) :
    Runs (Ten.duplicate_fast this) h fun r h' => ∃ o, r = some (.t o) ∧ o ≠ this ∧ ¬ h.live (.t o) ∧
      OthersSame h h' (.t o) ∧ Holds h' (.t o) (h.size (.t this)) (h.buf (.t this)) ∧
      ∀ ops : List (TOp R), (∀ op ∈ ops, op.ok) → Runs (Ten.execAll ops) h' fun _ h'' =>
        ((∀ op ∈ ops, op.target ≠ some o) → Holds h'' (.t o) (h.size (.t this)) (h.buf (.t this))) ∧
        ((∀ op ∈ ops, op.target ≠ some this) → Holds h'' (.t this) (h.size (.t this)) (h.buf (.t this))) := by
  obtain ⟨h', e, c⟩ := unN_run id (.t this) h (w.len _) hl
  rw [List.map_id] at c
  have w' : h'.WF := c.wf w (by simp [w.len]) nofun nofun
  have hne : h.next ≠ this := by unfold Heap.live Loc.id at hl; intro h; simp [h] at hl
  have hne' : Loc.t this ≠ (Loc.t this).like h.next := by simpa [Loc.like] using Ne.symm hne
  refine Runs.of_eq e ⟨h.next, rfl, hne, by simp [Heap.live, Loc.id], c.spec.1, c.spec.2, fun ops ok => ?_⟩
  obtain ⟨s, r⟩ := THolds.exists w'
  obtain ⟨as, h'', s'', e', m, r''⟩ := ten_execAll_sound ops r ok
  have keep : ∀ k, (∀ op ∈ ops, op.target ≠ some k) →
      Holds h'' (.t k) (h'.size (.t k)) (h'.buf (.t k)) := by
    intro k hk
    have f := TRun.frame m hk
    have a := r.tens k
    have b := r''.tens k
    rw [f] at b
    exact ⟨by rw [b.size, a.size], by rw [b.buf, a.buf]⟩
  refine Runs.of_eq e' ⟨fun hk => ?_, fun hk => ?_⟩
  · have := keep _ hk
    have hb := c.buf; have hs := c.size
    simp only [Loc.like] at hb hs
    rw [hb, hs] at this; exact this
  · have := keep _ hk
    rw [c.bufFrame _ hne', c.sizeFrame _ hne'] at this; exact this

/-- Writing to the copy leaves the original alone. -/
example : (do let _ ← newTen; Ten.set_data 0 (⟨1, 1, 2⟩, [1, 2]); let _ ← Ten.duplicate_fast 0; Ten.element_set 1 0 0 0 9
              Ten.z_slice_remove 1 1 : M Int Unit)
    (Heap.init fun _ _ => 0) |>.bufOf (.t 0) |> (· = some [1, 2]) := by decide +kernel

/-! ## C15, C16 (tensors) -/

theorem Ten.get_data_run (h : Heap R) (w : h.WF) (o : Nat) :
    Ten.get_data o h = .ok ((h.size (.t o), h.buf (.t o)), h) := by
  unfold Ten.get_data
  rw [bind_ok (Ten.size_run o h), bind_ok (readAll_run (.t o) _ h (w.len _))]; rfl

/-- **C15 (tensors).** `set_data(x.get_data())` makes any tensor equal to `x` in shape and contents; data whose number of
cells does not fit its extents is rejected. -/
theorem C15_tensor_data_round_trip (h : Heap R) (w : h.WF) (i j : Nat) :
    (Runs (do let d ← Ten.get_data j; Ten.set_data i d) h fun _ h' =>
      h'.buf (.t i) = h.buf (.t j) ∧ h'.size (.t i) = h.size (.t j) ∧ OthersSame h h' (.t i)) ∧
    (∀ (s : Size) (l : List R), s.x * s.y * s.z ≠ l.length → Ten.set_data i (s, l) h = .ok ((), h)) := by
  constructor
  · refine Runs.step (Ten.get_data_run h w j) ?_
    have hl := w.len (.t j)
    unfold Ten.set_data
    dsimp only
    rw [if_pos hl.symm]
    refine Runs.step (Ten.size_run i h) ?_
    by_cases e : h.size (.t i) = h.size (.t j)
    · rw [if_pos e]
      refine Runs.of_eq (storeList_run (.t i) _ h (by rw [w.len, e, hl])) ⟨by simp, by simp [e], ?_⟩
      intro l hl'; exact ⟨setBuf_buf_ne _ _ hl', rfl⟩
    · rw [if_neg e]
      obtain ⟨d, c, e1, hd, _⟩ := resizeTo_run (.t i) (h.size (.t j)) h
      refine Runs.step e1 ?_
      refine Runs.of_eq (storeList_run (.t i) _ _ (by simp [hd, hl])) ⟨by simp, by simp, ?_⟩
      intro l hl'; simp [setBuf_buf, setSize_size, hl']
  · intro s l hs
    unfold Ten.set_data
    dsimp only
    rw [if_neg (show ¬ s.count = l.length from hs)]; rfl

/-- Two tensors of different shapes. -/
example : (do Ten.set_data 0 (⟨1, 2, 2⟩, [1, 2, 3, 4]); Ten.set_data 1 (⟨1, 1, 1⟩, [5])
              let d ← Ten.get_data 0; Ten.set_data 1 d : M Int Unit)
    (Heap.init fun _ _ => 0) |>.bufOf (.t 1) |> (· = some [1, 2, 3, 4]) := by decide +kernel

/-- **C16 (tensors).** `MLPPTensor3::is_equal_approx`: true exactly if it is the same object, or the shapes agree and every
cell is equal or differs by less than the tolerance; it is symmetric and false on null. -/
theorem C16_tensor_is_equal_approx (h : Heap ℝ) (w : h.WF) (x y : Nat) (tol : ℝ) :
    ∃ r, Ten.is_equal_approx x (some y) tol h = .ok (r, h) ∧
      (r = true ↔ x = y ∨ (h.size (.t x) = h.size (.t y) ∧ CloseLists (h.buf (.t x)) (h.buf (.t y)) tol)) ∧
      Ten.is_equal_approx y (some x) tol h = .ok (r, h) ∧
      Ten.is_equal_approx x none tol h = .ok (false, h) := by
  obtain ⟨r, e, q⟩ := C16_is_equal_approx h w (.t x) (.t y) tol
  have s := (C16_reflexive_symmetric h w (.t x) (.t y) tol).2.1
  refine ⟨r, e, by rw [q]; simp, ?_, rfl⟩
  show Vec.is_equal_approx (.t y) (some (.t x)) tol h = _
  rw [← s]; exact e

end Verif
