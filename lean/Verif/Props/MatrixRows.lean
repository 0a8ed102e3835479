import Verif.Lemmas.RowApi
import Verif.Lemmas.ElementwiseSpec
import Verif.Lemmas.Example
import Verif.Props.VectorMisc

/-!
# C18, C11 (matrices), C16 (matrices): `MLPPMatrix` as a list of rows, copies

For an arbitrary element type (IEEE floats included) and arbitrary contents of uninitialised memory. The specification
is `Verif/Spec/Rows.lean`.
-/

namespace Verif
open Spec
variable {R : Type}

/-- Matrix `o` stores exactly the table `t`: the extents are `t.width` columns and as many rows as `t` has, every row has
`t.width` entries, and the cells in memory are the rows one after the other. -/
def Stores (h : Heap R) (o : Nat) (t : Table R) : Prop :=
  h.size (.m o) = ⟨t.width, t.rows.length, 1⟩ ∧ (∀ r ∈ t.rows, r.length = t.width) ∧ h.buf (.m o) = t.rows.flatten

theorem MHolds.init (junk : Nat → Nat → R) : MHolds (Heap.init junk) ⟨fun _ => ⟨0, []⟩, fun _ => []⟩ :=
  ⟨init_wf junk, rfl, fun _ => ⟨rfl, rfl, by simp, by simp⟩⟩

theorem MHolds.stores {h : Heap R} {s : MState R} (r : MHolds h s) (o : Nat) : Stores h o (s.mats o) :=
  ⟨(r.mats o).size, (r.mats o).good.len, (r.mats o).buf⟩

/-- **C18.** Any sequence of row calls (freely mixed with container calls on vectors) on fresh matrices returns normally,
answers what the specification allows, and the matrices hold the rows the specification says. -/
theorem C18_matrix_is_list_of_rows [BEq R] [LT R] [DecidableLT R] [Zero R] (junk : Nat → Nat → R) (ops : List (MOp R))
    (ok : ∀ op ∈ ops, op.ok) :
    ∃ answers h' s', Mat.execAll ops (Heap.init junk) = .ok (answers, h') ∧
      MRun ⟨fun _ => ⟨0, []⟩, fun _ => []⟩ ops answers s' ∧
      (∀ o, Stores h' o (s'.mats o)) ∧ (∀ i, h'.buf (.v i) = s'.vecs i) ∧
      ∀ o, Mat.size o h' = .ok (⟨(s'.mats o).width, (s'.mats o).rows.length, 1⟩, h') := by
  obtain ⟨as, h', s', e, m, r⟩ := mat_execAll_sound ops (MHolds.init junk) ok
  refine ⟨as, h', s', e, m, r.stores, fun i => by rw [r.vecs]; rfl, fun o => ?_⟩
  rw [Mat.size_run, (r.mats o).size]

/-- A history with two matrices: rows added, swapped, removed, one matrix appended to itself. -/
example : (Mat.execAll (R := Int) [.row_add 0 [1, 2], .row_add 0 [3, 4], .row_add 0 [5, 6], .row_swap 0 0 2,
      .row_remove 0 1, .rows_add_mlpp_matrix 0 (some 0), .row_add 0 [7, 8, 9], .row_set_vector 0 3 [0, 0]]
      (Heap.init fun _ _ => 99)).bufOf (.m 0) = some [5, 6, 1, 2, 5, 6, 0, 0] := by decide +kernel

/-- **C18**, one call in any heap whose matrices are tables (no rows of width zero). -/
theorem C18_matrix_row_step [BEq R] [LT R] [DecidableLT R] [Zero R] (h : Heap R) (w : h.WF) (s : MState R)
    (hv : ∀ i, h.buf (.v i) = s.vecs i) (hm : ∀ o, Stores h o (s.mats o))
    (hz : ∀ o, (s.mats o).width = 0 → (s.mats o).rows = []) (op : MOp R) (ok : op.ok) :
    ∃ a h' s', Mat.exec op h = .ok (a, h') ∧ MRel s op a s' ∧ h'.WF ∧ (∀ o, Stores h' o (s'.mats o)) ∧
      (∀ i, h'.buf (.v i) = s'.vecs i) := by
  obtain ⟨a, h', s', e, m, r⟩ := mat_exec_sound (s := s)
    ⟨w, (funext hv).symm, fun o => ⟨(hm o).1, (hm o).2.2, (hm o).2.1, hz o⟩⟩ op ok
  exact ⟨a, h', s', e, m, r.wf, r.stores, fun i => by rw [r.vecs]; rfl⟩

/-- **C18**: `row_get_mlpp_vector(y)` returns a new vector holding row `y`; nothing else changes. -/
theorem C18_row_get_mlpp_vector (h : Heap R) (o : Nat) (t : Table R) (ht : Stores h o t)
    (hz : t.width = 0 → t.rows = []) (hl : h.live (.m o)) (k : Nat) (row : List R) (hk : t.rows[k]? = some row) :
    Runs (Mat.row_get_mlpp_vector o (k : Int)) h fun r h' => ∃ v, r = some (.v v) ∧ ¬ h.live (.v v) ∧
      h'.buf (.v v) = row ∧ h'.size (.v v) = ⟨row.length, 1, 1⟩ ∧ OthersSame h h' (.v v) := by
  have rep : MRep h o t := ⟨ht.1, ht.2.2, ht.2.1, hz⟩
  have hlt := (List.getElem?_eq_some_iff.mp hk).1
  have hrl := rep.good.len row (List.mem_of_getElem? hk)
  have hpos := rep.good.pos hlt
  unfold Mat.row_get_mlpp_vector
  refine Runs.step (Mat.size_run o h) ?_
  rw [rep.size]
  dsimp only
  rw [if_pos (idxOk_nat hlt)]
  have key := newFill_run (.v 0) ⟨t.width, 1, 1⟩ (fun out => Mat.rowCopy o out.id k t.width) h row (by
    intro h1 hb hs hlen hsz
    have r1 : MRep h1 o t := ⟨by rw [hs _ hl]; exact rep.size, by rw [hb _ hl]; exact rep.buf, rep.good⟩
    exact Mat.rowCopy_run r1 hk (by simpa [Size.count, Loc.like, Loc.id] using hlen))
  obtain ⟨h', e, c⟩ := key
  rw [Int.toNat_natCast]
  have hne : t.width ≠ 0 := by omega
  simp only [if_neg hne]
  refine Runs.of_eq e ⟨h.next, rfl, by simp [Heap.live, Loc.id], c.buf, by rw [hrl]; exact c.size, fun l hl' => ?_⟩
  exact ⟨c.bufFrame l hl', c.sizeFrame l hl'⟩

/-! ## What the hypotheses of C18 exclude -/

/-- `set_from_vectors` with rows of different lengths: the cells of the rows that do not have the length of the first are
never written, the matrix keeps whatever the allocation contained. -/
theorem C18_ragged_rows_uninitialised (j : R) (a b c : R) :
    (Mat.set_from_vectors 0 [[a, b], [c]] (Heap.init fun _ _ => j)).bufOf (.m 0) = some [a, b, j, j] := rfl

/-- A row added to a matrix of size (0 columns, 2 rows): the matrix gets 3 rows, the first two of which are never
written; only the last one is the row that was added. -/
theorem C18_row_add_after_zero_width (j a : R) :
    (do Mat.resize 0 0 2; Mat.row_add 0 [a] : M R Unit) (Heap.init fun _ _ => j) |>.bufOf (.m 0)
      |> (· = some [j, j, a]) := rfl

/-- `reset()` of a matrix that has no cells does nothing: its width survives. -/
theorem C18_reset_keeps_width (h : Heap R) (hb : h.buf (.m 0) = []) :
    Mat.reset 0 h = .ok ((), h) := by
  unfold Mat.reset
  rw [bind_ok (isNull_run _ _), hb]; rfl

/-! ## C11 (matrices) -/

theorem MRel.frame [BEq R] [LT R] [Zero R] {s s' : MState R} {op : MOp R} {a : MAns R} (r : MRel s op a s') {k : Nat}
    (hk : op.target ≠ some k) : s'.mats k = s.mats k := by
  have put : ∀ i t, some i ≠ some k → (s.putM i t).mats k = s.mats k := fun i l h => by
    have : k ≠ i := fun e => h (by rw [e])
    simp [MState.putM, this]
  cases op with
  | vec op => obtain ⟨b, _, _, h⟩ := r; rw [h]
  | size o => rw [r.2]
  | element_get o y x => rw [r.1]
  | element_set o y x c =>
    by_cases h : Valid y (s.mats o).rows.length ∧ Valid x (s.mats o).width
    · rw [r.2.1 h]; exact put _ _ hk
    · rw [r.2.2 h]
  | row_add o p => rw [r.2]; exact put _ _ hk
  | row_add_mlpp_vector o v =>
    cases v with
    | none => rw [r.2]
    | some v => rw [r.2]; exact put _ _ hk
  | rows_add_mlpp_matrix o v =>
    cases v with
    | none => rw [r.2]
    | some v => rw [r.2]; exact put _ _ hk
  | row_remove o y =>
    by_cases h : Valid y (s.mats o).rows.length
    · rw [r.2.1 h]; exact put _ _ hk
    · rw [r.2.2 h]
  | row_remove_unordered o y =>
    by_cases h : Valid y (s.mats o).rows.length
    · obtain ⟨l, e, _⟩ := r.2.1 h
      rw [e]; exact put _ _ hk
    · rw [r.2.2 h]
  | row_swap o y y' =>
    by_cases h : Valid y (s.mats o).rows.length ∧ Valid y' (s.mats o).rows.length
    · rw [r.2.1 h]; exact put _ _ hk
    · rw [r.2.2 h]
  | row_get_vector o y => rw [r.1]
  | row_get_into_mlpp_vector o y v =>
    cases v with
    | none => rw [r.2]
    | some v =>
      by_cases h : Valid y (s.mats o).rows.length
      · obtain ⟨l, _, e⟩ := r.2.1 h
        rw [e]; rfl
      · rw [r.2.2 h]
  | row_set_vector o y p =>
    by_cases h : p.length = (s.mats o).width ∧ Valid y (s.mats o).rows.length
    · rw [r.2.1 h]; exact put _ _ hk
    · rw [r.2.2 h]
  | row_set_mlpp_vector o y v =>
    cases v with
    | none => rw [r.2]
    | some v =>
      by_cases h : (s.vecs v).length = (s.mats o).width ∧ Valid y (s.mats o).rows.length
      · rw [r.2.1 h]; exact put _ _ hk
      · rw [r.2.2 h]
  | fill o c => rw [r.2]; exact put _ _ hk
  | set_from o v =>
    cases v with
    | none => rw [r.2]
    | some v => rw [r.2]; exact put _ _ hk
  | set_from_vectors o rs => obtain ⟨_, c, e, _⟩ := r; rw [e]; exact put _ _ hk
  | clear o => rw [r.2]; exact put _ _ hk
  | reset o => rw [r.2]; exact put _ _ hk
  | resize o c rr => obtain ⟨_, l, e, _⟩ := r; rw [e]; exact put _ _ hk

theorem MRun.frame [BEq R] [LT R] [Zero R] {s s' : MState R} {ops : List (MOp R)} {as : List (MAns R)}
    (r : MRun s ops as s') {k : Nat} (hk : ∀ op ∈ ops, op.target ≠ some k) : s'.mats k = s.mats k := by
  induction r with
  | nil => rfl
  | cons r1 _ ih => rw [ih fun op h => hk op (by simp [h]), MRel.frame r1 (hk _ (by simp))]

/-- Every heap whose matrices have no rows of width zero stores some state. -/
theorem MHolds.exists {h : Heap R} (w : h.WF) (hz : ∀ o, (h.size (.m o)).x = 0 → (h.size (.m o)).y = 0) :
    ∃ s, MHolds h s := by
  refine ⟨⟨fun o => ⟨(h.size (.m o)).x, chunks (h.size (.m o)).x (h.size (.m o)).y (h.buf (.m o))⟩, absV h⟩, w, rfl, fun o => ?_⟩
  have hl : (h.buf (.m o)).length = (h.size (.m o)).x * (h.size (.m o)).y := by
    rw [w.len]; unfold Size.count; rw [w.mat, Nat.mul_one]
  refine ⟨?_, ?_, chunks_row _ _ _ hl, fun h0 => ?_⟩
  · dsimp only
    rw [chunks_length]
    have := w.mat o
    cases e : h.size (.m o) with
    | mk x y z => rw [e] at this; simp only at this; rw [this]
  · dsimp only; rw [chunks_flatten _ _ _ hl]
  · apply List.length_eq_zero_iff.mp; rw [chunks_length]; exact hz o h0

/-- **C11 (matrices).** `duplicate_fast()` returns a new matrix with the same extents and cells, and after any further
history of matrix and vector calls that is not made on one of the two, that one still has the contents it had. -/
theorem C11_matrix_duplicate_independent [BEq R] [LT R] [DecidableLT R] [Zero R] (h : Heap R) (w : h.WF)
    (hz : ∀ o, (h.size (.m o)).x = 0 → (h.size (.m o)).y = 0) (this : Nat) (hl : h.live (.m this)) :
    Runs (Mat.duplicate_fast this) h fun r h' => ∃ o, r = some (.m o) ∧ o ≠ this ∧ ¬ h.live (.m o) ∧
      OthersSame h h' (.m o) ∧ Holds h' (.m o) (h.size (.m this)) (h.buf (.m this)) ∧
      ∀ ops : List (MOp R), (∀ op ∈ ops, op.ok) → Runs (Mat.execAll ops) h' fun _ h'' =>
        ((∀ op ∈ ops, op.target ≠ some o) → Holds h'' (.m o) (h.size (.m this)) (h.buf (.m this))) ∧
        ((∀ op ∈ ops, op.target ≠ some this) → Holds h'' (.m this) (h.size (.m this)) (h.buf (.m this))) := by
  obtain ⟨h', e, c⟩ := unN_run id (.m this) h (w.len _) hl
  rw [List.map_id] at c
  have w' : h'.WF := c.wf w (by simp [w.len]) nofun (fun _ _ => w.mat this)
  have hne : h.next ≠ this := by unfold Heap.live Loc.id at hl; intro h; simp [h] at hl
  have hne' : Loc.m this ≠ (Loc.m this).like h.next := by simpa [Loc.like] using Ne.symm hne
  refine Runs.of_eq e ⟨h.next, rfl, hne, by simp [Heap.live, Loc.id], c.spec.1, c.spec.2, fun ops ok => ?_⟩
  obtain ⟨s, r⟩ := MHolds.exists w' (by
    intro o h0
    by_cases ho : o = h.next
    · subst ho; have := c.size; simp only [Loc.like] at this; rw [this] at h0 ⊢; exact hz _ h0
    · have : Loc.m o ≠ (Loc.m this).like h.next := by simpa [Loc.like] using ho
      rw [c.sizeFrame _ this] at h0 ⊢; exact hz o h0)
  obtain ⟨as, h'', s'', e', m, r''⟩ := mat_execAll_sound ops r ok
  have keep : ∀ k, (∀ op ∈ ops, op.target ≠ some k) →
      Holds h'' (.m k) (h'.size (.m k)) (h'.buf (.m k)) := by
    intro k hk
    have f := MRun.frame m hk
    have a := r.mats k
    have b := r''.mats k
    rw [f] at b
    exact ⟨by rw [b.size, a.size], by rw [b.buf, a.buf]⟩
  refine Runs.of_eq e' ⟨fun hk => ?_, fun hk => ?_⟩
  · have := keep _ hk
    have hb := c.buf; have hs := c.size
    simp only [Loc.like] at hb hs
    rw [hb, hs] at this; exact this
  · have := keep _ hk
    rw [c.bufFrame _ hne', c.sizeFrame _ hne'] at this; exact this

/-- Writing to the copy leaves the original alone. -/
example : (do let _ ← Mat.duplicate_fast 0; Mat.element_set 1 0 0 9; Mat.row_remove 1 1 : M Int Unit)
    (Heap.ofLists (0 : Int) [] [(2, 2, [1, 2, 3, 4])]) |>.bufOf (.m 0) |> (· = some [1, 2, 3, 4]) := by decide +kernel

/-! ## C16 (matrices) -/

/-- **C16 (matrices).** `MLPPMatrix::is_equal_approx`: true exactly if it is the same object, or the shapes agree and every
cell is equal or differs by less than the tolerance; it is symmetric and false on null. -/
theorem C16_matrix_is_equal_approx (h : Heap ℝ) (w : h.WF) (x y : Nat) (tol : ℝ) :
    ∃ r, Mat.is_equal_approx x (some y) tol h = .ok (r, h) ∧
      (r = true ↔ x = y ∨ (h.size (.m x) = h.size (.m y) ∧ CloseLists (h.buf (.m x)) (h.buf (.m y)) tol)) ∧
      Mat.is_equal_approx y (some x) tol h = .ok (r, h) ∧
      Mat.is_equal_approx x none tol h = .ok (false, h) := by
  obtain ⟨r, e, q⟩ := C16_is_equal_approx h w (.m x) (.m y) tol
  have s := (C16_reflexive_symmetric h w (.m x) (.m y) tol).2.1
  refine ⟨r, e, by rw [q]; simp, ?_, rfl⟩
  show Vec.is_equal_approx (.m y) (some (.m x)) tol h = _
  rw [← s]; exact e

end Verif
