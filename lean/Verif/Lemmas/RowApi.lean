import Verif.Lemmas.RowOps

/-! # Every matrix call refines the rows specification -/

namespace Verif
open Spec
variable {R : Type}

/-! ## Cutting a flat array into rows -/

/-- The rows of a flat array. -/
def chunks (c n : Nat) (d : List R) : List (List R) := (List.range n).map fun k => (d.drop (k * c)).take c

theorem chunks_length (c n : Nat) (d : List R) : (chunks c n d).length = n := by simp [chunks]

theorem chunks_row (c n : Nat) (d : List R) (hd : d.length = c * n) : ∀ r ∈ chunks c n d, r.length = c := by
  intro r hr
  obtain ⟨k, hk, rfl⟩ := List.mem_map.mp hr
  have := row_bound (c := c) (List.mem_range.mp hk)
  rw [List.length_take, List.length_drop]; omega

theorem chunks_get {c n : Nat} {d : List R} {k : Nat} (hk : k < n) : (chunks c n d)[k]? = some ((d.drop (k * c)).take c) := by
  simp [chunks, hk]

theorem chunks_flatten (c n : Nat) (d : List R) (hd : d.length = c * n) : (chunks c n d).flatten = d := by
  induction n generalizing d with
  | zero => simp at hd; subst hd; simp [chunks]
  | succ n ih =>
    have h1 : chunks c (n + 1) d = d.take c :: chunks c n (d.drop c) := by
      unfold chunks
      rw [List.range_succ_eq_map, List.map_cons, List.map_map]
      congr 1
      · simp
      · apply List.map_congr_left
        intro k _
        simp only [Function.comp, List.drop_drop]
        congr 2; rw [Nat.succ_mul]; omega
    rw [h1, List.flatten_cons, ih _ (by rw [List.length_drop, hd, Nat.mul_succ]; omega), List.take_append_drop]

namespace Mat

theorem fill_run {h : Heap R} (w : h.WF) {o : Nat} {t : Table R} (r : MRep h o t) (v : R) :
    ∃ h', fill o v h = .ok ((), h') ∧ MUpd h h' o ⟨t.width, t.rows.map (·.map fun _ => v)⟩ := by
  unfold fill
  refine ⟨_, fillAll_run (.m o) v h (w.len _), r.setBuf _ _ ?_ (by simp) ?_⟩
  · rw [← w.len, r.buf, ← List.map_const', List.map_flatten]
  · intro x hx
    obtain ⟨y, hy, rfl⟩ := List.mem_map.mp hx
    rw [List.length_map]; exact r.good.len y hy

theorem set_from_run {h : Heap R} (w : h.WF) {o p : Nat} {t : Table R} (r : MRep h p t) :
    ∃ h', set_from_mlpp_matrix o (some p) h = .ok ((), h') ∧ MUpd h h' o t := by
  obtain ⟨h', e, u⟩ := unB_run id (.m o) (.m p) h (w.len _) (w.len _)
  refine ⟨h', e, ?_, r.good⟩
  rw [List.map_id, r.size, r.buf] at u; exact u

theorem resize_run {h : Heap R} (o cols rows : Nat) (hok : cols = 0 → rows = 0) :
    ∃ h' d, resize o cols rows h = .ok ((), h') ∧ MUpd h h' o ⟨cols, chunks cols rows d⟩ ∧ d.length = cols * rows ∧
      ∀ i, i < (h.buf (.m o)).length → i < cols * rows → d[i]? = (h.buf (.m o))[i]? := by
  obtain ⟨d, c, e, hd, hk⟩ := resizeTo_run (.m o) ⟨cols, rows, 1⟩ h
  rw [count_mat] at hd hk
  refine ⟨_, d, e, ⟨?_, chunks_row _ _ _ hd, ?_⟩, hd, hk⟩
  · dsimp only
    rw [chunks_length, chunks_flatten _ _ _ hd]
    exact updated_sized h (.m o) _ _ _
  · intro h0
    apply List.length_eq_zero_iff.mp
    rw [chunks_length]; exact hok h0

theorem clear_run {h : Heap R} (o : Nat) : ∃ h', clear o h = .ok ((), h') ∧ MUpd h h' o ⟨0, []⟩ := by
  obtain ⟨h', d, e, u, _, _⟩ := resize_run (h := h) o 0 0 (fun _ => rfl)
  exact ⟨h', e, u⟩

theorem reset_run {h : Heap R} {o : Nat} {t : Table R} (r : MRep h o t) :
    ∃ h', reset o h = .ok ((), h') ∧ MUpd h h' o ⟨if t.rows = [] then t.width else 0, []⟩ := by
  unfold reset
  rw [bind_ok (isNull_run _ _), r.buf]
  by_cases h0 : t.rows = []
  · obtain ⟨wd, rows⟩ := t
    dsimp only at h0
    subst h0
    refine ⟨h, rfl, ?_⟩
    rw [if_pos rfl]
    exact MUpd.refl r
  · have hne : t.rows.flatten.isEmpty = false := by
      cases e : t.rows with
      | nil => exact absurd e h0
      | cons x xs =>
        have hx := r.good.len x (by rw [e]; simp)
        have := r.good.pos (k := 0) (by rw [e]; simp)
        cases x with
        | nil => simp at hx; omega
        | cons y ys => rfl
    rw [hne, if_neg (c := t.rows = []) h0]
    refine ⟨_, rfl, ?_, ⟨by simp, by simp⟩⟩
    dsimp only
    refine ⟨by simp, by simp, ?_, ?_, rfl, rfl⟩
    · intro l hl; simp [setBuf_buf, hl]
    · intro l hl; simp [setSize_size, hl]

theorem cell_get_run [Zero R] {h : Heap R} {o : Nat} {t : Table R} (r : MRep h o t) {i j : Nat} {row : List R} {c : R}
    (hi : t.rows[i]? = some row) (hj : row[j]? = some c) : element_get o (i : Int) (j : Int) h = .ok (c, h) := by
  have hi' := (List.getElem?_eq_some_iff.mp hi).1
  have hj' : j < t.width := by
    rw [← r.good.len row (List.mem_of_getElem? hi)]; exact (List.getElem?_eq_some_iff.mp hj).1
  unfold element_get
  rw [bind_ok (Mat.size_run o h), r.size]
  dsimp only
  have hpos : ((i : Int) * (t.width : Int) + (j : Int)).toNat = i * t.width + j := by
    rw [← Int.natCast_mul, ← Int.natCast_add, Int.toNat_natCast]
  rw [if_pos (idxOk_nat hj'), if_pos (idxOk_nat hi'), hpos]
  exact load_ok (by rw [r.buf, flatten_get r.good.len hi hj', hj])

theorem cell_set_run {h : Heap R} {o : Nat} {t : Table R} (r : MRep h o t) {i j : Nat} (c : R)
    (hi : i < t.rows.length) (hj : j < t.width) : ∃ h', element_set o (i : Int) (j : Int) c h = .ok ((), h') ∧
      MUpd h h' o ⟨t.width, t.rows.modify i (·.set j c)⟩ := by
  unfold element_set
  rw [bind_ok (Mat.size_run o h), r.size]
  dsimp only
  have hpos : ((i : Int) * (t.width : Int) + (j : Int)).toNat = i * t.width + j := by
    rw [← Int.natCast_mul, ← Int.natCast_add, Int.toNat_natCast]
  have hlen := flatten_length r.good.len
  have hb := idx_bound hi hj
  obtain ⟨row, hrow⟩ : ∃ row, t.rows[i]? = some row := ⟨_, List.getElem?_eq_getElem hi⟩
  rw [if_pos (idxOk_nat hj), if_pos (idxOk_nat hi), hpos, store_ok _ (by rw [r.buf]; omega)]
  have hm : t.rows.modify i (·.set j c) = t.rows.set i (row.set j c) := by
    apply List.ext_getElem?
    intro k
    rw [List.getElem?_modify, List.getElem?_set]
    by_cases e : i = k
    · subst e; simp [hi, (List.getElem?_eq_some_iff.mp hrow).2]
    · simp [e]
  refine ⟨_, rfl, r.setBuf _ _ ?_ (by simp) ?_⟩
  · rw [r.buf, flatten_set r.good.len hrow hj, hm]
  · rw [hm]
    exact set_good r.good.len (by rw [List.length_set]; exact r.good.len row (List.mem_of_getElem? hrow))

theorem set_from_vectors_cons {h : Heap R} {o : Nat} (r0 : List R) (rs : List (List R)) {wd : Nat} (hw : 0 < wd)
    (hr : ∀ x ∈ r0 :: rs, x.length = wd) :
    ∃ h', set_from_vectors o (r0 :: rs) h = .ok ((), h') ∧ MUpd h h' o ⟨wd, r0 :: rs⟩ := by
  obtain ⟨h1, d, e1, u1, hd, _⟩ := resize_run (h := h) o r0.length (rs.length + 1) (by
    intro h0; rw [hr r0 (by simp)] at h0; omega)
  have h0w : r0.length = wd := hr r0 (by simp)
  generalize hall : r0 :: rs = all at *
  have hal : all.length = rs.length + 1 := by rw [← hall]; rfl
  rw [← hal] at e1 u1 hd
  have hsz : h1.size (.m o) = ⟨wd, all.length, 1⟩ := by
    have := u1.rep.size; rw [chunks_length, h0w] at this; exact this
  have hbuf : h1.buf (.m o) = d := by have := u1.rep.buf; rw [chunks_flatten _ _ _ hd] at this; exact this
  have hdl : d.length = wd * all.length := by rw [hd, h0w]
  have hfl := flatten_length hr
  refine ⟨h1.setBuf (.m o) all.flatten, ?_, ?_, hr, fun h => absurd h (by dsimp only; omega)⟩
  · subst hall
    unfold set_from_vectors
    dsimp only
    rw [bind_ok e1, bind_ok (Mat.size_run o h1), hsz, count_mat]
    dsimp only
    rw [if_neg (by rw [Nat.mul_eq_zero, List.length_cons]; omega)]
    have key := forN_eq (r0 :: rs).length (fun i => h1.setBuf (.m o) (overwrite d 0 (((r0 :: rs).flatten).take (i * wd))))
      (fun i => match (r0 :: rs)[i]? with
        | none => ub
        | some r => if r.length = wd then forN wd (fun j =>
            match r[j]? with
            | some v => store (.m o) (i * wd + j) v
            | none => ub) else pure ()) h1 (by simp [← hbuf]) ?_
    · rw [List.take_of_length_le (by rw [hfl, Nat.mul_comm])] at key
      have : overwrite d 0 (r0 :: rs).flatten = (r0 :: rs).flatten := by
        unfold overwrite; rw [List.drop_of_length_le (by omega)]; simp
      rw [this] at key
      exact key
    · intro i hi
      have hib := row_bound (c := wd) hi
      obtain ⟨row, hrow⟩ : ∃ row, (r0 :: rs)[i]? = some row := ⟨_, List.getElem?_eq_getElem hi⟩
      have hrl := hr row (List.mem_of_getElem? hrow)
      have hrow' : row = (r0 :: rs)[i] := by rw [List.getElem?_eq_getElem hi] at hrow; exact (Option.some.inj hrow).symm
      rw [hrow]
      dsimp only
      rw [if_pos hrl]
      have htl : (((r0 :: rs).flatten).take (i * wd)).length = i * wd := by rw [List.length_take]; omega
      have ol : (overwrite d 0 (((r0 :: rs).flatten).take (i * wd))).length = d.length :=
        length_overwrite _ _ _ (by rw [htl]; omega)
      rw [storeForN_run (.m o) wd (i * wd) _ row _ hrl (by rw [setBuf_buf_same, ol]; omega)]
      · rw [setBuf_buf_same, setBuf_setBuf]
        congr 3
        have h2 : (r0 :: rs).flatten.take ((i + 1) * wd) = (r0 :: rs).flatten.take (i * wd) ++ row := by
          rw [flatten_take hr, flatten_take hr, hrow', List.take_succ_eq_append_getElem hi, List.flatten_append]
          simp
        rw [h2]
        unfold overwrite
        rw [htl, List.take_zero, List.nil_append, List.nil_append, List.take_left' htl, List.length_append, htl,
          List.drop_append, htl]
        rw [List.drop_eq_nil_of_le (by omega), List.nil_append, List.drop_drop, hrl, List.append_assoc]
        congr 3; omega
      · intro j hj
        rw [List.getElem?_eq_getElem (by omega : j < row.length)]
  · dsimp only
    refine ⟨by simp, by simp [hsz], ?_, ?_, ?_, ?_⟩
    · intro l hl; rw [setBuf_buf_ne _ _ hl, u1.upd.bufFrame l hl]
    · intro l hl; rw [setBuf_size, u1.upd.sizeFrame l hl]
    · rw [setBuf_next, u1.upd.next]
    · rw [setBuf_junk, u1.upd.junk]

theorem set_from_vectors_run {h : Heap R} {o : Nat} {t : Table R} (r : MRep h o t) (rs : List (List R)) {wd : Nat}
    (hw : 0 < wd) (hr : ∀ x ∈ rs, x.length = wd) :
    ∃ h' c, set_from_vectors o rs h = .ok ((), h') ∧ MUpd h h' o ⟨c, rs⟩ := by
  cases rs with
  | nil =>
    obtain ⟨h', e, u⟩ := reset_run r
    exact ⟨h', _, e, u⟩
  | cons r0 rs =>
    obtain ⟨h', e, u⟩ := set_from_vectors_cons r0 rs hw hr
    exact ⟨h', _, e, u⟩

end Mat

/-! ## The simulation -/

/-- The heap stores state `s`. -/
structure MHolds (h : Heap R) (s : MState R) : Prop where
  wf : h.WF
  vecs : s.vecs = absV h
  mats : ∀ o, MRep h o (s.mats o)

theorem MHolds.putM {h h' : Heap R} {s : MState R} (r : MHolds h s) {o : Nat} {t : Table R} (u : MUpd h h' o t) :
    MHolds h' (s.putM o t) where
  wf := u.wf r.wf
  vecs := by
    show s.vecs = absV h'
    rw [r.vecs]; funext i; exact (u.upd.bufFrame (.v i) nofun).symm
  mats := by
    intro p
    by_cases e : p = o
    · subst e; simpa [MState.putM] using u.rep
    · have hne : Loc.m p ≠ Loc.m o := by simp [e]
      have := r.mats p
      simp only [MState.putM, if_neg e]
      exact ⟨by rw [u.upd.sizeFrame _ hne]; exact this.size, by rw [u.upd.bufFrame _ hne]; exact this.buf, this.good⟩

theorem MHolds.putV {h h' : Heap R} {s : MState R} (r : MHolds h s) {i : Nat} {d : List R} (u : VUpd h h' i d) :
    MHolds h' (s.putV i d) where
  wf := u.wf r.wf
  vecs := by simp only [MState.putV]; rw [r.vecs, absV_upd u]
  mats := fun p => by
    have := r.mats p
    exact ⟨by rw [u.sizeFrame (.m p) nofun]; exact this.size, by rw [u.bufFrame (.m p) nofun]; exact this.buf, this.good⟩

theorem MState.putM_self (s : MState R) (o : Nat) : s.putM o (s.mats o) = s := by
  cases s with
  | mk m v =>
    simp only [MState.putM]
    congr 1; funext k; by_cases e : k = o <;> simp [e]

open Mat in
theorem mat_exec_sound [BEq R] [LT R] [DecidableLT R] [Zero R] {h : Heap R} {s : MState R} (r : MHolds h s) (op : MOp R)
    (ok : op.ok) : ∃ a h' s', exec op h = .ok (a, h') ∧ MRel s op a s' ∧ MHolds h' s' := by
  have upd : ∀ {m : M R Unit} {o : Nat} {t : Table R}, (∃ h', m h = .ok ((), h') ∧ MUpd h h' o t) →
      ∃ h', (m >>= fun _ => (pure MAns.unit : M R (MAns R))) h = .ok (MAns.unit, h') ∧ MHolds h' (s.putM o t) := by
    intro m o t ⟨h', e, u⟩
    exact ⟨h', by rw [bind_ok e]; rfl, r.putM u⟩
  have same : ∀ {m : M R Unit}, m h = .ok ((), h) →
      (m >>= fun _ => (pure MAns.unit : M R (MAns R))) h = .ok (MAns.unit, h) := by
    intro m e; rw [bind_ok e]; rfl
  have hvec : ∀ i, s.vecs i = h.vec i := fun i => by rw [r.vecs]; rfl
  have hsz : ∀ o, h.size (.m o) = ⟨(s.mats o).width, (s.mats o).rows.length, 1⟩ := fun o => (r.mats o).size
  cases op with
  | vec op =>
    obtain ⟨a, h', e, o, v⟩ := exec_sound' r.wf op
    refine ⟨.vec a, h', { s with vecs := absV h' }, by simp only [exec]; rw [bind_ok e]; rfl, ⟨a, rfl, ?_, rfl⟩, o.wf, rfl, ?_⟩
    · rw [r.vecs]; exact v
    · intro p
      have := r.mats p
      have f := o.frame (.m p) nofun
      exact ⟨by rw [f.2]; exact this.size, by rw [f.1]; exact this.buf, this.good⟩
  | size o =>
    refine ⟨_, h, s, by simp only [exec]; rw [bind_ok (Mat.size_run o h)]; rfl, ⟨?_, rfl⟩, r⟩
    rw [hsz]
  | element_get o y x =>
    by_cases hv : Valid y (s.mats o).rows.length ∧ Valid x (s.mats o).width
    · obtain ⟨i, rfl, hi, hi'⟩ := valid_cases hv.1
      obtain ⟨j, rfl, hj, hj'⟩ := valid_cases hv.2
      obtain ⟨row, hrow⟩ : ∃ row, (s.mats o).rows[i]? = some row := ⟨_, List.getElem?_eq_getElem hi⟩
      have hl := (r.mats o).good.len row (List.mem_of_getElem? hrow)
      obtain ⟨c, hc⟩ : ∃ c, row[j]? = some c := ⟨_, List.getElem?_eq_getElem (by omega)⟩
      refine ⟨_, h, s, by simp only [exec]; rw [bind_ok (cell_get_run (r.mats o) hrow hc)]; rfl, ⟨rfl, ?_, ?_⟩, r⟩
      · intro _; exact ⟨row, c, by rw [hi']; exact hrow, by rw [hj']; exact hc, rfl⟩
      · intro h; exact absurd hv h
    · refine ⟨.val 0, h, s, ?_, ⟨rfl, fun h => absurd h hv, fun _ => rfl⟩, r⟩
      simp only [exec]
      have : element_get o y x h = .ok (0, h) := by
        unfold element_get
        rw [bind_ok (Mat.size_run o h), hsz]
        dsimp only
        by_cases hx : Valid x (s.mats o).width
        · rw [if_pos (idxOk_iff.mpr hx), idxOk_false (fun hy => hv ⟨hy, hx⟩)]; rfl
        · rw [idxOk_false hx]; rfl
      rw [bind_ok this]; rfl
  | element_set o y x c =>
    by_cases hv : Valid y (s.mats o).rows.length ∧ Valid x (s.mats o).width
    · obtain ⟨i, rfl, hi, hi'⟩ := valid_cases hv.1
      obtain ⟨j, rfl, hj, hj'⟩ := valid_cases hv.2
      obtain ⟨h', e, q⟩ := upd (cell_set_run (r.mats o) c hi hj)
      exact ⟨_, h', _, e, ⟨rfl, fun _ => by rw [hi', hj'], fun h => absurd hv h⟩, q⟩
    · refine ⟨_, h, s, same ?_, ⟨rfl, fun h => absurd h hv, fun _ => rfl⟩, r⟩
      unfold element_set
      rw [bind_ok (Mat.size_run o h), hsz]
      dsimp only
      by_cases hx : Valid x (s.mats o).width
      · rw [if_pos (idxOk_iff.mpr hx), idxOk_false (fun hy => hv ⟨hy, hx⟩)]; rfl
      · rw [idxOk_false hx]; rfl
  | row_add o p =>
    obtain ⟨h', e, q⟩ := upd (row_add_run (r.mats o) p)
    exact ⟨_, h', _, e, ⟨rfl, rfl⟩, q⟩
  | row_add_mlpp_vector o v =>
    cases v with
    | none => exact ⟨_, h, s, same rfl, ⟨rfl, rfl⟩, r⟩
    | some v =>
      obtain ⟨h', e, q⟩ := upd (row_add_vec_run r.wf (r.mats o) v)
      exact ⟨_, h', _, e, ⟨rfl, by rw [hvec]⟩, q⟩
  | rows_add_mlpp_matrix o p =>
    cases p with
    | none => exact ⟨_, h, s, same rfl, ⟨rfl, rfl⟩, r⟩
    | some p =>
      obtain ⟨h', e, q⟩ := upd (rows_add_run (r.mats o) (r.mats p))
      exact ⟨_, h', _, e, ⟨rfl, rfl⟩, q⟩
  | row_remove o y =>
    by_cases hv : Valid y (s.mats o).rows.length
    · obtain ⟨i, rfl, hi, hi'⟩ := valid_cases hv
      obtain ⟨h', e, q⟩ := upd (row_remove_run (r.mats o) hi)
      exact ⟨_, h', _, e, ⟨rfl, fun _ => by rw [hi'], fun h => absurd hv h⟩, q⟩
    · refine ⟨_, h, s, same ?_, ⟨rfl, fun h => absurd h hv, fun _ => rfl⟩, r⟩
      unfold row_remove; rw [bind_ok (Mat.size_run o h), hsz, idxOk_false hv]; rfl
  | row_remove_unordered o y =>
    by_cases hv : Valid y (s.mats o).rows.length
    · obtain ⟨i, rfl, hi, hi'⟩ := valid_cases hv
      obtain ⟨h', e, q⟩ := upd (row_remove_unordered_run (r.mats o) hi)
      exact ⟨_, h', _, e, ⟨rfl, fun _ => ⟨_, rfl, by rw [hi']; exact movedLast_rmUnordered hi⟩, fun h => absurd hv h⟩, q⟩
    · refine ⟨_, h, s, same ?_, ⟨rfl, fun h => absurd h hv, fun _ => rfl⟩, r⟩
      unfold row_remove_unordered; rw [bind_ok (Mat.size_run o h), hsz, idxOk_false hv]; rfl
  | row_swap o y y' =>
    by_cases hv : Valid y (s.mats o).rows.length ∧ Valid y' (s.mats o).rows.length
    · obtain ⟨i, rfl, hi, hi'⟩ := valid_cases hv.1
      obtain ⟨j, rfl, hj, hj'⟩ := valid_cases hv.2
      obtain ⟨h', e, q⟩ := upd (row_swap_run (r.mats o) hi hj)
      exact ⟨_, h', _, e, ⟨rfl, fun _ => by rw [hi', hj'], fun h => absurd hv h⟩, q⟩
    · refine ⟨_, h, s, same ?_, ⟨rfl, fun h => absurd h hv, fun _ => rfl⟩, r⟩
      unfold row_swap
      rw [bind_ok (Mat.size_run o h), hsz]
      dsimp only
      by_cases hx : Valid y (s.mats o).rows.length
      · rw [if_pos (idxOk_iff.mpr hx), idxOk_false (fun hy => hv ⟨hx, hy⟩)]; rfl
      · rw [idxOk_false hx]; rfl
  | row_get_vector o y =>
    by_cases hv : Valid y (s.mats o).rows.length
    · obtain ⟨i, rfl, hi, hi'⟩ := valid_cases hv
      obtain ⟨row, hrow⟩ : ∃ row, (s.mats o).rows[i]? = some row := ⟨_, List.getElem?_eq_getElem hi⟩
      refine ⟨_, h, s, by simp only [exec]; rw [bind_ok (row_get_vector_run (r.mats o) hrow)]; rfl,
        ⟨rfl, fun _ => ⟨row, by rw [hi']; exact hrow, rfl⟩, fun h => absurd hv h⟩, r⟩
    · refine ⟨.list [], h, s, ?_, ⟨rfl, fun h => absurd h hv, fun _ => rfl⟩, r⟩
      simp only [exec]
      have : row_get_vector o y h = .ok ([], h) := by
        unfold row_get_vector; rw [bind_ok (Mat.size_run o h), hsz, idxOk_false hv]; rfl
      rw [bind_ok this]; rfl
  | row_get_into_mlpp_vector o y v =>
    cases v with
    | none => exact ⟨_, h, s, same rfl, ⟨rfl, rfl⟩, r⟩
    | some v =>
      by_cases hv : Valid y (s.mats o).rows.length
      · obtain ⟨i, rfl, hi, hi'⟩ := valid_cases hv
        obtain ⟨row, hrow⟩ : ∃ row, (s.mats o).rows[i]? = some row := ⟨_, List.getElem?_eq_getElem hi⟩
        obtain ⟨h', e, u⟩ := row_get_into_run r.wf (v := v) (r.mats o) hrow
        exact ⟨_, h', s.putV v row, by simp only [exec]; rw [bind_ok e]; rfl,
          ⟨rfl, fun _ => ⟨row, by rw [hi']; exact hrow, rfl⟩, fun h => absurd hv h⟩, r.putV u⟩
      · refine ⟨_, h, s, same ?_, ⟨rfl, fun h => absurd h hv, fun _ => rfl⟩, r⟩
        unfold row_get_into_mlpp_vector; dsimp only; rw [bind_ok (Mat.size_run o h), hsz, idxOk_false hv]; rfl
  | row_set_vector o y p =>
    by_cases hv : p.length = (s.mats o).width ∧ Valid y (s.mats o).rows.length
    · obtain ⟨i, rfl, hi, hi'⟩ := valid_cases hv.2
      obtain ⟨h', e, q⟩ := upd (row_set_vector_run (r.mats o) hi p hv.1)
      exact ⟨_, h', _, e, ⟨rfl, fun _ => by rw [hi'], fun h => absurd hv h⟩, q⟩
    · refine ⟨_, h, s, same ?_, ⟨rfl, fun h => absurd h hv, fun _ => rfl⟩, r⟩
      unfold row_set_vector
      rw [bind_ok (Mat.size_run o h), hsz]
      dsimp only
      by_cases hx : p.length = (s.mats o).width
      · rw [if_pos hx, idxOk_false (fun hy => hv ⟨hx, hy⟩)]; rfl
      · rw [if_neg hx]; rfl
  | row_set_mlpp_vector o y v =>
    cases v with
    | none => exact ⟨_, h, s, same rfl, ⟨rfl, rfl⟩, r⟩
    | some v =>
      by_cases hv : (s.vecs v).length = (s.mats o).width ∧ Valid y (s.mats o).rows.length
      · obtain ⟨i, rfl, hi, hi'⟩ := valid_cases hv.2
        obtain ⟨h', e, q⟩ := upd (row_set_mlpp_vector_run r.wf (r.mats o) hi (by rw [← hvec]; exact hv.1))
        exact ⟨_, h', _, e, ⟨rfl, fun _ => by rw [hi', hvec], fun h => absurd hv h⟩, q⟩
      · refine ⟨_, h, s, same ?_, ⟨rfl, fun h => absurd h hv, fun _ => rfl⟩, r⟩
        unfold row_set_mlpp_vector
        dsimp only
        rw [bind_ok (Vec.size_run r.wf v), bind_ok (Mat.size_run o h), hsz]
        dsimp only
        by_cases hx : (h.vec v).length = (s.mats o).width
        · rw [if_pos hx, idxOk_false (fun hy => hv ⟨by rw [hvec]; exact hx, hy⟩)]; rfl
        · rw [if_neg hx]; rfl
  | fill o c =>
    obtain ⟨h', e, q⟩ := upd (fill_run r.wf (r.mats o) c)
    exact ⟨_, h', _, e, ⟨rfl, rfl⟩, q⟩
  | set_from o p =>
    cases p with
    | none => exact ⟨_, h, s, same rfl, ⟨rfl, rfl⟩, r⟩
    | some p =>
      obtain ⟨h', e, q⟩ := upd (set_from_run (o := o) r.wf (r.mats p))
      exact ⟨_, h', _, e, ⟨rfl, rfl⟩, q⟩
  | set_from_vectors o rs =>
    obtain ⟨wd, hw, hr⟩ := ok
    obtain ⟨h', c, e, u⟩ := set_from_vectors_run (r.mats o) rs hw hr
    exact ⟨_, h', s.putM o ⟨c, rs⟩, by simp only [exec]; rw [bind_ok e]; rfl, ⟨rfl, c, rfl, u.good.len⟩, r.putM u⟩
  | clear o =>
    obtain ⟨h', e, q⟩ := upd (clear_run (h := h) o)
    exact ⟨_, h', _, e, ⟨rfl, rfl⟩, q⟩
  | reset o =>
    obtain ⟨h', e, q⟩ := upd (reset_run (r.mats o))
    exact ⟨_, h', _, e, ⟨rfl, rfl⟩, q⟩
  | resize o cols rows =>
    obtain ⟨h', d, e, u, hd, hk⟩ := resize_run (h := h) o cols rows ok
    refine ⟨_, h', s.putM o ⟨cols, chunks cols rows d⟩, by simp only [exec]; rw [bind_ok e]; rfl,
      ⟨rfl, _, rfl, chunks_length _ _ _, chunks_row _ _ _ hd, ?_⟩, r.putM u⟩
    intro hc k h1 h2
    rw [chunks_get h2]
    obtain ⟨row, hrow⟩ : ∃ row, (s.mats o).rows[k]? = some row := ⟨_, List.getElem?_eq_getElem h1⟩
    rw [hrow]
    have g := (r.mats o).good.len
    have hl := g row (List.mem_of_getElem? hrow)
    have b2 := row_bound (c := cols) h2
    congr 1
    apply List.ext_getElem?
    intro j
    by_cases hj : j < cols
    · rw [List.getElem?_take, if_pos hj, List.getElem?_drop, hk _ (by
        rw [(r.mats o).len, ← hc]; exact idx_bound h1 hj) (idx_bound h2 hj), (r.mats o).buf, hc,
        flatten_get g hrow (by omega)]
    · rw [List.getElem?_eq_none (by rw [List.length_take]; omega), List.getElem?_eq_none (by omega)]

theorem mat_execAll_sound [BEq R] [LT R] [DecidableLT R] [Zero R] (ops : List (MOp R)) :
    ∀ {h : Heap R} {s : MState R}, MHolds h s → (∀ op ∈ ops, op.ok) →
      ∃ as h' s', Mat.execAll ops h = .ok (as, h') ∧ MRun s ops as s' ∧ MHolds h' s' := by
  induction ops with
  | nil => intro h s r _; exact ⟨[], h, s, rfl, .nil _, r⟩
  | cons op ops ih =>
    intro h s r ok
    obtain ⟨a, h1, s1, e1, m1, r1⟩ := mat_exec_sound r op (ok op (by simp))
    obtain ⟨as, h2, s2, e2, m2, r2⟩ := ih r1 fun q hq => ok q (by simp [hq])
    refine ⟨a :: as, h2, s2, ?_, .cons m1 m2, r2⟩
    simp only [Mat.execAll]
    rw [bind_ok e1, bind_ok e2]; rfl

end Verif
