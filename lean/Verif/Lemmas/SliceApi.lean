import Verif.Lemmas.Slices

/-! # Every tensor call refines the slices specification -/

namespace Verif
open Spec
variable {R : Type}

namespace Ten

section
variable {h : Heap R} {o : Nat} {t : Stack R}

theorem slice_bound (r : TRep h o t) {z a n : Nat} (hz : z < t.slices.length) (hn : a + n ≤ t.cols * t.rows) :
    a + t.cols * t.rows * z + n ≤ (h.buf (.t o)).length := by
  rw [r.len]
  have := row_bound (c := t.cols * t.rows) hz
  rw [Nat.mul_comm _ z]; omega

theorem row_in {y rows cols : Nat} (hy : y < rows) : y * cols + cols ≤ cols * rows := row_bound hy

/-- Resizing the target and copying cells into it. -/
theorem into_run (w : h.WF) (o S n : Nat) (L : Loc) (sz : Size) (hne : Loc.t o ≠ L)
    (hb : S + n ≤ (h.buf (.t o)).length) (hc : sz.count = n) :
    ∃ h', (ensureSize L sz >>= fun _ => copyOut o S n L) h = .ok ((), h') ∧
      Updated h h' L sz (((h.buf (.t o)).drop S).take n) := by
  obtain ⟨d, c, e, hd, _⟩ := ensureSize_run L sz h (w.len _)
  rw [bind_ok e]
  generalize hH : ({ (h.setSize L sz).setBuf L d with clock := c } : Heap R) = H
  have hbH : H.buf (.t o) = h.buf (.t o) := by subst hH; simp [setBuf_buf, hne]
  have hbL : H.buf L = d := by subst hH; simp
  rw [copyOut_run o S n L H hne (by rw [hbH]; exact hb) (by rw [hbL, hd, hc]), hbH]
  subst hH
  refine ⟨_, rfl, by simp, by simp, ?_, ?_, rfl, rfl⟩
  · intro l hl; simp [setBuf_buf, hl]
  · intro l hl; simp [setSize_size, hl]

/-- Creating an object and copying cells into it. -/
theorem new_run (o S n : Nat) (l : Loc) (sz : Size) (hl : h.live (.t o))
    (hb : S + n ≤ (h.buf (.t o)).length) (hc : sz.count = n) :
    ∃ h', (do let out ← newLike l; resizeTo out sz; copyOut o S n out; pure (some out) : M R Ref) h =
        .ok (some (l.like h.next), h') ∧
      Created h h' (l.like h.next) sz (((h.buf (.t o)).drop S).take n) := by
  refine newFill_run l sz _ h _ ?_
  intro h1 hbuf _ hlen _
  have hne : Loc.t o ≠ l.like h.next := live_ne_fresh hl (like_id _ _)
  have h2 := hbuf (.t o) hl
  rw [copyOut_run o S n _ h1 hne (by rw [h2]; exact hb) (by rw [hlen, hc]), h2]

theorem z_slice_get_vector_run (r : TRep h o t) {z : Nat} {x : List R} (hz : t.slices[z]? = some x) :
    z_slice_get_vector o (z : Int) h = .ok (x, h) := by
  have hz' := (List.getElem?_eq_some_iff.mp hz).1
  have hx := r.good x (List.mem_of_getElem? hz)
  unfold z_slice_get_vector
  rw [bind_ok (size_run o h), r.size]
  dsimp only
  have hb := slice_bound r hz' (a := 0) (n := t.cols * t.rows) (by omega)
  rw [Nat.zero_add] at hb
  have hs := flatten_slice r.good hz (a := 0) (n := t.cols * t.rows) (by omega)
  rw [Nat.zero_add] at hs
  rw [if_pos (idxOk_nat hz'), Int.toNat_natCast, readFrom_run _ _ _ _ hb, r.buf, hs, List.drop_zero,
    List.take_of_length_le (by omega)]

theorem z_slice_into_run (w : h.WF) (r : TRep h o t) {z : Nat} {x : List R} (hz : t.slices[z]? = some x) (L : Loc)
    (sz : Size) (hne : Loc.t o ≠ L) (hc : sz.count = t.cols * t.rows) :
    ∃ h', (ensureSize L sz >>= fun _ => copyOut o (t.cols * t.rows * z) (t.cols * t.rows) L) h = .ok ((), h') ∧
      Updated h h' L sz x := by
  have hz' := (List.getElem?_eq_some_iff.mp hz).1
  have hx := r.good x (List.mem_of_getElem? hz)
  have hb := slice_bound r hz' (a := 0) (n := t.cols * t.rows) (by omega)
  rw [Nat.zero_add] at hb
  have hs := flatten_slice r.good hz (a := 0) (n := t.cols * t.rows) (by omega)
  rw [Nat.zero_add, List.drop_zero, List.take_of_length_le (l := x) (by omega)] at hs
  obtain ⟨h', e, u⟩ := into_run w o (t.cols * t.rows * z) (t.cols * t.rows) L sz hne hb hc
  rw [r.buf, hs] at u
  exact ⟨h', e, u⟩

theorem z_slice_get_into_vec_run (w : h.WF) (r : TRep h o t) {z v : Nat} {x : List R} (hz : t.slices[z]? = some x) :
    ∃ h', z_slice_get_into_mlpp_vector o (z : Int) (some v) h = .ok ((), h') ∧ VUpd h h' v x := by
  have hz' := (List.getElem?_eq_some_iff.mp hz).1
  have hx := r.good x (List.mem_of_getElem? hz)
  unfold z_slice_get_into_mlpp_vector
  rw [bind_ok (size_run o h), r.size]
  dsimp only
  rw [if_pos (idxOk_nat hz'), Int.toNat_natCast]
  obtain ⟨h', e, u⟩ := z_slice_into_run w r hz (.v v) ⟨t.cols * t.rows, 1, 1⟩ nofun (by rw [count_vec])
  refine ⟨h', e, ?_⟩
  unfold VUpd
  rw [hx]; exact u

theorem z_slice_get_into_mat_run (w : h.WF) (r : TRep h o t) {z m : Nat} {x : List R} (hz : t.slices[z]? = some x) :
    ∃ h', z_slice_get_into_mlpp_matrix o (z : Int) (some m) h = .ok ((), h') ∧
      Updated h h' (.m m) ⟨t.cols, t.rows, 1⟩ x := by
  have hz' := (List.getElem?_eq_some_iff.mp hz).1
  unfold z_slice_get_into_mlpp_matrix
  rw [bind_ok (size_run o h), r.size]
  dsimp only
  rw [if_pos (idxOk_nat hz'), Int.toNat_natCast]
  obtain ⟨h', e, u⟩ := z_slice_into_run w r hz (.m m) ⟨t.cols, t.rows, 1⟩ nofun (by rw [count_mat])
  exact ⟨h', e, u⟩

/-- Overwriting cells of one slice. -/
theorem part_set (r : TRep h o t) {z a : Nat} {x : List R} (hz : t.slices[z]? = some x) (p : List R)
    (hp : a + p.length ≤ t.cols * t.rows) :
    TUpd h (h.setBuf (.t o) (overwrite (h.buf (.t o)) (a + t.cols * t.rows * z) p)) o
      ⟨t.cols, t.rows, t.slices.set z (overwrite x a p)⟩ := by
  have hx := r.good x (List.mem_of_getElem? hz)
  refine r.setBuf _ _ ?_ (by simp) ?_
  · rw [r.buf, overwrite_slice r.good hz p hp]
  · exact set_good r.good (by rw [length_overwrite _ _ _ (by omega), hx])

theorem slice_set (r : TRep h o t) {z : Nat} (hz : z < t.slices.length) (p : List R)
    (hp : p.length = t.cols * t.rows) :
    TUpd h (h.setBuf (.t o) (overwrite (h.buf (.t o)) (t.cols * t.rows * z) p)) o
      ⟨t.cols, t.rows, t.slices.set z p⟩ := by
  have hz' : t.slices[z]? = some t.slices[z] := List.getElem?_eq_getElem hz
  have hx := r.good _ (List.mem_of_getElem? hz')
  have := part_set r hz' (a := 0) p (by omega)
  rw [Nat.zero_add] at this
  have e : overwrite t.slices[z] 0 p = p := by
    unfold overwrite
    rw [Nat.zero_add, List.drop_of_length_le (l := t.slices[z]) (by omega), List.take_zero, List.nil_append, List.append_nil]
  rwa [e] at this

theorem z_slice_set_vector_run (r : TRep h o t) {z : Nat} (hz : z < t.slices.length) (p : List R)
    (hp : p.length = t.cols * t.rows) :
    ∃ h', z_slice_set_vector o (z : Int) p h = .ok ((), h') ∧ TUpd h h' o ⟨t.cols, t.rows, t.slices.set z p⟩ := by
  unfold z_slice_set_vector
  rw [bind_ok (size_run o h), r.size]
  dsimp only
  have hb := slice_bound r hz (a := 0) (n := t.cols * t.rows) (by omega)
  rw [Nat.zero_add] at hb
  rw [if_pos (idxOk_nat hz), if_pos hp, Int.toNat_natCast, writeTo_run _ _ _ _ _ hb hp]
  exact ⟨_, rfl, slice_set r hz p hp⟩

theorem copyIn_slice_run (r : TRep h o t) {z : Nat} (hz : z < t.slices.length) (src : Loc) (hne : src ≠ .t o)
    (hp : (h.buf src).length = t.cols * t.rows) :
    ∃ h', copyIn o (t.cols * t.rows * z) (t.cols * t.rows) src h = .ok ((), h') ∧
      TUpd h h' o ⟨t.cols, t.rows, t.slices.set z (h.buf src)⟩ := by
  have hb := slice_bound r hz (a := 0) (n := t.cols * t.rows) (by omega)
  rw [Nat.zero_add] at hb
  exact ⟨_, copyIn_run _ _ _ _ _ hne hb hp, slice_set r hz _ hp⟩

theorem z_slice_set_vec_run (w : h.WF) (r : TRep h o t) {z v : Nat} (hz : z < t.slices.length)
    (hp : (h.vec v).length = t.cols * t.rows) :
    ∃ h', z_slice_set_mlpp_vector o (z : Int) (some v) h = .ok ((), h') ∧
      TUpd h h' o ⟨t.cols, t.rows, t.slices.set z (h.vec v)⟩ := by
  unfold z_slice_set_mlpp_vector
  rw [bind_ok (size_run o h), r.size]
  dsimp only
  rw [if_pos (idxOk_nat hz), bind_ok (Vec.size_run w v), if_pos hp, Int.toNat_natCast]
  exact copyIn_slice_run r hz (.v v) nofun hp

theorem z_slice_set_mat_run (w : h.WF) (r : TRep h o t) {z m : Nat} (hz : z < t.slices.length)
    (hx : (h.size (.m m)).x = t.cols) (hy : (h.size (.m m)).y = t.rows) :
    ∃ h', z_slice_set_mlpp_matrix o (z : Int) (some m) h = .ok ((), h') ∧
      TUpd h h' o ⟨t.cols, t.rows, t.slices.set z (h.buf (.m m))⟩ := by
  unfold z_slice_set_mlpp_matrix
  rw [bind_ok (size_run o h), r.size]
  dsimp only
  rw [if_pos (idxOk_nat hz), bind_ok (Mat.size_run m h), if_pos ⟨hx, hy⟩, Int.toNat_natCast]
  refine copyIn_slice_run r hz (.m m) nofun ?_
  rw [w.len, ← hx, ← hy]
  simp [Size.count, w.mat m]

/-! ## Rows -/

theorem row_get_run (r : TRep h o t) {z y : Nat} {x : List R} (hz : t.slices[z]? = some x) (hy : y < t.rows) :
    row_get_pool_vector o (z : Int) (y : Int) h = .ok (rowOf t.cols x y, h) := by
  have hz' := (List.getElem?_eq_some_iff.mp hz).1
  unfold row_get_pool_vector
  rw [bind_ok (size_run o h), r.size]
  dsimp only
  have hyc := row_in (cols := t.cols) hy
  rw [if_pos (idxOk_nat hy), if_pos (idxOk_nat hz'), Int.toNat_natCast, Int.toNat_natCast,
    readFrom_run _ _ _ _ (slice_bound r hz' hyc), r.buf, flatten_slice r.good hz hyc]
  rfl

theorem rowOf_length {c rows y : Nat} {x : List R} (hx : x.length = c * rows) (hy : y < rows) :
    (rowOf c x y).length = c := by
  have := row_in (cols := c) hy
  unfold rowOf
  rw [List.length_take, List.length_drop]; omega

theorem row_get_into_run (w : h.WF) (r : TRep h o t) {z y v : Nat} {x : List R} (hz : t.slices[z]? = some x)
    (hy : y < t.rows) :
    ∃ h', row_get_into_mlpp_vector o (z : Int) (y : Int) (some v) h = .ok ((), h') ∧ VUpd h h' v (rowOf t.cols x y) := by
  have hz' := (List.getElem?_eq_some_iff.mp hz).1
  have hx := r.good x (List.mem_of_getElem? hz)
  unfold row_get_into_mlpp_vector
  dsimp only
  rw [bind_ok (size_run o h), r.size]
  dsimp only
  have hyc := row_in (cols := t.cols) hy
  rw [if_pos (idxOk_nat hy), if_pos (idxOk_nat hz'), Int.toNat_natCast, Int.toNat_natCast]
  obtain ⟨h', e, u⟩ := into_run w o (y * t.cols + t.cols * t.rows * z) t.cols (.v v) ⟨t.cols, 1, 1⟩ nofun
    (slice_bound r hz' hyc) (by rw [count_vec])
  rw [r.buf, flatten_slice r.good hz hyc] at u
  refine ⟨h', e, ?_⟩
  unfold VUpd
  rw [rowOf_length hx hy]; exact u

theorem row_set (r : TRep h o t) {z y : Nat} (hz : z < t.slices.length) (hy : y < t.rows) (p : List R)
    (hp : p.length = t.cols) :
    TUpd h (h.setBuf (.t o) (overwrite (h.buf (.t o)) (y * t.cols + t.cols * t.rows * z) p)) o
      ⟨t.cols, t.rows, t.slices.modify z (withRow t.cols · y p)⟩ := by
  have hz' : t.slices[z]? = some t.slices[z] := List.getElem?_eq_getElem hz
  have hyc := row_in (cols := t.cols) hy
  rw [modify_eq_set hz' (withRow t.cols · y p), withRow_eq_overwrite hp]
  exact part_set r hz' p (by omega)

theorem row_set_vector_run (r : TRep h o t) {z y : Nat} (hz : z < t.slices.length) (hy : y < t.rows) (p : List R)
    (hp : p.length = t.cols) :
    ∃ h', row_set_vector o (z : Int) (y : Int) p h = .ok ((), h') ∧
      TUpd h h' o ⟨t.cols, t.rows, t.slices.modify z (withRow t.cols · y p)⟩ := by
  unfold row_set_vector
  rw [bind_ok (size_run o h), r.size]
  dsimp only
  have hyc := row_in (cols := t.cols) hy
  rw [if_pos hp, if_pos (idxOk_nat hy), if_pos (idxOk_nat hz), Int.toNat_natCast, Int.toNat_natCast,
    writeTo_run _ _ _ _ _ (slice_bound r hz hyc) hp]
  exact ⟨_, rfl, row_set r hz hy p hp⟩

theorem row_set_vec_run (w : h.WF) (r : TRep h o t) {z y v : Nat} (hz : z < t.slices.length) (hy : y < t.rows)
    (hp : (h.vec v).length = t.cols) :
    ∃ h', row_set_mlpp_vector o (z : Int) (y : Int) (some v) h = .ok ((), h') ∧
      TUpd h h' o ⟨t.cols, t.rows, t.slices.modify z (withRow t.cols · y (h.vec v))⟩ := by
  unfold row_set_mlpp_vector
  dsimp only
  rw [bind_ok (Vec.size_run w v), bind_ok (size_run o h), r.size]
  dsimp only
  have hyc := row_in (cols := t.cols) hy
  rw [if_pos hp, if_pos (idxOk_nat hy), if_pos (idxOk_nat hz), Int.toNat_natCast, Int.toNat_natCast,
    copyIn_run _ _ _ (.v v) _ (nofun) (slice_bound r hz hyc) hp]
  exact ⟨_, rfl, row_set r hz hy _ hp⟩

/-! ## Cells -/

theorem cell_pos {z y x cols rows : Nat} :
    ((y : Int) * (cols : Int) + (x : Int) + (cols : Int) * (rows : Int) * (z : Int)).toNat =
      y * cols + x + cols * rows * z := by
  rw [← Int.natCast_mul, ← Int.natCast_mul, ← Int.natCast_mul, ← Int.natCast_add, ← Int.natCast_add, Int.toNat_natCast]

theorem cell_get_run [Zero R] (r : TRep h o t) {z y x : Nat} {l : List R} {c : R} (hz : t.slices[z]? = some l)
    (hy : y < t.rows) (hx : x < t.cols) (hc : (rowOf t.cols l y)[x]? = some c) :
    element_get o (z : Int) (y : Int) (x : Int) h = .ok (c, h) := by
  have hz' := (List.getElem?_eq_some_iff.mp hz).1
  unfold element_get
  rw [bind_ok (size_run o h), r.size]
  dsimp only
  have hyc := row_in (cols := t.cols) hy
  rw [if_pos (idxOk_nat hx), if_pos (idxOk_nat hy), if_pos (idxOk_nat hz'), cell_pos]
  refine load_ok ?_
  rw [r.buf, show y * t.cols + x + t.cols * t.rows * z = z * (t.cols * t.rows) + (y * t.cols + x) by
    rw [Nat.mul_comm z]; omega, flatten_get r.good hz (by omega)]
  unfold rowOf at hc
  rw [List.getElem?_take, if_pos hx, List.getElem?_drop] at hc
  exact hc

theorem cell_set_run (r : TRep h o t) {z y x : Nat} (c : R) (hz : z < t.slices.length) (hy : y < t.rows)
    (hx : x < t.cols) : ∃ h', element_set o (z : Int) (y : Int) (x : Int) c h = .ok ((), h') ∧
      TUpd h h' o ⟨t.cols, t.rows, t.slices.modify z (·.set (y * t.cols + x) c)⟩ := by
  obtain ⟨l, hl⟩ : ∃ l, t.slices[z]? = some l := ⟨_, List.getElem?_eq_getElem hz⟩
  unfold element_set
  rw [bind_ok (size_run o h), r.size]
  dsimp only
  have hyc := row_in (cols := t.cols) hy
  have hb := slice_bound r hz hyc
  rw [if_pos (idxOk_nat hx), if_pos (idxOk_nat hy), if_pos (idxOk_nat hz), cell_pos, store_ok _ (by omega)]
  refine ⟨_, rfl, ?_⟩
  rw [modify_eq_set hl (fun l => l.set (y * t.cols + x) c)]
  refine r.setBuf _ _ ?_ (by simp) ?_
  · rw [r.buf, show y * t.cols + x + t.cols * t.rows * z = z * (t.cols * t.rows) + (y * t.cols + x) by
      rw [Nat.mul_comm z]; omega, flatten_set r.good hl (by omega)]
  · exact set_good r.good (by rw [List.length_set]; exact r.good l (List.mem_of_getElem? hl))

/-! ## Whole tensors -/

theorem fill_run (w : h.WF) (r : TRep h o t) (v : R) :
    ∃ h', fill o v h = .ok ((), h') ∧ TUpd h h' o ⟨t.cols, t.rows, t.slices.map (·.map fun _ => v)⟩ := by
  unfold fill
  refine ⟨_, fillAll_run (.t o) v h (w.len _), r.setBuf _ _ ?_ (by simp) ?_⟩
  · rw [← w.len, r.buf, ← List.map_const', List.map_flatten]
  · intro x hx
    obtain ⟨y, hy, rfl⟩ := List.mem_map.mp hx
    rw [List.length_map]; exact r.good y hy

theorem set_from_tensor_run (w : h.WF) {p : Nat} (r : TRep h p t) (o : Nat) :
    ∃ h', set_from_mlpp_tensor3 o (some p) h = .ok ((), h') ∧ TUpd h h' o t := by
  obtain ⟨h', e, u⟩ := unB_run id (.t o) (.t p) h (w.len _) (w.len _)
  refine ⟨h', e, ?_, r.good⟩
  rw [List.map_id, r.size, r.buf] at u; exact u

theorem set_from_matrix_run (w : h.WF) (o m : Nat) :
    ∃ h', set_from_mlpp_matrix o (some m) h = .ok ((), h') ∧
      TUpd h h' o ⟨(h.size (.m m)).x, (h.size (.m m)).y, [h.buf (.m m)]⟩ := by
  have hm : h.size (.m m) = ⟨(h.size (.m m)).x, (h.size (.m m)).y, 1⟩ := by
    have := w.mat m
    generalize h.size (.m m) = s at *
    obtain ⟨a, b, c⟩ := s; dsimp only at this; rw [this]
  have hlen : (h.buf (.m m)).length = (h.size (.m m)).x * (h.size (.m m)).y := by
    rw [w.len, hm, count_mat]
  obtain ⟨h', e, u⟩ := unB_run id (.t o) (.m m) h (w.len _) (w.len _)
  rw [List.map_id, hm] at u
  have hm' := Mat.size_run m h
  rw [hm] at hm'
  refine ⟨h', ?_, ?_, ?_⟩
  · rw [← e]
    unfold set_from_mlpp_matrix unB resize
    dsimp only
    rw [bind_ok hm', bind_ok (getSize_run _ h), hm]
  · simpa using u
  · intro x hx
    rw [List.mem_singleton.mp hx]; exact hlen

theorem resize_run (h : Heap R) (o c r d : Nat) :
    ∃ h' b, resize o ⟨c, r, d⟩ h = .ok ((), h') ∧ TUpd h h' o ⟨c, r, chunks (c * r) d b⟩ ∧ b.length = c * r * d ∧
      ∀ i, i < (h.buf (.t o)).length → i < c * r * d → b[i]? = (h.buf (.t o))[i]? := by
  obtain ⟨b, k, e, hd, hk⟩ := resizeTo_run (.t o) ⟨c, r, d⟩ h
  have hcount : (⟨c, r, d⟩ : Size).count = c * r * d := rfl
  rw [hcount] at hd hk
  refine ⟨_, b, e, ⟨?_, chunks_row _ _ _ hd⟩, hd, hk⟩
  dsimp only
  rw [chunks_length, chunks_flatten _ _ _ hd]
  exact updated_sized h (.t o) _ _ _

theorem clear_run (h : Heap R) (o : Nat) : ∃ h', clear o h = .ok ((), h') ∧ TUpd h h' o ⟨0, 0, []⟩ := by
  obtain ⟨h', b, e, u, hb, _⟩ := resize_run h o 0 0 0
  exact ⟨h', e, u⟩

theorem reset_run (r : TRep h o t) :
    ∃ h', reset o h = .ok ((), h') ∧ TUpd h h' o (if t.slices.flatten = [] then t else ⟨0, 0, []⟩) := by
  unfold reset
  rw [bind_ok (isNull_run _ _), r.buf]
  by_cases h0 : t.slices.flatten = []
  · rw [if_pos h0, h0]
    exact ⟨h, rfl, TUpd.refl r⟩
  · rw [if_neg h0, if_neg (by simpa using h0)]
    refine ⟨_, rfl, ?_, by intro x hx; simp at hx⟩
    refine ⟨by simp, by simp, ?_, ?_, rfl, rfl⟩
    · intro l hl; simp [setBuf_buf, hl]
    · intro l hl; simp [setSize_size, hl]

theorem shape_set_run (r : TRep h o t) {c k d : Nat} (hc : t.cols * t.rows * t.slices.length = c * k * d) :
    ∃ h', shape_set o ⟨c, k, d⟩ h = .ok ((), h') ∧ TUpd h h' o ⟨c, k, chunks (c * k) d t.slices.flatten⟩ := by
  have hl : t.slices.flatten.length = c * k * d := by rw [flatten_length r.good, hc]
  unfold shape_set
  rw [bind_ok (size_run o h), r.size]
  have : (⟨t.cols, t.rows, t.slices.length⟩ : Size).count = (⟨c, k, d⟩ : Size).count := hc
  rw [if_pos this, putSize_run]
  refine ⟨_, rfl, ?_, chunks_row _ _ _ hl⟩
  dsimp only
  rw [chunks_length, chunks_flatten _ _ _ hl]
  refine ⟨by simpa using r.buf, by simp, fun l _ => rfl, ?_, rfl, rfl⟩
  intro l hl; simp [setSize_size, hl]

theorem shape_set_no (r : TRep h o t) {c k d : Nat} (hc : ¬(t.cols * t.rows * t.slices.length = c * k * d)) :
    shape_set o ⟨c, k, d⟩ h = .ok ((), h) := by
  unfold shape_set
  rw [bind_ok (size_run o h), r.size]
  have : ¬((⟨t.cols, t.rows, t.slices.length⟩ : Size).count = (⟨c, k, d⟩ : Size).count) := hc
  rw [if_neg this]; rfl

end
end Ten

/-! ## The simulation -/

/-- The heap stores state `s`. -/
structure THolds (h : Heap R) (s : TState R) : Prop where
  wf : h.WF
  vecs : s.vecs = absV h
  mats : ∀ o, h.size (.m o) = ⟨(s.mats o).cols, (s.mats o).rows, 1⟩ ∧ h.buf (.m o) = (s.mats o).cells
  tens : ∀ o, TRep h o (s.tens o)

theorem THolds.putT {h h' : Heap R} {s : TState R} (r : THolds h s) {o : Nat} {t : Stack R} (u : TUpd h h' o t) :
    THolds h' (s.putT o t) where
  wf := u.wf r.wf
  vecs := by
    show s.vecs = absV h'
    rw [r.vecs]; funext i; exact (u.upd.bufFrame (.v i) nofun).symm
  mats := fun p => by
    show h'.size (.m p) = _ ∧ h'.buf (.m p) = _
    rw [u.upd.sizeFrame (.m p) nofun, u.upd.bufFrame (.m p) nofun]; exact r.mats p
  tens := by
    intro p
    by_cases e : p = o
    · subst e; simpa [TState.putT] using u.rep
    · have hne : Loc.t p ≠ Loc.t o := by simp [e]
      have := r.tens p
      simp only [TState.putT, if_neg e]
      exact ⟨by rw [u.upd.sizeFrame _ hne]; exact this.size, by rw [u.upd.bufFrame _ hne]; exact this.buf, this.good⟩

theorem THolds.putV {h h' : Heap R} {s : TState R} (r : THolds h s) {i : Nat} {d : List R} (u : VUpd h h' i d) :
    THolds h' (s.putV i d) where
  wf := u.wf r.wf
  vecs := by simp only [TState.putV]; rw [r.vecs, absV_upd u]; rfl
  mats := fun p => by
    show h'.size (.m p) = _ ∧ h'.buf (.m p) = _
    rw [u.sizeFrame (.m p) nofun, u.bufFrame (.m p) nofun]; exact r.mats p
  tens := fun p => by
    have := r.tens p
    exact ⟨by rw [u.sizeFrame (.t p) nofun]; exact this.size, by rw [u.bufFrame (.t p) nofun]; exact this.buf, this.good⟩

theorem THolds.putM {h h' : Heap R} {s : TState R} (r : THolds h s) {i : Nat} {p : Plane R}
    (u : Updated h h' (.m i) ⟨p.cols, p.rows, 1⟩ p.cells) (hl : p.cells.length = p.cols * p.rows) :
    THolds h' (s.putM i p) where
  wf := u.wf r.wf (by rw [count_mat, hl]) nofun (fun _ _ => rfl)
  vecs := by
    show s.vecs = absV h'
    rw [r.vecs]; funext k; exact (u.bufFrame (.v k) nofun).symm
  mats := fun k => by
    by_cases e : k = i
    · subst e; simp only [TState.putM, if_pos]; exact ⟨u.size, u.buf⟩
    · have hne : Loc.m k ≠ Loc.m i := by simp [e]
      simp only [TState.putM, if_neg e]
      rw [u.sizeFrame _ hne, u.bufFrame _ hne]; exact r.mats k
  tens := fun p => by
    have := r.tens p
    exact ⟨by rw [u.sizeFrame (.t p) nofun]; exact this.size, by rw [u.bufFrame (.t p) nofun]; exact this.buf, this.good⟩

theorem TState.putT_self (s : TState R) (o : Nat) : s.putT o (s.tens o) = s := by
  cases s with
  | mk t m v =>
    simp only [TState.putT]
    congr 1; funext k; by_cases e : k = o <;> simp [e]

open Ten in
theorem ten_exec_sound [Zero R] {h : Heap R} {s : TState R} (r : THolds h s) (op : TOp R)
    (ok : op.ok) : ∃ a h' s', exec op h = .ok (a, h') ∧ TRel s op a s' ∧ THolds h' s' := by
  have upd : ∀ {m : M R Unit} {o : Nat} {t : Stack R}, (∃ h', m h = .ok ((), h') ∧ TUpd h h' o t) →
      ∃ h', (m >>= fun _ => (pure TAns.unit : M R (TAns R))) h = .ok (TAns.unit, h') ∧ THolds h' (s.putT o t) := by
    intro m o t ⟨h', e, u⟩
    exact ⟨h', by rw [bind_ok e]; rfl, r.putT u⟩
  have same : ∀ {m : M R Unit}, m h = .ok ((), h) →
      (m >>= fun _ => (pure TAns.unit : M R (TAns R))) h = .ok (TAns.unit, h) := by
    intro m e; rw [bind_ok e]; rfl
  have hvec : ∀ i, s.vecs i = h.vec i := fun i => by rw [r.vecs]; rfl
  have hsz : ∀ o, h.size (.t o) = ⟨(s.tens o).cols, (s.tens o).rows, (s.tens o).slices.length⟩ := fun o => (r.tens o).size
  have hmx : ∀ m, (h.size (.m m)).x = (s.mats m).cols := fun m => by rw [(r.mats m).1]
  have hmy : ∀ m, (h.size (.m m)).y = (s.mats m).rows := fun m => by rw [(r.mats m).1]
  have hmb : ∀ m, h.buf (.m m) = (s.mats m).cells := fun m => (r.mats m).2
  cases op with
  | size o =>
    refine ⟨_, h, s, by simp only [exec]; rw [bind_ok (Ten.size_run o h)]; rfl, ⟨?_, rfl⟩, r⟩
    rw [hsz]
  | element_get o z y x =>
    by_cases hv : (s.tens o).has z y x
    · obtain ⟨i, rfl, hi, hi'⟩ := valid_cases hv.1
      obtain ⟨j, rfl, hj, hj'⟩ := valid_cases hv.2.1
      obtain ⟨k, rfl, hk, hk'⟩ := valid_cases hv.2.2
      obtain ⟨l, hl⟩ : ∃ l, (s.tens o).slices[i]? = some l := ⟨_, List.getElem?_eq_getElem hi⟩
      have hll := (r.tens o).good l (List.mem_of_getElem? hl)
      obtain ⟨c, hc⟩ : ∃ c, (rowOf (s.tens o).cols l j)[k]? = some c :=
        ⟨_, List.getElem?_eq_getElem (by rw [rowOf_length hll hj]; exact hk)⟩
      refine ⟨_, h, s, by simp only [exec]; rw [bind_ok (cell_get_run (r.tens o) hl hj hk hc)]; rfl, ⟨rfl, ?_, ?_⟩, r⟩
      · intro _; exact ⟨l, c, by rw [hi']; exact hl, by rw [hj', hk']; exact hc, rfl⟩
      · intro h; exact absurd hv h
    · refine ⟨.val 0, h, s, ?_, ⟨rfl, fun h => absurd h hv, fun _ => rfl⟩, r⟩
      simp only [exec]
      have : element_get o z y x h = .ok (0, h) := by
        unfold element_get
        rw [bind_ok (Ten.size_run o h), hsz]
        dsimp only
        by_cases hx : Valid x (s.tens o).cols
        · rw [if_pos (idxOk_iff.mpr hx)]
          by_cases hy : Valid y (s.tens o).rows
          · rw [if_pos (idxOk_iff.mpr hy), idxOk_false (fun hz => hv ⟨hz, hy, hx⟩)]; rfl
          · rw [idxOk_false hy]; rfl
        · rw [idxOk_false hx]; rfl
      rw [bind_ok this]; rfl
  | element_set o z y x c =>
    by_cases hv : (s.tens o).has z y x
    · obtain ⟨i, rfl, hi, hi'⟩ := valid_cases hv.1
      obtain ⟨j, rfl, hj, hj'⟩ := valid_cases hv.2.1
      obtain ⟨k, rfl, hk, hk'⟩ := valid_cases hv.2.2
      obtain ⟨h', e, q⟩ := upd (cell_set_run (r.tens o) c hi hj hk)
      exact ⟨_, h', _, e, ⟨rfl, fun _ => by rw [hi', hj', hk'], fun h => absurd hv h⟩, q⟩
    · refine ⟨_, h, s, same ?_, ⟨rfl, fun h => absurd h hv, fun _ => rfl⟩, r⟩
      unfold element_set
      rw [bind_ok (Ten.size_run o h), hsz]
      dsimp only
      by_cases hx : Valid x (s.tens o).cols
      · rw [if_pos (idxOk_iff.mpr hx)]
        by_cases hy : Valid y (s.tens o).rows
        · rw [if_pos (idxOk_iff.mpr hy), idxOk_false (fun hz => hv ⟨hz, hy, hx⟩)]; rfl
        · rw [idxOk_false hy]; rfl
      · rw [idxOk_false hx]; rfl
  | z_slice_add o p =>
    obtain ⟨h', e, q⟩ := upd (z_slice_add_run (r.tens o) p)
    exact ⟨_, h', _, e, ⟨rfl, rfl⟩, q⟩
  | z_slice_add_mlpp_vector o v =>
    cases v with
    | none => exact ⟨_, h, s, same rfl, ⟨rfl, rfl⟩, r⟩
    | some v =>
      obtain ⟨h', e, q⟩ := upd (z_slice_add_vec_run r.wf (r.tens o) v)
      exact ⟨_, h', _, e, ⟨rfl, by rw [hvec]⟩, q⟩
  | z_slice_add_mlpp_matrix o m =>
    cases m with
    | none => exact ⟨_, h, s, same rfl, ⟨rfl, rfl⟩, r⟩
    | some m =>
      have hr := z_slice_add_mat_run r.wf (r.tens o) m
      rw [hmx, hmy, hmb] at hr
      by_cases hc : (s.mats m).cols = (s.tens o).cols ∧ (s.mats m).rows = (s.tens o).rows
      · rw [if_pos hc] at hr
        obtain ⟨h', e, q⟩ := upd hr
        exact ⟨_, h', _, e, ⟨rfl, fun _ => rfl, fun h => absurd hc h⟩, q⟩
      · rw [if_neg hc] at hr
        obtain ⟨h', e, q⟩ := upd hr
        rw [TState.putT_self] at q
        exact ⟨_, h', _, e, ⟨rfl, fun h => absurd h hc, fun _ => rfl⟩, q⟩
  | z_slice_remove o z =>
    by_cases hv : Valid z (s.tens o).slices.length
    · obtain ⟨i, rfl, hi, hi'⟩ := valid_cases hv
      obtain ⟨h', e, q⟩ := upd (z_slice_remove_run (r.tens o) hi)
      exact ⟨_, h', _, e, ⟨rfl, fun _ => by rw [hi'], fun h => absurd hv h⟩, q⟩
    · refine ⟨_, h, s, same ?_, ⟨rfl, fun h => absurd h hv, fun _ => rfl⟩, r⟩
      unfold z_slice_remove; rw [bind_ok (Ten.size_run o h), hsz, idxOk_false hv]; rfl
  | z_slice_remove_unordered o z =>
    by_cases hv : Valid z (s.tens o).slices.length
    · obtain ⟨i, rfl, hi, hi'⟩ := valid_cases hv
      have h0 : i = 0 := by simp only [TOp.ok] at ok; omega
      subst h0
      obtain ⟨h', e, q⟩ := upd (z_slice_remove_unordered_first (r.tens o) hi)
      exact ⟨_, h', _, e, ⟨rfl, fun _ => ⟨_, rfl, movedLast_rmUnordered hi⟩, fun h => absurd hv h⟩, q⟩
    · refine ⟨_, h, s, same ?_, ⟨rfl, fun h => absurd h hv, fun _ => rfl⟩, r⟩
      unfold z_slice_remove_unordered; rw [bind_ok (Ten.size_run o h), hsz, idxOk_false hv]; rfl
  | z_slice_swap o z z' =>
    by_cases hv : Valid z (s.tens o).slices.length ∧ Valid z' (s.tens o).slices.length
    · obtain ⟨i, rfl, hi, hi'⟩ := valid_cases hv.1
      obtain ⟨j, rfl, hj, hj'⟩ := valid_cases hv.2
      obtain ⟨h', e, q⟩ := upd (z_slice_swap_run (r.tens o) hi hj)
      exact ⟨_, h', _, e, ⟨rfl, fun _ => by rw [hi', hj'], fun h => absurd hv h⟩, q⟩
    · refine ⟨_, h, s, same ?_, ⟨rfl, fun h => absurd h hv, fun _ => rfl⟩, r⟩
      unfold z_slice_swap
      rw [bind_ok (Ten.size_run o h), hsz]
      dsimp only
      by_cases hx : Valid z (s.tens o).slices.length
      · rw [if_pos (idxOk_iff.mpr hx), idxOk_false (fun hy => hv ⟨hx, hy⟩)]; rfl
      · rw [idxOk_false hx]; rfl
  | z_slice_get_vector o z =>
    by_cases hv : Valid z (s.tens o).slices.length
    · obtain ⟨i, rfl, hi, hi'⟩ := valid_cases hv
      obtain ⟨l, hl⟩ : ∃ l, (s.tens o).slices[i]? = some l := ⟨_, List.getElem?_eq_getElem hi⟩
      refine ⟨_, h, s, by simp only [exec]; rw [bind_ok (z_slice_get_vector_run (r.tens o) hl)]; rfl,
        ⟨rfl, fun _ => ⟨l, by rw [hi']; exact hl, rfl⟩, fun h => absurd hv h⟩, r⟩
    · refine ⟨.list [], h, s, ?_, ⟨rfl, fun h => absurd h hv, fun _ => rfl⟩, r⟩
      simp only [exec]
      have : z_slice_get_vector o z h = .ok ([], h) := by
        unfold z_slice_get_vector; rw [bind_ok (Ten.size_run o h), hsz, idxOk_false hv]; rfl
      rw [bind_ok this]; rfl
  | z_slice_get_into_mlpp_vector o z v =>
    cases v with
    | none => exact absurd rfl ok
    | some v =>
      by_cases hv : Valid z (s.tens o).slices.length
      · obtain ⟨i, rfl, hi, hi'⟩ := valid_cases hv
        obtain ⟨l, hl⟩ : ∃ l, (s.tens o).slices[i]? = some l := ⟨_, List.getElem?_eq_getElem hi⟩
        obtain ⟨h', e, u⟩ := z_slice_get_into_vec_run r.wf (v := v) (r.tens o) hl
        exact ⟨_, h', s.putV v l, by simp only [exec]; rw [bind_ok e]; rfl,
          ⟨rfl, fun _ => ⟨l, by rw [hi']; exact hl, rfl⟩, fun h => absurd hv h⟩, r.putV u⟩
      · refine ⟨_, h, s, same ?_, ⟨rfl, fun h => absurd h hv, fun _ => rfl⟩, r⟩
        unfold z_slice_get_into_mlpp_vector; rw [bind_ok (Ten.size_run o h), hsz, idxOk_false hv]; rfl
  | z_slice_get_into_mlpp_matrix o z m =>
    cases m with
    | none => exact absurd rfl ok
    | some m =>
      by_cases hv : Valid z (s.tens o).slices.length
      · obtain ⟨i, rfl, hi, hi'⟩ := valid_cases hv
        obtain ⟨l, hl⟩ : ∃ l, (s.tens o).slices[i]? = some l := ⟨_, List.getElem?_eq_getElem hi⟩
        obtain ⟨h', e, u⟩ := z_slice_get_into_mat_run r.wf (m := m) (r.tens o) hl
        exact ⟨_, h', s.putM m ⟨(s.tens o).cols, (s.tens o).rows, l⟩, by simp only [exec]; rw [bind_ok e]; rfl,
          ⟨rfl, fun _ => ⟨l, by rw [hi']; exact hl, rfl⟩, fun h => absurd hv h⟩,
          r.putM u ((r.tens o).good l (List.mem_of_getElem? hl))⟩
      · refine ⟨_, h, s, same ?_, ⟨rfl, fun h => absurd h hv, fun _ => rfl⟩, r⟩
        unfold z_slice_get_into_mlpp_matrix; rw [bind_ok (Ten.size_run o h), hsz, idxOk_false hv]; rfl
  | z_slice_set_vector o z p =>
    by_cases hv : Valid z (s.tens o).slices.length ∧ p.length = (s.tens o).cols * (s.tens o).rows
    · obtain ⟨i, rfl, hi, hi'⟩ := valid_cases hv.1
      obtain ⟨h', e, q⟩ := upd (z_slice_set_vector_run (r.tens o) hi p hv.2)
      exact ⟨_, h', _, e, ⟨rfl, fun _ => by rw [hi'], fun h => absurd hv h⟩, q⟩
    · refine ⟨_, h, s, same ?_, ⟨rfl, fun h => absurd h hv, fun _ => rfl⟩, r⟩
      unfold z_slice_set_vector
      rw [bind_ok (Ten.size_run o h), hsz]
      dsimp only
      by_cases hx : Valid z (s.tens o).slices.length
      · rw [if_pos (idxOk_iff.mpr hx), if_neg (fun hy => hv ⟨hx, hy⟩)]; rfl
      · rw [idxOk_false hx]; rfl
  | z_slice_set_mlpp_vector o z v =>
    cases v with
    | none =>
      refine ⟨_, h, s, same ?_, ⟨rfl, rfl⟩, r⟩
      unfold z_slice_set_mlpp_vector
      rw [bind_ok (Ten.size_run o h)]
      dsimp only
      split <;> rfl
    | some v =>
      by_cases hv : Valid z (s.tens o).slices.length ∧ (s.vecs v).length = (s.tens o).cols * (s.tens o).rows
      · obtain ⟨i, rfl, hi, hi'⟩ := valid_cases hv.1
        obtain ⟨h', e, q⟩ := upd (z_slice_set_vec_run r.wf (r.tens o) hi (by rw [← hvec]; exact hv.2))
        exact ⟨_, h', _, e, ⟨rfl, fun _ => by rw [hi', hvec], fun h => absurd hv h⟩, q⟩
      · refine ⟨_, h, s, same ?_, ⟨rfl, fun h => absurd h hv, fun _ => rfl⟩, r⟩
        unfold z_slice_set_mlpp_vector
        rw [bind_ok (Ten.size_run o h), hsz]
        dsimp only
        by_cases hx : Valid z (s.tens o).slices.length
        · rw [if_pos (idxOk_iff.mpr hx), bind_ok (Vec.size_run r.wf v),
            if_neg (fun hy => hv ⟨hx, by rw [hvec]; exact hy⟩)]; rfl
        · rw [idxOk_false hx]; rfl
  | z_slice_set_mlpp_matrix o z m =>
    cases m with
    | none =>
      refine ⟨_, h, s, same ?_, ⟨rfl, rfl⟩, r⟩
      unfold z_slice_set_mlpp_matrix
      rw [bind_ok (Ten.size_run o h)]
      dsimp only
      split <;> rfl
    | some m =>
      by_cases hv : Valid z (s.tens o).slices.length ∧ (s.mats m).cols = (s.tens o).cols ∧ (s.mats m).rows = (s.tens o).rows
      · obtain ⟨i, rfl, hi, hi'⟩ := valid_cases hv.1
        obtain ⟨h', e, q⟩ := upd (z_slice_set_mat_run r.wf (r.tens o) (m := m) hi (by rw [hmx]; exact hv.2.1)
          (by rw [hmy]; exact hv.2.2))
        exact ⟨_, h', _, e, ⟨rfl, fun _ => by rw [hi', hmb], fun h => absurd hv h⟩, q⟩
      · refine ⟨_, h, s, same ?_, ⟨rfl, fun h => absurd h hv, fun _ => rfl⟩, r⟩
        unfold z_slice_set_mlpp_matrix
        rw [bind_ok (Ten.size_run o h), hsz]
        dsimp only
        by_cases hx : Valid z (s.tens o).slices.length
        · rw [if_pos (idxOk_iff.mpr hx), bind_ok (Mat.size_run m h), hmx, hmy, if_neg (fun hy => hv ⟨hx, hy⟩)]; rfl
        · rw [idxOk_false hx]; rfl
  | row_get o z y =>
    by_cases hv : (s.tens o).hasRow z y
    · obtain ⟨i, rfl, hi, hi'⟩ := valid_cases hv.1
      obtain ⟨j, rfl, hj, hj'⟩ := valid_cases hv.2
      obtain ⟨l, hl⟩ : ∃ l, (s.tens o).slices[i]? = some l := ⟨_, List.getElem?_eq_getElem hi⟩
      refine ⟨_, h, s, by simp only [exec]; rw [bind_ok (row_get_run (r.tens o) hl hj)]; rfl,
        ⟨rfl, fun _ => ⟨l, by rw [hi']; exact hl, by rw [hj']⟩, fun h => absurd hv h⟩, r⟩
    · refine ⟨.list [], h, s, ?_, ⟨rfl, fun h => absurd h hv, fun _ => rfl⟩, r⟩
      simp only [exec]
      have : row_get_pool_vector o z y h = .ok ([], h) := by
        unfold row_get_pool_vector
        rw [bind_ok (Ten.size_run o h), hsz]
        dsimp only
        by_cases hy : Valid y (s.tens o).rows
        · rw [if_pos (idxOk_iff.mpr hy), idxOk_false (fun hz => hv ⟨hz, hy⟩)]; rfl
        · rw [idxOk_false hy]; rfl
      rw [bind_ok this]; rfl
  | row_get_into_mlpp_vector o z y v =>
    cases v with
    | none => exact ⟨_, h, s, same rfl, ⟨rfl, rfl⟩, r⟩
    | some v =>
      by_cases hv : (s.tens o).hasRow z y
      · obtain ⟨i, rfl, hi, hi'⟩ := valid_cases hv.1
        obtain ⟨j, rfl, hj, hj'⟩ := valid_cases hv.2
        obtain ⟨l, hl⟩ : ∃ l, (s.tens o).slices[i]? = some l := ⟨_, List.getElem?_eq_getElem hi⟩
        obtain ⟨h', e, u⟩ := row_get_into_run r.wf (v := v) (r.tens o) hl hj
        exact ⟨_, h', _, by simp only [exec]; rw [bind_ok e]; rfl,
          ⟨rfl, fun _ => ⟨l, by rw [hi']; exact hl, by rw [hj']⟩, fun h => absurd hv h⟩, r.putV u⟩
      · refine ⟨_, h, s, same ?_, ⟨rfl, fun h => absurd h hv, fun _ => rfl⟩, r⟩
        unfold row_get_into_mlpp_vector
        dsimp only
        rw [bind_ok (Ten.size_run o h), hsz]
        dsimp only
        by_cases hy : Valid y (s.tens o).rows
        · rw [if_pos (idxOk_iff.mpr hy), idxOk_false (fun hz => hv ⟨hz, hy⟩)]; rfl
        · rw [idxOk_false hy]; rfl
  | row_set_vector o z y p =>
    by_cases hv : (s.tens o).hasRow z y ∧ p.length = (s.tens o).cols
    · obtain ⟨i, rfl, hi, hi'⟩ := valid_cases hv.1.1
      obtain ⟨j, rfl, hj, hj'⟩ := valid_cases hv.1.2
      obtain ⟨h', e, q⟩ := upd (row_set_vector_run (r.tens o) hi hj p hv.2)
      exact ⟨_, h', _, e, ⟨rfl, fun _ => by rw [hi', hj'], fun h => absurd hv h⟩, q⟩
    · refine ⟨_, h, s, same ?_, ⟨rfl, fun h => absurd h hv, fun _ => rfl⟩, r⟩
      unfold row_set_vector
      rw [bind_ok (Ten.size_run o h), hsz]
      dsimp only
      by_cases hp : p.length = (s.tens o).cols
      · rw [if_pos hp]
        by_cases hy : Valid y (s.tens o).rows
        · rw [if_pos (idxOk_iff.mpr hy), idxOk_false (fun hz => hv ⟨⟨hz, hy⟩, hp⟩)]; rfl
        · rw [idxOk_false hy]; rfl
      · rw [if_neg hp]; rfl
  | row_set_mlpp_vector o z y v =>
    cases v with
    | none => exact ⟨_, h, s, same rfl, ⟨rfl, rfl⟩, r⟩
    | some v =>
      by_cases hv : (s.tens o).hasRow z y ∧ (s.vecs v).length = (s.tens o).cols
      · obtain ⟨i, rfl, hi, hi'⟩ := valid_cases hv.1.1
        obtain ⟨j, rfl, hj, hj'⟩ := valid_cases hv.1.2
        obtain ⟨h', e, q⟩ := upd (row_set_vec_run r.wf (r.tens o) hi hj (by rw [← hvec]; exact hv.2))
        exact ⟨_, h', _, e, ⟨rfl, fun _ => by rw [hi', hj', hvec], fun h => absurd hv h⟩, q⟩
      · refine ⟨_, h, s, same ?_, ⟨rfl, fun h => absurd h hv, fun _ => rfl⟩, r⟩
        unfold row_set_mlpp_vector
        dsimp only
        rw [bind_ok (Vec.size_run r.wf v), bind_ok (Ten.size_run o h), hsz]
        dsimp only
        by_cases hp : (h.vec v).length = (s.tens o).cols
        · rw [if_pos hp]
          by_cases hy : Valid y (s.tens o).rows
          · rw [if_pos (idxOk_iff.mpr hy), idxOk_false (fun hz => hv ⟨⟨hz, hy⟩, by rw [hvec]; exact hp⟩)]; rfl
          · rw [idxOk_false hy]; rfl
        · rw [if_neg hp]; rfl
  | fill o c =>
    obtain ⟨h', e, q⟩ := upd (fill_run r.wf (r.tens o) c)
    exact ⟨_, h', _, e, ⟨rfl, rfl⟩, q⟩
  | set_from_tensor o p =>
    cases p with
    | none => exact ⟨_, h, s, same rfl, ⟨rfl, rfl⟩, r⟩
    | some p =>
      obtain ⟨h', e, q⟩ := upd (set_from_tensor_run r.wf (r.tens p) o)
      exact ⟨_, h', _, e, ⟨rfl, rfl⟩, q⟩
  | set_from_matrix o m =>
    cases m with
    | none => exact ⟨_, h, s, same rfl, ⟨rfl, rfl⟩, r⟩
    | some m =>
      obtain ⟨h', e, q⟩ := upd (set_from_matrix_run r.wf o m)
      exact ⟨_, h', _, e, ⟨rfl, by rw [hmx, hmy, hmb]⟩, q⟩
  | clear o =>
    obtain ⟨h', e, q⟩ := upd (clear_run h o)
    exact ⟨_, h', _, e, ⟨rfl, rfl⟩, q⟩
  | reset o =>
    obtain ⟨h', e, q⟩ := upd (reset_run (r.tens o))
    exact ⟨_, h', _, e, ⟨rfl, rfl⟩, q⟩
  | resize o c k d =>
    obtain ⟨h', b, e, u, hb, hk⟩ := resize_run h o c k d
    refine ⟨_, h', _, by simp only [exec]; rw [bind_ok e]; rfl,
      ⟨rfl, _, rfl, chunks_length _ _ _, chunks_row _ _ _ hb, ?_⟩, r.putT u⟩
    intro i h1 h2
    rw [chunks_flatten _ _ _ hb] at h2 ⊢
    rw [hk i (by rw [(r.tens o).buf]; exact h1) (by omega), (r.tens o).buf]
  | shape_set o c k d =>
    by_cases hc : (s.tens o).cols * (s.tens o).rows * (s.tens o).slices.length = c * k * d
    · obtain ⟨h', e, q⟩ := upd (shape_set_run (r.tens o) hc)
      have hl : (s.tens o).slices.flatten.length = c * k * d := by rw [flatten_length (r.tens o).good, hc]
      exact ⟨_, h', _, e, ⟨rfl, fun _ => ⟨_, rfl, chunks_length _ _ _, chunks_row _ _ _ hl, chunks_flatten _ _ _ hl⟩,
        fun h => absurd hc h⟩, q⟩
    · exact ⟨_, h, s, same (shape_set_no (r.tens o) hc), ⟨rfl, fun h => absurd h hc, fun _ => rfl⟩, r⟩

theorem ten_execAll_sound [Zero R] (ops : List (TOp R)) :
    ∀ {h : Heap R} {s : TState R}, THolds h s → (∀ op ∈ ops, op.ok) →
      ∃ as h' s', Ten.execAll ops h = .ok (as, h') ∧ TRun s ops as s' ∧ THolds h' s' := by
  induction ops with
  | nil => intro h s r _; exact ⟨[], h, s, rfl, .nil _, r⟩
  | cons op ops ih =>
    intro h s r ok
    obtain ⟨a, h1, s1, e1, m1, r1⟩ := ten_exec_sound r op (ok op (by simp))
    obtain ⟨as, h2, s2, e2, m2, r2⟩ := ih r1 fun q hq => ok q (by simp [hq])
    refine ⟨a :: as, h2, s2, ?_, .cons m1 m2, r2⟩
    simp only [Ten.execAll]
    rw [bind_ok e1, bind_ok e2]; rfl

end Verif
