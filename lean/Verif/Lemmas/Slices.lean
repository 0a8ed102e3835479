import Verif.Lemmas.RowApi
import Verif.Model.TensorApi

/-! # The slice methods of `MLPPTensor3`, as operations on lists of slices -/

namespace Verif
open Spec
variable {R : Type}

/-- A stack whose slices have the right number of cells. -/
def Stack.Good (t : Stack R) : Prop := ∀ x ∈ t.slices, x.length = t.cols * t.rows

/-- Tensor `o` stores stack `t`. -/
structure TRep (h : Heap R) (o : Nat) (t : Stack R) : Prop where
  size : h.size (.t o) = ⟨t.cols, t.rows, t.slices.length⟩
  buf : h.buf (.t o) = t.slices.flatten
  good : Stack.Good t

/-- Tensor `o` stores `t` afterwards; nothing else changed. -/
structure TUpd (h h' : Heap R) (o : Nat) (t : Stack R) : Prop where
  upd : Updated h h' (.t o) ⟨t.cols, t.rows, t.slices.length⟩ t.slices.flatten
  good : Stack.Good t

section
variable {h h' : Heap R} {o : Nat} {t : Stack R}

theorem TRep.len (r : TRep h o t) : (h.buf (.t o)).length = t.cols * t.rows * t.slices.length := by
  rw [r.buf, flatten_length r.good]

theorem TUpd.rep (u : TUpd h h' o t) : TRep h' o t := ⟨u.upd.size, u.upd.buf, u.good⟩

theorem TUpd.refl (r : TRep h o t) : TUpd h h o t :=
  ⟨⟨r.buf, r.size, fun _ _ => rfl, fun _ _ => rfl, rfl, rfl⟩, r.good⟩

theorem TUpd.wf (u : TUpd h h' o t) (w : h.WF) : h'.WF :=
  u.upd.wf w (by rw [flatten_length u.good]; simp [Size.count]) nofun nofun

/-- Overwriting cells without changing the shape. -/
theorem TRep.setBuf (r : TRep h o t) (sl : List (List R)) (d : List R) (hd : d = sl.flatten)
    (hl : sl.length = t.slices.length) (hr : ∀ x ∈ sl, x.length = t.cols * t.rows) :
    TUpd h (h.setBuf (.t o) d) o ⟨t.cols, t.rows, sl⟩ := by
  subst hd
  exact ⟨⟨by simp, by simp [r.size, hl], fun l hl => by simp [setBuf_buf, hl], fun l _ => rfl, rfl, rfl⟩, hr⟩

/-- Every well-formed heap stores some stack in each tensor. -/
theorem TRep.exists (w : h.WF) (o : Nat) :
    TRep h o ⟨(h.size (.t o)).x, (h.size (.t o)).y,
      chunks ((h.size (.t o)).x * (h.size (.t o)).y) (h.size (.t o)).z (h.buf (.t o))⟩ := by
  have hl : (h.buf (.t o)).length = (h.size (.t o)).x * (h.size (.t o)).y * (h.size (.t o)).z := w.len _
  refine ⟨?_, (chunks_flatten _ _ _ hl).symm, chunks_row _ _ _ hl⟩
  dsimp only; rw [chunks_length]
end

theorem modify_eq_set {l : List (List R)} {k : Nat} {x : List R} (hk : l[k]? = some x) (f : List R → List R) :
    l.modify k f = l.set k (f x) := by
  have hi := (List.getElem?_eq_some_iff.mp hk).1
  apply List.ext_getElem?
  intro i
  rw [List.getElem?_modify, List.getElem?_set]
  by_cases e : k = i
  · subst e; simp [hi, (List.getElem?_eq_some_iff.mp hk).2]
  · simp [e]

/-- Overwriting part of one slice. -/
theorem overwrite_slice {rows : List (List R)} {c : Nat} (hr : ∀ r ∈ rows, r.length = c) {k a : Nat} {x : List R}
    (hk : rows[k]? = some x) (p : List R) (hp : a + p.length ≤ c) :
    overwrite rows.flatten (a + c * k) p = (rows.set k (overwrite x a p)).flatten := by
  have hi := (List.getElem?_eq_some_iff.mp hk).1
  have hx := hr x (List.mem_of_getElem? hk)
  have h1 : rows.flatten = overwrite rows.flatten (k * c) x := by
    rw [overwrite_flatten hr hi x hx, ← (List.getElem?_eq_some_iff.mp hk).2, List.set_getElem_self]
  have hb := row_bound (c := c) hi
  have hfl := flatten_length hr
  rw [← overwrite_flatten hr hi _ (by rw [length_overwrite _ _ _ (by omega), hx])]
  apply List.ext_getElem?
  intro i
  have hl := length_overwrite x a p (by omega)
  have hc : c * k = k * c := Nat.mul_comm _ _
  rw [overwrite_getElem? _ _ _ (by rw [hfl]; omega), overwrite_getElem? _ _ _ (by rw [hfl, hl]; omega), hl]
  have hin : ∀ j, j < c → rows.flatten[k * c + j]? = x[j]? := fun j hj => flatten_get hr hk hj
  have hin' : k * c ≤ i → i < k * c + c → rows.flatten[i]? = x[i - k * c]? := fun h1 h2 => by
    rw [← hin (i - k * c) (by omega), show k * c + (i - k * c) = i by omega]
  have hov := overwrite_getElem? x a p (by omega) (i - k * c)
  rw [hov]
  clear hov h1
  split_ifs <;> first | rfl | omega | (rw [hin' (by omega) (by omega)]) | (congr 1; omega)

/-- Reading part of one slice. -/
theorem flatten_slice {rows : List (List R)} {c : Nat} (hr : ∀ r ∈ rows, r.length = c) {k a n : Nat} {x : List R}
    (hk : rows[k]? = some x) (hn : a + n ≤ c) :
    (rows.flatten.drop (a + c * k)).take n = (x.drop a).take n := by
  have hx := hr x (List.mem_of_getElem? hk)
  apply List.ext_getElem?
  intro i
  rw [List.getElem?_take, List.getElem?_take]
  by_cases hi : i < n
  · rw [if_pos hi, if_pos hi, List.getElem?_drop, List.getElem?_drop, ← flatten_get hr hk (by omega : a + i < c)]
    congr 1; rw [Nat.mul_comm]; omega
  · rw [if_neg hi, if_neg hi]

theorem withRow_eq_overwrite {c : Nat} {x : List R} {y : Nat} {p : List R} (hp : p.length = c) :
    withRow c x y p = overwrite x (y * c) p := by
  unfold withRow overwrite
  rw [hp, List.append_assoc, Nat.succ_mul]

namespace Ten

theorem size_run (o : Nat) (h : Heap R) : size o h = .ok (h.size (.t o), h) := rfl

/-! ## The copying loops -/

theorem readFrom_run (o start n : Nat) (h : Heap R) (hb : start + n ≤ (h.buf (.t o)).length) :
    readFrom o start n h = .ok (((h.buf (.t o)).drop start).take n, h) := by
  unfold readFrom
  rw [foldN_read n (fun i => ((h.buf (.t o)).drop start).take i) _ [] h (by simp)]
  intro i hi
  have : (h.buf (.t o))[start + i]? = some ((h.buf (.t o))[start + i]'(by omega)) := List.getElem?_eq_getElem (by omega)
  rw [bind_ok (load_ok this), List.take_succ_eq_append_getElem (by rw [List.length_drop]; omega), List.getElem_drop]
  rfl

theorem copyOut_run (o start n : Nat) (out : Loc) (h : Heap R) (hne : Loc.t o ≠ out)
    (hb : start + n ≤ (h.buf (.t o)).length) (ho : (h.buf out).length = n) :
    copyOut o start n out h = .ok ((), h.setBuf out (((h.buf (.t o)).drop start).take n)) := by
  unfold copyOut
  have hl : (((h.buf (.t o)).drop start).take n).length = n := by rw [List.length_take, List.length_drop]; omega
  rw [storeForN_run out n 0 _ (((h.buf (.t o)).drop start).take n) h hl (by omega)]
  · have : overwrite (h.buf out) 0 (((h.buf (.t o)).drop start).take n) = ((h.buf (.t o)).drop start).take n := by
      unfold overwrite
      rw [hl, List.drop_of_length_le (l := h.buf out) (by omega), List.take_zero, List.nil_append, List.append_nil]
    rw [this]
  · intro j hj
    have : (h.buf (.t o))[start + j]? = some ((((h.buf (.t o)).drop start).take n)[j]'(by omega)) := by
      rw [List.getElem_take, List.getElem_drop]; exact List.getElem?_eq_getElem _
    rw [bind_ok (load_ne hne this), Nat.zero_add]

theorem copyIn_run (o start n : Nat) (src : Loc) (h : Heap R) (hne : src ≠ Loc.t o)
    (hb : start + n ≤ (h.buf (.t o)).length) (hs : (h.buf src).length = n) :
    copyIn o start n src h = .ok ((), h.setBuf (.t o) (overwrite (h.buf (.t o)) start (h.buf src))) := by
  unfold copyIn
  refine storeForN_run (.t o) n start _ (h.buf src) h hs hb fun j hj => ?_
  rw [bind_ok (load_ne hne (List.getElem?_eq_getElem (by omega)))]

theorem writeTo_run (o start n : Nat) (xs : List R) (h : Heap R)
    (hb : start + n ≤ (h.buf (.t o)).length) (hs : xs.length = n) :
    writeTo o start xs n h = .ok ((), h.setBuf (.t o) (overwrite (h.buf (.t o)) start xs)) := by
  unfold writeTo
  refine storeForN_run (.t o) n start _ xs h hs hb fun j hj => ?_
  rw [List.getElem?_eq_getElem (by omega)]

/-! ## Adding and removing slices -/

theorem add_slice {h : Heap R} {o : Nat} {t : Stack R} (r : TRep h o t) (p : List R) (hp : p.length = t.cols * t.rows)
    (body : Nat → M R Unit)
    (step : ∀ k (hk : k < p.length) (G : Heap R), (∀ l', l' ≠ .t o → G.buf l' = h.buf l') →
      body k G = store (.t o) (t.cols * t.rows * t.slices.length + k) p[k] G) :
    ∃ h', (do putSize (.t o) ⟨t.cols, t.rows, t.slices.length + 1⟩
              memrealloc (.t o) (t.cols * t.rows * (t.slices.length + 1))
              forN p.length body : M R Unit) h = .ok ((), h') ∧ TUpd h h' o ⟨t.cols, t.rows, t.slices ++ [p]⟩ := by
  obtain ⟨h', e, u⟩ := appendCells_run (.t o) ⟨t.cols, t.rows, t.slices.length + 1⟩ p.length
    (t.cols * t.rows * (t.slices.length + 1)) body p h rfl (by rw [r.len, hp, Nat.mul_succ])
    (fun k hk G hG _ => by
      have hq := r.len
      refine (step k hk G hG).trans ?_
      exact congrArg (fun n => store (.t o) (n + k) p[k] G) hq.symm)
  refine ⟨h', e, ?_, ?_⟩
  · have h2 : h.buf (.t o) ++ p = (t.slices ++ [p]).flatten := by rw [r.buf, List.flatten_append]; simp
    rw [h2] at u
    simpa using u
  · intro x hx
    rcases List.mem_append.mp hx with hx | hx
    · exact r.good x hx
    · rw [List.mem_singleton.mp hx]; exact hp

theorem z_slice_add_run {h : Heap R} {o : Nat} {t : Stack R} (r : TRep h o t) (p : List R) :
    ∃ h', z_slice_add o p h = .ok ((), h') ∧ TUpd h h' o (t.add p) := by
  unfold z_slice_add Stack.add
  by_cases hp : p.length = 0
  · rw [if_pos hp, if_neg (by rw [List.length_eq_zero_iff] at hp; simp [hp])]
    exact ⟨h, rfl, TUpd.refl r⟩
  rw [if_neg hp, bind_ok (size_run o h), r.size]
  dsimp only
  have hne : p ≠ [] := fun e => hp (by simp [e])
  by_cases hl : t.cols * t.rows = p.length
  · rw [if_pos hl, if_pos ⟨hne, hl.symm⟩]
    refine add_slice r p hl.symm _ fun k hk G _ => ?_
    rw [List.getElem?_eq_getElem hk]
    rfl
  · rw [if_neg hl, if_neg (fun e => hl e.2.symm)]
    exact ⟨h, rfl, TUpd.refl r⟩

theorem z_slice_add_vec_run {h : Heap R} (w : h.WF) {o : Nat} {t : Stack R} (r : TRep h o t) (v : Nat) :
    ∃ h', z_slice_add_mlpp_vector o (some v) h = .ok ((), h') ∧ TUpd h h' o (t.add (h.vec v)) := by
  unfold z_slice_add_mlpp_vector Stack.add
  dsimp only
  rw [bind_ok (Vec.size_run w v)]
  by_cases hp : (h.vec v).length = 0
  · rw [if_pos hp, if_neg (by rw [List.length_eq_zero_iff] at hp; simp [hp])]
    exact ⟨h, rfl, TUpd.refl r⟩
  rw [if_neg hp, bind_ok (size_run o h), r.size]
  dsimp only
  have hne : h.vec v ≠ [] := fun e => hp (by simp [e])
  by_cases hl : t.cols * t.rows = (h.vec v).length
  · rw [if_pos hl, if_pos ⟨hne, hl.symm⟩]
    refine add_slice r (h.vec v) hl.symm _ fun k hk G hG => ?_
    have : (G.buf (.v v))[k]? = some (h.vec v)[k] := by
      rw [hG (.v v) nofun]; exact List.getElem?_eq_getElem (l := h.vec v) hk
    rw [bind_ok (load_ok this)]
    rfl
  · rw [if_neg hl, if_neg (fun e => hl e.2.symm)]
    exact ⟨h, rfl, TUpd.refl r⟩

theorem mat_count {h : Heap R} (w : h.WF) (m : Nat) : (h.size (.m m)).count = (h.buf (.m m)).length := (w.len _).symm
theorem mat_len {h : Heap R} (w : h.WF) (m : Nat) : (h.buf (.m m)).length = (h.size (.m m)).x * (h.size (.m m)).y := by
  rw [w.len]; unfold Size.count; rw [w.mat, Nat.mul_one]

theorem z_slice_add_mat_run {h : Heap R} (w : h.WF) {o : Nat} {t : Stack R} (r : TRep h o t) (m : Nat) :
    ∃ h', z_slice_add_mlpp_matrix o (some m) h = .ok ((), h') ∧
      TUpd h h' o (if (h.size (.m m)).x = t.cols ∧ (h.size (.m m)).y = t.rows then t.add (h.buf (.m m)) else t) := by
  unfold z_slice_add_mlpp_matrix Stack.add
  dsimp only
  rw [bind_ok (Mat.size_run m h), mat_count w]
  by_cases hp : (h.buf (.m m)).length = 0
  · rw [if_pos hp]
    refine ⟨h, rfl, ?_⟩
    rw [List.length_eq_zero_iff] at hp
    rw [if_neg (c := h.buf (.m m) ≠ [] ∧ _) (fun e => e.1 hp), ite_self]
    exact TUpd.refl r
  rw [if_neg hp, bind_ok (size_run o h), r.size]
  dsimp only
  have hne : h.buf (.m m) ≠ [] := fun e => hp (by simp [e])
  by_cases hl : t.cols = (h.size (.m m)).x ∧ t.rows = (h.size (.m m)).y
  · have hl' : (h.buf (.m m)).length = t.cols * t.rows := by rw [mat_len w, hl.1, hl.2]
    rw [if_pos hl, if_pos ⟨hl.1.symm, hl.2.symm⟩, if_pos ⟨hne, hl'⟩]
    refine add_slice r (h.buf (.m m)) hl' _ fun k hk G hG => ?_
    have : (G.buf (.m m))[k]? = some (h.buf (.m m))[k] := by
      rw [hG (.m m) nofun]; exact List.getElem?_eq_getElem hk
    rw [bind_ok (load_ok this)]
    rfl
  · rw [if_neg hl, if_neg (fun e => hl ⟨e.1.symm, e.2.symm⟩)]
    exact ⟨h, rfl, TUpd.refl r⟩

theorem z_slice_remove_run {h : Heap R} {o : Nat} {t : Stack R} (r : TRep h o t) {k : Nat} (hk : k < t.slices.length) :
    ∃ h', z_slice_remove o (k : Int) h = .ok ((), h') ∧ TUpd h h' o ⟨t.cols, t.rows, t.slices.eraseIdx k⟩ := by
  have g : Stack.Good (⟨t.cols, t.rows, t.slices.eraseIdx k⟩ : Stack R) :=
    fun x hx => r.good x (List.mem_of_mem_eraseIdx hx)
  have hlen : (t.slices.eraseIdx k).length = t.slices.length - 1 := by rw [List.length_eraseIdx, if_pos hk]
  have gfl := flatten_length g
  dsimp only at gfl
  rw [hlen] at gfl
  unfold z_slice_remove
  rw [bind_ok (size_run o h), r.size]
  dsimp only
  rw [if_pos (idxOk_nat hk), bind_ok (putSize_run _ _ _), Int.toNat_natCast]
  have G := r.good
  unfold Stack.Good at G
  generalize t.cols * t.rows = c at *
  by_cases h0 : c * (t.slices.length - 1) = 0
  · rw [if_pos h0, memfree_run]
    refine ⟨_, rfl, ?_, g⟩
    dsimp only
    have h2 : (t.slices.eraseIdx k).flatten = [] := List.length_eq_zero_iff.mp (by omega)
    rw [h2, hlen]
    exact updated_sized h (.t o) _ [] h.clock
  · rw [if_neg h0]
    generalize hH : h.setSize (.t o) ⟨t.cols, t.rows, t.slices.length - 1⟩ = H
    have hb : H.buf (.t o) = t.slices.flatten := by subst hH; simpa using r.buf
    have hfl := flatten_length G
    have hkc := row_bound (c := c) hk
    have hn : c * (t.slices.length - 1) = c * t.slices.length - c := by rw [Nat.mul_sub, Nat.mul_one]
    have hck : c * k = k * c := Nat.mul_comm _ _
    rw [hck]
    have hxs : (t.slices.flatten.drop ((k + 1) * c)).length = c * (t.slices.length - 1) - k * c := by
      rw [List.length_drop, hfl, Nat.succ_mul, hn]; omega
    rw [bind_ok (storeLoop_run (.t o) (k * c) _ (k * c) _ (t.slices.flatten.drop ((k + 1) * c)) H hxs
      (by rw [hb, hfl, hn]; omega) ?_)]
    · rw [memrealloc_run, setBuf_buf_same, hb]
      have : growTo (overwrite t.slices.flatten (k * c) (t.slices.flatten.drop ((k + 1) * c)))
          (c * (t.slices.length - 1)) (H.junk H.clock) = (t.slices.eraseIdx k).flatten := by
        rw [growTo_le _ _ (by rw [length_overwrite _ _ _ (by rw [hxs, hfl, hn]; omega), hfl, hn]; omega)]
        unfold overwrite
        rw [hxs, List.eraseIdx_eq_take_drop_succ, List.flatten_append, ← flatten_take G,
          ← flatten_drop G, ← List.append_assoc, List.take_left']
        rw [List.length_append, List.length_take, hxs, hfl, hn]
        omega
      simp only [setBuf_junk, setBuf_clock, setBuf_setBuf]
      rw [this]
      subst hH
      refine ⟨_, rfl, ?_, g⟩
      dsimp only
      rw [hlen]
      exact updated_sized h (.t o) _ _ _
    · intro j hj
      have : (overwrite (H.buf (.t o)) (k * c) ((t.slices.flatten.drop ((k + 1) * c)).take j))[k * c + j + c]?
          = some ((t.slices.flatten.drop ((k + 1) * c))[j]'(by omega)) := by
        have lt : ((t.slices.flatten.drop ((k + 1) * c)).take j).length = j := by rw [List.length_take]; omega
        rw [overwrite_getElem? _ _ _ (by rw [lt, hb, hfl]; omega), lt, if_neg (by omega), if_neg ?_, hb,
          List.getElem_drop, ← List.getElem?_eq_getElem]
        · congr 1; rw [Nat.succ_mul]; omega
        · have : 0 < c := by
            rcases Nat.eq_zero_or_pos c with h | h
            · rw [h] at h0; simp at h0
            · exact h
          omega
      rw [bind_ok (load_ok (by rw [setBuf_buf_same]; exact this))]

/-- Removing the first slice by moving the last one into its place. -/
theorem z_slice_remove_unordered_first {h : Heap R} {o : Nat} {t : Stack R} (r : TRep h o t) (hk : 0 < t.slices.length) :
    ∃ h', z_slice_remove_unordered o 0 h = .ok ((), h') ∧ TUpd h h' o ⟨t.cols, t.rows, Vec.rmUnordered t.slices 0⟩ := by
  have hlast : t.slices.getLast? = some (t.slices[t.slices.length - 1]'(by omega)) := by
    rw [List.getLast?_eq_getElem?, List.getElem?_eq_getElem (by omega)]
  have hl1 : (t.slices[t.slices.length - 1]'(by omega)).length = t.cols * t.rows := r.good _ (List.getElem_mem _)
  have hrm : Vec.rmUnordered t.slices 0 = (t.slices.set 0 (t.slices[t.slices.length - 1]'(by omega))).take (t.slices.length - 1) := by
    simp only [Vec.rmUnordered, hlast]; rw [List.dropLast_eq_take]; simp
  have g : Stack.Good (⟨t.cols, t.rows, Vec.rmUnordered t.slices 0⟩ : Stack R) := by
    intro x hx
    dsimp only at hx
    rw [hrm] at hx
    exact set_good r.good hl1 x (List.mem_of_mem_take hx)
  have hlen : (Vec.rmUnordered t.slices 0).length = t.slices.length - 1 := Vec.length_rmUnordered hk
  have gfl := flatten_length g
  dsimp only at gfl
  rw [hlen] at gfl
  unfold z_slice_remove_unordered
  rw [bind_ok (size_run o h), r.size]
  dsimp only
  rw [if_pos (show idxOk 0 t.slices.length = true from idxOk_nat (k := 0) hk), bind_ok (putSize_run _ _ _)]
  have G := r.good
  unfold Stack.Good at G
  generalize t.cols * t.rows = c at *
  by_cases h0 : c * (t.slices.length - 1) = 0
  · rw [if_pos h0, memfree_run]
    refine ⟨_, rfl, ?_, g⟩
    dsimp only
    have h2 : (Vec.rmUnordered t.slices 0).flatten = [] := List.length_eq_zero_iff.mp (by omega)
    rw [h2, hlen]
    exact updated_sized h (.t o) _ [] h.clock
  · rw [if_neg h0]
    generalize hH : h.setSize (.t o) ⟨t.cols, t.rows, t.slices.length - 1⟩ = H
    have hb : H.buf (.t o) = t.slices.flatten := by subst hH; simpa using r.buf
    have hfl := flatten_length G
    have hn : c * (t.slices.length - 1) = c * t.slices.length - c := by rw [Nat.mul_sub, Nat.mul_one]
    have hkc := row_bound (c := c) hk
    have hz : (0 : Int).toNat = 0 := rfl
    simp only [hz, Nat.zero_add, Nat.mul_zero, Nat.mul_one, Nat.sub_zero]
    rw [bind_ok (storeLoop_run (.t o) 0 c 0 _ (t.slices[t.slices.length - 1]'(by omega)) H hl1
        (by rw [hb, hfl]; omega) ?_), hb]
    · have hs := set_good (k := 0) G hl1
      have he : overwrite t.slices.flatten 0 (t.slices[t.slices.length - 1]'(by omega)) =
          (t.slices.set 0 (t.slices[t.slices.length - 1]'(by omega))).flatten := by
        have := overwrite_flatten G hk _ hl1
        rwa [Nat.zero_mul] at this
      rw [he, memrealloc_run, setBuf_buf_same]
      have : growTo (t.slices.set 0 (t.slices[t.slices.length - 1]'(by omega))).flatten (c * (t.slices.length - 1))
          (H.junk H.clock) = (Vec.rmUnordered t.slices 0).flatten := by
        rw [growTo_le _ _ (by rw [flatten_length hs, List.length_set, hn]; omega), hrm, Nat.mul_comm, flatten_take hs]
      simp only [setBuf_junk, setBuf_clock, setBuf_setBuf]
      rw [this]
      subst hH
      refine ⟨_, rfl, ?_, g⟩
      dsimp only
      rw [hlen]
      exact updated_sized h (.t o) _ _ _
    · intro j hj
      have lt : ((t.slices[t.slices.length - 1]'(by omega)).take j).length = j := by rw [List.length_take]; omega
      have e1 := flatten_get G (List.getElem?_eq_getElem (by omega : t.slices.length - 1 < t.slices.length)) hj
      have hc1 : (t.slices.length - 1) * c = c * (t.slices.length - 1) := Nat.mul_comm _ _
      have : (overwrite (H.buf (.t o)) 0 ((t.slices[t.slices.length - 1]'(by omega)).take j))[c * (t.slices.length - 1) + j]?
          = some ((t.slices[t.slices.length - 1]'(by omega))[j]'(by omega)) := by
        rw [overwrite_getElem? _ _ _ (by rw [lt, hb, hfl]; omega), lt, if_neg (by omega), if_neg ?_, hb, ← hc1, e1,
          List.getElem?_eq_getElem]
        have : 0 < c * (t.slices.length - 1) := Nat.pos_of_ne_zero h0
        omega
      rw [Nat.zero_add]
      rw [bind_ok (load_ok (by rw [setBuf_buf_same]; exact this))]

/-- For any other slice the first read is already outside the tensor. -/
theorem z_slice_remove_unordered_ub {h : Heap R} {o : Nat} {t : Stack R} (r : TRep h o t) {k : Nat}
    (hk : k < t.slices.length) (hk0 : 0 < k) (hc : 0 < t.cols * t.rows) :
    z_slice_remove_unordered o (k : Int) h = .ub := by
  unfold z_slice_remove_unordered
  rw [bind_ok (size_run o h), r.size]
  dsimp only
  rw [if_pos (idxOk_nat hk), bind_ok (putSize_run _ _ _), Int.toNat_natCast]
  have hl := r.len
  generalize t.cols * t.rows = c at *
  have hp : 0 < c * (t.slices.length - 1) := Nat.mul_pos hc (by omega)
  have hn : c * (t.slices.length - 1) = c * t.slices.length - c := by rw [Nat.mul_sub, Nat.mul_one]
  have hkc : c ≤ c * k := Nat.le_mul_of_pos_right _ hk0
  rw [if_neg (by omega), show c * (k + 1) - c * k = (c - 1) + 1 by rw [Nat.mul_succ]; omega]
  refine bind_ub ?_
  rw [loop_succ]
  refine bind_ub (bind_ub (load_ub ?_))
  rw [setSize_buf, hl]; omega

/-- The loop that exchanges two rows (or slices) cell by cell. -/
theorem swapLoop_run {h : Heap R} {L : Loc} {sl : List (List R)} {c : Nat} (hbuf : h.buf L = sl.flatten)
    (good : ∀ x ∈ sl, x.length = c) {a b : Nat} (ha : a < sl.length) (hb : b < sl.length) :
    (forN c fun i => do
        let v ← load L (a * c + i)
        let w ← load L (b * c + i)
        store L (a * c + i) w
        store L (b * c + i) v : M R Unit) h = .ok ((), h.setBuf L (swapSlices sl a b).flatten) := by
  obtain ⟨A, hA⟩ : ∃ A, sl[a]? = some A := ⟨_, List.getElem?_eq_getElem ha⟩
  obtain ⟨B, hB⟩ : ∃ B, sl[b]? = some B := ⟨_, List.getElem?_eq_getElem hb⟩
  have lA : A.length = c := good A (List.mem_of_getElem? hA)
  have lB : B.length = c := good B (List.mem_of_getElem? hB)
  have hsw : swapSlices sl a b = (sl.set a B).set b A := by
    simp [swapSlices, List.getD_eq_getElem?_getD, hA, hB]
  have hfl := flatten_length good
  by_cases hab : a = b
  · subst hab
    have hAB : A = B := by rw [hA] at hB; exact Option.some.inj hB
    subst hAB
    have : swapSlices sl a a = sl := by
      rw [hsw, List.set_set, ← (List.getElem?_eq_some_iff.mp hA).2, List.set_getElem_self]
    rw [this, ← hbuf, setBuf_self]
    refine forN_eq _ (fun _ => h) _ h rfl ?_
    intro j hj
    have e1 := flatten_get good hA hj
    rw [← hbuf, List.getElem?_eq_getElem (by omega : j < A.length)] at e1
    obtain ⟨hlt, e2⟩ := List.getElem?_eq_some_iff.mp e1
    rw [bind_ok (load_ok e1), bind_ok (load_ok e1), bind_ok (store_ok _ hlt), ← e2, List.set_getElem_self, setBuf_self,
      store_ok _ hlt, List.set_getElem_self, setBuf_self]
  let G : Nat → List (List R) := fun j => (sl.set a (B.take j ++ A.drop j)).set b (A.take j ++ B.drop j)
  have gA : ∀ j, j ≤ c → (B.take j ++ A.drop j).length = c := by intro j hj; simp; omega
  have gB : ∀ j, j ≤ c → (A.take j ++ B.drop j).length = c := by intro j hj; simp; omega
  have gG : ∀ j, j ≤ c → ∀ x ∈ G j, x.length = c := fun j hj => set_good (set_good good (gA j hj)) (gB j hj)
  have lens : ∀ j, (G j).length = sl.length := by intro j; simp [G]
  have key := forN_eq c (fun j => h.setBuf L (G j).flatten) (fun i => do
        let v ← load L (a * c + i)
        let w ← load L (b * c + i)
        store L (a * c + i) w
        store L (b * c + i) v) h ?_ ?_
  · rw [key]
    have : G c = swapSlices sl a b := by
      rw [hsw]
      simp only [G]
      rw [List.take_of_length_le (by omega), List.drop_of_length_le (by omega), List.take_of_length_le (by omega),
        List.drop_of_length_le (by omega)]
      simp
    rw [this]
  · have : G 0 = sl := by
      simp only [G, List.take_zero, List.drop_zero, List.nil_append]
      rw [← (List.getElem?_eq_some_iff.mp hA).2, List.set_getElem_self, ← (List.getElem?_eq_some_iff.mp hB).2,
        List.set_getElem_self]
    rw [this, ← hbuf, setBuf_self]
  · intro j hj
    have hGb : (G j)[b]? = some (A.take j ++ B.drop j) := by simp [G, hb]
    have hGa : (G j)[a]? = some (B.take j ++ A.drop j) := by
      simp only [G]; rw [List.getElem?_set, if_neg (Ne.symm hab)]; simp [ha]
    have e1 : (G j).flatten[a * c + j]? = some (A[j]'(by omega)) := by
      rw [flatten_get (gG j (by omega)) hGa hj, List.getElem?_append_right (by simp)]
      simp only [List.length_take, List.getElem?_drop]
      rw [show j + (j - Min.min j B.length) = j by omega]
      exact List.getElem?_eq_getElem _
    have e2 : (G j).flatten[b * c + j]? = some (B[j]'(by omega)) := by
      rw [flatten_get (gG j (by omega)) hGb hj, List.getElem?_append_right (by simp)]
      simp only [List.length_take, List.getElem?_drop]
      rw [show j + (j - Min.min j A.length) = j by omega]
      exact List.getElem?_eq_getElem _
    have hlen : (G j).flatten.length = c * sl.length := by rw [flatten_length (gG j (by omega)), lens]
    have i1 := idx_bound ha hj
    have i2 := idx_bound hb hj
    rw [bind_ok (load_ok (by rw [setBuf_buf_same]; exact e1)), bind_ok (load_ok (by rw [setBuf_buf_same]; exact e2)),
      bind_ok (store_ok _ (by rw [setBuf_buf_same]; omega)),
      store_ok _ (by rw [setBuf_buf_same, setBuf_buf_same, List.length_set]; omega)]
    simp only [setBuf_buf_same, setBuf_setBuf]
    rw [flatten_set (gG j (by omega)) hGa hj, set_take_append_drop (by omega) (by omega)]
    rw [flatten_set (row := A.take j ++ B.drop j) (c := c) (set_good (gG j (by omega)) (gA (j + 1) (by omega)))
      (by rw [List.getElem?_set, if_neg hab]; exact hGb) hj, set_take_append_drop (by omega) (by omega)]
    congr 4
    simp only [G]
    rw [List.set_comm _ _ (Ne.symm hab), List.set_set, List.set_set]

theorem z_slice_swap_run {h : Heap R} {o : Nat} {t : Stack R} (r : TRep h o t) {a b : Nat} (ha : a < t.slices.length)
    (hb : b < t.slices.length) :
    ∃ h', z_slice_swap o (a : Int) (b : Int) h = .ok ((), h') ∧
      TUpd h h' o ⟨t.cols, t.rows, swapSlices t.slices a b⟩ := by
  unfold z_slice_swap
  rw [bind_ok (size_run o h), r.size]
  dsimp only
  rw [if_pos (idxOk_nat ha), if_pos (idxOk_nat hb), Int.toNat_natCast, Int.toNat_natCast, Nat.mul_comm _ a,
    Nat.mul_comm _ b]
  refine ⟨_, swapLoop_run r.buf r.good ha hb, r.setBuf _ _ rfl (by simp [swapSlices]) ?_⟩
  unfold swapSlices
  rw [List.getD_eq_getElem?_getD, List.getD_eq_getElem?_getD, List.getElem?_eq_getElem ha, List.getElem?_eq_getElem hb]
  exact set_good (set_good r.good (r.good _ (List.getElem_mem _))) (r.good _ (List.getElem_mem _))

end Ten
end Verif
