import Verif.Lemmas.Rows

/-! # The remaining row methods of `MLPPMatrix` -/

namespace Verif
open Spec
variable {R : Type}

theorem Table.Good.pos {t : Table R} (g : Table.Good t) {k : Nat} (hk : k < t.rows.length) : 0 < t.width := by
  rcases Nat.eq_zero_or_pos t.width with h | h
  · rw [g.zero h] at hk; simp at hk
  · exact h

theorem updated_sized (h : Heap R) (l : Loc) (s : Size) (d : List R) (c : Nat) :
    Updated h { (h.setSize l s).setBuf l d with clock := c } l s d where
  buf := by simp
  size := by simp
  bufFrame := by intro l' hl; simp [setBuf_buf, hl]
  sizeFrame := by intro l' hl; simp [setSize_size, hl]
  next := rfl
  junk := rfl

theorem valid_cases {p : Int} {n : Nat} (hp : Valid p n) : ∃ k : Nat, p = (k : Int) ∧ k < n ∧ p.toNat = k :=
  ⟨p.toNat, by have := hp.1; omega, by have := hp.1; have := hp.2; omega, rfl⟩

theorem idxOk_false {p : Int} {n : Nat} (hp : ¬ Valid p n) : idxOk p n = false := by
  unfold Valid at hp; simp only [idxOk]; exact decide_eq_false hp

namespace Mat

theorem row_remove_run {h : Heap R} {o : Nat} {t : Table R} (r : MRep h o t) {k : Nat} (hk : k < t.rows.length) :
    ∃ h', row_remove o (k : Int) h = .ok ((), h') ∧ MUpd h h' o ⟨t.width, t.rows.eraseIdx k⟩ := by
  have hw := r.good.pos hk
  have g : Table.Good (⟨t.width, t.rows.eraseIdx k⟩ : Table R) :=
    ⟨fun x hx => r.good.len x (List.mem_of_mem_eraseIdx hx), fun h0 => absurd h0 (by dsimp only; omega)⟩
  have hlen : (t.rows.eraseIdx k).length = t.rows.length - 1 := by rw [List.length_eraseIdx, if_pos hk]
  unfold row_remove
  rw [bind_ok (Mat.size_run o h), r.size]
  dsimp only
  rw [if_pos (idxOk_nat hk), bind_ok (putSize_run _ _ _), Int.toNat_natCast]
  by_cases h0 : t.width * (t.rows.length - 1) = 0
  · rw [if_pos h0, memfree_run]
    have h1 : t.rows.length = 1 := by
      rcases Nat.mul_eq_zero.mp h0 with h | h <;> omega
    have h2 : t.rows.eraseIdx k = [] := List.length_eq_zero_iff.mp (by omega)
    rw [h2] at g ⊢
    refine ⟨_, rfl, ?_, g⟩
    rw [h1]
    exact updated_sized h (.m o) ⟨t.width, 0, 1⟩ [] h.clock
  · rw [if_neg h0]
    generalize hH : h.setSize (.m o) ⟨t.width, t.rows.length - 1, 1⟩ = H
    have hb : H.buf (.m o) = t.rows.flatten := by subst hH; simpa using r.buf
    have hfl := flatten_length r.good.len
    have hkc := row_bound (c := t.width) hk
    have hn : t.width * (t.rows.length - 1) = t.width * t.rows.length - t.width := by
      rw [Nat.mul_sub, Nat.mul_one]
    have hxs : (t.rows.flatten.drop ((k + 1) * t.width)).length = t.width * (t.rows.length - 1) - k * t.width := by
      rw [List.length_drop, hfl, Nat.succ_mul, hn]; omega
    rw [bind_ok (storeLoop_run (.m o) (k * t.width) _ (k * t.width) _ (t.rows.flatten.drop ((k + 1) * t.width)) H hxs
      (by rw [hb, hfl, hn]; omega) ?_)]
    · rw [memrealloc_run, setBuf_buf_same, hb]
      have : growTo (overwrite t.rows.flatten (k * t.width) (t.rows.flatten.drop ((k + 1) * t.width)))
          (t.width * (t.rows.length - 1)) (H.junk H.clock) = (t.rows.eraseIdx k).flatten := by
        rw [growTo_le _ _ (by rw [length_overwrite _ _ _ (by rw [hxs, hfl, hn]; omega), hfl, hn]; omega)]
        unfold overwrite
        rw [hxs, List.eraseIdx_eq_take_drop_succ, List.flatten_append, ← flatten_take r.good.len,
          ← flatten_drop r.good.len, ← List.append_assoc, List.take_left']
        rw [List.length_append, List.length_take, hxs, hfl, hn]
        omega
      simp only [setBuf_junk, setBuf_clock, setBuf_setBuf]
      rw [this]
      subst hH
      refine ⟨_, rfl, ?_, g⟩
      dsimp only
      rw [hlen]
      exact updated_sized h (.m o) _ _ _
    · intro j hj
      have : (overwrite (H.buf (.m o)) (k * t.width) ((t.rows.flatten.drop ((k + 1) * t.width)).take j))[k * t.width + j + t.width]?
          = some ((t.rows.flatten.drop ((k + 1) * t.width))[j]'(by omega)) := by
        have lt : ((t.rows.flatten.drop ((k + 1) * t.width)).take j).length = j := by rw [List.length_take]; omega
        rw [overwrite_getElem? _ _ _ (by rw [lt, hb, hfl]; omega), lt, if_neg (by omega), if_neg (by omega), hb,
          List.getElem_drop, ← List.getElem?_eq_getElem]
        congr 1; rw [Nat.succ_mul]; omega
      rw [bind_ok (load_ok (by rw [setBuf_buf_same]; exact this))]

theorem row_remove_unordered_run {h : Heap R} {o : Nat} {t : Table R} (r : MRep h o t) {k : Nat} (hk : k < t.rows.length) :
    ∃ h', row_remove_unordered o (k : Int) h = .ok ((), h') ∧ MUpd h h' o ⟨t.width, Vec.rmUnordered t.rows k⟩ := by
  have hw := r.good.pos hk
  have hlast : t.rows.getLast? = some (t.rows[t.rows.length - 1]'(by omega)) := by
    rw [List.getLast?_eq_getElem?, List.getElem?_eq_getElem (by omega)]
  have hl1 : (t.rows[t.rows.length - 1]'(by omega)).length = t.width := r.good.len _ (List.getElem_mem _)
  have hrm : Vec.rmUnordered t.rows k = (t.rows.set k (t.rows[t.rows.length - 1]'(by omega))).take (t.rows.length - 1) := by
    simp only [Vec.rmUnordered, hlast]; rw [List.dropLast_eq_take]; simp
  have g : Table.Good (⟨t.width, Vec.rmUnordered t.rows k⟩ : Table R) := by
    refine ⟨fun x hx => ?_, fun h0 => absurd h0 (by dsimp only; omega)⟩
    dsimp only at hx
    rw [hrm] at hx
    exact set_good r.good.len hl1 x (List.mem_of_mem_take hx)
  have hlen : (Vec.rmUnordered t.rows k).length = t.rows.length - 1 := Vec.length_rmUnordered hk
  unfold row_remove_unordered
  rw [bind_ok (Mat.size_run o h), r.size]
  dsimp only
  rw [if_pos (idxOk_nat hk), bind_ok (putSize_run _ _ _), Int.toNat_natCast]
  by_cases h0 : t.width * (t.rows.length - 1) = 0
  · rw [if_pos h0, memfree_run]
    have h1 : t.rows.length = 1 := by
      rcases Nat.mul_eq_zero.mp h0 with h | h <;> omega
    have h2 : Vec.rmUnordered t.rows k = [] := List.length_eq_zero_iff.mp (by omega)
    rw [h2] at g ⊢
    refine ⟨_, rfl, ?_, g⟩
    rw [h1]
    exact updated_sized h (.m o) ⟨t.width, 0, 1⟩ [] h.clock
  · rw [if_neg h0]
    generalize hH : h.setSize (.m o) ⟨t.width, t.rows.length - 1, 1⟩ = H
    have hb : H.buf (.m o) = t.rows.flatten := by subst hH; simpa using r.buf
    have hfl := flatten_length r.good.len
    have hkc := row_bound (c := t.width) hk
    have hn : t.width * (t.rows.length - 1) = t.width * t.rows.length - t.width := by
      rw [Nat.mul_sub, Nat.mul_one]
    have fin : ∀ d : List R, d = (t.rows.set k (t.rows[t.rows.length - 1]'(by omega))).flatten →
        ∃ h', memrealloc (.m o) (t.width * (t.rows.length - 1)) (H.setBuf (.m o) d) = .ok ((), h') ∧
          MUpd h h' o ⟨t.width, Vec.rmUnordered t.rows k⟩ := by
      intro d hd
      rw [memrealloc_run, setBuf_buf_same]
      have hs := set_good (k := k) r.good.len hl1
      have : growTo d (t.width * (t.rows.length - 1)) (H.junk H.clock) = (Vec.rmUnordered t.rows k).flatten := by
        rw [hd, growTo_le _ _ (by rw [flatten_length hs, List.length_set, hn]; omega), hrm, Nat.mul_comm,
          flatten_take hs]
      simp only [setBuf_junk, setBuf_clock, setBuf_setBuf]
      rw [this]
      subst hH
      refine ⟨_, rfl, ?_, g⟩
      dsimp only
      rw [hlen]
      exact updated_sized h (.m o) _ _ _
    by_cases he : k * t.width = (t.rows.length - 1) * t.width
    · rw [if_pos he]
      have : k = t.rows.length - 1 := Nat.eq_of_mul_eq_mul_right hw he
      have := fin t.rows.flatten (by subst this; rw [List.set_getElem_self])
      rw [← hb, setBuf_self] at this
      exact this
    · rw [if_neg he]
      have hlt : k < t.rows.length - 1 := by
        rcases Nat.lt_or_ge k (t.rows.length - 1) with h | h
        · exact h
        · exact absurd (by rw [show k = t.rows.length - 1 by omega]) he
      have hb2 : k * t.width + t.width ≤ (t.rows.length - 1) * t.width := by
        rw [← Nat.succ_mul]; exact Nat.mul_le_mul_right _ hlt
      rw [bind_ok (storeForN_run (.m o) _ (k * t.width) _ (t.rows[t.rows.length - 1]'(by omega)) H hl1
        (by rw [hb, hfl]; omega) ?_), hb]
      · exact fin _ (overwrite_flatten r.good.len hk _ hl1)
      · intro j hj
        have lt : ((t.rows[t.rows.length - 1]'(by omega)).take j).length = j := by rw [List.length_take]; omega
        have e1 := flatten_get r.good.len (List.getElem?_eq_getElem (by omega : t.rows.length - 1 < t.rows.length)) hj
        have : (overwrite (H.buf (.m o)) (k * t.width) ((t.rows[t.rows.length - 1]'(by omega)).take j))[(t.rows.length - 1) * t.width + j]?
            = some ((t.rows[t.rows.length - 1]'(by omega))[j]'(by omega)) := by
          rw [overwrite_getElem? _ _ _ (by rw [lt, hb, hfl]; omega), lt, if_neg (by omega), if_neg (by omega), hb, e1,
            List.getElem?_eq_getElem]
        rw [bind_ok (load_ok (by rw [setBuf_buf_same]; exact this))]

theorem row_get_vector_run {h : Heap R} {o : Nat} {t : Table R} (r : MRep h o t) {k : Nat} {row : List R}
    (hk : t.rows[k]? = some row) : row_get_vector o (k : Int) h = .ok (row, h) := by
  obtain ⟨hlt, hrow⟩ := List.getElem?_eq_some_iff.mp hk
  have hl : row.length = t.width := r.good.len row (by rw [← hrow]; exact List.getElem_mem hlt)
  unfold row_get_vector
  rw [bind_ok (Mat.size_run o h), r.size]
  dsimp only
  rw [if_pos (idxOk_nat hlt), Int.toNat_natCast, foldN_read t.width (fun i => row.take i) _ [] h (by simp)]
  · rw [List.take_of_length_le (by omega)]
  · intro i hi
    have := flatten_get r.good.len hk hi
    rw [← r.buf, List.getElem?_eq_getElem (by omega : i < row.length)] at this
    rw [bind_ok (load_ok this), List.take_succ_eq_append_getElem (by omega)]; rfl

theorem rowCopy_run {h : Heap R} {o v : Nat} {t : Table R} (r : MRep h o t) {k : Nat} {row : List R}
    (hk : t.rows[k]? = some row) (hv : (h.buf (.v v)).length = t.width) :
    rowCopy o v k t.width h = .ok ((), h.setBuf (.v v) row) := by
  obtain ⟨hlt, hrow⟩ := List.getElem?_eq_some_iff.mp hk
  have hl : row.length = t.width := r.good.len row (by rw [← hrow]; exact List.getElem_mem hlt)
  unfold rowCopy
  rw [storeForN_run (.v v) t.width 0 _ row h hl (by omega)]
  · have : overwrite (h.buf (.v v)) 0 row = row := by
      unfold overwrite; rw [List.drop_of_length_le (by omega)]; simp
    rw [this]
  · intro j hj
    have := flatten_get r.good.len hk hj
    rw [← r.buf, List.getElem?_eq_getElem (by omega : j < row.length)] at this
    rw [bind_ok (load_ok (by rw [setBuf_buf_ne (l := .v v) (l' := .m o) _ _ nofun]; exact this)), Nat.zero_add]

theorem row_get_into_run {h : Heap R} (w : h.WF) {o v : Nat} {t : Table R} (r : MRep h o t) {k : Nat} {row : List R}
    (hk : t.rows[k]? = some row) :
    ∃ h', row_get_into_mlpp_vector o (k : Int) (some v) h = .ok ((), h') ∧ VUpd h h' v row := by
  obtain ⟨hlt, hrow⟩ := List.getElem?_eq_some_iff.mp hk
  have hl : row.length = t.width := r.good.len row (by rw [← hrow]; exact List.getElem_mem hlt)
  unfold row_get_into_mlpp_vector
  dsimp only
  rw [bind_ok (Mat.size_run o h), r.size]
  dsimp only
  rw [if_pos (idxOk_nat hlt), Int.toNat_natCast]
  obtain ⟨d, c, e, hd, _⟩ := ensureSize_run (.v v) ⟨t.width, 1, 1⟩ h (w.len _)
  have r' : MRep { (h.setSize (.v v) ⟨t.width, 1, 1⟩).setBuf (.v v) d with clock := c } o t :=
    ⟨by simpa [setSize_size] using r.size, by simpa [setBuf_buf] using r.buf, r.good⟩
  rw [bind_ok e, rowCopy_run r' hk (by simpa [Size.count] using hd)]
  refine ⟨_, rfl, ?_⟩
  unfold VUpd
  rw [hl]
  refine ⟨by simp, by simp, ?_, ?_, rfl, rfl⟩
  · intro l hl; simp [setBuf_buf, hl]
  · intro l hl; simp [setSize_size, hl]

theorem row_store_run {h : Heap R} {o : Nat} {t : Table R} (r : MRep h o t) {k : Nat} (hk : k < t.rows.length)
    (p : List R) (hp : p.length = t.width) (body : Nat → M R Unit)
    (step : ∀ j (hj : j < t.width) (G : Heap R), (∀ l', l' ≠ .m o → G.buf l' = h.buf l') →
      body j G = store (.m o) (k * t.width + j) (p[j]'(by omega)) G) :
    ∃ h', forN t.width body h = .ok ((), h') ∧ MUpd h h' o ⟨t.width, t.rows.set k p⟩ := by
  have hfl := flatten_length r.good.len
  have hkc := row_bound (c := t.width) hk
  refine ⟨_, storeForN_run (.m o) t.width (k * t.width) body p h hp (by rw [r.buf, hfl]; omega)
    (fun j hj => step j hj _ fun l' hl' => setBuf_buf_ne _ _ hl'), ?_⟩
  rw [r.buf, overwrite_flatten r.good.len hk p hp]
  exact r.setBuf _ _ rfl (by simp) (set_good r.good.len hp)

theorem row_set_vector_run {h : Heap R} {o : Nat} {t : Table R} (r : MRep h o t) {k : Nat} (hk : k < t.rows.length)
    (p : List R) (hp : p.length = t.width) :
    ∃ h', row_set_vector o (k : Int) p h = .ok ((), h') ∧ MUpd h h' o ⟨t.width, t.rows.set k p⟩ := by
  unfold row_set_vector
  rw [bind_ok (Mat.size_run o h), r.size]
  dsimp only
  rw [if_pos hp, if_pos (idxOk_nat hk), Int.toNat_natCast]
  refine row_store_run r hk p hp _ fun j hj G _ => ?_
  rw [List.getElem?_eq_getElem (by omega : j < p.length)]

theorem row_set_mlpp_vector_run {h : Heap R} (w : h.WF) {o v : Nat} {t : Table R} (r : MRep h o t) {k : Nat}
    (hk : k < t.rows.length) (hp : (h.vec v).length = t.width) :
    ∃ h', row_set_mlpp_vector o (k : Int) (some v) h = .ok ((), h') ∧ MUpd h h' o ⟨t.width, t.rows.set k (h.vec v)⟩ := by
  unfold row_set_mlpp_vector
  dsimp only
  rw [bind_ok (Vec.size_run w v), bind_ok (Mat.size_run o h), r.size]
  dsimp only
  rw [if_pos hp, if_pos (idxOk_nat hk), Int.toNat_natCast]
  refine row_store_run r hk (h.vec v) hp _ fun j hj G hG => ?_
  have : (G.buf (.v v))[j]? = some ((h.vec v)[j]'(by omega)) := by
    rw [hG (.v v) nofun]; exact List.getElem?_eq_getElem (l := h.vec v) (by omega)
  rw [bind_ok (load_ok this)]

theorem _root_.Verif.flatten_set {rows : List (List R)} {c : Nat} (hr : ∀ r ∈ rows, r.length = c) {k j : Nat} {row : List R}
    (hk : rows[k]? = some row) (hj : j < c) (v : R) :
    rows.flatten.set (k * c + j) v = (rows.set k (row.set j v)).flatten := by
  induction rows generalizing k with
  | nil => simp at hk
  | cons r rs ih =>
    have h1 := hr r (by simp)
    cases k with
    | zero =>
      simp only [List.getElem?_cons_zero, Option.some.injEq] at hk
      subst hk
      rw [List.flatten_cons, List.set_cons_zero, List.flatten_cons, List.set_append_left _ _ (by omega)]
      simp
    | succ k =>
      rw [List.getElem?_cons_succ] at hk
      rw [List.flatten_cons, List.set_cons_succ, List.flatten_cons, List.set_append_right _ _ (by rw [h1, Nat.succ_mul]; omega),
        ← ih (fun x hx => hr x (by simp [hx])) hk, h1]
      congr 2; rw [Nat.succ_mul]; omega

theorem row_swap_run {h : Heap R} {o : Nat} {t : Table R} (r : MRep h o t) {a b : Nat} (ha : a < t.rows.length)
    (hb : b < t.rows.length) :
    ∃ h', row_swap o (a : Int) (b : Int) h = .ok ((), h') ∧ MUpd h h' o ⟨t.width, swapRows t.rows a b⟩ := by
  obtain ⟨A, hA⟩ : ∃ A, t.rows[a]? = some A := ⟨_, List.getElem?_eq_getElem ha⟩
  obtain ⟨B, hB⟩ : ∃ B, t.rows[b]? = some B := ⟨_, List.getElem?_eq_getElem hb⟩
  have lA : A.length = t.width := r.good.len A (List.mem_of_getElem? hA)
  have lB : B.length = t.width := r.good.len B (List.mem_of_getElem? hB)
  have hsw : swapRows t.rows a b = (t.rows.set a B).set b A := by
    simp [swapRows, List.getD_eq_getElem?_getD, hA, hB]
  have hfl := flatten_length r.good.len
  unfold row_swap
  rw [bind_ok (Mat.size_run o h), r.size]
  dsimp only
  rw [if_pos (idxOk_nat ha), if_pos (idxOk_nat hb), Int.toNat_natCast, Int.toNat_natCast]
  by_cases hab : a = b
  · subst hab
    have hAB : A = B := by rw [hA] at hB; exact Option.some.inj hB
    subst hAB
    refine ⟨h, forN_eq _ (fun _ => h) _ h rfl ?_, ?_⟩
    · intro j hj
      have e1 := flatten_get r.good.len hA hj
      rw [← r.buf, List.getElem?_eq_getElem (by omega : j < A.length)] at e1
      obtain ⟨hlt, e2⟩ := List.getElem?_eq_some_iff.mp e1
      rw [bind_ok (load_ok e1), bind_ok (load_ok e1), bind_ok (store_ok _ hlt), ← e2, List.set_getElem_self, setBuf_self,
        store_ok _ hlt, List.set_getElem_self, setBuf_self]
    · have : swapRows t.rows a a = t.rows := by
        rw [hsw, List.set_set, ← (List.getElem?_eq_some_iff.mp hA).2, List.set_getElem_self]
      rw [this]; exact MUpd.refl r
  let G : Nat → List (List R) := fun j => (t.rows.set a (B.take j ++ A.drop j)).set b (A.take j ++ B.drop j)
  have gA : ∀ j, j ≤ t.width → (B.take j ++ A.drop j).length = t.width := by intro j hj; simp; omega
  have gB : ∀ j, j ≤ t.width → (A.take j ++ B.drop j).length = t.width := by intro j hj; simp; omega
  have gG : ∀ j, j ≤ t.width → ∀ x ∈ G j, x.length = t.width := fun j hj =>
    set_good (set_good r.good.len (gA j hj)) (gB j hj)
  have lens : ∀ j, (G j).length = t.rows.length := by intro j; simp [G]
  have key := forN_eq t.width (fun j => h.setBuf (.m o) (G j).flatten) (fun i => do
        let v ← load (.m o) (a * t.width + i)
        let w ← load (.m o) (b * t.width + i)
        store (.m o) (a * t.width + i) w
        store (.m o) (b * t.width + i) v) h ?_ ?_
  · rw [key]
    refine ⟨_, rfl, ?_⟩
    have : G t.width = swapRows t.rows a b := by
      rw [hsw]
      simp only [G]
      rw [List.take_of_length_le (by omega), List.drop_of_length_le (by omega), List.take_of_length_le (by omega),
        List.drop_of_length_le (by omega)]
      simp
    rw [this]
    exact r.setBuf _ _ rfl (by rw [hsw]; simp) (by rw [← this]; exact gG _ (Nat.le_refl _))
  · have : G 0 = t.rows := by
      simp only [G, List.take_zero, List.drop_zero, List.nil_append]
      rw [← (List.getElem?_eq_some_iff.mp hA).2, List.set_getElem_self, ← (List.getElem?_eq_some_iff.mp hB).2,
        List.set_getElem_self]
    rw [this, ← r.buf, setBuf_self]
  · intro j hj
    have hGb : (G j)[b]? = some (A.take j ++ B.drop j) := by simp [G, hb]
    have hGa : (G j)[a]? = some (B.take j ++ A.drop j) := by
      simp only [G]; rw [List.getElem?_set, if_neg (Ne.symm hab)]; simp [ha]
    have e1 : (G j).flatten[a * t.width + j]? = some (A[j]'(by omega)) := by
      rw [flatten_get (gG j (by omega)) hGa hj, List.getElem?_append_right (by simp)]
      simp; grind
    have e2 : (G j).flatten[b * t.width + j]? = some (B[j]'(by omega)) := by
      rw [flatten_get (gG j (by omega)) hGb hj, List.getElem?_append_right (by simp)]
      simp; grind
    have hlen : (G j).flatten.length = t.width * t.rows.length := by rw [flatten_length (gG j (by omega)), lens]
    have i1 := idx_bound ha hj
    have i2 := idx_bound hb hj
    rw [bind_ok (load_ok (by rw [setBuf_buf_same]; exact e1)), bind_ok (load_ok (by rw [setBuf_buf_same]; exact e2)),
      bind_ok (store_ok _ (by rw [setBuf_buf_same]; omega)),
      store_ok _ (by rw [setBuf_buf_same, setBuf_buf_same, List.length_set]; omega)]
    simp only [setBuf_buf_same, setBuf_setBuf]
    rw [flatten_set (gG j (by omega)) hGa hj, set_take_append_drop (by omega) (by omega)]
    rw [flatten_set (row := A.take j ++ B.drop j) (c := t.width) (set_good (gG j (by omega)) (gA (j + 1) (by omega)))
      (by rw [List.getElem?_set, if_neg hab]; exact hGb) hj, set_take_append_drop (by omega) (by omega)]
    congr 4
    simp only [G]
    rw [List.set_comm _ _ (Ne.symm hab), List.set_set, List.set_set]

end Mat
end Verif
