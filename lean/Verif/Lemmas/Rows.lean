import Verif.Lemmas.VectorApi
import Verif.Lemmas.MatrixOps
import Verif.Model.MatrixApi

/-! # The row methods of `MLPPMatrix`, as operations on lists of rows -/

namespace Verif
open Spec
variable {R : Type}

/-! ## Writing a block of cells -/

/-- `b` with the cells from `a` on replaced by `xs`. -/
def overwrite (b : List R) (a : Nat) (xs : List R) : List R := b.take a ++ (xs ++ b.drop (a + xs.length))

@[simp] theorem overwrite_nil (b : List R) (a : Nat) : overwrite b a [] = b := by simp [overwrite]

theorem length_overwrite (b : List R) (a : Nat) (xs : List R) (h : a + xs.length ≤ b.length) :
    (overwrite b a xs).length = b.length := by
  simp only [overwrite, List.length_append, List.length_take, List.length_drop]; omega

theorem overwrite_getElem? (b : List R) (a : Nat) (xs : List R) (h : a + xs.length ≤ b.length) (k : Nat) :
    (overwrite b a xs)[k]? = if k < a then b[k]? else if k < a + xs.length then xs[k - a]? else b[k]? := by
  have ht : (b.take a).length = a := by simp; omega
  unfold overwrite
  rw [List.getElem?_append, ht]
  by_cases h1 : k < a
  · rw [if_pos h1, if_pos h1, List.getElem?_take, if_pos h1]
  · rw [if_neg h1, if_neg h1, List.getElem?_append]
    by_cases h2 : k < a + xs.length
    · rw [if_pos h2, if_pos (by omega)]
    · rw [if_neg h2, if_neg (by omega), List.getElem?_drop]; congr 1; omega

theorem overwrite_succ (b : List R) (a : Nat) (xs : List R) (h : a + xs.length ≤ b.length) (t : Nat) (ht : t < xs.length) :
    (overwrite b a (xs.take t)).set (a + t) xs[t] = overwrite b a (xs.take (t + 1)) := by
  have l1 : (xs.take t).length = t := by simp; omega
  have l2 : (xs.take (t + 1)).length = t + 1 := by simp; omega
  apply List.ext_getElem?
  intro k
  rw [List.getElem?_set, overwrite_getElem? _ _ _ (by omega), overwrite_getElem? _ _ _ (by omega),
    length_overwrite _ _ _ (by omega), l1, l2]
  by_cases h0 : a + t = k
  · subst h0
    rw [if_pos rfl, if_pos (by omega), if_neg (by omega), if_pos (by omega), Nat.add_sub_cancel_left,
      List.getElem?_take, if_pos (by omega), List.getElem?_eq_getElem ht]
  · rw [if_neg h0]
    by_cases h1 : k < a
    · rw [if_pos h1, if_pos h1]
    · rw [if_neg h1, if_neg h1]
      by_cases h2 : k < a + t
      · rw [if_pos h2, if_pos (by omega), List.getElem?_take, List.getElem?_take, if_pos (by omega), if_pos (by omega)]
      · rw [if_neg h2, if_neg (by omega)]

/-- A loop that computes values and stores them in consecutive cells. -/
theorem storeLoop_run (l : Loc) (lo n a : Nat) (body : Nat → M R Unit) (xs : List R) (h : Heap R) (hn : xs.length = n)
    (hb : a + n ≤ (h.buf l).length)
    (step : ∀ t (ht : t < n), body (lo + t) (h.setBuf l (overwrite (h.buf l) a (xs.take t))) =
      store l (a + t) (xs[t]'(by omega)) (h.setBuf l (overwrite (h.buf l) a (xs.take t)))) :
    loop lo n () (fun i _ => body i) h = .ok ((), h.setBuf l (overwrite (h.buf l) a xs)) := by
  have := loop_eq (fun _ => ()) (fun i => h.setBuf l (overwrite (h.buf l) a (xs.take (i - lo)))) (fun i _ => body i) n lo ()
    h rfl (by simp) (by
      intro i h1 h2
      obtain ⟨t, rfl⟩ : ∃ t, i = lo + t := ⟨i - lo, by omega⟩
      rw [Nat.add_sub_cancel_left, step t (by omega),
        store_ok _ (by rw [setBuf_buf_same, length_overwrite _ _ _ (by simp; omega)]; omega)]
      rw [setBuf_buf_same, setBuf_setBuf, overwrite_succ _ _ _ (by omega), show lo + t + 1 - lo = t + 1 by omega])
  rw [this, Nat.add_sub_cancel_left, List.take_of_length_le (by omega)]

theorem storeForN_run (l : Loc) (n a : Nat) (body : Nat → M R Unit) (xs : List R) (h : Heap R) (hn : xs.length = n)
    (hb : a + n ≤ (h.buf l).length)
    (step : ∀ t (ht : t < n), body t (h.setBuf l (overwrite (h.buf l) a (xs.take t))) =
      store l (a + t) (xs[t]'(by omega)) (h.setBuf l (overwrite (h.buf l) a (xs.take t)))) :
    forN n body h = .ok ((), h.setBuf l (overwrite (h.buf l) a xs)) :=
  storeLoop_run l 0 n a body xs h hn hb (fun t ht => by rw [Nat.zero_add]; exact step t ht)

/-- Growing an object and writing the new cells. -/
theorem appendCells_run (l : Loc) (s : Size) (n c : Nat) (body : Nat → M R Unit) (xs : List R) (h : Heap R)
    (hn : xs.length = n) (hc : c = (h.buf l).length + n)
    (step : ∀ t (ht : t < n) (G : Heap R), (∀ l', l' ≠ l → G.buf l' = h.buf l') → (∃ tl, G.buf l = h.buf l ++ tl) →
      body t G = store l ((h.buf l).length + t) (xs[t]'(by omega)) G) :
    ∃ h', (do putSize l s; memrealloc l c; forN n body : M R Unit) h = .ok ((), h') ∧
      Updated h h' l s (h.buf l ++ xs) := by
  subst hc
  rw [bind_ok (putSize_run _ _ _), bind_ok (memrealloc_run _ _ _)]
  simp only [setSize_buf, setSize_junk, setSize_clock]
  obtain ⟨tl, htl, hg⟩ : ∃ tl : List R, tl.length = n ∧
      growTo (h.buf l) ((h.buf l).length + n) (h.junk h.clock) = h.buf l ++ tl :=
    ⟨(List.range n).map (h.junk h.clock), by simp, by
      unfold growTo; rw [List.take_of_length_le (by omega), Nat.add_sub_cancel_left]⟩
  rw [hg]
  generalize hH : ({ (h.setSize l s).setBuf l (h.buf l ++ tl) with clock := h.clock + 1 } : Heap R) = H
  have hbuf : H.buf l = h.buf l ++ tl := by subst hH; simp
  rw [storeForN_run l n (h.buf l).length body xs H hn (by rw [hbuf]; simp [htl])]
  · refine ⟨_, rfl, ?_, ?_, ?_, ?_, ?_, ?_⟩
    · rw [setBuf_buf_same, hbuf]
      unfold overwrite
      rw [List.take_left', List.drop_eq_nil_of_le (by simp [htl, hn]), List.append_nil]
      rfl
    · subst hH; simp
    · intro l' hl; subst hH; simp [setBuf_buf, hl]
    · intro l' hl; subst hH; simp [setSize_size, hl]
    · subst hH; rfl
    · subst hH; rfl
  · intro t ht
    refine step t ht _ ?_ ?_
    · intro l' hl; subst hH; simp [setBuf_buf, hl]
    · rw [setBuf_buf_same, hbuf]
      refine ⟨xs.take t ++ tl.drop t, ?_⟩
      unfold overwrite
      rw [List.take_left', List.drop_append, List.drop_eq_nil_of_le (by omega), List.nil_append]
      · congr 3; simp; omega
      · rfl

/-! ## Lists of rows -/

theorem flatten_length {rows : List (List R)} {c : Nat} (hr : ∀ r ∈ rows, r.length = c) :
    rows.flatten.length = c * rows.length := by
  induction rows with
  | nil => simp
  | cons r rs ih =>
    rw [List.flatten_cons, List.length_append, ih fun x hx => hr x (by simp [hx]), hr r (by simp), List.length_cons,
      Nat.mul_succ]
    omega

theorem flatten_take {rows : List (List R)} {c : Nat} (hr : ∀ r ∈ rows, r.length = c) (k : Nat) :
    rows.flatten.take (k * c) = (rows.take k).flatten := by
  induction k generalizing rows with
  | zero => simp
  | succ k ih =>
    cases rows with
    | nil => simp
    | cons r rs =>
      have h1 := hr r (by simp)
      rw [List.flatten_cons, List.take_succ_cons, List.flatten_cons, List.take_append, h1,
        List.take_of_length_le (by rw [h1, Nat.succ_mul]; omega), Nat.succ_mul, Nat.add_sub_cancel,
        ih fun x hx => hr x (by simp [hx])]

theorem flatten_drop {rows : List (List R)} {c : Nat} (hr : ∀ r ∈ rows, r.length = c) (k : Nat) :
    rows.flatten.drop (k * c) = (rows.drop k).flatten := by
  induction k generalizing rows with
  | zero => simp
  | succ k ih =>
    cases rows with
    | nil => simp
    | cons r rs =>
      have h1 := hr r (by simp)
      rw [List.flatten_cons, List.drop_succ_cons, List.drop_append, h1,
        List.drop_eq_nil_of_le (by rw [h1, Nat.succ_mul]; omega), Nat.succ_mul, Nat.add_sub_cancel,
        ih fun x hx => hr x (by simp [hx]), List.nil_append]

theorem flatten_get {rows : List (List R)} {c : Nat} (hr : ∀ r ∈ rows, r.length = c) {k j : Nat} {r : List R}
    (hk : rows[k]? = some r) (hj : j < c) : rows.flatten[k * c + j]? = r[j]? := by
  obtain ⟨hlt, e⟩ := List.getElem?_eq_some_iff.mp hk
  have h1 : rows.flatten[k * c + j]? = (rows.flatten.drop (k * c))[j]? := by rw [List.getElem?_drop]
  have h2 : r.length = c := hr r (by rw [← e]; exact List.getElem_mem hlt)
  rw [h1, flatten_drop hr, List.drop_eq_getElem_cons hlt, List.flatten_cons, e, List.getElem?_append_left (by omega)]

theorem overwrite_flatten {rows : List (List R)} {c : Nat} (hr : ∀ r ∈ rows, r.length = c) {k : Nat} (hk : k < rows.length)
    (p : List R) (hp : p.length = c) : overwrite rows.flatten (k * c) p = (rows.set k p).flatten := by
  unfold overwrite
  rw [hp, flatten_take hr, show k * c + c = (k + 1) * c by rw [Nat.succ_mul], flatten_drop hr,
    List.set_eq_take_append_cons_drop, if_pos hk, List.flatten_append, List.flatten_cons]

theorem row_bound {k n c : Nat} (hk : k < n) : k * c + c ≤ c * n := by
  rw [← Nat.succ_mul, Nat.mul_comm c]; exact Nat.mul_le_mul_right c hk

theorem idx_bound {k n c j : Nat} (hk : k < n) (hj : j < c) : k * c + j < c * n := by
  have := row_bound (c := c) hk; omega

/-! ## Tables in the heap -/

/-- A table whose rows have its width, and which has no rows if the width is 0. -/
structure Table.Good (t : Table R) : Prop where
  len : ∀ r ∈ t.rows, r.length = t.width
  zero : t.width = 0 → t.rows = []

/-- Matrix `o` stores table `t`. -/
structure MRep (h : Heap R) (o : Nat) (t : Table R) : Prop where
  size : h.size (.m o) = ⟨t.width, t.rows.length, 1⟩
  buf : h.buf (.m o) = t.rows.flatten
  good : Table.Good t

/-- Matrix `o` stores `t` afterwards; nothing else changed. -/
structure MUpd (h h' : Heap R) (o : Nat) (t : Table R) : Prop where
  upd : Updated h h' (.m o) ⟨t.width, t.rows.length, 1⟩ t.rows.flatten
  good : Table.Good t

theorem MRep.len {h : Heap R} {o : Nat} {t : Table R} (r : MRep h o t) :
    (h.buf (.m o)).length = t.width * t.rows.length := by rw [r.buf, flatten_length r.good.len]

theorem MUpd.rep {h h' : Heap R} {o : Nat} {t : Table R} (u : MUpd h h' o t) : MRep h' o t :=
  ⟨u.upd.size, u.upd.buf, u.good⟩

theorem MUpd.refl {h : Heap R} {o : Nat} {t : Table R} (r : MRep h o t) : MUpd h h o t :=
  ⟨⟨r.buf, r.size, fun _ _ => rfl, fun _ _ => rfl, rfl, rfl⟩, r.good⟩

theorem MUpd.wf {h h' : Heap R} {o : Nat} {t : Table R} (u : MUpd h h' o t) (w : h.WF) : h'.WF :=
  u.upd.wf w (by rw [flatten_length u.good.len]; simp [Size.count]) nofun (fun _ _ => rfl)

/-- Overwriting cells without changing the shape. -/
theorem MRep.setBuf {h : Heap R} {o : Nat} {t : Table R} (r : MRep h o t) (rows' : List (List R)) (d : List R)
    (hd : d = rows'.flatten) (hl : rows'.length = t.rows.length) (hr : ∀ x ∈ rows', x.length = t.width) :
    MUpd h (h.setBuf (.m o) d) o ⟨t.width, rows'⟩ := by
  subst hd
  refine ⟨⟨by simp, by simp [r.size, hl], fun l hl => by simp [setBuf_buf, hl], fun l _ => rfl, rfl, rfl⟩, hr, ?_⟩
  intro h0
  have := r.good.zero h0
  rw [this] at hl
  exact List.length_eq_zero_iff.mp hl

theorem set_good {rows : List (List R)} {c k : Nat} {p : List R} (hr : ∀ r ∈ rows, r.length = c) (hp : p.length = c) :
    ∀ r ∈ rows.set k p, r.length = c := by
  intro r hm
  rcases List.mem_or_eq_of_mem_set hm with h | h
  · exact hr r h
  · rw [h, hp]

theorem idxOk_iff {p : Int} {n : Nat} : idxOk p n = true ↔ Valid p n := by simp [idxOk, Valid]
theorem idxOk_nat {k n : Nat} (h : k < n) : idxOk (k : Int) n = true := by simp [idxOk]; omega

namespace Mat

/-- Appending rows, once the body of the copying loop is known. -/
theorem add_rows {h : Heap R} {o : Nat} {t : Table R} (r : MRep h o t) (c : Nat) (new : List (List R)) (body : Nat → M R Unit)
    (n : Nat) (hn : n = new.flatten.length) (hc : ∀ x ∈ new, x.length = c) (hc0 : 0 < c) (hne : new ≠ [])
    (ht : t.width = 0 ∨ t.width = c)
    (step : ∀ k (hk : k < new.flatten.length) (G : Heap R), (∀ l', l' ≠ .m o → G.buf l' = h.buf l') →
      (∃ tl, G.buf (.m o) = h.buf (.m o) ++ tl) → body k G = store (.m o) ((h.buf (.m o)).length + k) new.flatten[k] G) :
    ∃ h', (do putSize (.m o) ⟨c, t.rows.length + new.length, 1⟩
              memrealloc (.m o) (c * (t.rows.length + new.length))
              forN n body : M R Unit) h = .ok ((), h') ∧ MUpd h h' o (t.add c new) := by
  have hrows : ∀ x ∈ t.rows, x.length = c := by
    intro x hx
    rcases ht with h0 | h0
    · rw [r.good.zero h0] at hx; cases hx
    · rw [r.good.len x hx, h0]
  have hlen : (h.buf (.m o)).length = c * t.rows.length := by rw [r.buf, flatten_length hrows]
  obtain ⟨h', e, u⟩ := appendCells_run (.m o) ⟨c, t.rows.length + new.length, 1⟩ n
    (c * (t.rows.length + new.length)) body new.flatten h hn.symm
    (by rw [hlen, hn, flatten_length hc, Nat.mul_add]) (fun k hk G => step k (by omega) G)
  refine ⟨h', e, ?_⟩
  have hadd : t.add c new = ⟨c, t.rows ++ new⟩ := by
    unfold Table.add
    rw [if_neg (by simp [hne]; omega)]
    rcases ht with h0 | h0
    · rw [if_pos h0, r.good.zero h0, List.nil_append]
    · rw [if_neg (by omega), if_pos h0]
  rw [hadd]
  refine ⟨?_, ?_, ?_⟩
  · have h2 : h.buf (.m o) ++ new.flatten = (t.rows ++ new).flatten := by rw [r.buf, List.flatten_append]
    rw [h2] at u
    simpa using u
  · intro x hx
    rcases List.mem_append.mp hx with hx | hx
    · exact hrows x hx
    · exact hc x hx
  · intro h0; simp at h0; omega

theorem row_add_run {h : Heap R} {o : Nat} {t : Table R} (r : MRep h o t) (p : List R) :
    ∃ h', row_add o p h = .ok ((), h') ∧ MUpd h h' o (t.add p.length [p]) := by
  unfold row_add
  by_cases hp : p.length = 0
  · rw [if_pos hp]
    refine ⟨h, rfl, ?_⟩
    have : t.add p.length [p] = t := by unfold Table.add; rw [if_pos (.inl hp)]
    rw [this]; exact MUpd.refl r
  rw [if_neg hp, bind_ok (Mat.size_run o h), r.size]
  dsimp only
  have body : ∀ (c : Nat), c = (h.buf (.m o)).length → ∀ k (hk : k < [p].flatten.length) (G : Heap R),
      (match p[k]? with
        | some v => store (.m o) (c + k) v
        | none => ub : M R Unit) G = store (.m o) ((h.buf (.m o)).length + k) [p].flatten[k] G := by
    intro c hc k hk G
    have hk' : k < p.length := by simpa using hk
    rw [hc, List.getElem?_eq_getElem hk']
    simp
  by_cases h0 : t.width = 0
  · obtain ⟨h', e, u⟩ := add_rows r p.length [p] (fun i => match p[i]? with
        | some v => store (.m o) (p.length * t.rows.length + i) v
        | none => ub) p.length (by simp) (by simp) (by omega) (by simp) (.inl h0)
        (fun k hk G _ _ => body _ (by rw [r.len, r.good.zero h0]; simp) k hk G)
    refine ⟨h', ?_, u⟩
    rw [if_pos h0, bind_ok (putSize_run _ _ _), bind_ok (Mat.size_run o _)]
    rw [setSize_size_same]
    dsimp only
    rw [if_pos rfl, ← e, bind_ok (putSize_run _ _ _), bind_ok (putSize_run _ _ _), setSize_setSize]
    simp [Size.count]
    rfl
  · rw [if_neg h0]
    by_cases h1 : t.width = p.length
    · obtain ⟨h', e, u⟩ := add_rows r p.length [p] (fun i => match p[i]? with
        | some v => store (.m o) (p.length * t.rows.length + i) v
        | none => ub) p.length (by simp) (by simp) (by omega) (by simp) (.inr h1)
        (fun k hk G _ _ => body _ (by rw [r.len, h1]) k hk G)
      refine ⟨h', ?_, u⟩
      rw [bind_ok (Mat.size_run o h), r.size]
      dsimp only
      rw [if_pos h1, ← e, h1]
      simp [Size.count]
      rfl
    · refine ⟨h, ?_, ?_⟩
      · rw [bind_ok (Mat.size_run o h), r.size]
        dsimp only
        rw [if_neg h1]; rfl
      · have : t.add p.length [p] = t := by
          unfold Table.add
          rw [if_neg (fun h => h.elim hp (by simp)), if_neg h0, if_neg h1]
        rw [this]; exact MUpd.refl r

theorem row_add_vec_run {h : Heap R} (w : h.WF) {o : Nat} {t : Table R} (r : MRep h o t) (i : Nat) :
    ∃ h', row_add_mlpp_vector o (some i) h = .ok ((), h') ∧ MUpd h h' o (t.add (h.vec i).length [h.vec i]) := by
  unfold row_add_mlpp_vector
  dsimp only
  rw [bind_ok (Vec.size_run w i)]
  generalize hpd : h.vec i = p
  by_cases hp : p.length = 0
  · rw [if_pos hp]
    refine ⟨h, rfl, ?_⟩
    have : t.add p.length [p] = t := by unfold Table.add; rw [if_pos (.inl hp)]
    rw [this]; exact MUpd.refl r
  rw [if_neg hp, bind_ok (Mat.size_run o h), r.size]
  dsimp only
  have body : ∀ (c : Nat), c = (h.buf (.m o)).length → ∀ k (hk : k < [p].flatten.length) (G : Heap R),
      (∀ l', l' ≠ .m o → G.buf l' = h.buf l') →
      (do let v ← load (.v i) k; store (.m o) (c + k) v : M R Unit) G =
        store (.m o) ((h.buf (.m o)).length + k) [p].flatten[k] G := by
    intro c hc k hk G hG
    have hk' : k < p.length := by simpa using hk
    have : (G.buf (.v i))[k]? = some p[k] := by
      rw [hG (.v i) nofun]
      have : h.buf (.v i) = p := hpd
      rw [this]; exact List.getElem?_eq_getElem hk'
    rw [bind_ok (load_ok this), hc]
    simp
  by_cases h0 : t.width = 0
  · obtain ⟨h', e, u⟩ := add_rows r p.length [p] (fun k => do
        let v ← load (.v i) k
        store (.m o) (p.length * t.rows.length + k) v) p.length (by simp) (by simp) (by omega) (by simp) (.inl h0)
        (fun k hk G hG _ => body _ (by rw [r.len, r.good.zero h0]; simp) k hk G hG)
    refine ⟨h', ?_, u⟩
    rw [if_pos h0, bind_ok (putSize_run _ _ _), bind_ok (Mat.size_run o _)]
    rw [setSize_size_same]
    dsimp only
    rw [if_pos rfl, ← e, bind_ok (putSize_run _ _ _), bind_ok (putSize_run _ _ _), setSize_setSize]
    simp [Size.count]
  · rw [if_neg h0]
    by_cases h1 : t.width = p.length
    · obtain ⟨h', e, u⟩ := add_rows r p.length [p] (fun k => do
        let v ← load (.v i) k
        store (.m o) (p.length * t.rows.length + k) v) p.length (by simp) (by simp) (by omega) (by simp) (.inr h1)
        (fun k hk G hG _ => body _ (by rw [r.len, h1]) k hk G hG)
      refine ⟨h', ?_, u⟩
      rw [bind_ok (Mat.size_run o h), r.size]
      dsimp only
      rw [if_pos h1, ← e, h1]
      simp [Size.count]
    · refine ⟨h, ?_, ?_⟩
      · rw [bind_ok (Mat.size_run o h), r.size]
        dsimp only
        rw [if_neg h1]; rfl
      · have : t.add p.length [p] = t := by
          unfold Table.add
          rw [if_neg (fun h => h.elim hp (by simp)), if_neg h0, if_neg h1]
        rw [this]; exact MUpd.refl r

theorem rows_add_run {h : Heap R} {o p : Nat} {t t' : Table R} (r : MRep h o t) (r' : MRep h p t') :
    ∃ h', rows_add_mlpp_matrix o (some p) h = .ok ((), h') ∧ MUpd h h' o (t.add t'.width t'.rows) := by
  unfold rows_add_mlpp_matrix
  dsimp only
  rw [bind_ok (Mat.size_run p h), r'.size]
  dsimp only
  rw [count_mat]
  have hfl : t'.rows.flatten.length = t'.width * t'.rows.length := by rw [flatten_length r'.good.len]
  by_cases hp : t'.width * t'.rows.length = 0
  · rw [if_pos hp]
    refine ⟨h, rfl, ?_⟩
    have : t.add t'.width t'.rows = t := by
      unfold Table.add
      rw [if_pos]
      rw [Nat.mul_eq_zero] at hp
      exact hp.imp id (fun h => List.length_eq_zero_iff.mp h)
    rw [this]; exact MUpd.refl r
  have hw : 0 < t'.width := by
    rcases Nat.eq_zero_or_pos t'.width with h0 | h0
    · rw [h0] at hp; simp at hp
    · exact h0
  have hne : t'.rows ≠ [] := by
    intro h0; rw [h0] at hp; simp at hp
  rw [if_neg hp, bind_ok (Mat.size_run o h), r.size]
  dsimp only
  have body : ∀ (c : Nat), c = (h.buf (.m o)).length → ∀ k (hk : k < t'.rows.flatten.length) (G : Heap R),
      (∀ l', l' ≠ .m o → G.buf l' = h.buf l') → (∃ tl, G.buf (.m o) = h.buf (.m o) ++ tl) →
      (do let v ← load (.m p) k; store (.m o) (c + k) v : M R Unit) G =
        store (.m o) ((h.buf (.m o)).length + k) t'.rows.flatten[k] G := by
    intro c hc k hk G hG hG'
    have : (G.buf (.m p))[k]? = some t'.rows.flatten[k] := by
      by_cases e : p = o
      · subst e
        obtain ⟨tl, htl⟩ := hG'
        rw [htl, List.getElem?_append_left (by rw [r'.buf]; exact hk), r'.buf]
        exact List.getElem?_eq_getElem hk
      · rw [hG _ (by simp [e]), r'.buf]; exact List.getElem?_eq_getElem hk
    rw [bind_ok (load_ok this), hc]
  by_cases h0 : t.width = 0
  · obtain ⟨h', e, u⟩ := add_rows r t'.width t'.rows (fun k => do
        let v ← load (.m p) k
        store (.m o) (t'.width * t.rows.length + k) v) _ hfl.symm r'.good.len hw hne (.inl h0)
        (fun k hk G hG hG' => body _ (by rw [r.len, r.good.zero h0]; simp) k hk G hG hG')
    refine ⟨h', ?_, u⟩
    rw [if_pos h0, bind_ok (putSize_run _ _ _), bind_ok (Mat.size_run o _)]
    rw [setSize_size_same]
    dsimp only
    rw [if_pos rfl, ← e, bind_ok (putSize_run _ _ _), bind_ok (putSize_run _ _ _), setSize_setSize]
    simp only [count_mat]
  · rw [if_neg h0]
    by_cases h1 : t.width = t'.width
    · obtain ⟨h', e, u⟩ := add_rows r t'.width t'.rows (fun k => do
        let v ← load (.m p) k
        store (.m o) (t'.width * t.rows.length + k) v) _ hfl.symm r'.good.len hw hne (.inr h1)
        (fun k hk G hG hG' => body _ (by rw [r.len, h1]) k hk G hG hG')
      refine ⟨h', ?_, u⟩
      rw [bind_ok (Mat.size_run o h), r.size]
      dsimp only
      rw [if_pos h1.symm, ← e, h1]
      simp only [count_mat]
    · refine ⟨h, ?_, ?_⟩
      · rw [bind_ok (Mat.size_run o h), r.size]
        dsimp only
        rw [if_neg (Ne.symm h1)]; rfl
      · have : t.add t'.width t'.rows = t := by
          unfold Table.add
          rw [if_neg (by simp [hne]; omega), if_neg h0, if_neg h1]
        rw [this]; exact MUpd.refl r

end Mat
end Verif
