import Verif.Lemmas.Elementwise
import Verif.Model.Vector

/-! # The container methods of `MLPPVector`, as operations on lists -/

namespace Verif
variable {R : Type}

/-- The contents of vector `i`. -/
def Heap.vec (h : Heap R) (i : Nat) : List R := h.buf (.v i)

/-- Vector `i` has contents `d` afterwards (and `_size` agrees); nothing else changed. -/
def VUpd (h h' : Heap R) (i : Nat) (d : List R) : Prop := Updated h h' (.v i) ⟨d.length, 1, 1⟩ d

theorem VUpd.wf {h h' : Heap R} {i : Nat} {d : List R} (u : VUpd h h' i d) (w : h.WF) : h'.WF :=
  Updated.wf u w (by simp [Size.count]) (by intros; exact ⟨rfl, rfl⟩) (by intro j e; cases e)

theorem VUpd.vec_same {h h' : Heap R} {i : Nat} {d : List R} (u : VUpd h h' i d) : h'.vec i = d := u.buf

theorem VUpd.vec_ne {h h' : Heap R} {i j : Nat} {d : List R} (u : VUpd h h' i d) (e : j ≠ i) :
    h'.vec j = h.vec j := u.bufFrame _ (by simp [e])

theorem Heap.WF.vsize {h : Heap R} (w : h.WF) (i : Nat) : h.size (.v i) = ⟨(h.vec i).length, 1, 1⟩ := by
  have h1 := w.len (.v i)
  have h2 := w.vec i
  unfold Heap.vec
  rw [h1]
  cases e : h.size (.v i) with
  | mk x y z =>
    rw [e] at h2
    simp only at h2
    obtain ⟨rfl, rfl⟩ := h2
    simp [Size.count]

theorem VUpd.refl {h : Heap R} (w : h.WF) (i : Nat) : VUpd h h i (h.vec i) where
  buf := rfl
  size := w.vsize i
  bufFrame := fun _ _ => rfl
  sizeFrame := fun _ _ => rfl
  next := rfl
  junk := rfl

theorem VUpd.trans {h h1 h2 : Heap R} {i : Nat} {d1 d2 : List R} (a : VUpd h h1 i d1) (b : VUpd h1 h2 i d2) :
    VUpd h h2 i d2 where
  buf := b.buf
  size := b.size
  bufFrame := fun l hl => by rw [b.bufFrame l hl, a.bufFrame l hl]
  sizeFrame := fun l hl => by rw [b.sizeFrame l hl, a.sizeFrame l hl]
  next := by rw [b.next, a.next]
  junk := by rw [b.junk, a.junk]

namespace Vec

theorem size_run {h : Heap R} (w : h.WF) (i : Nat) : size i h = .ok ((h.vec i).length, h) := by
  unfold size
  rw [bind_ok (getSize_run _ _), w.vsize]; rfl

theorem vupd_mk (h : Heap R) (i : Nat) (d : List R) (c : Nat) :
    VUpd h { (h.setSize (.v i) ⟨d.length, 1, 1⟩).setBuf (.v i) d with clock := c } i d where
  buf := by simp
  size := by simp
  bufFrame := by intro l hl; simp [setBuf_buf, hl]
  sizeFrame := by intro l hl; simp [setSize_size, hl]
  next := by simp
  junk := by simp

theorem vupd_mk' (h : Heap R) (i : Nat) (d : List R) (hs : h.size (.v i) = ⟨d.length, 1, 1⟩) :
    VUpd h (h.setBuf (.v i) d) i d where
  buf := by simp
  size := by simpa using hs
  bufFrame := by intro l hl; simp [setBuf_buf, hl]
  sizeFrame := by intro l hl; simp
  next := by simp
  junk := by simp

theorem resize_run {h : Heap R} (i : Nat) (n : Nat) :
    ∃ h' d, resize i (n : Int) h = .ok ((), h') ∧ VUpd h h' i d ∧ d.length = n ∧
      (∀ k, k < (h.vec i).length → k < n → d[k]? = (h.vec i)[k]?) := by
  unfold resize
  rw [if_neg (by omega)]
  obtain ⟨d, c, e, hd, hk⟩ := resizeTo_run (.v i) ⟨n, 1, 1⟩ h
  have hd' : d.length = n := by simpa [Size.count] using hd
  refine ⟨_, d, by simpa using e, ?_, hd', ?_⟩
  · rw [← hd']; exact vupd_mk h i d c
  · intro k h1 h2; exact hk k h1 (by simpa [Size.count] using h2)

theorem resize_neg {h : Heap R} (i : Nat) (n : Int) (hn : n < 0) : resize i n h = .crash := by
  simp [resize, hn]

theorem clear_run {h : Heap R} (i : Nat) : ∃ h', clear i h = .ok ((), h') ∧ VUpd h h' i [] := by
  obtain ⟨h', d, e, u, hd, _⟩ := resize_run (h := h) i 0
  have : d = [] := List.length_eq_zero_iff.mp hd
  subst this
  exact ⟨h', e, u⟩

theorem reset_run {h : Heap R} (w : h.WF) (i : Nat) : ∃ h', reset i h = .ok ((), h') ∧ VUpd h h' i [] := by
  unfold reset
  rw [bind_ok (isNull_run _ _)]
  by_cases e : h.buf (.v i) = []
  · refine ⟨h, by simp [e], ?_⟩
    have := VUpd.refl w i
    rwa [Heap.vec, e] at this
  · refine ⟨(h.setBuf (.v i) []).setSize (.v i) ⟨0, 1, 1⟩, ?_, ?_⟩
    · simp [e, bind_ok (memfree_run _ _)]
    · have := vupd_mk h i [] h.clock
      exact this

theorem element_get_ok [Zero R] {h : Heap R} (w : h.WF) (i k : Nat) (hk : k < (h.vec i).length) :
    element_get i (k : Int) h = .ok ((h.vec i)[k], h) := by
  unfold element_get
  rw [bind_ok (size_run w i)]
  have : idxOk (k : Int) (h.vec i).length = true := by simp [idxOk]; omega
  rw [if_pos this]
  exact load_ok' (by exact hk)

theorem element_get_bad [Zero R] {h : Heap R} (w : h.WF) (i : Nat) (p : Int)
    (hp : ¬(0 ≤ p ∧ p < ((h.vec i).length : Int))) :
    element_get i p h = .ok (0, h) := by
  unfold element_get
  rw [bind_ok (size_run w i)]
  simp [idxOk, hp]

theorem element_set_ok {h : Heap R} (w : h.WF) (i k : Nat) (v : R) (hk : k < (h.vec i).length) :
    ∃ h', element_set i (k : Int) v h = .ok ((), h') ∧ VUpd h h' i ((h.vec i).set k v) := by
  unfold element_set
  rw [bind_ok (size_run w i)]
  have : idxOk (k : Int) (h.vec i).length = true := by simp [idxOk]; omega
  rw [if_pos this, Int.toNat_natCast, store_ok _ (by exact hk)]
  exact ⟨_, rfl, vupd_mk' h i _ (by rw [w.vsize, List.length_set]; rfl)⟩

theorem element_set_bad {h : Heap R} (w : h.WF) (i : Nat) (p : Int) (v : R)
    (hp : ¬(0 ≤ p ∧ p < ((h.vec i).length : Int))) :
    element_set i p v h = .ok ((), h) := by
  unfold element_set
  rw [bind_ok (size_run w i)]
  simp [idxOk, hp]

theorem push_back_run {h : Heap R} (w : h.WF) (i : Nat) (x : R) :
    ∃ h', push_back i x h = .ok ((), h') ∧ VUpd h h' i (h.vec i ++ [x]) := by
  unfold push_back
  rw [bind_ok (size_run w i), bind_ok (putSize_run _ _ _), bind_ok (memrealloc_run _ _ _)]
  rw [store_ok _ (by simp)]
  refine ⟨_, rfl, ?_⟩
  have hg : (growTo (h.vec i) ((h.vec i).length + 1) (h.junk h.clock)).set (h.vec i).length x = h.vec i ++ [x] := by
    simp [growTo]
    exact List.take_of_length_le (by omega)
  have hb : (h.setSize (.v i) ⟨(h.vec i).length + 1, 1, 1⟩).buf (.v i) = h.vec i := rfl
  constructor
  · simpa [hb] using hg
  · simp
  · intro l hl; simp [setBuf_buf, hl]
  · intro l hl; simp [setSize_size, hl]
  · simp
  · simp

theorem append_null {h : Heap R} (i : Nat) : append_mlpp_vector i none h = .ok ((), h) := rfl

theorem getElem?_append_set {R : Type} (a b c : List R) (x : R) (h : c.length = b.length + 1) :
    (a ++ c).set a.length x = a ++ (x :: c.tail) := by
  cases c with
  | nil => simp at h
  | cons y c => simp

theorem append_run {h : Heap R} (w : h.WF) (i j : Nat) :
    ∃ h', append_mlpp_vector i (some j) h = .ok ((), h') ∧ VUpd h h' i (h.vec i ++ h.vec j) := by
  simp only [append_mlpp_vector]
  rw [bind_ok (size_run w j)]
  by_cases e : (h.vec j).length = 0
  · rw [if_pos e]
    have : h.vec j = [] := List.length_eq_zero_iff.mp e
    exact ⟨h, rfl, by rw [this, List.append_nil]; exact VUpd.refl w i⟩
  · rw [if_neg e, bind_ok (size_run w i), bind_ok (putSize_run _ _ _), bind_ok (memrealloc_run _ _ _)]
    generalize hl : h.vec i = l
    generalize hm : h.vec j = m at *
    generalize hj : (List.range m.length).map (h.junk h.clock) = jk
    have hjl : jk.length = m.length := by rw [← hj]; simp
    have hgrow : growTo l (l.length + m.length) (h.junk h.clock) = l ++ jk := by
      simp [growTo, ← hj]
      exact List.take_of_length_le (by omega)
    -- heap after t copies
    let G : Nat → Heap R := fun t =>
      { (h.setSize (.v i) ⟨l.length + m.length, 1, 1⟩).setBuf (.v i) (l ++ (m.take t ++ jk.drop t)) with
        clock := h.clock + 1 }
    have hload : ∀ t, t < m.length → ((G t).buf (.v j))[t]? = m[t]? := by
      intro t ht
      by_cases e : j = i
      · subst e
        have : m = l := by rw [← hl, ← hm]
        subst this
        simp [G, List.getElem?_append, ht]
      · have : (G t).buf (.v j) = m := by simp [G, setBuf_buf, e]; exact hm
        rw [this]
    rw [forN_eq m.length G]
    · refine ⟨_, rfl, ?_⟩
      constructor
      · simp only [G, setBuf_buf_same]
        rw [List.take_of_length_le (by omega), List.drop_of_length_le (by omega), List.append_nil]
      · simp [G]
      · intro l hl; simp [G, setBuf_buf, hl]
      · intro l hl; simp [G, setSize_size, hl]
      · simp [G]
      · simp [G]
    · have hb : (h.setSize (.v i) ⟨l.length + m.length, 1, 1⟩).buf (.v i) = l := hl
      simp only [G, hb, setSize_clock, setSize_junk, hgrow, List.take_zero, List.drop_zero, List.nil_append]
    · intro t ht
      rw [bind_ok (load_ok (v := m[t]) (by rw [hload t ht]; simp [ht]))]
      rw [store_ok _ (by simp [G, hjl]; omega)]
      have h2 := set_take_append_drop hjl.symm ht
      have h3 : (l ++ (m.take t ++ jk.drop t)).set (l.length + t) m[t] = l ++ (m.take (t+1) ++ jk.drop (t+1)) := by
        rw [List.set_append, if_neg (by omega), Nat.add_sub_cancel_left, h2]
      simp only [G, Out.ok.injEq, Prod.mk.injEq, true_and]
      rw [← h3]
      simp [Heap.setBuf, Heap.setSize]
      funext l'; by_cases e : l' = .v i <;> simp [e]

theorem set_take_append_drop' {xs ys : List R} {i : Nat} (hi : i < xs.length) (hj : i < ys.length) :
    (xs.take i ++ ys.drop i).set i xs[i] = xs.take (i + 1) ++ ys.drop (i + 1) := by
  have h1 : (xs.take i).length = i := by simp; omega
  rw [List.set_append, if_neg (by omega), h1, List.drop_eq_getElem_cons hj]
  rw [Nat.sub_self, List.set_cons_zero]
  rw [← List.take_append_getElem hi, List.append_assoc]
  rfl

theorem remove_ok {h : Heap R} (w : h.WF) (i k : Nat) (hk : k < (h.vec i).length) :
    ∃ h', remove i (k : Int) h = .ok ((), h') ∧ VUpd h h' i ((h.vec i).eraseIdx k) := by
  unfold remove
  rw [bind_ok (size_run w i)]
  generalize hl : h.vec i = l at *
  have hix : idxOk (k : Int) l.length = true := by simp [idxOk]; omega
  have hb : (h.setSize (.v i) ⟨l.length - 1, 1, 1⟩).buf (.v i) = l := hl
  have hel : (l.eraseIdx k).length = l.length - 1 := by rw [List.length_eraseIdx]; simp [hk]
  rw [if_pos hix, bind_ok (putSize_run _ _ _)]
  by_cases e : l.length - 1 = 0
  · rw [if_pos e]
    have : l.eraseIdx k = [] := List.length_eq_zero_iff.mp (by omega)
    rw [this]
    refine ⟨_, rfl, ?_⟩
    rw [e]
    exact vupd_mk h i [] h.clock
  · rw [if_neg e, Int.toNat_natCast]
    let G : Nat → Heap R := fun t =>
      (h.setSize (.v i) ⟨l.length - 1, 1, 1⟩).setBuf (.v i) ((l.eraseIdx k).take t ++ l.drop t)
    rw [bind_ok (loop_eq (fun _ => ()) G _ (l.length - 1 - k) k () _ rfl ?_ ?_)]
    · rw [memrealloc_run]
      refine ⟨_, rfl, ?_⟩
      have hk' : k + (l.length - 1 - k) = l.length - 1 := by omega
      have hlen : ((l.eraseIdx k).take (l.length - 1) ++ l.drop (l.length - 1)).length = l.length := by
        simp only [List.length_append, List.length_take, List.length_drop, hel]; omega
      constructor
      · simp only [G, hk', setBuf_buf_same]
        rw [growTo_le _ _ (by omega), List.take_append_of_le_length (by simp [hel]), List.take_take]
        rw [List.take_of_length_le (by omega)]
      · simp [G, hel]
      · intro l hl; simp [G, setBuf_buf, hl]
      · intro l hl; simp [G, setSize_size, hl]
      · simp [G]
      · simp [G]
    · have : (l.eraseIdx k).take k ++ l.drop k = l := by
        rw [List.eraseIdx_eq_take_drop_succ, List.take_append_of_le_length (by simp; omega)]; simp only [List.take_take, Nat.min_self, List.take_append_drop]
      simp only [G, this]
      have h2 := setBuf_self (h.setSize (.v i) ⟨l.length - 1, 1, 1⟩) (.v i)
      rw [hb] at h2
      exact h2.symm
    · intro t ht1 ht2
      have h1 : ((l.eraseIdx k).take t).length = t := by simp [hel]; omega
      have hg : ((G t).buf (.v i))[t + 1]? = l[t + 1]? := by
        simp only [G, setBuf_buf_same]
        rw [List.getElem?_append_right (by omega), h1, List.getElem?_drop]; congr 1; omega
      rw [bind_ok (load_ok (v := l[t+1]'(by omega)) (by rw [hg]; exact List.getElem?_eq_getElem _))]
      rw [store_ok _ (by simp [G, hel]; omega)]
      have h2 := set_take_append_drop' (xs := l.eraseIdx k) (ys := l) (i := t) (by omega) (by omega)
      have h3 : (l.eraseIdx k)[t]'(by omega) = l[t+1]'(by omega) := by
        rw [List.getElem_eraseIdx]; simp [Nat.not_lt.mpr ht1]
      rw [h3] at h2
      simp [G, h2]

theorem remove_bad {h : Heap R} (w : h.WF) (i : Nat) (p : Int)
    (hp : ¬(0 ≤ p ∧ p < ((h.vec i).length : Int))) : remove i p h = .ok ((), h) := by
  unfold remove
  rw [bind_ok (size_run w i)]
  simp [idxOk, hp]

/-- `remove_unordered` on lists: the last element replaces the removed one. -/
def rmUnordered (l : List R) (k : Nat) : List R :=
  match l.getLast? with
  | some z => (l.set k z).dropLast
  | none => l

theorem remove_unordered_ok {h : Heap R} (w : h.WF) (i k : Nat) (hk : k < (h.vec i).length) :
    ∃ h', remove_unordered i (k : Int) h = .ok ((), h') ∧ VUpd h h' i (rmUnordered (h.vec i) k) := by
  unfold remove_unordered
  rw [bind_ok (size_run w i)]
  generalize hl : h.vec i = l at *
  have hix : idxOk (k : Int) l.length = true := by simp [idxOk]; omega
  have hb : (h.setSize (.v i) ⟨l.length - 1, 1, 1⟩).buf (.v i) = l := hl
  have hlast : l.getLast? = some (l[l.length - 1]'(by omega)) := by
    rw [List.getLast?_eq_getElem?, List.getElem?_eq_getElem (by omega)]
  have hrm : rmUnordered l k = (l.set k (l[l.length - 1]'(by omega))).dropLast := by
    simp [rmUnordered, hlast]
  have hrl : (rmUnordered l k).length = l.length - 1 := by rw [hrm]; simp
  rw [if_pos hix, bind_ok (putSize_run _ _ _)]
  by_cases e : l.length - 1 = 0
  · rw [if_pos e]
    have : rmUnordered l k = [] := List.length_eq_zero_iff.mp (by omega)
    rw [this]
    refine ⟨_, rfl, ?_⟩
    rw [e]
    exact vupd_mk h i [] h.clock
  · rw [if_neg e]
    have fin : ∀ d : List R, d.length = l.length → d.take (l.length - 1) = rmUnordered l k →
        ∃ h', memrealloc (.v i) (l.length - 1) ((h.setSize (.v i) ⟨l.length - 1, 1, 1⟩).setBuf (.v i) d) = .ok ((), h') ∧
          VUpd h h' i (rmUnordered l k) := by
      intro d hd hd2
      rw [memrealloc_run]
      refine ⟨_, rfl, ?_⟩
      constructor
      · simp only [setBuf_buf_same]
        rw [growTo_le _ _ (by omega), hd2]
      · simp [hrl]
      · intro l hl; simp [setBuf_buf, hl]
      · intro l hl; simp [setSize_size, hl]
      · simp
      · simp
    by_cases e2 : ((l.length - 1 : Nat) : Int) > (k : Int)
    · rw [if_pos e2]
      rw [bind_ok (load_ok (v := l[l.length - 1]'(by omega)) (by rw [hb]; exact List.getElem?_eq_getElem _))]
      rw [Int.toNat_natCast, bind_ok (store_ok _ (by rw [hb]; omega)), hb]
      exact fin _ (by simp) (by rw [hrm, List.dropLast_eq_take, List.length_set])
    · rw [if_neg e2]
      dsimp only
      have := fin l rfl (by
        rw [hrm, List.dropLast_eq_take]
        have : k = l.length - 1 := by omega
        subst this
        simp)
      rw [show (h.setSize (.v i) ⟨l.length - 1, 1, 1⟩).setBuf (.v i) l = h.setSize (.v i) ⟨l.length - 1, 1, 1⟩ by
        have := setBuf_self (h.setSize (.v i) ⟨l.length - 1, 1, 1⟩) (.v i)
        rwa [hb] at this] at this
      exact this

theorem remove_unordered_bad {h : Heap R} (w : h.WF) (i : Nat) (p : Int)
    (hp : ¬(0 ≤ p ∧ p < ((h.vec i).length : Int))) : remove_unordered i p h = .ok ((), h) := by
  unfold remove_unordered
  rw [bind_ok (size_run w i)]
  simp [idxOk, hp]

/-- Outcome of a search starting at `k`: index of the first match. -/
def findSpec [BEq R] (l : List R) (v : R) (k : Nat) : Int :=
  match (l.drop k).findIdx? (· == v) with
  | some j => ((k + j : Nat) : Int)
  | none => -1

theorem findFrom_run [BEq R] {h : Heap R} (lc : Loc) (v : R) :
    ∀ (c k : Nat), c = (h.buf lc).length - k → findFrom lc v c k h = .ok (findSpec (h.buf lc) v k, h) := by
  intro c
  induction c with
  | zero =>
    intro k hk
    have : (h.buf lc).drop k = [] := List.drop_of_length_le (by omega)
    simp only [findFrom, findSpec, this, List.findIdx?_nil, pure_run]
  | succ c ih =>
    intro k hk
    have hk2 : k < (h.buf lc).length := by omega
    simp only [findFrom]
    rw [bind_ok (load_ok' hk2)]
    by_cases e : ((h.buf lc)[k] == v) = true
    · rw [if_pos e]
      rw [findSpec, List.drop_eq_getElem_cons hk2, List.findIdx?_cons, if_pos e]
      rfl
    · rw [if_neg e, ih (k + 1) (by omega)]
      simp only [findSpec, List.drop_eq_getElem_cons hk2, List.findIdx?_cons, e]
      cases (List.drop (k + 1) (h.buf lc)).findIdx? (· == v) with
      | none => simp
      | some j => simp; omega

theorem find_run [BEq R] {h : Heap R} (w : h.WF) (i : Nat) (v : R) (k : Nat) :
    find i v (k : Int) h = .ok (findSpec (h.vec i) v k, h) := by
  unfold find
  rw [bind_ok (size_run w i), if_neg (by omega), Int.toNat_natCast]
  exact findFrom_run (.v i) v _ k rfl

theorem find_neg [BEq R] {h : Heap R} (w : h.WF) (i : Nat) (v : R) (p : Int) (hp : p < 0) :
    find i v p h = .ub := by
  unfold find
  rw [bind_ok (size_run w i), if_pos hp]; rfl

theorem findSpec_none [BEq R] {l : List R} {v : R} {k : Nat} (h : findSpec l v k = -1) :
    ∀ j, k ≤ j → (hj : j < l.length) → (l[j] == v) = false := by
  unfold findSpec at h
  split at h
  · omega
  · rename_i e
    rw [List.findIdx?_eq_none_iff] at e
    intro j h1 h2
    have := e (l[j]) (by
      rw [List.mem_drop_iff_getElem]
      exact ⟨j - k, by omega, by congr 1; omega⟩)
    simpa using this

theorem findSpec_some [BEq R] {l : List R} {v : R} {k : Nat} {r : Int} (h : findSpec l v k = r) (hr : r ≠ -1) :
    ∃ j : Nat, r = (j : Int) ∧ k ≤ j ∧ ∃ hj : j < l.length, (l[j] == v) = true ∧
      ∀ m, k ≤ m → (hm : m < j) → (l[m]'(by omega) == v) = false := by
  unfold findSpec at h
  split at h
  · rename_i j e
    rw [List.findIdx?_eq_some_iff_getElem] at e
    obtain ⟨h1, h2, h3⟩ := e
    simp only [List.length_drop] at h1
    refine ⟨k + j, h.symm, by omega, by omega, ?_, ?_⟩
    · simpa using h2
    · intro m hm1 hm2
      have := h3 (m - k) (by omega)
      simp only [List.getElem_drop] at this
      have e : k + (m - k) = m := by omega
      simpa [e] using this
  · exact absurd h.symm hr

theorem erase_run [BEq R] {h : Heap R} (w : h.WF) (i : Nat) (v : R) :
    ∃ h', erase i v h = .ok ((), h') ∧ VUpd h h' i ((h.vec i).eraseP (· == v)) := by
  unfold erase
  have hf := find_run w i v 0
  simp only [Int.natCast_zero] at hf
  rw [bind_ok hf]
  unfold findSpec
  simp only [List.drop_zero]
  rw [List.eraseP_eq_eraseIdx]
  cases e : (h.vec i).findIdx? (· == v) with
  | none => exact ⟨h, by simp, VUpd.refl w i⟩
  | some j =>
    have hj := (List.findIdx?_eq_some_iff_getElem.mp e).1
    rw [if_pos (by simp)]
    simpa using remove_ok w i j hj

theorem rmUnordered_perm {l : List R} {k : Nat} (hk : k < l.length) :
    (rmUnordered l k).Perm (l.eraseIdx k) := by
  have hne : l ≠ [] := by intro e; subst e; simp at hk
  obtain ⟨a, z, rfl⟩ : ∃ a z, l = a ++ [z] := ⟨l.dropLast, l.getLast hne, (List.dropLast_concat_getLast hne).symm⟩
  simp only [rmUnordered, List.getLast?_append, List.getLast?_singleton, Option.some_or]
  by_cases e : k < a.length
  · rw [List.eraseIdx_append_of_lt_length e, List.set_append, if_pos e]
    simp only [List.dropLast_concat]
    rw [List.eraseIdx_eq_take_drop_succ, List.set_eq_take_append_cons_drop, if_pos e, List.append_assoc]
    apply List.Perm.append_left
    have : (z :: a.drop (k + 1)).Perm (a.drop (k + 1) ++ [z]) := List.perm_append_comm (l₁ := [z])
    exact this
  · have : k = a.length := by simp at hk; omega
    subst this
    rw [List.eraseIdx_append_of_length_le (by omega)]
    simp

theorem getElem_cons_eraseIdx_perm {l : List R} {k : Nat} (hk : k < l.length) :
    (l[k] :: l.eraseIdx k).Perm l := by
  induction l generalizing k with
  | nil => simp at hk
  | cons a l ih =>
    cases k with
    | zero => exact List.Perm.refl _
    | succ k =>
      have hk' : k < l.length := by simpa using hk
      exact (List.Perm.swap a l[k] (l.eraseIdx k)).trans ((ih hk').cons a)

theorem rmUnordered_getElem_lt {l : List R} {k m : Nat} (hk : k < l.length) (hm : m < k) :
    ∃ hm' : m < (rmUnordered l k).length, (rmUnordered l k)[m] = l[m]'(by omega) := by
  have hlast : l.getLast? = some (l[l.length - 1]'(by omega)) := by
    rw [List.getLast?_eq_getElem?, List.getElem?_eq_getElem (by omega)]
  simp only [rmUnordered, hlast]
  refine ⟨by simp; omega, ?_⟩
  rw [List.getElem_dropLast, List.getElem_set_ne (by omega)]

theorem length_rmUnordered {l : List R} {k : Nat} (hk : k < l.length) :
    (rmUnordered l k).length = l.length - 1 := by
  have hlast : l.getLast? = some (l[l.length - 1]'(by omega)) := by
    rw [List.getLast?_eq_getElem?, List.getElem?_eq_getElem (by omega)]
  simp [rmUnordered, hlast]

theorem eraseLoop_run [BEq R] (i : Nat) (v : R) :
    ∀ (fuel k count : Nat) (h : Heap R), h.WF →
      (∀ m, m < k → (hm : m < (h.vec i).length) → ((h.vec i)[m] == v) = false) →
      (h.vec i).length - k < fuel →
      ∃ h' d, eraseLoop i v fuel (k : Int) count h = .ok (count + (h.vec i).countP (· == v), h') ∧
        VUpd h h' i d ∧ d.Perm ((h.vec i).filter (fun x => !(x == v))) := by
  intro fuel
  induction fuel with
  | zero => intro k count h _ _ hf; omega
  | succ f ih =>
    intro k count h w hpre hf
    simp only [eraseLoop]
    rw [bind_ok (find_run w i v k)]
    by_cases e : findSpec (h.vec i) v k = -1
    · rw [if_pos e]
      have hnone := findSpec_none e
      have hall : ∀ x ∈ h.vec i, (x == v) = false := by
        intro x hx
        obtain ⟨m, hm, rfl⟩ := List.getElem_of_mem hx
        by_cases hmk : m < k
        · exact hpre m hmk hm
        · exact hnone m (by omega) hm
      have h0 : (h.vec i).countP (· == v) = 0 := by
        rw [List.countP_eq_zero]; intro x hx; simp [hall x hx]
      have h1 : (h.vec i).filter (fun x => !(x == v)) = h.vec i := by
        rw [List.filter_eq_self]; intro x hx; simp [hall x hx]
      refine ⟨h, h.vec i, by simp [h0], VUpd.refl w i, by rw [h1]⟩
    · rw [if_neg e]
      obtain ⟨j, hj, hkj, hjl, hjv, hjmin⟩ := findSpec_some rfl e
      rw [hj]
      obtain ⟨h1, e1, u1⟩ := remove_unordered_ok w i j hjl
      rw [bind_ok e1]
      have hlen := length_rmUnordered hjl
      have hv1 : h1.vec i = rmUnordered (h.vec i) j := u1.vec_same
      obtain ⟨h2, d, e2, u2, p2⟩ := ih j (count + 1) h1 (u1.wf w) (by
        intro m hmj hm
        rw [hv1] at hm
        obtain ⟨hm', he⟩ := rmUnordered_getElem_lt hjl hmj
        have : (h1.vec i)[m] = (h.vec i)[m]'(by omega) := by
          rw [← he]; simp only [hv1]
        rw [this]
        by_cases hmk : m < k
        · exact hpre m hmk (by omega)
        · exact hjmin m (by omega) hmj) (by rw [hv1, hlen]; omega)
      have hperm : ((h.vec i)[j] :: rmUnordered (h.vec i) j).Perm (h.vec i) :=
        ((rmUnordered_perm hjl).cons _).trans (getElem_cons_eraseIdx_perm hjl)
      refine ⟨h2, d, ?_, u1.trans u2, ?_⟩
      · rw [e2, hv1, ← hperm.countP_eq]
        simp [hjv]; omega
      · refine p2.trans ?_
        rw [hv1]
        have := hperm.filter (fun x => !(x == v))
        rwa [List.filter_cons_of_neg (by simp [hjv])] at this

theorem erase_multiple_unordered_run [BEq R] {h : Heap R} (w : h.WF) (i : Nat) (v : R) :
    ∃ h' d, erase_multiple_unordered i v h = .ok ((h.vec i).countP (· == v), h') ∧
      VUpd h h' i d ∧ d.Perm ((h.vec i).filter (fun x => !(x == v))) := by
  unfold erase_multiple_unordered
  rw [bind_ok (size_run w i)]
  have := eraseLoop_run i v ((h.vec i).length + 1) 0 0 h w (by intro m hm; omega) (by omega)
  simpa using this

theorem invert_run {h : Heap R} (w : h.WF) (i : Nat) :
    ∃ h', invert i h = .ok ((), h') ∧ VUpd h h' i (h.vec i).reverse := by
  unfold invert
  rw [bind_ok (size_run w i)]
  generalize hl : h.vec i = l
  have key := Runs.forN (l.length / 2)
    (fun t h' => ∃ d, h' = h.setBuf (.v i) d ∧ d.length = l.length ∧
      ∀ k, k < l.length → d[k]? = if k < t ∨ l.length - t ≤ k then l[l.length - 1 - k]? else l[k]?)
    (fun t => do
      let x ← load (.v i) t
      let y ← load (.v i) (l.length - t - 1)
      store (.v i) t y
      store (.v i) (l.length - t - 1) x) h ?_ ?_
  · rw [runs_iff] at key
    obtain ⟨_, h', e, d, rfl, hd, hk⟩ := key
    refine ⟨_, e, ?_⟩
    have : d = l.reverse := by
      apply List.ext_getElem?
      intro k
      by_cases hkl : k < l.length
      · rw [hk k hkl, List.getElem?_reverse hkl]
        split
        · rfl
        · congr 1; omega
      · rw [List.getElem?_eq_none (by omega), List.getElem?_eq_none (by simp; omega)]
    subst this
    exact vupd_mk' h i _ (by rw [w.vsize, hl]; simp)
  · refine ⟨l, ?_, rfl, ?_⟩
    · rw [← hl]; exact (setBuf_self _ _).symm
    · intro k hk; rw [if_neg (by omega)]
  · intro t h1 ht ⟨d, hd, hdl, hk⟩
    subst hd
    have ht2 : t < d.length := by omega
    have ht3 : l.length - t - 1 < d.length := by omega
    refine Runs.of_eq (a := ()) (h' := h.setBuf (.v i) ((d.set t d[l.length - t - 1]).set (l.length - t - 1) d[t])) ?_ ?_
    · rw [bind_ok (load_ok (v := d[t]) (by simp))]
      rw [bind_ok (load_ok (v := d[l.length - t - 1]) (by simp))]
      rw [bind_ok (store_ok _ (by simpa using ht2))]
      rw [store_ok _ (by simpa using ht3)]
      simp
    · refine ⟨_, rfl, by simp [hdl], ?_⟩
      intro k hkl
      have e1 := hk t (by omega)
      have e2 := hk (l.length - t - 1) (by omega)
      rw [if_neg (by omega)] at e1 e2
      rw [List.getElem?_eq_getElem ht2, List.getElem?_eq_getElem (by omega)] at e1
      rw [List.getElem?_eq_getElem ht3, List.getElem?_eq_getElem (by omega)] at e2
      simp only [Option.some.injEq] at e1 e2
      simp only [List.getElem?_set, List.length_set]
      by_cases c1 : l.length - t - 1 = k
      · rw [if_pos c1, if_pos (by omega), if_pos (by omega), e1, List.getElem?_eq_getElem (by omega)]
        congr 2; omega
      · rw [if_neg c1]
        by_cases c2 : t = k
        · subst c2
          rw [if_pos rfl, if_pos ht2, if_pos (by omega), e2, List.getElem?_eq_getElem (by omega)]
          congr 2; omega
        · rw [if_neg c2, hk k hkl]
          by_cases c3 : k < t ∨ l.length - t ≤ k
          · rw [if_pos c3, if_pos (by omega)]
          · rw [if_neg c3, if_neg (by omega)]

theorem fill_run {h : Heap R} (w : h.WF) (i : Nat) (v : R) :
    ∃ h', fill i v h = .ok ((), h') ∧ VUpd h h' i (List.replicate (h.vec i).length v) := by
  unfold fill
  rw [fillAll_run _ _ _ (w.len _), ← w.len]
  exact ⟨_, rfl, vupd_mk' h i _ (by rw [w.vsize]; simp [Heap.vec])⟩

theorem insert_bad {h : Heap R} (w : h.WF) (i : Nat) (p : Int) (v : R)
    (hp : ¬(0 ≤ p ∧ p ≤ ((h.vec i).length : Int))) : insert i p v h = .ok ((), h) := by
  unfold insert
  rw [bind_ok (size_run w i)]
  have : idxOk p ((h.vec i).length + 1) = false := by simp [idxOk]; omega
  simp [this]

theorem insert_ok {h : Heap R} (w : h.WF) (i p : Nat) (v : R) (hp : p ≤ (h.vec i).length) :
    ∃ h', insert i (p : Int) v h = .ok ((), h') ∧ VUpd h h' i ((h.vec i).insertIdx p v) := by
  unfold insert
  rw [bind_ok (size_run w i)]
  have : idxOk (p : Int) ((h.vec i).length + 1) = true := by simp [idxOk]; omega
  rw [if_pos this]
  by_cases e : p = (h.vec i).length
  · rw [if_pos (by rw [e])]
    have := push_back_run w i v
    rwa [e, List.insertIdx_length_self]
  · rw [if_neg (by omega), Int.toNat_natCast]
    obtain ⟨h1, d0, e1, u1, hd0, hk0⟩ := resize_run (h := h) i ((h.vec i).length + 1)
    rw [bind_ok (by simpa using e1)]
    generalize hl : h.vec i = l at *
    have key := Runs.forN (l.length - p)
      (fun t h' => ∃ d, h' = h1.setBuf (.v i) d ∧ d.length = l.length + 1 ∧
        ∀ k, k < l.length + 1 → d[k]? = if l.length - t < k then l[k - 1]? else d0[k]?)
      (fun t => do
        let x ← load (.v i) (l.length - t - 1)
        store (.v i) (l.length - t) x) h1 ?_ ?_
    · rw [runs_iff] at key
      obtain ⟨_, h', e2, d, rfl, hd, hk⟩ := key
      rw [bind_ok e2, store_ok _ (by simp [hd]; omega)]
      refine ⟨_, rfl, ?_⟩
      have : d.set p v = l.insertIdx p v := by
        apply List.ext_getElem?
        intro k
        by_cases hkl : k < l.length + 1
        · rw [List.getElem?_set, List.getElem?_insertIdx]
          by_cases c1 : p = k
          · subst c1; rw [if_pos rfl, if_pos (by omega), if_neg (by omega), if_pos rfl, if_pos (by omega)]
          · rw [if_neg c1, hk k hkl]
            by_cases c2 : k < p
            · rw [if_neg (by omega), if_pos c2, hk0 k (by omega) hkl]
            · rw [if_pos (by omega), if_neg c2, if_neg (Ne.symm c1)]
        · rw [List.getElem?_eq_none (by simp; omega), List.getElem?_eq_none (by
            rw [List.length_insertIdx]; simp [hp]; omega)]
      have hlen : (d.set p v).length = l.length + 1 := by simp [hd]
      simp only [setBuf_buf_same, setBuf_setBuf]
      rw [this] at hlen ⊢
      refine u1.trans (vupd_mk' h1 i _ ?_)
      rw [u1.size, hd0, hlen]
    · refine ⟨d0, ?_, hd0, ?_⟩
      · rw [← u1.buf]; exact (setBuf_self _ _).symm
      · intro k hk; rw [if_neg (by omega)]
    · intro t h2 ht ⟨d, hd, hdl, hk⟩
      subst hd
      have ht1 : l.length - t - 1 < d.length := by omega
      refine Runs.of_eq (a := ()) (h' := h1.setBuf (.v i) (d.set (l.length - t) d[l.length - t - 1])) ?_ ?_
      · rw [bind_ok (load_ok (v := d[l.length - t - 1]) (by simp))]
        rw [store_ok _ (by simp; omega)]
        simp
      · refine ⟨_, rfl, by simp [hdl], ?_⟩
        intro k hkl
        have e2 := hk (l.length - t - 1) (by omega)
        rw [if_neg (by omega), hk0 _ (by omega) (by omega), List.getElem?_eq_getElem ht1,
          List.getElem?_eq_getElem (by omega)] at e2
        simp only [Option.some.injEq] at e2
        rw [List.getElem?_set]
        by_cases c1 : l.length - t = k
        · rw [if_pos c1, if_pos (by omega), if_pos (by omega), e2, List.getElem?_eq_getElem (by omega)]
          congr 2; omega
        · rw [if_neg c1, hk k hkl]
          by_cases c3 : l.length - t < k
          · rw [if_pos c3, if_pos (by omega)]
          · rw [if_neg c3, if_neg (by omega)]

/-- Position at which `ordered_insert` inserts. -/
theorem scanGreater_run [LT R] [DecidableLT R] {h : Heap R} (lc : Loc) (v : R) :
    ∀ (c k : Nat), c + k = (h.buf lc).length →
      scanGreater lc v c k h = .ok (k + ((h.buf lc).drop k).findIdx (fun x => decide (v < x)), h) := by
  intro c
  induction c with
  | zero =>
    intro k hk
    simp [scanGreater, List.drop_of_length_le (by omega : (h.buf lc).length ≤ k)]
  | succ c ih =>
    intro k hk
    have hk2 : k < (h.buf lc).length := by omega
    simp only [scanGreater]
    rw [bind_ok (load_ok' hk2)]
    rw [List.drop_eq_getElem_cons hk2, List.findIdx_cons]
    by_cases e : v < (h.buf lc)[k]
    · simp [e]
    · rw [if_neg e, ih (k + 1) (by omega)]
      simp [e]; omega

/-- `ordered_insert` on lists. -/
def orderedInsertSpec [LT R] [DecidableLT R] (l : List R) (v : R) : List R :=
  l.insertIdx (l.findIdx (fun x => decide (v < x))) v

theorem ordered_insert_run [LT R] [DecidableLT R] {h : Heap R} (w : h.WF) (i : Nat) (v : R) :
    ∃ h', ordered_insert i v h = .ok ((), h') ∧ VUpd h h' i (orderedInsertSpec (h.vec i) v) := by
  unfold ordered_insert
  rw [bind_ok (size_run w i)]
  have := scanGreater_run (h := h) (.v i) v (h.vec i).length 0 rfl
  rw [bind_ok this]
  simp only [List.drop_zero, Nat.zero_add]
  exact insert_ok w i _ v List.findIdx_le_length

theorem get_data_run {h : Heap R} (w : h.WF) (i : Nat) : get_data i h = .ok (h.vec i, h) := by
  unfold get_data
  rw [bind_ok (size_run w i)]
  exact readAll_run (.v i) _ h rfl

theorem set_data_run {h : Heap R} (w : h.WF) (i : Nat) (xs : List R) :
    ∃ h', set_data i xs h = .ok ((), h') ∧ VUpd h h' i xs := by
  unfold set_data
  rw [bind_ok (size_run w i)]
  by_cases e : (h.vec i).length = xs.length
  · rw [if_pos e]
    dsimp only
    rw [storeList_run _ _ _ e]
    exact ⟨_, rfl, vupd_mk' h i _ (by rw [w.vsize, e])⟩
  · rw [if_neg e]
    obtain ⟨h1, d0, e1, u1, hd0, _⟩ := resize_run (h := h) i xs.length
    rw [bind_ok e1]
    dsimp only
    rw [storeList_run _ _ _ (by rw [u1.buf, hd0])]
    exact ⟨_, rfl, u1.trans (vupd_mk' h1 i _ (by rw [u1.size, hd0]))⟩

theorem set_from_vector_run {h : Heap R} (w : h.WF) (i : Nat) (xs : List R) :
    ∃ h', set_from_vector i xs h = .ok ((), h') ∧ VUpd h h' i xs := by
  unfold set_from_vector
  rw [bind_ok (size_run w i)]
  have key : ∀ h1 : Heap R, ∃ h', (do resize i (xs.length : Int); storeList (.v i) xs : M R Unit) h1 = .ok ((), h') ∧
      VUpd h1 h' i xs := by
    intro h1
    obtain ⟨h2, d0, e1, u1, hd0, _⟩ := resize_run (h := h1) i xs.length
    rw [bind_ok e1, storeList_run _ _ _ (by rw [u1.buf, hd0])]
    exact ⟨_, rfl, u1.trans (vupd_mk' h2 i _ (by rw [u1.size, hd0]))⟩
  by_cases e : (h.vec i).length = xs.length
  · rw [if_pos e]
    exact key h
  · rw [if_neg e]
    obtain ⟨h1, d0, e1, u1, hd0, _⟩ := resize_run (h := h) i xs.length
    rw [bind_ok e1]
    obtain ⟨h2, e2, u2⟩ := key h1
    exact ⟨h2, e2, u1.trans u2⟩

theorem set_from_run {h : Heap R} (w : h.WF) (i j : Nat) :
    ∃ h', set_from_mlpp_vector i (some j) h = .ok ((), h') ∧ VUpd h h' i (h.vec j) := by
  obtain ⟨h', e, u⟩ := setFrom_run (.v i) (.v j) h (w.len _) (w.len _)
  refine ⟨h', e, ?_⟩
  rw [w.vsize] at u
  exact u

end Vec
end Verif
