import Verif.Lemmas.Vector
import Verif.Model.VectorApi

/-! # Every container call refines the list specification -/

namespace Verif
open Spec
variable {R : Type}

/-- Contents of all vectors in a heap. -/
def absV (h : Heap R) : VState R := fun i => h.buf (.v i)

theorem absV_upd {h h' : Heap R} {i : Nat} {d : List R} (u : VUpd h h' i d) : absV h' = (absV h).put i d := by
  funext j
  by_cases e : j = i
  · subst e; have := u.vec_same; simpa [absV, VState.put, Heap.vec] using this
  · have := u.vec_ne e; simpa [absV, VState.put, e, Heap.vec] using this

theorem isFirst_of_findSpec [BEq R] (l : List R) (x : R) (k : Nat) : IsFirst l x k (Vec.findSpec l x k) := by
  by_cases e : Vec.findSpec l x k = -1
  · left
    refine ⟨e, ?_⟩
    intro j y hj hy
    obtain ⟨h1, rfl⟩ := List.getElem?_eq_some_iff.mp hy
    exact Vec.findSpec_none e j hj h1
  · right
    obtain ⟨j, h1, h2, hj, h3, h4⟩ := Vec.findSpec_some rfl e
    refine ⟨j, h1, h2, ⟨_, List.getElem?_eq_getElem hj, h3⟩, ?_⟩
    intro m y hm1 hm2 hy
    obtain ⟨h5, rfl⟩ := List.getElem?_eq_some_iff.mp hy
    exact h4 m hm1 hm2

theorem movedLast_rmUnordered {l : List R} {k : Nat} (hk : k < l.length) : MovedLast l k (Vec.rmUnordered l k) := by
  have hlast : l.getLast? = some (l[l.length - 1]'(by omega)) := by
    rw [List.getLast?_eq_getElem?, List.getElem?_eq_getElem (by omega)]
  have hlen := Vec.length_rmUnordered hk
  refine ⟨by omega, ?_⟩
  intro m hm
  have h2 : m < (l.set k (l[l.length - 1]'(by omega))).length - 1 := by simp; omega
  simp only [Vec.rmUnordered, hlast]
  rw [List.getElem?_dropLast, if_pos h2, List.getElem?_set]
  by_cases e : k = m
  · subst e; rw [if_pos rfl, if_pos (by omega), if_pos rfl, List.getElem?_eq_getElem (by omega)]
  · rw [if_neg e, if_neg (Ne.symm e)]

theorem insertIdx_eq_take_drop (l : List R) (p : Nat) (x : R) (hp : p ≤ l.length) :
    l.insertIdx p x = l.take p ++ x :: l.drop p := by
  induction l generalizing p with
  | nil => have : p = 0 := by simpa using hp
           subst this; rfl
  | cons a l ih =>
    cases p with
    | zero => rfl
    | succ p => rw [List.insertIdx_succ_cons, ih p (by simpa using hp)]; rfl

theorem insertedInOrder_spec [LT R] [DecidableLT R] (l : List R) (x : R) :
    InsertedInOrder l x (Vec.orderedInsertSpec l x) := by
  refine ⟨l.take (l.findIdx fun y => decide (x < y)), l.drop (l.findIdx fun y => decide (x < y)), ?_, ?_, ?_, ?_⟩
  · exact (List.take_append_drop _ _).symm
  · exact insertIdx_eq_take_drop l _ x List.findIdx_le_length
  · intro y hy
    obtain ⟨m, hm, rfl⟩ := List.getElem_of_mem hy
    rw [List.getElem_take]
    have hm' : m < l.findIdx fun y => decide (x < y) := by
      rw [List.length_take] at hm; omega
    have := List.not_of_lt_findIdx hm'
    simpa using this
  · intro y hy
    rw [List.head?_drop] at hy
    obtain ⟨h1, rfl⟩ := List.getElem?_eq_some_iff.mp hy
    have := List.findIdx_getElem (p := fun y => decide (x < y)) (xs := l) (w := h1)
    simpa using this

theorem eraseP_split (l : List R) (p : R → Bool) :
    ((∀ y ∈ l, p y = false) ∧ l.eraseP p = l) ∨
      ∃ u y w, l = u ++ y :: w ∧ p y = true ∧ (∀ z ∈ u, p z = false) ∧ l.eraseP p = u ++ w := by
  induction l with
  | nil => left; simp
  | cons a l ih =>
    cases e : p a with
    | true => right; exact ⟨[], a, l, rfl, e, by simp, by simp [e]⟩
    | false =>
      rcases ih with ⟨h1, h2⟩ | ⟨u, y, w, h1, h2, h3, h4⟩
      · left
        exact ⟨List.forall_mem_cons.mpr ⟨e, h1⟩, by simp [e, h2]⟩
      · right
        exact ⟨a :: u, y, w, by rw [h1]; rfl, h2, List.forall_mem_cons.mpr ⟨e, h3⟩, by simp [e, h4]⟩

theorem VState.put_self (s : VState R) (i : Nat) : s.put i (s i) = s := by
  funext j; by_cases e : j = i <;> simp [VState.put, e]

/-- What a vector call leaves behind: a well-formed heap with the same matrices and tensors. -/
structure VOk (h h' : Heap R) : Prop where
  wf : h'.WF
  frame : ∀ l, (∀ i, l ≠ .v i) → h'.buf l = h.buf l ∧ h'.size l = h.size l
  next : h'.next = h.next

theorem VUpd.ok {h h' : Heap R} {i : Nat} {d : List R} (u : VUpd h h' i d) (w : h.WF) : VOk h h' :=
  ⟨u.wf w, fun l hl => ⟨u.bufFrame l (hl i), u.sizeFrame l (hl i)⟩, u.next⟩

open Vec in
theorem exec_sound' [BEq R] [LT R] [DecidableLT R] [Zero R] {h : Heap R} (w : h.WF) (op : VOp R) :
    ∃ a h', exec op h = .ok (a, h') ∧ VOk h h' ∧ VRel (absV h) op a (absV h') := by
  have wo : VOk h h := ⟨w, fun _ _ => ⟨rfl, rfl⟩, rfl⟩
  -- a call that only updates vector `i`
  have upd : ∀ {m : M R Unit} {i : Nat} {d : List R}, (∃ h', m h = .ok ((), h') ∧ VUpd h h' i d) →
      ∃ h', (m >>= fun _ => (pure Ans.unit : M R (Ans R))) h = .ok (Ans.unit, h') ∧ VOk h h' ∧
        absV h' = (absV h).put i d := by
    intro m i d ⟨h', e, u⟩
    exact ⟨h', by rw [bind_ok e]; rfl, u.ok w, absV_upd u⟩
  have same : ∀ {m : M R Unit}, m h = .ok ((), h) →
      (m >>= fun _ => (pure Ans.unit : M R (Ans R))) h = .ok (Ans.unit, h) := by
    intro m e; rw [bind_ok e]; rfl
  have hv : ∀ {p : Int} {n : Nat}, Valid p n → ∃ k : Nat, p = (k : Int) ∧ k < n ∧ p.toNat = k := by
    intro p n ⟨h1, h2⟩
    exact ⟨p.toNat, by omega, by omega, rfl⟩
  cases op with
  | size i => exact ⟨_, _, by simp only [exec]; rw [bind_ok (size_run w i)]; rfl, wo, rfl, rfl⟩
  | element_get i p =>
    by_cases hp : Valid p (h.vec i).length
    · obtain ⟨k, rfl, hk, hk'⟩ := hv hp
      refine ⟨_, _, by simp only [exec]; rw [bind_ok (element_get_ok w i k hk)]; rfl, wo, rfl, ?_, ?_⟩
      · intro _; exact ⟨_, by rw [hk']; exact List.getElem?_eq_getElem hk, rfl⟩
      · intro h; exact absurd hp h
    · refine ⟨_, _, by simp only [exec]; rw [bind_ok (element_get_bad w i p hp)]; rfl, wo, rfl, ?_, ?_⟩
      · intro h; exact absurd h hp
      · intro _; rfl
  | element_set i p x =>
    by_cases hp : Valid p (h.vec i).length
    · obtain ⟨k, rfl, hk, hk'⟩ := hv hp
      obtain ⟨h', e, w', a⟩ := upd (element_set_ok w i k x hk)
      exact ⟨_, h', e, w', rfl, fun _ => by rw [hk']; exact a, fun h => absurd hp h⟩
    · exact ⟨_, h, same (element_set_bad w i p x hp), wo, rfl, fun h => absurd h hp, fun _ => rfl⟩
  | find i x k =>
    exact ⟨_, _, by simp only [exec]; rw [bind_ok (find_run w i x k)]; rfl, wo, rfl, _, rfl,
      isFirst_of_findSpec _ _ _⟩
  | get_data i => exact ⟨_, _, by simp only [exec]; rw [bind_ok (get_data_run w i)]; rfl, wo, rfl, rfl⟩
  | set_data i xs =>
    obtain ⟨h', e, w', a⟩ := upd (set_data_run w i xs)
    exact ⟨_, h', e, w', rfl, a⟩
  | push_back i x =>
    obtain ⟨h', e, w', a⟩ := upd (push_back_run w i x)
    exact ⟨_, h', e, w', rfl, a⟩
  | append i j =>
    cases j with
    | none => exact ⟨_, h, same rfl, wo, rfl, rfl⟩
    | some j =>
      obtain ⟨h', e, w', a⟩ := upd (append_run w i j)
      exact ⟨_, h', e, w', rfl, a⟩
  | set_from i j =>
    cases j with
    | none => exact ⟨_, h, same rfl, wo, rfl, rfl⟩
    | some j =>
      obtain ⟨h', e, w', a⟩ := upd (set_from_run w i j)
      exact ⟨_, h', e, w', rfl, a⟩
  | insert i p x =>
    by_cases hp : Valid p ((h.vec i).length + 1)
    · obtain ⟨k, rfl, hk, hk'⟩ := hv hp
      obtain ⟨h', e, w', a⟩ := upd (insert_ok w i k x (by omega))
      rw [insertIdx_eq_take_drop _ _ _ (by omega)] at a
      exact ⟨_, h', e, w', rfl, fun _ => by rw [hk']; exact a, fun h => absurd hp h⟩
    · refine ⟨_, h, same (insert_bad w i p x ?_), wo, rfl, fun h => absurd h hp, fun _ => rfl⟩
      unfold Valid at hp; omega
  | ordered_insert i x =>
    obtain ⟨h', e, w', a⟩ := upd (ordered_insert_run w i x)
    exact ⟨_, h', e, w', rfl, _, a, insertedInOrder_spec _ _⟩
  | remove i p =>
    by_cases hp : Valid p (h.vec i).length
    · obtain ⟨k, rfl, hk, hk'⟩ := hv hp
      obtain ⟨h', e, w', a⟩ := upd (remove_ok w i k hk)
      rw [List.eraseIdx_eq_take_drop_succ] at a
      exact ⟨_, h', e, w', rfl, fun _ => by rw [hk']; exact a, fun h => absurd hp h⟩
    · exact ⟨_, h, same (remove_bad w i p hp), wo, rfl, fun h => absurd h hp, fun _ => rfl⟩
  | remove_unordered i p =>
    by_cases hp : Valid p (h.vec i).length
    · obtain ⟨k, rfl, hk, hk'⟩ := hv hp
      obtain ⟨h', e, w', a⟩ := upd (remove_unordered_ok w i k hk)
      exact ⟨_, h', e, w', rfl, fun _ => ⟨_, a, by rw [hk']; exact movedLast_rmUnordered hk⟩, fun h => absurd hp h⟩
    · exact ⟨_, h, same (remove_unordered_bad w i p hp), wo, rfl, fun h => absurd h hp, fun _ => rfl⟩
  | erase i x =>
    obtain ⟨h', e, w', a⟩ := upd (erase_run w i x)
    refine ⟨_, h', e, w', rfl, ?_⟩
    rcases eraseP_split (h.vec i) (· == x) with ⟨h1, h2⟩ | ⟨u, y, v, h1, h2, h3, h4⟩
    · left
      rw [h2] at a
      exact ⟨h1, by rw [a]; exact VState.put_self _ _⟩
    · right
      rw [h4] at a
      exact ⟨u, y, v, h1, h2, h3, a⟩
  | erase_multiple_unordered i x =>
    obtain ⟨h', d, e, u, p⟩ := erase_multiple_unordered_run w i x
    exact ⟨_, h', by simp only [exec]; rw [bind_ok e]; rfl, u.ok w, rfl, d, absV_upd u, p⟩
  | invert i =>
    obtain ⟨h', e, w', a⟩ := upd (invert_run w i)
    exact ⟨_, h', e, w', rfl, a⟩
  | fill i x =>
    obtain ⟨h', e, w', a⟩ := upd (fill_run w i x)
    refine ⟨_, h', e, w', rfl, ?_⟩
    rw [a, List.map_const']; rfl
  | clear i =>
    obtain ⟨h', e, w', a⟩ := upd (clear_run (h := h) i)
    exact ⟨_, h', e, w', rfl, a⟩
  | reset i =>
    obtain ⟨h', e, w', a⟩ := upd (reset_run w i)
    exact ⟨_, h', e, w', rfl, a⟩
  | resize i n =>
    obtain ⟨h1, d, e1, u, hd, hk⟩ := resize_run (h := h) i n
    obtain ⟨h', e, w', a⟩ := upd ⟨h1, e1, u⟩
    exact ⟨_, h', e, w', rfl, d, a, hd, hk⟩

theorem exec_sound [BEq R] [LT R] [DecidableLT R] [Zero R] {h : Heap R} (w : h.WF) (op : VOp R) :
    ∃ a h', Vec.exec op h = .ok (a, h') ∧ h'.WF ∧ VRel (absV h) op a (absV h') := by
  obtain ⟨a, h', e, o, r⟩ := exec_sound' w op
  exact ⟨a, h', e, o.wf, r⟩

theorem execAll_sound [BEq R] [LT R] [DecidableLT R] [Zero R] (ops : List (VOp R)) :
    ∀ {h : Heap R}, h.WF →
      ∃ as h', Vec.execAll ops h = .ok (as, h') ∧ h'.WF ∧ VRun (absV h) ops as (absV h') := by
  induction ops with
  | nil => intro h w; exact ⟨[], h, rfl, w, .nil _⟩
  | cons op ops ih =>
    intro h w
    obtain ⟨a, h1, e1, w1, r1⟩ := exec_sound w op
    obtain ⟨as, h2, e2, w2, r2⟩ := ih w1
    refine ⟨a :: as, h2, ?_, w2, .cons r1 r2⟩
    simp only [Vec.execAll]
    rw [bind_ok e1, bind_ok e2]; rfl

end Verif
