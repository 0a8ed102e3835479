import Verif.Lemmas.VectorApi

/-!
# C01-C05, C07, C15 (vectors): `MLPPVector` as a container

All theorems of this file are for an arbitrary element type with arbitrary `==` and `<` (IEEE floats included)
and for arbitrary contents of uninitialised memory.
-/

namespace Verif
open Spec
variable {R : Type}

/-- The start of a program: all vectors are empty. -/
example (junk : Nat → Nat → R) : absV (Heap.init junk) = fun _ => [] := rfl

/-- **C01.** Any sequence of container calls on fresh vectors returns normally (no access outside an allocation, no
null dereference, no abort), and afterwards `size()` of every vector is the number of cells it owns. -/
theorem C01_vector_memory_safe [BEq R] [LT R] [DecidableLT R] [Zero R] (junk : Nat → Nat → R) (ops : List (VOp R)) :
    ∃ answers h', Vec.execAll ops (Heap.init junk) = .ok (answers, h') ∧
      ∀ i, Vec.size i h' = .ok ((h'.buf (.v i)).length, h') := by
  obtain ⟨as, h', e, w, _⟩ := execAll_sound ops (init_wf junk)
  exact ⟨as, h', e, fun i => Vec.size_run w i⟩

/-- **C01**, the negative sizes the statement excludes: `resize` with a negative size aborts the program. -/
theorem C01_resize_negative_crashes (h : Heap R) (i : Nat) (n : Int) (hn : n < 0) :
    Vec.resize i n h = .crash := Vec.resize_neg i n hn

/-- **C02.** What any sequence of container calls answers, and what the vectors contain afterwards, is what the list
specification (`Spec.VRel`) allows, starting from empty lists. -/
theorem C02_vector_refines_list [BEq R] [LT R] [DecidableLT R] [Zero R] (junk : Nat → Nat → R) (ops : List (VOp R)) :
    ∃ answers h', Vec.execAll ops (Heap.init junk) = .ok (answers, h') ∧
      VRun (fun _ => []) ops answers (absV h') := by
  obtain ⟨as, h', e, _, r⟩ := execAll_sound ops (init_wf junk)
  exact ⟨as, h', e, r⟩

/-- **C02**, for a single call in any reachable (well-formed) heap. -/
theorem C02_vector_step [BEq R] [LT R] [DecidableLT R] [Zero R] (h : Heap R) (w : h.WF) (op : VOp R) :
    ∃ a h', Vec.exec op h = .ok (a, h') ∧ h'.WF ∧ VRel (absV h) op a (absV h') := exec_sound w op

/-- A concrete history: two vectors, self-append, removal in the middle. -/
example : (Vec.execAll (R := Int) [.push_back 0 5, .push_back 0 7, .append 0 (some 0), .remove 0 1]
      (Heap.init fun _ _ => 0)).bufOf (.v 0) = some [5, 5, 7] := by decide +kernel

/-- **C03 (vectors).** With an index outside the valid range `element_get` answers 0 and `element_set`, `remove`,
`remove_unordered`, `insert` do nothing at all. -/
theorem C03_vector_bad_index [Zero R] (h : Heap R) (w : h.WF) (i : Nat) (p : Int) (x : R)
    (hp : ¬ Valid p (h.buf (.v i)).length) :
    Vec.element_get i p h = .ok (0, h) ∧ Vec.element_set i p x h = .ok ((), h) ∧
    Vec.remove i p h = .ok ((), h) ∧ Vec.remove_unordered i p h = .ok ((), h) ∧
    (p ≠ (h.buf (.v i)).length → Vec.insert i p x h = .ok ((), h)) := by
  refine ⟨Vec.element_get_bad w i p hp, Vec.element_set_bad w i p x hp, Vec.remove_bad w i p hp,
    Vec.remove_unordered_bad w i p hp, ?_⟩
  intro hne
  refine Vec.insert_bad w i p x ?_
  unfold Valid at hp
  unfold Heap.vec
  omega

example : ¬ Valid (-1) 3 ∧ ¬ Valid 3 3 ∧ Valid 2 3 := by simp [Valid]

/-- **C04.** `erase_multiple_unordered(x)` terminates, returns the number of elements equal to `x`, and leaves exactly
the other elements, with their multiplicities; other objects are untouched. -/
theorem C04_erase_multiple_unordered [BEq R] (h : Heap R) (w : h.WF) (i : Nat) (x : R) :
    Runs (Vec.erase_multiple_unordered i x) h fun n h' =>
      n = (h.buf (.v i)).countP (· == x) ∧
      (h'.buf (.v i)).Perm ((h.buf (.v i)).filter fun y => !(y == x)) ∧
      (∀ y ∈ h'.buf (.v i), (y == x) = false) ∧
      Vec.size i h' = .ok ((h.buf (.v i)).length - n, h') ∧
      ∀ l, l ≠ .v i → h'.buf l = h.buf l ∧ h'.size l = h.size l := by
  obtain ⟨h', d, e, u, p⟩ := Vec.erase_multiple_unordered_run w i x
  have hb : h'.buf (.v i) = d := u.buf
  refine Runs.of_eq e ⟨rfl, by rw [hb]; exact p, ?_, ?_, fun l hl => ⟨u.bufFrame l hl, u.sizeFrame l hl⟩⟩
  · intro y hy
    rw [hb] at hy
    have := (p.mem_iff).mp hy
    simp only [List.mem_filter, Bool.not_eq_true'] at this
    exact this.2
  · rw [Vec.size_run (u.wf w), u.vec_same, p.length_eq]
    have h1 := List.length_eq_countP_add_countP (p := fun y => y == x) (l := h.buf (.v i))
    have h2 : ((h.buf (.v i)).filter fun y => !(y == x)).length = (h.buf (.v i)).countP (fun y => !(y == x)) :=
      List.countP_eq_length_filter.symm
    have h3 : (h.buf (.v i)).countP (fun a => decide ¬((a == x) = true)) =
        (h.buf (.v i)).countP (fun y => !(y == x)) := by
      congr 1; funext y; cases (y == x) <;> simp
    have h4 : ((h.vec i).filter fun y => !(y == x)).length = ((h.buf (.v i)).filter fun y => !(y == x)).length := rfl
    have h5 : (h.vec i).countP (· == x) = (h.buf (.v i)).countP (· == x) := rfl
    rw [h4, h2, h5, ← h3]
    congr 2
    omega

example : Runs (Vec.erase_multiple_unordered 0 (2 : Int))
    (((Heap.init fun _ _ => 0).setBuf (.v 0) [2, 1, 2, 2, 3]).setSize (.v 0) ⟨5, 1, 1⟩)
    fun n h' => n = 3 ∧ h'.buf (.v 0) = [3, 1] := by
  refine Runs.of_eq rfl ⟨rfl, rfl⟩

/-- **C05.** `find(x, from)` with `from ≥ 0` changes nothing and returns the first matching index at or after `from`,
or -1 if there is none. -/
theorem C05_find_first [BEq R] (h : Heap R) (w : h.WF) (i start : Nat) (x : R) :
    Runs (Vec.find i x start) h fun r h' => h' = h ∧ IsFirst (h.buf (.v i)) x start r := by
  exact Runs.of_eq (Vec.find_run w i x start) ⟨rfl, isFirst_of_findSpec _ _ _⟩

/-- **C05**, why `from` must not be negative: `find` then reads outside the allocation. -/
theorem C05_find_negative_ub [BEq R] (h : Heap R) (w : h.WF) (i : Nat) (x : R) (p : Int) (hp : p < 0) :
    Vec.find i x p h = .ub := Vec.find_neg w i x p hp

example : IsFirst [4, 9, 4, 9] (9 : Int) 2 3 := by
  refine .inr ⟨3, rfl, by omega, ⟨9, rfl, rfl⟩, ?_⟩
  intro m y h1 h2 h3
  have : m = 2 := by omega
  subst this
  simp at h3; subst h3; rfl

/-- **C07.** `ordered_insert(x)` on a vector sorted with respect to a transitive order (`a ≤ b` meaning `¬ b < a`)
gives a sorted vector with exactly the previous elements plus `x`. -/
theorem C07_ordered_insert_sorted [LT R] [DecidableLT R]
    (htrans : ∀ a b c : R, ¬ b < a → ¬ c < b → ¬ c < a) (hasymm : ∀ a b : R, a < b → ¬ b < a)
    (h : Heap R) (w : h.WF) (i : Nat) (x : R) (hs : (h.buf (.v i)).Pairwise fun a b => ¬ b < a) :
    Runs (Vec.ordered_insert i x) h fun _ h' =>
      ((h'.buf (.v i)).Pairwise fun a b => ¬ b < a) ∧ (h'.buf (.v i)).Perm (x :: h.buf (.v i)) ∧
      ∀ l, l ≠ .v i → h'.buf l = h.buf l ∧ h'.size l = h.size l := by
  obtain ⟨h', e, u⟩ := Vec.ordered_insert_run w i x
  have hb : h'.buf (.v i) = Vec.orderedInsertSpec (h.buf (.v i)) x := u.buf
  obtain ⟨a, b, h1, h2, h3, h4⟩ := insertedInOrder_spec (h.buf (.v i)) x
  refine Runs.of_eq e ⟨?_, ?_, fun l hl => ⟨u.bufFrame l hl, u.sizeFrame l hl⟩⟩
  · rw [hb, h2]
    rw [h1] at hs
    rw [List.pairwise_append] at hs ⊢
    obtain ⟨p1, p2, p3⟩ := hs
    have hxb : ∀ y ∈ b, ¬ y < x := by
      intro y hy
      cases b with
      | nil => cases hy
      | cons z b =>
        have hz := h4 z rfl
        rcases List.mem_cons.mp hy with rfl | hy
        · exact hasymm _ _ hz
        · have := (List.pairwise_cons.mp p2).1 y hy
          exact htrans _ _ _ (hasymm _ _ hz) this
    refine ⟨p1, List.pairwise_cons.mpr ⟨hxb, p2⟩, ?_⟩
    intro y hy z hz
    rcases List.mem_cons.mp hz with rfl | hz
    · exact h3 y hy
    · exact p3 y hy z hz
  · rw [hb, h2, h1]
    exact List.perm_middle

example : Runs (Vec.ordered_insert 0 (4 : Int))
    (((Heap.init fun _ _ => 0).setBuf (.v 0) [1, 3, 5]).setSize (.v 0) ⟨3, 1, 1⟩)
    fun _ h' => h'.buf (.v 0) = [1, 3, 4, 5] := Runs.of_eq rfl rfl

/-- **C15 (vectors).** `set_data(x.get_data())` makes any vector equal to `x` in size and contents. -/
theorem C15_vector_data_round_trip (h : Heap R) (w : h.WF) (i j : Nat) :
    Runs (do let xs ← Vec.get_data j; Vec.set_data i xs) h fun _ h' =>
      h'.buf (.v i) = h.buf (.v j) ∧ h'.size (.v i) = h.size (.v j) ∧
      ∀ l, l ≠ .v i → h'.buf l = h.buf l ∧ h'.size l = h.size l := by
  obtain ⟨h', e, u⟩ := Vec.set_data_run w i (h.vec j)
  refine Runs.of_eq (a := ()) (h' := h') (by rw [bind_ok (Vec.get_data_run w j), e]) ⟨u.buf, ?_, ?_⟩
  · rw [u.size, w.vsize j]
  · exact fun l hl => ⟨u.bufFrame l hl, u.sizeFrame l hl⟩

/-- **C15 (vectors)**, the `Vector<real_t>` variant `set_from_vector(x.to_vector())`. -/
theorem C15_vector_round_trip_vector (h : Heap R) (w : h.WF) (i j : Nat) :
    Runs (do let xs ← Vec.get_data j; Vec.set_from_vector i xs) h fun _ h' =>
      h'.buf (.v i) = h.buf (.v j) ∧ h'.size (.v i) = h.size (.v j) ∧
      ∀ l, l ≠ .v i → h'.buf l = h.buf l ∧ h'.size l = h.size l := by
  obtain ⟨h', e, u⟩ := Vec.set_from_vector_run w i (h.vec j)
  refine Runs.of_eq (a := ()) (h' := h') (by rw [bind_ok (Vec.get_data_run w j), e]) ⟨u.buf, ?_, ?_⟩
  · rw [u.size, w.vsize j]
  · exact fun l hl => ⟨u.bufFrame l hl, u.sizeFrame l hl⟩

end Verif
