import Verif.Lemmas.HashSet

/-! # C149: the hash set behaves as a set, for every history of operations and every hash function -/

namespace Verif.HashSet
open Spec.ListSet
open Verif.HashMap (cap table_facts cap_grows cap_mono reserveIndex)
variable {K : Type} [DecidableEq K] {junk : Nat → Nat} {hasher : K → UInt32} {m : Set K} {l : List K}

/-! ## Simulation -/

theorem full_iff (I : Rel hasher m l) :
    (4 * (m.num_elements + 1) > 3 * cap m.capacity_index ∧ m.capacity_index + 1 = 29) ↔ l.length = maxSize := by
  have h1 := I.fits
  have h2 := I.num
  have c28 : cap 28 = 1610612741 := rfl
  have c27 : cap 27 = 805306457 := rfl
  unfold maxSize
  constructor
  · rintro ⟨a, b⟩
    obtain e : m.capacity_index = 28 := by omega
    rw [e] at h1 a
    omega
  · intro e
    by_cases q : m.capacity_index = 28
    · rw [q]; omega
    · have := cap_mono _ I.idx 27 (by omega) (by have := I.idx; omega)
      omega

theorem place_idx {j : Nat} {k : K} (nd : l.Nodup) (h : l[j]? = some k) : place l k = some j := by
  obtain ⟨hj, e⟩ := List.getElem?_eq_some_iff.1 h
  unfold place
  rw [if_pos (List.mem_of_getElem? h), ← e, nd.idxOf_getElem]

theorem Rel.insert (I : Rel hasher m l) (k : K) :
    ∃ m', HashSet.insert junk hasher m k = some (m', place (Spec.ListSet.insert l k) k) ∧ Rel hasher m' (Spec.ListSet.insert l k) := by
  obtain ⟨I1, ha⟩ := I.allocate (junk := junk)
  unfold HashSet.insert
  generalize HashSet.allocate junk m = m1 at *
  unfold Spec.ListSet.insert
  rcases I1.lookup k with ⟨j, hj, e, -⟩ | ⟨nk, e⟩
  · rw [if_pos (.inl (List.mem_of_getElem? hj))]
    refine ⟨m1, ?_, I1⟩
    show (HashSet.lookup hasher m1 k).bind _ = _
    rw [e, place_idx I.nodup hj]; rfl
  · have f := full_iff I1
    have pl : place (l ++ [k]) k = some l.length := by
      unfold place
      rw [if_pos (by simp), List.idxOf_append_of_notMem nk]; simp
    by_cases q : 4 * (m1.num_elements + 1) > 3 * cap m1.capacity_index
    · by_cases q' : m1.capacity_index + 1 = 29
      · rw [if_pos (.inr (f.1 ⟨q, q'⟩))]
        refine ⟨m1, ?_, I1⟩
        show (HashSet.lookup hasher m1 k).bind _ = _
        rw [e]
        show (if _ then _ else _) = _
        rw [if_pos q, if_pos q']
        unfold place
        rw [if_neg nk]; rfl
      · have hm : l.length ≠ maxSize := fun c => q' (f.2 c).2
        obtain ⟨m2, e2, I2, a2, c2⟩ := I1.rehash (junk := junk) ha (j := m1.capacity_index + 1) (by have := I1.idx; omega) (by omega)
        have hg := cap_grows m1.capacity_index (by have := I1.idx; omega)
        have hmono := cap_mono (m1.capacity_index + 1) (by have := I1.idx; omega) m2.capacity_index I2.idx (by omega)
        obtain ⟨m3, e3, I3⟩ := I2.add a2 nk (by have h1 := I1.fits; have h2 := I1.num; have h3 := I2.num; omega)
        rw [if_neg (not_or.2 ⟨nk, hm⟩)]
        refine ⟨m3, ?_, I3⟩
        show (HashSet.lookup hasher m1 k).bind _ = _
        rw [e]
        show (if _ then _ else _) = _
        rw [if_pos q, if_neg q']
        show (HashSet.resize_and_rehash junk m1 _).bind _ = _
        rw [e2, pl]
        exact e3
    · have hm : l.length ≠ maxSize := fun c => q (f.2 c).1
      obtain ⟨m3, e3, I3⟩ := I1.add ha nk (by omega)
      rw [if_neg (not_or.2 ⟨nk, hm⟩)]
      refine ⟨m3, ?_, I3⟩
      show (HashSet.lookup hasher m1 k).bind _ = _
      rw [e]
      show (if _ then _ else _) = _
      rw [if_neg q, pl]
      exact e3

theorem Rel.clear (I : Rel hasher m l) : Rel hasher (HashSet.clear m) [] := by
  unfold HashSet.clear
  by_cases q : m.alloc = false ∨ m.num_elements = 0
  · rw [if_pos q]
    have : l = [] := by
      rcases q with q | q
      · exact I.blank q
      · exact List.length_eq_zero_iff.1 (I.num ▸ q)
    subst this; exact I
  · rw [if_neg q]
    have z : ∀ p < cap m.capacity_index, (if p < cap m.capacity_index then 0 else m.hashes p) = 0 := fun p hp => if_pos hp
    refine ⟨I.idx, rfl, List.nodup_nil, Nat.zero_le _, fun j => ?_, fun _ => rfl, fun _ => ?_, fun _ => ⟨?_, ?_, ?_⟩, fun _ => ?_⟩
    · show (if j < m.num_elements then none else m.keys j) = none
      split_ifs with h
      · rfl
      · rw [I.keys, List.getElem?_eq_none]
        have := I.num; omega
    · exact fun p hp h => absurd (z _ (HashMap.next_lt I.idx hp)) h
    · exact fun p hp h => absurd (z p hp) h
    · exact fun p hp _ _ h => absurd (z p hp) h
    · exact fun k => ⟨fun h => by simp at h, fun ⟨p, hp, h, _⟩ => absurd (z p hp) h⟩
    · exact fun p hp h => absurd (z p hp) h

theorem rel_new {i : Nat} (hi : i < 29) (T U H : Nat → Nat) : Rel hasher (⟨false, fun _ => none, T, U, H, i, 0⟩ : Set K) [] :=
  ⟨hi, rfl, List.nodup_nil, Nat.zero_le _, fun _ => rfl, fun _ => rfl, nofun, nofun, nofun⟩

theorem Rel.reset (I : Rel hasher m l) : Rel hasher (HashSet.reset m) [] := by
  have h : (HashSet.clear m).num_elements = 0 := I.clear.num
  have e : HashSet.reset m = ⟨false, fun _ => none, (HashSet.clear m).hash_to_key, (HashSet.clear m).key_to_hash, (HashSet.clear m).hashes, 2, 0⟩ := by
    rw [← h]; rfl
  rw [e]
  exact rel_new (by omega) ..

theorem reserveIndex_run (n : Nat) : ∀ fuel i j, i < 29 → reserveIndex n fuel i = some j → i ≤ j ∧ j < 29 := by
  intro fuel
  induction fuel with
  | zero => intro i j _ h; cases h
  | succ fuel ih =>
    intro i j hi h
    unfold reserveIndex at h
    split_ifs at h with q q'
    · have := ih (i + 1) j (by omega) h
      omega
    · cases h; omega

theorem Rel.reserve (I : Rel hasher m l) (n : Nat) : ∃ m', HashSet.reserve junk m n = some m' ∧ Rel hasher m' l := by
  unfold HashSet.reserve
  cases e : reserveIndex n 29 m.capacity_index with
  | none => exact ⟨m, rfl, I⟩
  | some j =>
    obtain ⟨h1, h2⟩ := reserveIndex_run n 29 _ j I.idx e
    dsimp only
    by_cases q : j = m.capacity_index
    · rw [if_pos q]; exact ⟨m, rfl, I⟩
    · rw [if_neg q]
      by_cases q' : m.alloc = false
      · rw [if_pos q']
        refine ⟨_, rfl, ⟨h2, I.num, I.nodup, ?_, I.keys, I.blank, fun c => ?_, fun c => ?_, fun c => ?_⟩⟩
        · have := cap_mono _ I.idx _ h2 h1
          have := I.fits
          show 4 * m.num_elements ≤ 3 * cap j
          omega
        all_goals rw [show m.alloc = false from q'] at c; cases c
      · rw [if_neg q']
        obtain ⟨m', e', I', -, -⟩ := I.rehash (junk := junk) (by simpa using q') h2 h1
        exact ⟨m', e', I'⟩

theorem holds_ext2 {i : Nat} {H H' : Nat → Nat} {E E' : Nat → Option K} {S : K → Prop} (C : HashMap.Holds hasher i H E S) (eH : ∀ p < cap i, H' p = H p)
    (e : ∀ p < cap i, H p ≠ 0 → E' p = E p) : HashMap.Holds hasher i H' E' S := by
  have D := holds_ext C e
  refine ⟨fun p hp h => ?_, fun p hp q hq h1 h2 h3 => ?_, fun k => (D.mem k).trans ?_⟩
  · rw [eH p hp] at h ⊢; exact D.own p hp h
  · rw [eH p hp] at h1; rw [eH q hq] at h2; exact D.inj p hp q hq h1 h2 h3
  · exact ⟨fun ⟨p, hp, h1, h2⟩ => ⟨p, hp, by rw [eH p hp]; exact h1, h2⟩, fun ⟨p, hp, h1, h2⟩ => ⟨p, hp, by rw [← eH p hp]; exact h1, h2⟩⟩

theorem Rel.initFrom (I : Rel hasher m l) : ∃ m', HashSet.initFrom junk m = some m' ∧ Rel hasher m' l := by
  unfold HashSet.initFrom
  by_cases q : m.num_elements = 0
  · rw [if_pos q]
    obtain rfl := List.length_eq_zero_iff.1 (I.num ▸ q)
    exact ⟨_, rfl, rel_new I.idx ..⟩
  · have ha : m.alloc = true := by
      cases h : m.alloc with
      | true => rfl
      | false => exact absurd (by rw [I.num, I.blank h]; rfl) q
    rw [if_neg q, if_neg (by
      rintro (c | ⟨j, hj, c⟩)
      · rw [ha] at c; cases c
      · rw [I.keys, List.getElem?_eq_none_iff] at c
        rw [I.num] at hj; omega)]
    have hk : ∀ j, (if j < m.num_elements then m.keys j else none) = l[j]? := by
      intro j
      split_ifs with h
      · exact I.keys j
      · rw [List.getElem?_eq_none]
        rw [I.num] at h; omega
    refine ⟨_, rfl, ⟨I.idx, I.num, I.nodup, I.fits, hk, fun c => (by cases c), fun _ => ?_, fun _ => ?_, fun _ => ?_⟩⟩
    · intro p hp h1 h2
      dsimp only at h1 h2 ⊢
      have hn := HashMap.next_lt I.idx hp
      rw [if_pos hn] at h1 h2 ⊢
      rw [if_pos hp]
      exact I.robin ha p hp h1 h2
    · refine holds_ext2 (I.holds ha) (fun p hp => if_pos hp) fun p hp _ => ?_
      dsimp only
      rw [if_pos (show p < cap m.capacity_index from hp), hk, I.keys]
    · intro p hp h
      dsimp only at h ⊢
      rw [if_pos hp] at h ⊢
      obtain ⟨k, e1, -⟩ := (I.holds ha).own p hp h
      rw [I.keys] at e1
      rw [if_pos (by rw [I.num]; exact (List.getElem?_eq_some_iff.1 e1).1)]
      exact I.back ha p hp h

theorem insertAll_run (o : List K) : ∀ {m : Set K} {l : List K}, Rel hasher m l → ∃ m', insertAll junk hasher o m = some m' ∧
    Rel hasher m' (o.foldl Spec.ListSet.insert l) := by
  induction o with
  | nil => intro m l I; exact ⟨m, rfl, I⟩
  | cons k o ih =>
    intro m l I
    obtain ⟨m1, e1, I1⟩ := I.insert (junk := junk) k
    obtain ⟨m2, e2, I2⟩ := ih I1
    refine ⟨m2, ?_, I2⟩
    unfold insertAll
    rw [e1]; exact e2

theorem visit_run (I : Rel hasher m l) : ∀ n j, j + n = l.length → visit m n j = some (l.drop j) := by
  intro n
  induction n with
  | zero => intro j h; rw [List.drop_eq_nil_of_le (by omega)]; rfl
  | succ n ih =>
    intro j h
    unfold visit
    rw [I.keys, List.getElem?_eq_getElem (by omega)]
    dsimp only
    rw [ih (j + 1) (by omega), List.drop_eq_getElem_cons (show j < l.length by omega)]; rfl

/-! ## The theorems -/

/-- An operation of the code. `assign` builds the other set by inserting the given keys into a new set. -/
def stepM (junk : Nat → Nat) (hasher : K → UInt32) (m : Set K) : Op K → Option (Set K × Ans K)
  | .insert k => (HashSet.insert junk hasher m k).map fun r => (r.1, .iter r.2)
  | .erase k => (HashSet.erase hasher m k).map fun r => (r.1, .bool r.2)
  | .remove j => (HashSet.remove hasher m j).map fun m => (m, .unit)
  | .clear => some (HashSet.clear m, .unit)
  | .reset => some (HashSet.reset m, .unit)
  | .reserve n => (HashSet.reserve junk m n).map fun m => (m, .unit)
  | .has k => (HashSet.has hasher m k).map fun b => (m, .bool b)
  | .find k => (HashSet.find hasher m k).map fun r => (m, .iter r)
  | .size => some (m, .num (HashSet.size m))
  | .empty => some (m, .bool (HashSet.isEmpty m))
  | .keys => (HashSet.keyList m).map fun l => (m, .keys l)
  | .copy => (HashSet.initFrom junk m).map fun m => (m, .unit)
  | .assign other => do
    let o ← insertAll junk hasher other HashSet.empty
    (HashSet.initFrom junk o).map fun m => (m, .unit)

/-- The answers of the code to a history of operations. -/
def runM (junk : Nat → Nat) (hasher : K → UInt32) : List (Op K) → Set K → Option (List (Ans K))
  | [], _ => some []
  | o :: ops, m => do
    let r ← stepM junk hasher m o
    let a ← runM junk hasher ops r.1
    pure (r.2 :: a)

theorem sim (I : Rel hasher m l) (o : Op K) :
    (stepM junk hasher m o = none ∧ step l o = none) ∨
    ∃ m' l' a, stepM junk hasher m o = some (m', a) ∧ Rel hasher m' l' ∧ step l o = some (l', a) := by
  cases o with
  | insert k =>
    obtain ⟨m', e, I'⟩ := I.insert (junk := junk) k
    exact .inr ⟨m', _, _, by unfold stepM; dsimp only; rw [e]; rfl, I', rfl⟩
  | erase k =>
    obtain ⟨m', e, I'⟩ := I.erase k
    exact .inr ⟨m', _, _, by unfold stepM; dsimp only; rw [e]; rfl, I', rfl⟩
  | remove j =>
    unfold stepM HashSet.remove step
    dsimp only
    rw [I.keys]
    cases h : l[j]? with
    | none => exact .inl ⟨rfl, rfl⟩
    | some k =>
      obtain ⟨m', e, I'⟩ := I.erase k
      exact .inr ⟨m', _, _, by dsimp only; rw [e]; rfl, I', rfl⟩
  | clear => exact .inr ⟨_, _, _, rfl, I.clear, rfl⟩
  | reset => exact .inr ⟨_, _, _, rfl, I.reset, rfl⟩
  | reserve n =>
    obtain ⟨m', e, I'⟩ := I.reserve (junk := junk) n
    exact .inr ⟨m', _, _, by unfold stepM; dsimp only; rw [e]; rfl, I', rfl⟩
  | has k =>
    refine .inr ⟨m, l, .bool (k ∈ l), ?_, I, rfl⟩
    unfold stepM HashSet.has
    dsimp only
    rcases I.lookup k with ⟨j, hj, e, -⟩ | ⟨nk, e⟩
    · rw [e, decide_eq_true (List.mem_of_getElem? hj)]; rfl
    · rw [e, decide_eq_false nk]; rfl
  | find k =>
    refine .inr ⟨m, l, .iter (place l k), ?_, I, rfl⟩
    unfold stepM HashSet.find
    dsimp only
    rcases I.lookup k with ⟨j, hj, e, -⟩ | ⟨nk, e⟩
    · rw [e, place_idx I.nodup hj]; rfl
    · unfold place
      rw [e, if_neg nk]; rfl
  | size => exact .inr ⟨m, l, _, rfl, I, by unfold step HashSet.size; dsimp only; rw [I.num]⟩
  | empty =>
    refine .inr ⟨m, l, _, rfl, I, ?_⟩
    unfold step HashSet.isEmpty
    dsimp only
    rw [I.num]
    cases l <;> simp
  | keys =>
    refine .inr ⟨m, l, .keys l, ?_, I, rfl⟩
    unfold stepM keyList
    dsimp only
    rw [I.num, visit_run I _ 0 (by omega)]; rfl
  | copy =>
    obtain ⟨m', e, I'⟩ := I.initFrom (junk := junk)
    exact .inr ⟨m', _, _, by unfold stepM; dsimp only; rw [e]; rfl, I', rfl⟩
  | assign other =>
    obtain ⟨o, e1, Io⟩ := insertAll_run (junk := junk) other (rel_new (hasher := hasher) (i := 2) (by omega) (fun _ => 0) (fun _ => 0) (fun _ => 0))
    obtain ⟨m', e, I'⟩ := Io.initFrom (junk := junk)
    refine .inr ⟨m', _, .unit, ?_, I', rfl⟩
    unfold stepM
    dsimp only
    show (insertAll junk hasher other HashSet.empty).bind _ = _
    rw [show (HashSet.empty : Set K) = ⟨false, fun _ => none, fun _ => 0, fun _ => 0, fun _ => 0, 2, 0⟩ from rfl, e1]
    show (HashSet.initFrom junk o).map _ = _
    rw [e]; rfl

theorem run_sim (ops : List (Op K)) : ∀ {m : Set K} {l : List K}, Rel hasher m l → runM junk hasher ops m = run ops l := by
  induction ops with
  | nil => intro m l _; rfl
  | cons o ops ih =>
    intro m l I
    unfold runM run
    rcases sim (junk := junk) I o with ⟨e1, e2⟩ | ⟨m', l', a, e1, I', e2⟩
    · rw [e1, e2]; rfl
    · rw [e1, e2]
      show (runM junk hasher ops m').bind _ = (run ops l').bind _
      rw [ih I']

/-- **C149**: for every history of operations, every hash function, however badly it distributes the keys, and every content of newly allocated memory, a new `HashSet`
gives exactly the answers of a list of keys: every call returns, no key is read where there is none, keys that were inserted (and not erased since) are found, others are
not; the keys are visited in the order of their insertion, except that the last key takes the place of an erased one. Only `remove` with an iterator behind the
last key is undefined. -/
theorem C149_history (junk : Nat → Nat) (hasher : K → UInt32) (ops : List (Op K)) : runM junk hasher ops HashSet.empty = run ops [] :=
  run_sim ops (rel_new (by omega) ..)

/-- **C149** (initial capacity): the same holds for a set made with any initial capacity. -/
theorem C149_capacity (junk : Nat → Nat) (hasher : K → UInt32) (n : Nat) (ops : List (Op K)) :
    (withCapacity junk n >>= fun m => runM junk hasher ops m) = run ops [] := by
  obtain ⟨m, e, I⟩ := (rel_new (hasher := hasher) (K := K) (i := 0) (by omega) (fun _ => 0) (fun _ => 0) (fun _ => 0)).reserve (junk := junk) n
  show (HashSet.reserve junk _ n).bind _ = _
  rw [e]
  exact run_sim ops I

/-- **C149** (what the list says): without the largest size, a key is in the list after `insert` and `erase` exactly as it is in a mathematical set, and no key is twice. -/
theorem C149_set (l : List K) (nd : l.Nodup) (hl : l.length ≠ maxSize) (k x : K) :
    (x ∈ Spec.ListSet.insert l k ↔ x = k ∨ x ∈ l) ∧ (Spec.ListSet.insert l k).Nodup ∧ (x ∈ Spec.ListSet.erase l k ↔ x ∈ l ∧ x ≠ k) ∧
      (Spec.ListSet.erase l k).Nodup := by
  refine ⟨?_, ?_, ?_, ?_⟩
  · unfold Spec.ListSet.insert
    by_cases h : k ∈ l
    · rw [if_pos (.inl h)]
      exact ⟨.inr, by rintro (rfl | h'); exacts [h, h']⟩
    · rw [if_neg (not_or.2 ⟨h, hl⟩)]; simp [or_comm]
  · unfold Spec.ListSet.insert
    by_cases h : k ∈ l
    · rw [if_pos (.inl h)]; exact nd
    · rw [if_neg (not_or.2 ⟨h, hl⟩), List.nodup_append]
      exact ⟨nd, List.nodup_singleton _, fun a ha b hb => by rw [List.mem_singleton] at hb; rintro rfl; exact h (hb ▸ ha)⟩
  · by_cases h : k ∈ l
    · obtain ⟨j, hj⟩ := List.mem_iff_getElem?.1 h
      exact mem_erase_iff nd hj x
    · unfold Spec.ListSet.erase
      rw [if_neg h]
      exact ⟨fun hx => ⟨hx, by rintro rfl; exact h hx⟩, And.left⟩
  · by_cases h : k ∈ l
    · obtain ⟨j, hj⟩ := List.mem_iff_getElem?.1 h
      exact erase_nodup nd hj
    · unfold Spec.ListSet.erase
      rw [if_neg h]; exact nd

/-- A history in which all keys have the same hash; the first key is erased and the last one takes its place. -/
example : runM (fun n => n * 17) (fun _ : Nat => 7) [.insert 1, .insert 2, .insert 3, .insert 2, .erase 1, .has 3, .find 2, .has 1, .keys, .copy, .remove 0, .keys, .size]
    HashSet.empty =
    some [.iter (some 0), .iter (some 1), .iter (some 2), .iter (some 1), .bool true, .bool true, .iter (some 1), .bool false, .keys [3, 2], .unit, .unit, .keys [2],
      .num 1] := by
  rw [C149_history]; rfl

end Verif.HashSet
