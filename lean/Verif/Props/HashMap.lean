import Verif.Lemmas.HashMap
import Verif.Spec.HashMap

/-! # C147: the hash map behaves as a map, for every history of operations and every hash function -/

namespace Verif.HashMap
open Spec.AssocMap
variable {K V : Type} [DecidableEq K] {hasher : K → UInt32} {m : Map K V}

/-! ## Simulation -/

theorem keys_update (l : List (K × V)) (k : K) (f : V → V) : (l.map fun p => if p.1 = k then (p.1, f p.2) else p).map (·.1) = l.map (·.1) := by
  rw [List.map_map]
  refine List.map_congr_left fun p _ => ?_
  simp only [Function.comp]
  split_ifs <;> rfl

theorem update_congr (l : List (K × V)) (k : K) (f : V → V) :
    (l.map fun p => if p.1 = k then (p.1, f p.2) else p) = l.map fun p => if p.1 = k then (k, f p.2) else p := by
  refine List.map_congr_left fun p _ => ?_
  by_cases e : p.1 = k
  · rw [if_pos e, if_pos e, e]
  · rw [if_neg e, if_neg e]

theorem Inv.setValue (I : Inv hasher m) {p : Nat} {k : K} (e : m.elements p = some k) (f : V → V) :
    ∃ m', HashMap.setValue m p f = some m' ∧ Inv hasher m' ∧ m'.list = m.list.map (fun p => if p.1 = k then (k, f p.2) else p) := by
  refine ⟨{ m with list := m.list.map fun p => if p.1 = k then (p.1, f p.2) else p }, by unfold HashMap.setValue; rw [e],
    ⟨I.idx, by simp [I.num], by rw [keys_update]; exact I.nodup, I.fits, fun h => by simp [I.blank h], I.robin, fun h => ?_⟩, update_congr ..⟩
  rw [keys_update]; exact I.holds h

theorem Inv.add (I : Inv hasher m) (ha : m.alloc = true) {k : K} (nk : k ∉ m.list.map (·.1)) (hl : 4 * (m.num_elements + 1) ≤ 3 * cap m.capacity_index)
    (v : V) (front : Bool) :
    ∃ m', HashMap.add hasher m k v front = some m' ∧ Inv hasher m' ∧ m'.list = if front then (k, v) :: m.list else m.list ++ [(k, v)] := by
  set l := if front then (k, v) :: m.list else m.list ++ [(k, v)] with el
  obtain ⟨H', E', e, R, C⟩ := insert_with_hash_run (m := { m with list := l }) I.idx (I.robin ha) (I.holds ha) nk
    ((I.holds ha).empty_place (L := m.list.map (·.1)) (fun _ => id) (by simpa using I.lt))
  have perm : (l.map (·.1)).Perm (k :: m.list.map (·.1)) := by
    rw [el]
    cases front
    · simp only [Bool.false_eq_true, if_false, List.map_append, List.map_cons, List.map_nil]
      exact (List.perm_append_comm (l₁ := m.list.map (·.1)) (l₂ := [k])).trans (List.Perm.refl _)
    · simp
  refine ⟨_, e, ⟨I.idx, ?_, perm.nodup_iff.2 (List.nodup_cons.2 ⟨nk, I.nodup⟩), hl, fun c => ?_, fun _ => R, fun _ => C.congr fun x => ?_⟩, rfl⟩
  · have := perm.length_eq
    simp at this
    simp [this, I.num]
  · simp [ha] at c
  · rw [perm.mem_iff, List.mem_cons]

theorem Inv.allocate (I : Inv hasher m) : Inv hasher (HashMap.allocate m) ∧ (HashMap.allocate m).alloc = true ∧ (HashMap.allocate m).list = m.list := by
  unfold HashMap.allocate
  by_cases q : m.alloc = true
  · rw [if_pos q]; exact ⟨I, q, rfl⟩
  · rw [if_neg q]
    have hl := I.blank (by simpa using q)
    refine ⟨⟨I.idx, I.num, I.nodup, I.fits, nofun, fun _ => robin_empty _, fun _ => ?_⟩, rfl, rfl⟩
    exact (holds_empty _ _).congr fun k => by simp [hl]

theorem full_iff (I : Inv hasher m) :
    (4 * (m.num_elements + 1) > 3 * cap m.capacity_index ∧ m.capacity_index + 1 = 29) ↔ m.list.length = maxSize := by
  have h1 := I.fits
  have h2 := I.num
  have c28 : cap 28 = 1610612741 := rfl
  have c27 : cap 27 = 805306457 := rfl
  unfold maxSize
  constructor
  · rintro ⟨a, b⟩
    obtain e : m.capacity_index = 28 := by omega
    rw [e] at h1 a
    omega
  · intro e
    by_cases q : m.capacity_index = 28
    · rw [q]; omega
    · have := cap_mono _ I.idx 27 (by omega) (by have := I.idx; omega)
      omega

theorem Inv.insert (I : Inv hasher m) (k : K) (v : V) (front : Bool) :
    ∃ m', HashMap.insert hasher m k v front = some (m', decide (k ∈ m.list.map (·.1) ∨ m.list.length ≠ maxSize)) ∧ Inv hasher m' ∧
      m'.list = Spec.AssocMap.insert m.list k v front := by
  obtain ⟨I1, ha, el⟩ := I.allocate
  unfold HashMap.insert Spec.AssocMap.insert
  rw [← el]
  generalize HashMap.allocate m = m1 at *
  rcases I1.lookup k with ⟨hk, p, hp, e, -, -, ek⟩ | ⟨nk, e⟩
  · obtain ⟨m', e', I', l'⟩ := I1.setValue ek fun _ => v
    refine ⟨m', ?_, I', by rw [if_pos hk, l']⟩
    rw [decide_eq_true (.inl hk)]
    show (HashMap.lookup hasher m1 k).bind _ = _
    rw [e]
    show (HashMap.setValue m1 p fun _ => v).bind _ = _
    rw [e']; rfl
  · rw [if_neg nk]
    have f := full_iff I1
    by_cases q : 4 * (m1.num_elements + 1) > 3 * cap m1.capacity_index
    · by_cases q' : m1.capacity_index + 1 = 29
      · have hm := f.1 ⟨q, q'⟩
        refine ⟨m1, ?_, I1, by rw [if_pos hm]⟩
        rw [decide_eq_false (by simp only [hm, ne_eq, not_true, or_false]; exact nk)]
        show (HashMap.lookup hasher m1 k).bind _ = _
        rw [e]
        show (if _ then _ else _) = _
        rw [if_pos q, if_pos q']; rfl
      · have hm : m1.list.length ≠ maxSize := fun c => q' (f.2 c).2
        obtain ⟨m2, e2, I2, l2, a2, c2⟩ := I1.rehash ha (j := m1.capacity_index + 1) (by have := I1.idx; omega) (by omega)
        have hg := cap_grows m1.capacity_index (by have := I1.idx; omega)
        have hmono := cap_mono (m1.capacity_index + 1) (by have := I1.idx; omega) m2.capacity_index I2.idx (by omega)
        obtain ⟨m3, e3, I3, l3⟩ := I2.add a2 (k := k) (by rw [l2]; exact nk)
          (by have h1 := I1.fits; have h2 := I1.num; have h3 := I2.num; rw [l2] at h3; omega) v front
        refine ⟨m3, ?_, I3, by rw [if_neg hm, l3, l2]⟩
        rw [decide_eq_true (.inr hm)]
        show (HashMap.lookup hasher m1 k).bind _ = _
        rw [e]
        show (if _ then _ else _) = _
        rw [if_pos q, if_neg q']
        show (HashMap.resize_and_rehash m1 _).bind _ = _
        rw [e2]
        show (HashMap.add hasher m2 k v front).bind _ = _
        rw [e3]; rfl
    · have hm : m1.list.length ≠ maxSize := fun c => q (f.2 c).1
      obtain ⟨m3, e3, I3, l3⟩ := I1.add ha nk (by omega) v front
      refine ⟨m3, ?_, I3, by rw [if_neg hm, l3]⟩
      rw [decide_eq_true (.inr hm)]
      show (HashMap.lookup hasher m1 k).bind _ = _
      rw [e]
      show (if _ then _ else _) = _
      rw [if_neg q]
      show (HashMap.add hasher m1 k v front).bind _ = _
      rw [e3]; rfl

theorem Inv.erase (I : Inv hasher m) (k : K) :
    ∃ m', HashMap.erase hasher m k = some (m', decide (k ∈ m.list.map (·.1))) ∧ Inv hasher m' ∧ m'.list = m.list.filter fun p => p.1 ≠ k := by
  unfold HashMap.erase
  rcases I.lookup k with ⟨hk, p, hp, e, ha, h0, ek⟩ | ⟨nk, e⟩
  · have C := I.holds ha
    obtain ⟨q, hq, hq0⟩ := C.empty_place (L := m.list.map (·.1)) (fun _ => id) (by simpa using I.lt)
    obtain ⟨j, hj, ej⟩ := reach I.idx hq (next_lt I.idx hp)
    have R0 : Order m.capacity_index (fun x => x = p ∨ m.hashes x ≠ 0) (fun x => if x = p then probe m.capacity_index p (m.hashes p) else
        probe m.capacity_index x (m.hashes x)) := by
      have e1 : (fun x => x = p ∨ m.hashes x ≠ 0) = fun x => m.hashes x ≠ 0 := by
        funext x; refine propext ⟨?_, .inr⟩; rintro (rfl | h); exacts [h0, h]
      have e2 : (fun x => if x = p then probe m.capacity_index p (m.hashes p) else probe m.capacity_index x (m.hashes x)) =
          fun x => probe m.capacity_index x (m.hashes x) := by
        funext x; split_ifs with h
        · rw [h]
        · rfl
      rw [e1, e2]; exact I.robin ha
    obtain ⟨H', E', p', e', hp', h0', ek', C', R'⟩ := shiftLoop_run I.idx (cap m.capacity_index + 1) m.hashes m.elements _ k p _ R0 C hp h0 ek
      ⟨j, by omega, by rw [ej]; exact hq0⟩
    have hkeys : (m.list.filter fun p => p.1 ≠ k).map (·.1) = (m.list.map (·.1)).erase k := by
      rw [I.nodup.erase_eq_filter, List.filter_map]
      refine congrArg (List.map _) (List.filter_congr fun x _ => ?_)
      by_cases c : x.1 = k <;> simp [c]
    have hlen : (m.list.filter fun p => p.1 ≠ k).length = m.list.length - 1 := by
      have := congrArg List.length hkeys
      rw [List.length_map, List.length_erase_of_mem hk, List.length_map] at this
      exact this
    have hpos : 0 < m.list.length := by
      have := List.length_pos_of_mem hk
      simpa using this
    refine ⟨{ m with hashes := Function.update H' p' 0, elements := Function.update E' p' none, list := m.list.filter fun p => p.1 ≠ k,
                     num_elements := m.num_elements - 1 }, ?_, ⟨I.idx, ?_, ?_, ?_, ?_, fun _ => R', fun _ => ?_⟩, rfl⟩
    · rw [decide_eq_true hk]
      show (HashMap.lookup hasher m k).bind _ = _
      rw [e]
      show (shiftLoop m.capacity_index _ m.hashes m.elements p).bind _ = _
      rw [e']
      show (match E' p' with | none => none | some k => _) = _
      rw [ek']; rfl
    · rw [hlen]; show m.num_elements - 1 = _; rw [I.num]
    · show ((m.list.filter fun p => p.1 ≠ k).map (·.1)).Nodup
      rw [hkeys]; exact I.nodup.erase k
    · show 4 * (m.num_elements - 1) ≤ _
      have := I.fits
      show _ ≤ 3 * cap m.capacity_index
      omega
    · intro c; rw [show m.alloc = true from ha] at c; cases c
    · refine (C'.take hp' h0' ek' (Function.update E' p' none) (fun q hq => Function.update_of_ne hq ..)).congr fun x => ?_
      show x ∈ (m.list.filter fun p => p.1 ≠ k).map (·.1) ↔ _
      rw [hkeys, I.nodup.mem_erase_iff, and_comm]
  · refine ⟨m, ?_, I, ?_⟩
    · rw [decide_eq_false nk]
      show (HashMap.lookup hasher m k).bind _ = _
      rw [e]; rfl
    · rw [List.filter_eq_self.2]
      intro p hp
      simp only [ne_eq, decide_eq_true_eq]
      rintro rfl
      exact nk (List.mem_map_of_mem hp)

theorem Inv.clear (I : Inv hasher m) : Inv hasher (HashMap.clear m) ∧ (HashMap.clear m).list = [] := by
  unfold HashMap.clear
  by_cases q : m.alloc = false ∨ m.num_elements = 0
  · rw [if_pos q]
    refine ⟨I, ?_⟩
    rcases q with q | q
    · exact I.blank q
    · exact List.length_eq_zero_iff.1 (I.num ▸ q)
  · rw [if_neg q]
    have z : ∀ p < cap m.capacity_index, (if p < cap m.capacity_index then 0 else m.hashes p) = 0 := fun p hp => if_pos hp
    refine ⟨⟨I.idx, rfl, List.nodup_nil, Nat.zero_le _, fun _ => rfl, fun _ => ?_, fun _ => ⟨?_, ?_, ?_⟩⟩, rfl⟩
    · exact fun p hp h => absurd (z _ (next_lt I.idx hp)) h
    · exact fun p hp h => absurd (z p hp) h
    · exact fun p hp _ _ h => absurd (z p hp) h
    · exact fun k => ⟨fun h => by simp at h, fun ⟨p, hp, h, _⟩ => absurd (z p hp) h⟩

theorem reserveIndex_run (n : Nat) : ∀ fuel i j, i < 29 → reserveIndex n fuel i = some j → i ≤ j ∧ j < 29 := by
  intro fuel
  induction fuel with
  | zero => intro i j _ h; cases h
  | succ fuel ih =>
    intro i j hi h
    unfold reserveIndex at h
    split_ifs at h with q q'
    · have := ih (i + 1) j (by omega) h
      omega
    · cases h; omega

theorem Inv.reserve (I : Inv hasher m) (n : Nat) : ∃ m', HashMap.reserve m n = some m' ∧ Inv hasher m' ∧ m'.list = m.list := by
  unfold HashMap.reserve
  cases e : reserveIndex n 29 m.capacity_index with
  | none => exact ⟨m, rfl, I, rfl⟩
  | some j =>
    obtain ⟨h1, h2⟩ := reserveIndex_run n 29 _ j I.idx e
    dsimp only
    by_cases q : j = m.capacity_index
    · rw [if_pos q]; exact ⟨m, rfl, I, rfl⟩
    · rw [if_neg q]
      by_cases q' : m.alloc = false
      · rw [if_pos q']
        refine ⟨_, rfl, ⟨h2, I.num, I.nodup, ?_, I.blank, fun c => ?_, fun c => ?_⟩, rfl⟩
        · have := cap_mono _ I.idx _ h2 h1
          have := I.fits
          show 4 * m.num_elements ≤ 3 * cap j
          omega
        · rw [show m.alloc = false from q'] at c; cases c
        · rw [show m.alloc = false from q'] at c; cases c
      · rw [if_neg q']
        obtain ⟨m', e', I', l', -, -⟩ := I.rehash (by simpa using q') h2 h1
        exact ⟨m', e', I', l'⟩

theorem inv_new {i : Nat} (hi : i < 29) : Inv hasher (⟨false, fun _ => 0, fun _ => none, [], i, 0⟩ : Map K V) :=
  ⟨hi, rfl, List.nodup_nil, Nat.zero_le _, fun _ => rfl, nofun, nofun⟩

theorem insertAll_run (l : List (K × V)) : ∀ {m : Map K V}, Inv hasher m → ∃ m', insertAll hasher l m = some m' ∧ Inv hasher m' ∧
    m'.list = l.foldl (fun a p => Spec.AssocMap.insert a p.1 p.2 false) m.list := by
  induction l with
  | nil => intro m I; exact ⟨m, rfl, I, rfl⟩
  | cons p l ih =>
    intro m I
    obtain ⟨m1, e1, I1, l1⟩ := I.insert p.1 p.2 false
    obtain ⟨m2, e2, I2, l2⟩ := ih I1
    refine ⟨m2, ?_, I2, by rw [l2, l1]; rfl⟩
    unfold insertAll
    rw [e1]; exact e2

/-- Inserting the elements of a map in their order makes the same list. -/
theorem foldl_insert (l a : List (K × V)) (nd : ((a ++ l).map (·.1)).Nodup) (hl : (a ++ l).length ≤ maxSize) :
    l.foldl (fun a p => Spec.AssocMap.insert a p.1 p.2 false) a = a ++ l := by
  induction l generalizing a with
  | nil => simp
  | cons p l ih =>
    rw [List.foldl_cons]
    have e : Spec.AssocMap.insert a p.1 p.2 false = a ++ [p] := by
      unfold Spec.AssocMap.insert
      rw [if_neg, if_neg]
      · simp
      · simp at hl; omega
      · rw [List.map_append, List.nodup_append] at nd
        intro c
        exact nd.2.2 p.1 c p.1 (by simp) rfl
    rw [e, ih (a ++ [p]) (by simpa using nd) (by simpa using hl)]
    simp

theorem Inv.le (I : Inv hasher m) : m.list.length ≤ maxSize := by
  have h1 := I.fits
  have h2 := I.num
  have := cap_mono _ I.idx 28 (by omega) (by have := I.idx; omega)
  have c28 : cap 28 = 1610612741 := rfl
  unfold maxSize
  omega

theorem Inv.refill (I : Inv hasher m) {m0 : Map K V} (I0 : Inv hasher m0) (h0 : m0.list = []) :
    ∃ m', insertAll hasher m.list m0 = some m' ∧ Inv hasher m' ∧ m'.list = m.list := by
  obtain ⟨m', e, I', l'⟩ := insertAll_run m.list I0
  refine ⟨m', e, I', ?_⟩
  rw [l', h0, foldl_insert _ _ (by simpa using I.nodup) (by simpa using I.le)]
  simp

theorem Inv.copy (I : Inv hasher m) : ∃ m', HashMap.copy hasher m = some m' ∧ Inv hasher m' ∧ m'.list = m.list := by
  unfold HashMap.copy
  obtain ⟨m0, e0, I0, l0⟩ := (inv_new (hasher := hasher) (K := K) (V := V) (i := 0) (by omega)).reserve (cap m.capacity_index)
  rw [e0]
  show ∃ m', (if m.num_elements = 0 then pure m0 else insertAll hasher m.list m0) = some m' ∧ _
  by_cases q : m.num_elements = 0
  · rw [if_pos q]
    exact ⟨m0, rfl, I0, by rw [l0]; exact (List.length_eq_zero_iff.1 (I.num ▸ q)).symm⟩
  · rw [if_neg q]
    exact I.refill I0 l0

theorem Inv.assign (I : Inv hasher m) {o : Map K V} (Io : Inv hasher o) : ∃ m', HashMap.assign hasher m o = some m' ∧ Inv hasher m' ∧ m'.list = o.list := by
  unfold HashMap.assign
  have h : Inv hasher (if m.num_elements ≠ 0 then HashMap.clear m else m) ∧ (if m.num_elements ≠ 0 then HashMap.clear m else m).list = [] := by
    by_cases q : m.num_elements ≠ 0
    · rw [if_pos q]; exact I.clear
    · rw [if_neg q]
      exact ⟨I, List.length_eq_zero_iff.1 (I.num ▸ not_not.1 q)⟩
  generalize (if m.num_elements ≠ 0 then HashMap.clear m else m) = m1 at h
  obtain ⟨I1, l1⟩ := h
  obtain ⟨m2, e2, I2, l2⟩ := I1.reserve (cap o.capacity_index)
  show ∃ m', (HashMap.reserve m1 (cap o.capacity_index)).bind _ = some m' ∧ _
  rw [e2]
  show ∃ m', (if o.alloc = false then pure m2 else insertAll hasher o.list m2) = some m' ∧ _
  by_cases q : o.alloc = false
  · rw [if_pos q]
    exact ⟨m2, rfl, I2, by rw [l2, l1, Io.blank q]⟩
  · rw [if_neg q]
    exact Io.refill I2 (l2.trans l1)

theorem find_some {l : List (K × V)} {k : K} (hk : k ∈ l.map (·.1)) : ∃ v, find l k = some v := by
  obtain ⟨p, hp, rfl⟩ := List.mem_map.1 hk
  unfold find
  cases e : l.find? fun q => q.1 = p.1 with
  | none => exact absurd (by simp) (List.find?_eq_none.1 e p hp)
  | some q => exact ⟨q.2, rfl⟩

theorem find_none {l : List (K × V)} {k : K} (hk : k ∉ l.map (·.1)) : find l k = none := by
  unfold find
  rw [List.find?_eq_none.2]
  · rfl
  · intro p hp c
    simp at c
    exact hk (c ▸ List.mem_map_of_mem hp)

theorem Inv.update [Inhabited V] (I : Inv hasher m) (k : K) (f : V → V) :
    (HashMap.update hasher m k f = none ∧ step m.list (.update k f) = none) ∨
    ∃ m', HashMap.update hasher m k f = some m' ∧ Inv hasher m' ∧ step m.list (.update k f) = some (m'.list, .unit) := by
  unfold HashMap.update
  rcases I.lookup k with ⟨hk, p, hp, e, -, -, ek⟩ | ⟨nk, e⟩
  · obtain ⟨m', e', I', l'⟩ := I.setValue ek f
    refine .inr ⟨m', ?_, I', ?_⟩
    · show (HashMap.lookup hasher m k).bind _ = _
      rw [e]; exact e'
    · unfold step; dsimp only; rw [if_pos hk, l']
  · obtain ⟨m1, e1, I1, l1⟩ := I.insert k default false
    unfold Spec.AssocMap.insert at l1
    rw [if_neg nk] at l1
    by_cases hm : m.list.length = maxSize
    · refine .inl ⟨?_, ?_⟩
      · show (HashMap.lookup hasher m k).bind _ = _
        rw [e]
        show (HashMap.insert hasher m k default false).bind _ = _
        rw [e1, decide_eq_false (by simp only [hm, ne_eq, not_true, or_false]; exact nk)]; rfl
      · unfold step; dsimp only; rw [if_neg nk, if_pos hm]
    · rw [if_neg hm, if_neg (by simp)] at l1
      have hk1 : k ∈ m1.list.map (·.1) := by rw [l1]; simp
      rcases I1.lookup k with ⟨-, p, hp, e2, -, -, ek⟩ | ⟨nk1, -⟩
      · obtain ⟨m', e', I', l'⟩ := I1.setValue ek f
        refine .inr ⟨m', ?_, I', ?_⟩
        · show (HashMap.lookup hasher m k).bind _ = _
          rw [e]
          show (HashMap.insert hasher m k default false).bind _ = _
          rw [e1, decide_eq_true (.inr hm)]
          show (HashMap.lookup hasher m1 k).bind _ = _
          rw [e2]; exact e'
        · unfold step
          dsimp only
          rw [if_neg nk, if_neg hm, l', l1, List.map_append]
          congr 3
          · symm
            conv_rhs => rw [← List.map_id m.list]
            refine List.map_congr_left fun q hq => ?_
            rw [if_neg]; · rfl
            rintro rfl; exact nk (List.mem_map_of_mem hq)
          · simp
      · exact absurd hk1 nk1

/-! ## The theorems -/

/-- An operation of the code. `assign` builds the other map by inserting the given pairs into a new map. -/
def stepM [Inhabited V] (hasher : K → UInt32) (m : Map K V) : Op K V → Option (Map K V × Ans K V)
  | .insert k v front => (HashMap.insert hasher m k v front).map fun r => (r.1, .bool r.2)
  | .update k f => (HashMap.update hasher m k f).map fun m => (m, .unit)
  | .erase k => (HashMap.erase hasher m k).map fun r => (r.1, .bool r.2)
  | .clear => some (HashMap.clear m, .unit)
  | .reserve n => (HashMap.reserve m n).map fun m => (m, .unit)
  | .has k => (HashMap.has hasher m k).map fun b => (m, .bool b)
  | .getptr k => (HashMap.getptr hasher m k).map fun v => (m, .maybe v)
  | .get k => (HashMap.get hasher m k).map fun v => (m, .value v)
  | .size => some (m, .num (HashMap.size m))
  | .empty => some (m, .bool (HashMap.isEmpty m))
  | .keys => some (m, .keys (HashMap.keys m))
  | .copy => (HashMap.copy hasher m).map fun m => (m, .unit)
  | .assign other => do
    let o ← insertAll hasher other HashMap.empty
    (HashMap.assign hasher m o).map fun m => (m, .unit)

/-- The answers of the code to a history of operations. -/
def runM [Inhabited V] (hasher : K → UInt32) : List (Op K V) → Map K V → Option (List (Ans K V))
  | [], _ => some []
  | o :: ops, m => do
    let r ← stepM hasher m o
    let a ← runM hasher ops r.1
    pure (r.2 :: a)

theorem sim [Inhabited V] (I : Inv hasher m) (o : Op K V) :
    (stepM hasher m o = none ∧ step m.list o = none) ∨
    ∃ m' a, stepM hasher m o = some (m', a) ∧ Inv hasher m' ∧ step m.list o = some (m'.list, a) := by
  cases o with
  | insert k v front =>
    obtain ⟨m', e, I', l'⟩ := I.insert k v front
    exact .inr ⟨m', _, by unfold stepM; dsimp only; rw [e]; rfl, I', by unfold step; dsimp only; rw [l']⟩
  | update k f =>
    rcases I.update k f with ⟨e, e'⟩ | ⟨m', e, I', e'⟩
    · exact .inl ⟨by unfold stepM; dsimp only; rw [e]; rfl, e'⟩
    · exact .inr ⟨m', _, by unfold stepM; dsimp only; rw [e]; rfl, I', e'⟩
  | erase k =>
    obtain ⟨m', e, I', l'⟩ := I.erase k
    exact .inr ⟨m', _, by unfold stepM; dsimp only; rw [e]; rfl, I', by unfold step; dsimp only; rw [l']⟩
  | clear => exact .inr ⟨_, _, rfl, I.clear.1, by unfold step; dsimp only; rw [I.clear.2]⟩
  | reserve n =>
    obtain ⟨m', e, I', l'⟩ := I.reserve n
    exact .inr ⟨m', _, by unfold stepM; dsimp only; rw [e]; rfl, I', by unfold step; dsimp only; rw [l']⟩
  | has k =>
    refine .inr ⟨m, .bool (k ∈ m.list.map (·.1)), ?_, I, rfl⟩
    unfold stepM HashMap.has
    dsimp only
    rcases I.lookup k with ⟨hk, p, hp, e, -, -, ek⟩ | ⟨nk, e⟩
    · rw [e, decide_eq_true hk]; rfl
    · rw [e, decide_eq_false nk]; rfl
  | getptr k =>
    refine .inr ⟨m, .maybe (find m.list k), ?_, I, rfl⟩
    unfold stepM HashMap.getptr
    dsimp only
    rcases I.lookup k with ⟨hk, p, hp, e, -, -, ek⟩ | ⟨nk, e⟩
    · obtain ⟨v, hv⟩ := find_some hk
      have : valueAt m p = some v := by unfold valueAt; rw [ek]; exact hv
      rw [e, hv]
      show ((valueAt m p).bind _).map _ = _
      rw [this]; rfl
    · rw [e, find_none nk]; rfl
  | get k =>
    unfold stepM HashMap.get
    rcases I.lookup k with ⟨hk, p, hp, e, -, -, ek⟩ | ⟨nk, e⟩
    · obtain ⟨v, hv⟩ := find_some hk
      have : valueAt m p = some v := by unfold valueAt; rw [ek]; exact hv
      refine .inr ⟨m, .value v, ?_, I, by unfold step; dsimp only; rw [hv]; rfl⟩
      dsimp only
      rw [e]
      show (valueAt m p).map _ = _
      rw [this]; rfl
    · refine .inl ⟨by dsimp only; rw [e]; rfl, by unfold step; dsimp only; rw [find_none nk]; rfl⟩
  | size => exact .inr ⟨m, _, rfl, I, by unfold step HashMap.size; dsimp only; rw [I.num]⟩
  | empty =>
    refine .inr ⟨m, _, rfl, I, ?_⟩
    unfold step HashMap.isEmpty
    dsimp only
    rw [I.num]
    cases m.list <;> simp
  | keys =>
    refine .inr ⟨m, _, rfl, I, ?_⟩
    unfold step HashMap.keys
    dsimp only
    by_cases q : m.alloc = true
    · rw [if_pos q]
    · rw [if_neg q, I.blank (by simpa using q)]; rfl
  | copy =>
    obtain ⟨m', e, I', l'⟩ := I.copy
    exact .inr ⟨m', _, by unfold stepM; dsimp only; rw [e]; rfl, I', by unfold step; dsimp only; rw [l']⟩
  | assign other =>
    obtain ⟨o, e1, Io, l1⟩ := insertAll_run (hasher := hasher) other (inv_new (i := 2) (by omega))
    obtain ⟨m', e, I', l'⟩ := I.assign Io
    refine .inr ⟨m', .unit, ?_, I', by unfold step; dsimp only; rw [l', l1]⟩
    unfold stepM
    dsimp only
    show (insertAll hasher other HashMap.empty).bind _ = _
    rw [show (HashMap.empty : Map K V) = ⟨false, fun _ => 0, fun _ => none, [], 2, 0⟩ from rfl, e1]
    show (HashMap.assign hasher m o).map _ = _
    rw [e]; rfl

theorem run_sim [Inhabited V] (ops : List (Op K V)) : ∀ {m : Map K V}, Inv hasher m → runM hasher ops m = run ops m.list := by
  induction ops with
  | nil => intro m _; rfl
  | cons o ops ih =>
    intro m I
    unfold runM run
    rcases sim I o with ⟨e1, e2⟩ | ⟨m', a, e1, I', e2⟩
    · rw [e1, e2]; rfl
    · rw [e1, e2]
      show (runM hasher ops m').bind _ = (run ops m'.list).bind _
      rw [ih I']

/-- **C147**: for every history of operations and every hash function, however badly it distributes the keys, a new `HashMap` gives exactly the answers of a list of
keys and values: every call returns (no search or insertion loops for ever) unless a missing key is asked for with `get` or a new key for `operator[]` in a map of the
largest size; keys that were inserted are found with their last value, others are not; the keys are visited in the order of their insertion. -/
theorem C147_history [Inhabited V] (hasher : K → UInt32) (ops : List (Op K V)) : runM hasher ops HashMap.empty = run ops [] :=
  run_sim ops (inv_new (by omega))

/-- **C147** (initial capacity): the same holds for a map made with any initial capacity. -/
theorem C147_capacity [Inhabited V] (hasher : K → UInt32) (n : Nat) (ops : List (Op K V)) :
    (withCapacity n >>= fun m => runM hasher ops m) = run ops [] := by
  obtain ⟨m, e, I, l⟩ := (inv_new (hasher := hasher) (K := K) (V := V) (i := 0) (by omega)).reserve n
  show (reserve _ n).bind _ = _
  rw [e]
  show runM hasher ops m = _
  rw [run_sim ops I, l]

/-- **C147** (fast remainder): for every 32-bit number and every capacity in the table, `fastmod` with the tabulated inverse is the remainder of the division. -/
theorem C147_fastmod (i : Nat) (hi : i < 29) (n : Nat) (hn : n < 2 ^ 32) : fastmod n (primesInv.getD i 0) (primes.getD i 0) = n % primes.getD i 0 :=
  slot_eq hi hn

/-- A history in which all keys have the same hash: the keys are found all the same, also after one before them was erased. -/
example : runM (fun _ : Nat => 7) [.insert 1 10 false, .insert 2 20 false, .insert 3 30 true, .erase 1, .getptr 3, .getptr 1, .update 2 (· + 1), .get 2, .keys, .size] HashMap.empty =
    some [.bool true, .bool true, .bool true, .bool true, .maybe (some 30), .maybe none, .unit, .value 21, .keys [3, 2], .num 2] := by
  rw [C147_history]; rfl

end Verif.HashMap
