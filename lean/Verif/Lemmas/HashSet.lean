import Verif.Lemmas.HashMap
import Verif.Model.HashSet
import Verif.Spec.HashSet

/-! # The table of `HashSet` simulates that of `HashMap` -/

namespace Verif.HashSet
open Verif.HashMap (cap slot next probe hashOf Robin Holds Order table_facts cap_grows cap_mono slot_lt next_lt next_ne probe_lt reach iter_home probe_slot hashOf_lt)

variable {K : Type} [DecidableEq K] {junk : Nat → Nat} {hasher : K → UInt32} {i : Nat}

/-- `key_to_hash` undoes `hash_to_key`. -/
def Back (i : Nat) (H T U : Nat → Nat) : Prop := ∀ p < cap i, H p ≠ 0 → U (T p) = p

theorem holds_ext {H : Nat → Nat} {E E' : Nat → Option K} {S : K → Prop} (C : Holds hasher i H E S) (e : ∀ p < cap i, H p ≠ 0 → E' p = E p) :
    Holds hasher i H E' S := by
  refine ⟨fun p hp h => ?_, fun p hp q hq h1 h2 h3 => ?_, fun k => ?_⟩
  · rw [e p hp h]; exact C.own p hp h
  · rw [e p hp h1, e q hq h2] at h3; exact C.inj p hp q hq h1 h2 h3
  · rw [C.mem k]
    constructor
    · rintro ⟨p, hp, h1, h2⟩; exact ⟨p, hp, h1, by rw [e p hp h1]; exact h2⟩
    · rintro ⟨p, hp, h1, h2⟩; exact ⟨p, hp, h1, by rw [← e p hp h1]; exact h2⟩

theorem update_comp (keys : Nat → Option K) (T : Nat → Nat) (p j : Nat) :
    Function.update (fun p => keys (T p)) p (keys j) = fun q => keys (Function.update T p j q) := by
  funext q
  by_cases e : q = p
  · subst e; rw [Function.update_self, Function.update_self]
  · rw [Function.update_of_ne e, Function.update_of_ne e]

theorem lookupLoop_sim {H T : Nat → Nat} {keys : Nat → Option K} (hi : i < 29) (own : ∀ p < cap i, H p ≠ 0 → ∃ k, keys (T p) = some k) {hash : Nat} {key : K} :
    ∀ fuel pos dist, pos < cap i →
      lookupLoop i H T keys hash key fuel pos dist = (HashMap.lookupLoop i H (fun p => keys (T p)) hash key fuel pos dist).map fun r => r.map T := by
  intro fuel
  induction fuel with
  | zero => intros; rfl
  | succ fuel ih =>
    intro pos dist hp
    unfold lookupLoop HashMap.lookupLoop
    by_cases h0 : H pos = 0
    · rw [if_pos h0, if_pos h0]; rfl
    · rw [if_neg h0, if_neg h0]
      by_cases h1 : dist > probe i pos (H pos)
      · rw [if_pos h1, if_pos h1]; rfl
      · rw [if_neg h1, if_neg h1]
        obtain ⟨k, ek⟩ := own pos hp h0
        by_cases h2 : H pos = hash
        · rw [if_pos h2, ek]
          dsimp only
          by_cases h3 : k = key
          · rw [if_pos h3, if_pos ⟨h2, by rw [h3]⟩]; rfl
          · rw [if_neg h3, if_neg (fun c => h3 (Option.some.inj c.2)), ih _ _ (next_lt hi hp)]
        · rw [if_neg h2, if_neg (fun c => h2 c.1), ih _ _ (next_lt hi hp)]

theorem placeLoop_sim {keys : Nat → Option K} (hi : i < 29) : ∀ fuel (H T U : Nat → Nat) hash index pos dist H' E',
    HashMap.placeLoop i fuel H (fun p => keys (T p)) hash (keys index) pos dist = some (H', E') → pos < cap i → Back i H T U →
    (∀ p < cap i, H p ≠ 0 → T p ≠ index) →
    ∃ T' U', placeLoop i fuel H T U hash index pos dist = some (H', T', U') ∧ E' = (fun p => keys (T' p)) ∧ Back i H' T' U' := by
  intro fuel
  induction fuel with
  | zero => intro H T U hash index pos dist H' E' h; cases h
  | succ fuel ih =>
    intro H T U hash index pos dist H' E' h hp B N
    have put : Back i (Function.update H pos hash) (Function.update T pos index) (Function.update U index pos) := by
      intro p hp' h
      by_cases e : p = pos
      · subst e; rw [Function.update_self, Function.update_self]
      · rw [Function.update_of_ne e] at h ⊢
        rw [Function.update_of_ne (N p hp' h)]
        exact B p hp' h
    unfold HashMap.placeLoop at h
    unfold placeLoop
    by_cases h0 : H pos = 0
    · rw [if_pos h0] at h ⊢
      obtain ⟨rfl, rfl⟩ := Prod.mk.inj (Option.some.inj h)
      exact ⟨_, _, rfl, update_comp .., put⟩
    · rw [if_neg h0] at h ⊢
      by_cases h1 : probe i pos (H pos) < dist
      · rw [if_pos h1] at h ⊢
        rw [update_comp] at h
        refine ih _ _ _ _ _ _ _ _ _ h (next_lt hi hp) put fun p hp' h2 => ?_
        by_cases e : p = pos
        · subst e; rw [Function.update_self]; exact fun c => N p hp' h0 c.symm
        · rw [Function.update_of_ne e] at h2 ⊢
          intro c
          have := B p hp' h2
          rw [c, B pos hp h0] at this
          exact e this.symm
      · rw [if_neg h1] at h ⊢
        exact ih _ _ _ _ _ _ _ _ _ h (next_lt hi hp) B N

theorem shiftLoop_sim {keys : Nat → Option K} (hi : i < 29) : ∀ fuel (H T U : Nat → Nat) pos H' E' p',
    HashMap.shiftLoop i fuel H (fun p => keys (T p)) pos = some (H', E', p') → pos < cap i → H pos ≠ 0 → Back i H T U →
    ∃ T' U', shiftLoop i fuel H T U pos = some (H', T', U', p') ∧ E' = (fun p => keys (T' p)) ∧ Back i H' T' U' := by
  intro fuel
  induction fuel with
  | zero => intro H T U pos H' E' p' h; cases h
  | succ fuel ih =>
    intro H T U pos H' E' p' h hp h0 B
    unfold HashMap.shiftLoop at h
    unfold shiftLoop
    by_cases q : H (next i pos) ≠ 0 ∧ probe i (next i pos) (H (next i pos)) ≠ 0
    · rw [if_pos q] at h ⊢
      have hn := next_lt hi hp
      have ne := next_ne hi hp
      generalize next i pos = n at *
      have e : Function.update (Function.update (fun p => keys (T p)) n (keys (T pos))) pos (keys (T n)) =
          fun p => keys (Function.update (Function.update T n (T pos)) pos (T n) p) := by
        rw [update_comp, update_comp]
      dsimp only at h
      rw [e] at h
      refine ih _ _ _ _ _ _ _ h hn (by rw [Function.update_of_ne ne, Function.update_self]; exact h0) fun p hp' h2 => ?_
      have d : T pos ≠ T n := fun c => by
        have := B pos hp h0
        rw [c, B n hn q.1] at this
        exact ne this
      by_cases e1 : p = pos
      · subst e1
        rw [Function.update_self, Function.update_self]
        exact B p hp h0
      · rw [Function.update_of_ne e1] at h2 ⊢
        by_cases e2 : p = n
        · subst e2
          rw [Function.update_self, Function.update_of_ne d, Function.update_self]
          exact B p hn q.1
        · rw [Function.update_of_ne e2] at h2 ⊢
          have d1 : T p ≠ T pos := fun c => by
            have := B p hp' h2
            rw [c, B pos hp h0] at this
            exact e1 this.symm
          have d2 : T p ≠ T n := fun c => by
            have := B p hp' h2
            rw [c, B n hn q.1] at this
            exact e2 this.symm
          rw [Function.update_of_ne d2, Function.update_of_ne d1]
          exact B p hp' h2
    · rw [if_neg q] at h ⊢
      obtain ⟨rfl, e⟩ := Prod.mk.inj (Option.some.inj h)
      obtain ⟨rfl, rfl⟩ := Prod.mk.inj e
      exact ⟨_, _, rfl, rfl, B⟩

theorem insert_with_hash_run {m : Set K} (hi : m.capacity_index < 29) {S : K → Prop} (R : Robin m.capacity_index m.hashes)
    (C : Holds hasher m.capacity_index m.hashes (fun p => m.keys (m.hash_to_key p)) S) {k : K} (nk : ¬ S k) (emp : ∃ p < cap m.capacity_index, m.hashes p = 0)
    {j : Nat} (hj : m.keys j = some k) (B : Back m.capacity_index m.hashes m.hash_to_key m.key_to_hash) :
    ∃ H' T' U', insert_with_hash m (hashOf hasher k) j = some { m with hashes := H', hash_to_key := T', key_to_hash := U' } ∧
      Robin m.capacity_index H' ∧ Holds hasher m.capacity_index H' (fun p => m.keys (T' p)) (fun x => x = k ∨ S x) ∧ Back m.capacity_index H' T' U' := by
  obtain ⟨p, hp, h0⟩ := emp
  have hs := slot_lt hi (hashOf_lt (hasher := hasher) k)
  obtain ⟨d, hd, e⟩ := reach hi hp hs
  obtain ⟨H', E', e', R', C'⟩ := HashMap.placeLoop_run hi (cap m.capacity_index + 1) m.hashes (fun p => m.keys (m.hash_to_key p)) S k _ 0 R C nk hs
    (probe_slot hi (hashOf_lt k)) (.inl rfl) ⟨d, by omega, by rw [e]; exact h0⟩
  rw [← hj] at e'
  obtain ⟨T', U', e2, rfl, B'⟩ := placeLoop_sim hi _ _ _ _ _ _ _ _ _ _ e' hs B
    (fun q hq h1 c => nk ((C.mem k).2 ⟨q, hq, h1, by rw [c]; exact hj⟩))
  refine ⟨H', T', U', ?_, R', C', B'⟩
  unfold insert_with_hash
  rw [e2]; rfl

/-! ## The set -/

/-- The set `m` contains the keys `l`, in this order. -/
structure Rel (hasher : K → UInt32) (m : Set K) (l : List K) : Prop where
  idx : m.capacity_index < 29
  num : m.num_elements = l.length
  nodup : l.Nodup
  fits : 4 * m.num_elements ≤ 3 * cap m.capacity_index
  keys : ∀ j, m.keys j = l[j]?
  blank : m.alloc = false → l = []
  robin : m.alloc = true → Robin m.capacity_index m.hashes
  holds : m.alloc = true → Holds hasher m.capacity_index m.hashes (fun p => m.keys (m.hash_to_key p)) (· ∈ l)
  back : m.alloc = true → Back m.capacity_index m.hashes m.hash_to_key m.key_to_hash

variable {m : Set K} {l : List K}

theorem Rel.lt (I : Rel hasher m l) : l.length < cap m.capacity_index := by
  have := I.fits
  have := I.num
  have := table_facts _ I.idx
  omega

/-- Where the `j`-th key is in the table. -/
theorem Rel.spot (I : Rel hasher m l) (ha : m.alloc = true) {j : Nat} {k : K} (h : l[j]? = some k) :
    m.key_to_hash j < cap m.capacity_index ∧ m.hashes (m.key_to_hash j) = hashOf hasher k ∧ m.hashes (m.key_to_hash j) ≠ 0 ∧
      m.hash_to_key (m.key_to_hash j) = j := by
  obtain ⟨p, hp, h0, e⟩ := ((I.holds ha).mem k).1 (List.mem_of_getElem? h)
  have e' := e
  rw [I.keys] at e'
  have hlt := (List.getElem?_eq_some_iff.1 e').1
  have := (List.getElem?_inj hlt I.nodup).1 (e'.trans h.symm)
  have b := I.back ha p hp h0
  rw [this] at b
  rw [b]
  obtain ⟨k', e1, e2⟩ := (I.holds ha).own p hp h0
  rw [e] at e1
  cases e1
  exact ⟨hp, e2, h0, this⟩

theorem Rel.lookup (I : Rel hasher m l) (k : K) :
    (∃ j, l[j]? = some k ∧ lookup hasher m k = some (some j) ∧ m.alloc = true) ∨ (k ∉ l ∧ lookup hasher m k = some none) := by
  unfold HashSet.lookup
  by_cases q : m.alloc = false ∨ m.num_elements = 0
  · refine .inr ⟨?_, if_pos q⟩
    have : l = [] := by
      rcases q with q | q
      · exact I.blank q
      · exact List.length_eq_zero_iff.1 (I.num ▸ q)
    simp [this]
  · rw [if_neg q]
    push Not at q
    have ha : m.alloc = true := by simpa using q.1
    have C := I.holds ha
    have hs := slot_lt I.idx (hashOf_lt (hasher := hasher) k)
    rw [lookupLoop_sim I.idx (fun p hp h => by obtain ⟨k, e, -⟩ := C.own p hp h; exact ⟨k, e⟩) _ _ _ hs]
    by_cases hk : k ∈ l
    · obtain ⟨p, hp, h0, e⟩ := (C.mem k).1 hk
      refine .inl ⟨m.hash_to_key p, by rw [← I.keys]; exact e, ?_, ha⟩
      have := probe_lt I.idx hp (hashOf_lt (hasher := hasher) k)
      rw [HashMap.lookupLoop_found I.idx (I.robin ha) C hp h0 e (probe m.capacity_index p (hashOf hasher k)) _ _ 0 hs (iter_home I.idx hp (hashOf_lt k))
        (probe_slot I.idx (hashOf_lt k)) (by omega) (by omega)]
      rfl
    · refine .inr ⟨hk, ?_⟩
      obtain ⟨p, hp, h0⟩ := C.empty_place (L := l) (fun _ => id) I.lt
      obtain ⟨j, hj, e⟩ := reach I.idx hp hs
      rw [HashMap.lookupLoop_missing I.idx (fun q hq h1 h2 => hk ((C.mem k).2 ⟨q, hq, h1, h2⟩)) j _ _ 0 hs (by rw [e]; exact h0) (by omega)]
      rfl

/-- The keys inserted again in a larger table. -/
theorem Rel.rehashLoop (I : Rel hasher m l) (ha : m.alloc = true) {m0 : Set K} (hH : m0.hashes = fun _ => 0) (hi : m0.capacity_index < 29)
    (hl : l.length ≤ cap m0.capacity_index) (hk : ∀ j, m0.keys j = l[j]?) :
    ∀ n ≤ l.length, ∃ H' T' U', HashSet.rehashLoop m.hashes m.key_to_hash n m0 = some { m0 with hashes := H', hash_to_key := T', key_to_hash := U' } ∧
      Robin m0.capacity_index H' ∧ Holds hasher m0.capacity_index H' (fun p => m0.keys (T' p)) (· ∈ l.take n) ∧ Back m0.capacity_index H' T' U' := by
  intro n
  induction n with
  | zero =>
    intro _
    refine ⟨_, _, _, rfl, by rw [hH]; exact HashMap.robin_empty _, ?_, by rw [hH]; exact fun _ _ h => absurd rfl h⟩
    rw [hH]
    exact (HashMap.holds_empty _ _).congr fun k => by simp
  | succ n ih =>
    intro hn
    obtain ⟨H, T, U, e, R, C, B⟩ := ih (by omega)
    have ek : l[n]? = some l[n] := List.getElem?_eq_getElem (by omega)
    have nk : l[n] ∉ l.take n := by
      intro c
      obtain ⟨a, ha', ea⟩ := List.mem_iff_getElem.1 c
      rw [List.getElem_take] at ea
      rw [List.length_take] at ha'
      have := (List.Nodup.getElem_inj_iff I.nodup).1 ea
      omega
    obtain ⟨H', T', U', e', R', C', B'⟩ := insert_with_hash_run (m := { m0 with hashes := H, hash_to_key := T, key_to_hash := U }) hi R C nk
      (C.empty_place (L := l.take n) (fun _ => id) (by rw [List.length_take]; omega)) (j := n) ((hk n).trans ek) B
    refine ⟨H', T', U', ?_, R', C'.congr fun x => ?_, B'⟩
    · unfold HashSet.rehashLoop
      rw [e, (I.spot ha ek).2.1]
      exact e'
    · rw [List.take_add_one, List.mem_append, ek]
      simp [or_comm]

theorem Rel.rehash (I : Rel hasher m l) (ha : m.alloc = true) {j : Nat} (hj : j < 29) (hle : m.capacity_index ≤ j) :
    ∃ m' : Set K, resize_and_rehash junk m j = some m' ∧ Rel hasher m' l ∧ m'.alloc = true ∧ m'.capacity_index = max 2 j := by
  have hj' : max 2 j < 29 := by omega
  have hc := cap_mono _ I.idx _ hj' (by omega)
  have hk : ∀ x, (if x < cap (max 2 j) then m.keys x else none) = l[x]? := by
    intro x
    split_ifs with q
    · exact I.keys x
    · rw [List.getElem?_eq_none]
      have := I.lt
      omega
  obtain ⟨H', T', U', e, R, C, B⟩ := I.rehashLoop ha
    (m0 := { m with capacity_index := max 2 j, hashes := fun _ => 0, key_to_hash := junk,
                    keys := fun x => if x < cap (max 2 j) then m.keys x else none }) rfl hj'
    (by have := I.lt; dsimp only; omega) hk l.length le_rfl
  refine ⟨⟨m.alloc, fun x => if x < cap (max 2 j) then m.keys x else none, T', U', H', max 2 j, m.num_elements⟩,
    by unfold resize_and_rehash; dsimp only at e; rw [← I.num] at e; exact e, ⟨hj', I.num, I.nodup, ?_, hk, fun c => ?_, fun _ => R, fun _ => ?_, fun _ => B⟩, ha, rfl⟩
  · have := I.fits
    dsimp only
    omega
  · exact absurd (show m.alloc = false from c) (by simp [ha])
  · exact C.congr fun k => by simp

theorem Rel.allocate (I : Rel hasher m l) : Rel hasher (allocate junk m) l ∧ (allocate junk m).alloc = true := by
  unfold HashSet.allocate
  by_cases q : m.alloc = true
  · rw [if_pos q]; exact ⟨I, q⟩
  · rw [if_neg q]
    have hl := I.blank (by simpa using q)
    refine ⟨⟨I.idx, I.num, I.nodup, I.fits, fun j => by simp [hl], nofun, fun _ => HashMap.robin_empty _, fun _ => ?_, fun _ _ _ h => absurd rfl h⟩, rfl⟩
    exact (HashMap.holds_empty _ _).congr fun k => by simp [hl]

theorem Rel.add (I : Rel hasher m l) (ha : m.alloc = true) {k : K} (nk : k ∉ l) (hl : 4 * (m.num_elements + 1) ≤ 3 * cap m.capacity_index) :
    ∃ m', add hasher m k = some (m', some l.length) ∧ Rel hasher m' (l ++ [k]) := by
  have hlt := I.lt
  have hk : ∀ j, Function.update m.keys m.num_elements (some k) j = (l ++ [k])[j]? := by
    intro j
    by_cases e : j = m.num_elements
    · rw [e, Function.update_self, I.num, List.getElem?_concat_length]
    · rw [Function.update_of_ne e, I.keys]
      rw [I.num] at e
      by_cases c : j < l.length
      · rw [List.getElem?_append_left c]
      · rw [List.getElem?_eq_none (by omega), List.getElem?_eq_none (by simp; omega)]
  have C := I.holds ha
  have C' : Holds hasher m.capacity_index m.hashes (fun p => Function.update m.keys m.num_elements (some k) (m.hash_to_key p)) (· ∈ l) := by
    refine holds_ext C fun p hp h => ?_
    obtain ⟨k', e, -⟩ := C.own p hp h
    rw [I.keys] at e
    have := (List.getElem?_eq_some_iff.1 e).1
    exact Function.update_of_ne (by rw [I.num]; omega) ..
  obtain ⟨H', T', U', e, R, D, B⟩ := insert_with_hash_run (m := { m with keys := Function.update m.keys m.num_elements (some k) }) I.idx (I.robin ha) C' nk
    (C.empty_place (L := l) (fun _ => id) hlt) (j := m.num_elements) (Function.update_self ..) (I.back ha)
  refine ⟨⟨m.alloc, Function.update m.keys m.num_elements (some k), T', U', H', m.capacity_index, m.num_elements + 1⟩, ?_,
    ⟨I.idx, by simp [I.num], ?_, hl, hk, fun c => ?_, fun _ => R, fun _ => D.congr fun x => ?_, fun _ => B⟩⟩
  · unfold HashSet.add
    rw [if_pos (by rw [I.num]; exact hlt), e]
    show some (_, some m.num_elements) = _
    rw [I.num]
  · rw [List.nodup_append]
    exact ⟨I.nodup, List.nodup_singleton _, fun a ha b hb => by rw [List.mem_singleton] at hb; rintro rfl; exact nk (hb ▸ ha)⟩
  · exact absurd (show m.alloc = false from c) (by simp [ha])
  · simp [or_comm]

open Spec.ListSet in
theorem erase_getElem? (nd : l.Nodup) {j : Nat} {k : K} (h : l[j]? = some k) (x : Nat) :
    (Spec.ListSet.erase l k)[x]? = if x + 1 < l.length then if x = j then l[l.length - 1]? else l[x]? else none := by
  unfold Spec.ListSet.erase
  have hj := (List.getElem?_eq_some_iff.1 h).1
  rw [if_pos (List.mem_of_getElem? h), List.getElem?_map, List.getElem?_dropLast, List.getLast?_eq_getElem?]
  by_cases q : x + 1 < l.length
  · rw [if_pos (by omega), if_pos q]
    by_cases e : x = j
    · rw [if_pos e, e, h]
      show some (if k = k then _ else _) = _
      rw [if_pos rfl, List.getElem?_eq_getElem (show l.length - 1 < l.length by omega)]; rfl
    · rw [if_neg e, List.getElem?_eq_getElem (show x < l.length by omega)]
      show some (if l[x] = k then _ else _) = _
      rw [if_neg]
      intro c
      exact e ((List.getElem?_inj (by omega) nd).1 ((List.getElem?_eq_getElem (by omega)).trans (c ▸ h.symm)))
  · rw [if_neg (by omega), if_neg q]; rfl

theorem erase_length {j : Nat} {k : K} (h : l[j]? = some k) : (Spec.ListSet.erase l k).length = l.length - 1 := by
  unfold Spec.ListSet.erase
  rw [if_pos (List.mem_of_getElem? h)]; simp

theorem erase_nodup (nd : l.Nodup) {j : Nat} {k : K} (h : l[j]? = some k) : (Spec.ListSet.erase l k).Nodup := by
  have hj := (List.getElem?_eq_some_iff.1 h).1
  have len := erase_length h
  rw [List.nodup_iff_injective_get]
  intro ⟨a, ha⟩ ⟨b, hb⟩ e
  have e' : (Spec.ListSet.erase l k)[a]? = (Spec.ListSet.erase l k)[b]? := by
    rw [List.getElem?_eq_getElem ha, List.getElem?_eq_getElem hb]; exact congrArg some e
  rw [len] at ha hb
  rw [erase_getElem? nd h, erase_getElem? nd h, if_pos (show a + 1 < l.length by omega), if_pos (show b + 1 < l.length by omega)] at e'
  refine Fin.ext ?_
  show a = b
  split_ifs at e' with h1 h2 h2
  · omega
  · have := (List.getElem?_inj (by omega) nd).1 e'; omega
  · have := (List.getElem?_inj (by omega) nd).1 e'; omega
  · exact (List.getElem?_inj (by omega) nd).1 e'

theorem mem_erase_iff (nd : l.Nodup) {j : Nat} {k : K} (h : l[j]? = some k) (x : K) : x ∈ Spec.ListSet.erase l k ↔ x ∈ l ∧ x ≠ k := by
  have hj := (List.getElem?_eq_some_iff.1 h).1
  simp only [List.mem_iff_getElem?, erase_getElem? nd h]
  constructor
  · rintro ⟨a, ha⟩
    split_ifs at ha with h1 h2
    · refine ⟨⟨_, ha⟩, ?_⟩
      rintro rfl
      have := (List.getElem?_inj hj nd).1 (h.trans ha.symm); omega
    · refine ⟨⟨_, ha⟩, ?_⟩
      rintro rfl
      have := (List.getElem?_inj hj nd).1 (h.trans ha.symm); omega
  · rintro ⟨⟨a, ha⟩, hne⟩
    have hal := (List.getElem?_eq_some_iff.1 ha).1
    have hne' : a ≠ j := by rintro rfl; rw [h] at ha; exact hne (Option.some.inj ha).symm
    by_cases q : a + 1 < l.length
    · exact ⟨a, by rw [if_pos q, if_neg hne']; exact ha⟩
    · refine ⟨j, ?_⟩
      rw [if_pos (by omega), if_pos rfl, ← ha]
      congr 1
      omega

theorem Rel.erase (I : Rel hasher m l) (k : K) :
    ∃ m', HashSet.erase hasher m k = some (m', decide (k ∈ l)) ∧ Rel hasher m' (Spec.ListSet.erase l k) := by
  unfold HashSet.erase
  rcases I.lookup k with ⟨j, hj, e, ha⟩ | ⟨nk, e⟩
  · have hk := List.mem_of_getElem? hj
    have hjl := (List.getElem?_eq_some_iff.1 hj).1
    have C := I.holds ha
    obtain ⟨hp, -, h0, ej⟩ := I.spot ha hj
    set p := m.key_to_hash j with ep
    have ek : m.keys (m.hash_to_key p) = some k := by rw [ej, I.keys]; exact hj
    obtain ⟨q, hq, hq0⟩ := C.empty_place (L := l) (fun _ => id) I.lt
    obtain ⟨d, hd, ed⟩ := reach I.idx hq (next_lt I.idx hp)
    have R0 : Order m.capacity_index (fun x => x = p ∨ m.hashes x ≠ 0) (fun x => if x = p then probe m.capacity_index p (m.hashes p) else
        probe m.capacity_index x (m.hashes x)) := by
      have e1 : (fun x => x = p ∨ m.hashes x ≠ 0) = fun x => m.hashes x ≠ 0 := by
        funext x; refine propext ⟨?_, .inr⟩; rintro (rfl | h); exacts [h0, h]
      have e2 : (fun x => if x = p then probe m.capacity_index p (m.hashes p) else probe m.capacity_index x (m.hashes x)) =
          fun x => probe m.capacity_index x (m.hashes x) := by
        funext x; split_ifs with h
        · rw [h]
        · rfl
      rw [e1, e2]; exact I.robin ha
    obtain ⟨H', E', p', e', hp', h0', ek', C', R'⟩ := HashMap.shiftLoop_run I.idx (cap m.capacity_index + 1) m.hashes _ _ k p _ R0 C hp h0 ek
      ⟨d, by omega, by rw [ed]; exact hq0⟩
    obtain ⟨T', U', e2, rfl, B'⟩ := shiftLoop_sim I.idx _ _ _ _ _ _ _ _ e' hp h0 (I.back ha)
    have at' : ∀ q < cap m.capacity_index, H' q ≠ 0 → ∀ y, l[y]? = m.keys (T' q) → T' q = y := by
      intro q hq h y hy
      obtain ⟨k', e1, -⟩ := C'.own q hq h
      rw [I.keys] at e1 hy
      exact (List.getElem?_inj (List.getElem?_eq_some_iff.1 e1).1 I.nodup).1 hy.symm
    have ej' : T' p' = j := at' p' hp' h0' j (hj.trans ek'.symm)
    have below : ∀ q < cap m.capacity_index, H' q ≠ 0 → T' q < l.length := by
      intro q hq h
      obtain ⟨k', e1, -⟩ := C'.own q hq h
      rw [I.keys] at e1
      exact (List.getElem?_eq_some_iff.1 e1).1
    have other : ∀ q < cap m.capacity_index, Function.update H' p' 0 q ≠ 0 → q ≠ p' ∧ H' q ≠ 0 ∧ T' q ≠ j := by
      intro q hq h
      have ne : q ≠ p' := by rintro rfl; exact h (Function.update_self ..)
      rw [Function.update_of_ne ne] at h
      refine ⟨ne, h, fun c => ne ?_⟩
      rw [← B' q hq h, c, ← ej', B' p' hp' h0']
    have D := C'.take hp' h0' ek' (fun p => m.keys (T' p)) (fun _ _ => rfl)
    have hnum : m.num_elements - 1 = l.length - 1 := by rw [I.num]
    have fits : 4 * (m.num_elements - 1) ≤ 3 * cap m.capacity_index := by have := I.fits; omega
    have len := erase_length hj
    have nd := erase_nodup I.nodup hj
    have mem := mem_erase_iff I.nodup hj
    have blank : ∀ b : Bool, m.alloc = b → b = false → Spec.ListSet.erase l k = [] := fun b h1 h2 => by rw [ha] at h1; rw [← h1] at h2; cases h2
    suffices h : ∃ m', moveLast ⟨m.alloc, Function.update m.keys j none, T', U', Function.update H' p' 0, m.capacity_index, m.num_elements - 1⟩ j =
        some m' ∧ Rel hasher m' (Spec.ListSet.erase l k) by
      obtain ⟨m', e3, I'⟩ := h
      refine ⟨m', ?_, I'⟩
      rw [decide_eq_true hk]
      show (HashSet.lookup hasher m k).bind _ = _
      rw [e]
      show (shiftLoop m.capacity_index _ m.hashes m.hash_to_key m.key_to_hash p).bind _ = _
      rw [e2]
      show (moveLast _ j).bind _ = _
      rw [e3]; rfl
    unfold moveLast
    dsimp only
    by_cases q : j < m.num_elements - 1
    · have hlast : l[l.length - 1]? = some (l[l.length - 1]'(by omega)) := List.getElem?_eq_getElem ..
      have el : Function.update m.keys j none (m.num_elements - 1) = some (l[l.length - 1]'(by omega)) := by
        rw [Function.update_of_ne (by omega), I.keys, hnum, hlast]
      rw [if_pos q, el]
      dsimp only
      have hkeys : ∀ x, Function.update (Function.update (Function.update m.keys j none) j (some (l[l.length - 1]'(by omega)))) (m.num_elements - 1) none x =
          (Spec.ListSet.erase l k)[x]? := by
        intro x
        rw [erase_getElem? I.nodup hj]
        by_cases e1 : x = m.num_elements - 1
        · rw [e1, Function.update_self, if_neg (by omega)]
        · rw [Function.update_of_ne e1]
          by_cases e2 : x = j
          · rw [e2, Function.update_self, if_pos (by omega), if_pos rfl, hlast]
          · rw [Function.update_of_ne e2, Function.update_of_ne e2, I.keys]
            split_ifs
            · rfl
            · rw [List.getElem?_eq_none (by omega)]
      -- where the last key is
      obtain ⟨P, hP, hP0, eP⟩ := (C'.mem _).1 (List.mem_of_getElem? hlast)
      have TP : T' P = l.length - 1 := at' P hP hP0 _ (by rw [eP, hlast])
      have UP : U' (m.num_elements - 1) = P := by rw [hnum, ← TP]; exact B' P hP hP0
      refine ⟨_, rfl, ⟨I.idx, by dsimp only; rw [len, I.num], nd, fits, hkeys, blank _ rfl, fun _ => R', fun _ => ?_, fun _ => ?_⟩⟩
      · refine (holds_ext D fun x hx h => ?_).congr fun x => mem x
        obtain ⟨ne, h', nj⟩ := other x hx h
        refine (hkeys _).trans ?_
        dsimp only
        rw [erase_getElem? I.nodup hj, UP]
        by_cases e1 : x = P
        · rw [e1, Function.update_self, if_pos (by omega), if_pos rfl, hlast, eP]
        · rw [Function.update_of_ne e1]
          have hb := below x hx h'
          have nl : T' x ≠ l.length - 1 := fun c => e1 (by rw [← B' x hx h', c, ← TP, B' P hP hP0])
          rw [if_pos (by omega), if_neg nj, I.keys]
      · intro x hx h
        obtain ⟨ne, h', nj⟩ := other x hx h
        dsimp only
        rw [UP]
        by_cases e1 : x = P
        · rw [e1, Function.update_self, Function.update_self]
        · rw [Function.update_of_ne e1, Function.update_of_ne nj]
          exact B' x hx h'
    · rw [if_neg q]
      refine ⟨_, rfl, ⟨I.idx, by dsimp only; rw [len, I.num], nd, fits, fun x => ?_, blank _ rfl, fun _ => R', fun _ => ?_, fun _ x hx h => ?_⟩⟩
      · dsimp only
        rw [erase_getElem? I.nodup hj]
        have := I.num
        by_cases e1 : x = j
        · rw [e1, Function.update_self, if_neg (by omega)]
        · rw [Function.update_of_ne e1, I.keys]
          split_ifs
          · rfl
          · rw [List.getElem?_eq_none (by omega)]
      · refine (holds_ext D fun x hx h => ?_).congr fun x => mem x
        exact Function.update_of_ne (other x hx h).2.2 ..
      · exact B' x hx (other x hx h).2.1
  · refine ⟨m, ?_, ?_⟩
    · rw [decide_eq_false nk]
      show (HashSet.lookup hasher m k).bind _ = _
      rw [e]; rfl
    · unfold Spec.ListSet.erase
      rw [if_neg nk]; exact I

end Verif.HashSet
