import Verif.Model.HashMap
import Mathlib.Tactic.Linarith
import Mathlib.Tactic.Ring
import Mathlib.Data.List.Nodup
import Mathlib.Data.List.Perm.Basic
import Mathlib.Logic.Function.Iterate
import Mathlib.Data.Fintype.Card

/-! # Robin Hood hashing -/

namespace Verif.HashMap

/-! ## Remainders -/

theorem fastmod_eq {c d e n : Nat} (h1 : c * d = 2 ^ 64 + e) (h2 : e < d) (h3 : d < 2 ^ 31) (hn : n < 2 ^ 32) : fastmod n c d = n % d := by
  unfold fastmod
  have hd : 0 < d := by omega
  set q := n / d with hq
  set r := n % d with hr
  have hn' : n = d * q + r := (Nat.div_add_mod n d).symm
  have hr' : r < d := Nat.mod_lt _ hd
  have hc : 2 ^ 33 < c := by
    by_contra hc
    have : c * d ≤ 2 ^ 33 * d := Nat.mul_le_mul_right _ (by omega)
    omega
  have hqe : (q + 1) * e < c := by
    have a1 : (q + 1) * e ≤ (q + 1) * d := Nat.mul_le_mul_left _ h2.le
    have a2 : (q + 1) * d = d * q + d := by ring
    omega
  have hlow : q * e + c * r < 2 ^ 64 := by
    have a1 : c * r + c ≤ c * d := by
      have : c * (r + 1) ≤ c * d := Nat.mul_le_mul_left _ hr'
      rwa [Nat.mul_add, Nat.mul_one] at this
    have a2 : (q + 1) * e = q * e + e := by ring
    omega
  have e1 : c * n % 2 ^ 64 = q * e + c * r := by
    have : c * n = 2 ^ 64 * q + (q * e + c * r) := by
      rw [hn', Nat.mul_add, ← Nat.mul_assoc, h1]; ring
    rw [this, Nat.mul_add_mod, Nat.mod_eq_of_lt hlow]
  have e2 : (q * e + c * r) * d = 2 ^ 64 * r + e * n := by
    have : (q * e + c * r) * d = q * e * d + r * (c * d) := by ring
    rw [this, h1, hn']; ring
  have e3 : e * n < 2 ^ 64 := by
    calc e * n ≤ 2 ^ 31 * n := Nat.mul_le_mul_right _ (by omega)
      _ ≤ 2 ^ 31 * 2 ^ 32 := Nat.mul_le_mul_left _ hn.le
      _ < 2 ^ 64 := by norm_num
  rw [e1, e2, Nat.mul_add_div (by positivity), Nat.div_eq_of_lt e3, Nat.add_zero]
  exact Nat.mod_eq_of_lt (by omega)

theorem table_facts : ∀ i < 29, 5 ≤ cap i ∧ cap i < 2 ^ 31 ∧ 2 ^ 64 ≤ inv i * cap i ∧ inv i * cap i < 2 ^ 64 + cap i := by decide +kernel

theorem cap_grows : ∀ i < 28, cap i + 2 ≤ cap (i + 1) := by decide +kernel

theorem cap_mono : ∀ i < 29, ∀ j < 29, i ≤ j → cap i ≤ cap j := by decide +kernel

theorem slot_eq {i : Nat} (hi : i < 29) {n : Nat} (hn : n < 2 ^ 32) : slot i n = n % cap i := by
  obtain ⟨-, h2, h3, h4⟩ := table_facts i hi
  exact fastmod_eq (e := inv i * cap i - 2 ^ 64) (by omega) (by omega) h2 hn

theorem slot_lt {i : Nat} (hi : i < 29) {n : Nat} (hn : n < 2 ^ 32) : slot i n < cap i := by
  rw [slot_eq hi hn]; exact Nat.mod_lt _ (by have := table_facts i hi; omega)

theorem next_eq {i : Nat} (hi : i < 29) {p : Nat} (hp : p < cap i) : next i p = if p + 1 = cap i then 0 else p + 1 := by
  obtain ⟨h1, h2, -, -⟩ := table_facts i hi
  unfold next
  rw [Nat.mod_eq_of_lt (by omega), slot_eq hi (by omega)]
  split_ifs with h
  · rw [h, Nat.mod_self]
  · exact Nat.mod_eq_of_lt (by omega)

theorem next_lt {i : Nat} (hi : i < 29) {p : Nat} (hp : p < cap i) : next i p < cap i := by
  rw [next_eq hi hp]; split_ifs <;> omega

theorem probe_eq {i : Nat} (hi : i < 29) {p h : Nat} (hp : p < cap i) (hh : h < 2 ^ 32) :
    probe i p h = if slot i h ≤ p then p - slot i h else p + cap i - slot i h := by
  obtain ⟨h1, h2, -, -⟩ := table_facts i hi
  have hs := slot_lt hi hh
  unfold probe
  rw [show p + 2 ^ 32 - slot i h + cap i = (p + cap i - slot i h) + 2 ^ 32 by omega, Nat.add_mod_right, Nat.mod_eq_of_lt (by omega), slot_eq hi (by omega)]
  split_ifs with q
  · rw [show p + cap i - slot i h = (p - slot i h) + cap i by omega, Nat.add_mod_right, Nat.mod_eq_of_lt (by omega)]
  · exact Nat.mod_eq_of_lt (by omega)

theorem probe_lt {i : Nat} (hi : i < 29) {p h : Nat} (hp : p < cap i) (hh : h < 2 ^ 32) : probe i p h < cap i := by
  have hs := slot_lt hi hh
  rw [probe_eq hi hp hh]; split_ifs <;> omega

theorem probe_slot {i : Nat} (hi : i < 29) {h : Nat} (hh : h < 2 ^ 32) : probe i (slot i h) h = 0 := by
  rw [probe_eq hi (slot_lt hi hh) hh, if_pos le_rfl, Nat.sub_self]

theorem probe_next {i : Nat} (hi : i < 29) {p h : Nat} (hp : p < cap i) (hh : h < 2 ^ 32) (hc : probe i p h + 1 < cap i) :
    probe i (next i p) h = probe i p h + 1 := by
  have hs := slot_lt hi hh
  rw [probe_eq hi hp hh] at hc ⊢
  rw [probe_eq hi (next_lt hi hp) hh, next_eq hi hp]
  split_ifs at hc ⊢ <;> omega

theorem probe_pred {i : Nat} (hi : i < 29) {p h : Nat} (hp : p < cap i) (hh : h < 2 ^ 32) (hc : probe i (next i p) h ≠ 0) :
    probe i p h + 1 = probe i (next i p) h := by
  have hs := slot_lt hi hh
  rw [probe_eq hi (next_lt hi hp) hh, next_eq hi hp] at hc ⊢
  rw [probe_eq hi hp hh]
  split_ifs at hc ⊢ <;> omega

theorem next_inj {i : Nat} (hi : i < 29) {p q : Nat} (hp : p < cap i) (hq : q < cap i) (e : next i p = next i q) : p = q := by
  rw [next_eq hi hp, next_eq hi hq] at e
  split_ifs at e <;> omega

theorem next_ne {i : Nat} (hi : i < 29) {p : Nat} (hp : p < cap i) : next i p ≠ p := by
  have := table_facts i hi
  rw [next_eq hi hp]; split_ifs <;> omega

theorem iter_lt {i : Nat} (hi : i < 29) {p : Nat} (hp : p < cap i) (j : Nat) : (next i)^[j] p < cap i := by
  induction j generalizing p with
  | zero => exact hp
  | succ j ih => exact ih (next_lt hi hp)

/-- Every position is reached from every other. -/
theorem reach {i : Nat} (hi : i < 29) {p q : Nat} (hp : p < cap i) (hq : q < cap i) : ∃ j, j < cap i ∧ (next i)^[j] q = p := by
  have up : ∀ j q, q + j < cap i → (next i)^[j] q = q + j := by
    intro j
    induction j with
    | zero => intro q _; rfl
    | succ j ih =>
      intro q hq
      rw [Function.iterate_succ_apply, next_eq hi (by omega), if_neg (by omega), ih _ (by omega)]
      omega
  by_cases h : q ≤ p
  · exact ⟨p - q, by omega, by rw [up _ _ (by omega)]; omega⟩
  · refine ⟨(p + 1) + (cap i - 1 - q), by omega, ?_⟩
    rw [Function.iterate_add_apply, up (cap i - 1 - q) q (by omega), show q + (cap i - 1 - q) = cap i - 1 by omega, Function.iterate_succ_apply,
      next_eq hi (by omega), if_pos (by omega), up _ _ (by omega), Nat.zero_add]

/-- The position reached from the home of a hash. -/
theorem iter_home {i : Nat} (hi : i < 29) {p h : Nat} (hp : p < cap i) (hh : h < 2 ^ 32) : (next i)^[probe i p h] (slot i h) = p := by
  obtain ⟨j, hj, e⟩ := reach hi hp (slot_lt hi hh)
  have step : ∀ j, j < cap i → probe i ((next i)^[j] (slot i h)) h = j := by
    intro j
    induction j with
    | zero => intro _; exact probe_slot hi hh
    | succ j ih =>
      intro hj
      rw [Function.iterate_succ_apply', probe_next hi (iter_lt hi (slot_lt hi hh) j) hh (by rw [ih (by omega)]; omega), ih (by omega)]
  rw [← e, step j hj]

/-! ## The table -/

variable {K V : Type} [DecidableEq K] {hasher : K → UInt32} {i : Nat}

theorem hashOf_ne (k : K) : hashOf hasher k ≠ 0 := by unfold hashOf; split_ifs <;> omega

theorem hashOf_lt (k : K) : hashOf hasher k < 2 ^ 32 := by
  have := (hasher k).toNat_lt
  unfold hashOf; split_ifs <;> omega

/-- The order of Robin Hood: an element that is not at home follows another, whose distance from home is at most one smaller. -/
def Order (i : Nat) (occ : Nat → Prop) (pl : Nat → Nat) : Prop := ∀ p < cap i, occ (next i p) → pl (next i p) ≠ 0 → occ p ∧ pl (next i p) ≤ pl p + 1

def Robin (i : Nat) (H : Nat → Nat) : Prop := Order i (fun p => H p ≠ 0) (fun p => probe i p (H p))

/-- The table contains exactly the keys of `S`, each once. -/
structure Holds (hasher : K → UInt32) (i : Nat) (H : Nat → Nat) (E : Nat → Option K) (S : K → Prop) : Prop where
  own : ∀ p < cap i, H p ≠ 0 → ∃ k, E p = some k ∧ H p = hashOf hasher k
  inj : ∀ p < cap i, ∀ q < cap i, H p ≠ 0 → H q ≠ 0 → E p = E q → p = q
  mem : ∀ k, S k ↔ ∃ p < cap i, H p ≠ 0 ∧ E p = some k

theorem Order.chain {occ : Nat → Prop} {pl : Nat → Nat} (hi : i < 29) (R : Order i occ pl) {p : Nat} (op : occ p) :
    ∀ j q, q < cap i → (next i)^[j] q = p → j ≤ pl p → occ q ∧ pl p ≤ pl q + j := by
  intro j
  induction j with
  | zero => rintro q _ rfl _; exact ⟨op, by simp⟩
  | succ j ih =>
    intro q hq e hj
    obtain ⟨h1, h2⟩ := ih (next i q) (next_lt hi hq) e (by omega)
    obtain ⟨h3, h4⟩ := R q hq h1 (by omega)
    exact ⟨h3, by omega⟩

/-- If an element is as far from home as possible, the table is full. -/
theorem Order.full {occ : Nat → Prop} {pl : Nat → Nat} (hi : i < 29) (R : Order i occ pl) {p : Nat} (hp : p < cap i) (op : occ p) (e : cap i ≤ pl p + 1)
    {q : Nat} (hq : q < cap i) : occ q := by
  obtain ⟨j, hj, ej⟩ := reach hi hp hq
  exact (R.chain hi op j q hq ej (by omega)).1

theorem lookupLoop_found (hi : i < 29) {H : Nat → Nat} {E : Nat → Option K} {S : K → Prop} (R : Robin i H) (C : Holds hasher i H E S) {p : Nat} {k : K}
    (hp : p < cap i) (h0 : H p ≠ 0) (hk : E p = some k) :
    ∀ j fuel pos dist, pos < cap i → (next i)^[j] pos = p → probe i pos (hashOf hasher k) = dist → dist + j = probe i p (hashOf hasher k) → j < fuel →
      lookupLoop i H E (hashOf hasher k) k fuel pos dist = some (some p) := by
  obtain ⟨k', e1, e2⟩ := C.own p hp h0
  rw [hk] at e1
  cases e1
  intro j
  induction j with
  | zero =>
    rintro (_ | fuel) pos dist hpos e hd hj hf
    · omega
    · obtain rfl : pos = p := e
      unfold lookupLoop
      rw [if_neg h0, if_neg (by rw [e2]; omega), if_pos ⟨e2, hk⟩]
  | succ j ih =>
    rintro (_ | fuel) pos dist hpos e hd hj hf
    · omega
    · obtain ⟨c1, c2⟩ := R.chain hi h0 (j + 1) pos hpos e (by rw [e2]; omega)
      rw [e2] at c2
      have lt := probe_lt hi hp (hashOf_lt (hasher := hasher) k)
      unfold lookupLoop
      rw [if_neg c1, if_neg (by omega)]
      by_cases q : H pos = hashOf hasher k ∧ E pos = some k
      · rw [if_pos q, C.inj pos hpos p hp c1 h0 (q.2.trans hk.symm)]
      · rw [if_neg q]
        have hn := probe_next hi hpos (hashOf_lt (hasher := hasher) k) (by omega)
        exact ih fuel (next i pos) (dist + 1) (next_lt hi hpos) e (by omega) (by omega) (by omega)

theorem lookupLoop_missing {H : Nat → Nat} {E : Nat → Option K} (hi : i < 29) {k : K} {hash : Nat} (nk : ∀ p < cap i, H p ≠ 0 → E p ≠ some k) :
    ∀ j fuel pos dist, pos < cap i → H ((next i)^[j] pos) = 0 → j < fuel → lookupLoop i H E hash k fuel pos dist = some none := by
  intro j
  induction j with
  | zero =>
    rintro (_ | fuel) pos dist hpos e hf
    · omega
    · unfold lookupLoop; rw [if_pos (show H pos = 0 from e)]
  | succ j ih =>
    rintro (_ | fuel) pos dist hpos e hf
    · omega
    · unfold lookupLoop
      split_ifs with q1 q2 q3
      · rfl
      · rfl
      · exact absurd q3.2 (nk pos hpos q1)
      · exact ih fuel _ _ (next_lt hi hpos) e (by omega)

theorem Holds.congr {H : Nat → Nat} {E : Nat → Option K} {S S' : K → Prop} (C : Holds hasher i H E S) (e : ∀ k, S' k ↔ S k) : Holds hasher i H E S' :=
  ⟨C.own, C.inj, fun k => (e k).trans (C.mem k)⟩

/-- A key put into an empty place. -/
theorem Holds.put {H : Nat → Nat} {E : Nat → Option K} {S : K → Prop} (C : Holds hasher i H E S) {p : Nat} (hp : p < cap i) (h0 : H p = 0) {k : K}
    (nk : ¬ S k) : Holds hasher i (Function.update H p (hashOf hasher k)) (Function.update E p (some k)) (fun x => x = k ∨ S x) := by
  have ne : ∀ q < cap i, H q ≠ 0 → E q ≠ some k := fun q hq h1 h2 => nk ((C.mem k).2 ⟨q, hq, h1, h2⟩)
  refine ⟨fun q hq h1 => ?_, fun q hq q' hq' h1 h2 e => ?_, fun x => ⟨?_, ?_⟩⟩
  · by_cases e : q = p
    · subst e; exact ⟨k, by simp, by simp⟩
    · rw [Function.update_of_ne e] at h1 ⊢
      rw [Function.update_of_ne e]; exact C.own q hq h1
  · by_cases e1 : q = p <;> by_cases e2 : q' = p
    · rw [e1, e2]
    · subst e1
      rw [Function.update_self, Function.update_of_ne e2] at e
      rw [Function.update_of_ne e2] at h2
      exact absurd e.symm (ne q' hq' h2)
    · subst e2
      rw [Function.update_self, Function.update_of_ne e1] at e
      rw [Function.update_of_ne e1] at h1
      exact absurd e (ne q hq h1)
    · rw [Function.update_of_ne e1, Function.update_of_ne e2] at e
      rw [Function.update_of_ne e1] at h1
      rw [Function.update_of_ne e2] at h2
      exact C.inj q hq q' hq' h1 h2 e
  · rintro (rfl | h)
    · exact ⟨p, hp, by simp [hashOf_ne], by simp⟩
    · obtain ⟨q, hq, h1, h2⟩ := (C.mem x).1 h
      have e : q ≠ p := by rintro rfl; exact h1 h0
      exact ⟨q, hq, by rwa [Function.update_of_ne e], by rwa [Function.update_of_ne e]⟩
  · rintro ⟨q, hq, h1, h2⟩
    by_cases e : q = p
    · subst e
      rw [Function.update_self] at h2
      exact .inl (Option.some.inj h2).symm
    · rw [Function.update_of_ne e] at h1 h2
      exact .inr ((C.mem x).2 ⟨q, hq, h1, h2⟩)

/-- A key taken out of a place. -/
theorem Holds.take {H : Nat → Nat} {E : Nat → Option K} {S : K → Prop} (C : Holds hasher i H E S) {p : Nat} (hp : p < cap i) {k : K} (h0 : H p ≠ 0)
    (hk : E p = some k) (E' : Nat → Option K) (hE : ∀ q, q ≠ p → E' q = E q) : Holds hasher i (Function.update H p 0) E' (fun x => S x ∧ x ≠ k) := by
  have ne : ∀ q, Function.update H p 0 q ≠ 0 → q ≠ p := by rintro q h rfl; exact h (Function.update_self ..)
  refine ⟨fun q hq h1 => ?_, fun q hq q' hq' h1 h2 e => ?_, fun x => ⟨?_, ?_⟩⟩
  · have := ne q h1
    rw [Function.update_of_ne this] at h1 ⊢
    rw [hE q this]; exact C.own q hq h1
  · have a := ne q h1
    have b := ne q' h2
    rw [Function.update_of_ne a] at h1
    rw [Function.update_of_ne b] at h2
    rw [hE q a, hE q' b] at e
    exact C.inj q hq q' hq' h1 h2 e
  · rintro ⟨h, nx⟩
    obtain ⟨q, hq, h1, h2⟩ := (C.mem x).1 h
    have e : q ≠ p := by rintro rfl; rw [hk] at h2; exact nx (Option.some.inj h2).symm
    exact ⟨q, hq, by rwa [Function.update_of_ne e], by rw [hE q e]; exact h2⟩
  · rintro ⟨q, hq, h1, h2⟩
    have e := ne q h1
    rw [Function.update_of_ne e] at h1
    rw [hE q e] at h2
    refine ⟨(C.mem x).2 ⟨q, hq, h1, h2⟩, ?_⟩
    rintro rfl
    exact e (C.inj q hq p hp h1 h0 (h2.trans hk.symm))

theorem placeLoop_run (hi : i < 29) : ∀ fuel (H : Nat → Nat) (E : Nat → Option K) (S : K → Prop) (k : K) pos dist, Robin i H → Holds hasher i H E S → ¬ S k →
    pos < cap i → probe i pos (hashOf hasher k) = dist →
    (dist = 0 ∨ ∃ q < cap i, next i q = pos ∧ H q ≠ 0 ∧ dist ≤ probe i q (H q) + 1) → (∃ j < fuel, H ((next i)^[j] pos) = 0) →
    ∃ H' E', placeLoop i fuel H E (hashOf hasher k) (some k) pos dist = some (H', E') ∧ Robin i H' ∧ Holds hasher i H' E' (fun x => x = k ∨ S x) := by
  intro fuel
  induction fuel with
  | zero => rintro H E S k pos dist - - - - - - ⟨j, hj, -⟩; omega
  | succ fuel ih =>
    intro H E S k pos dist R C nk hpos hd hprev ⟨j, hj, ej⟩
    unfold placeLoop
    by_cases h0 : H pos = 0
    · rw [if_pos h0]
      refine ⟨_, _, rfl, ?_, C.put hpos h0 nk⟩
      intro p hp h1 h2
      by_cases e : next i p = pos
      · dsimp only at h1 h2 ⊢
        rw [e, Function.update_self] at h2 ⊢
        rcases hprev with q | ⟨q, hq, eq, oq, lq⟩
        · omega
        · obtain rfl := next_inj hi hq hp (eq.trans e.symm)
          have ne : q ≠ pos := by rintro rfl; exact oq h0
          rw [Function.update_of_ne ne]
          exact ⟨oq, by omega⟩
      · dsimp only at h1 h2 ⊢
        rw [Function.update_of_ne e] at h1 h2 ⊢
        obtain ⟨a, b⟩ := R p hp h1 h2
        have ne : p ≠ pos := by rintro rfl; exact a h0
        rw [Function.update_of_ne ne]
        exact ⟨a, b⟩
    · rw [if_neg h0]
      obtain ⟨k1, ek1, eh1⟩ := C.own pos hpos h0
      have hj0 : j ≠ 0 := by rintro rfl; exact h0 ej
      obtain ⟨j, rfl⟩ := Nat.exists_eq_succ_of_ne_zero hj0
      rw [Function.iterate_succ_apply] at ej
      have emp := iter_lt hi (next_lt hi hpos) j
      have npos : (next i)^[j] (next i pos) ≠ pos := by intro e; rw [e] at ej; exact h0 ej
      have notfull : probe i pos (H pos) + 1 < cap i := by
        by_contra hc
        exact Order.full hi R hpos h0 (by omega) emp ej
      by_cases q : probe i pos (H pos) < dist
      · rw [if_pos q, ek1, eh1]
        have sk1 : S k1 := (C.mem k1).2 ⟨pos, hpos, h0, ek1⟩
        have nkk : k1 ≠ k := by rintro rfl; exact nk sk1
        -- the table with the new key in the place of the old one
        have C1 : Holds hasher i (Function.update H pos (hashOf hasher k)) (Function.update E pos (some k)) (fun x => x = k ∨ (S x ∧ x ≠ k1)) := by
          have := ((C.take hpos h0 ek1 E (fun _ _ => rfl)).put hpos (Function.update_self ..) (k := k) (fun c => nk c.1))
          rwa [Function.update_idem] at this
        have R1 : Robin i (Function.update H pos (hashOf hasher k)) := by
          intro p hp h1 h2
          dsimp only at h1 h2 ⊢
          by_cases e : next i p = pos
          · have ne : p ≠ pos := by rintro rfl; exact next_ne hi hp e
            rw [e, Function.update_self] at h2 ⊢
            rcases hprev with q' | ⟨q', hq, eq, oq, lq⟩
            · omega
            · obtain rfl := next_inj hi hq hp (eq.trans e.symm)
              rw [Function.update_of_ne ne]
              exact ⟨oq, by omega⟩
          · rw [Function.update_of_ne e] at h1 h2 ⊢
            obtain ⟨a, b⟩ := R p hp h1 h2
            dsimp only at a b
            by_cases ne : p = pos
            · subst ne
              rw [Function.update_self]
              exact ⟨hashOf_ne k, by omega⟩
            · rw [Function.update_of_ne ne]
              exact ⟨a, b⟩
        obtain ⟨H', E', e', R', C'⟩ := ih (Function.update H pos (hashOf hasher k)) (Function.update E pos (some k)) _ k1 (next i pos)
          (probe i pos (hashOf hasher k1) + 1) R1 C1 (by rintro (c | c); exacts [nkk c, c.2 rfl]) (next_lt hi hpos)
          (by rw [eh1] at notfull; exact probe_next hi hpos (hashOf_lt k1) notfull)
          (.inr ⟨pos, hpos, rfl, by rw [Function.update_self]; exact hashOf_ne k, by rw [Function.update_self]; rw [eh1] at q; omega⟩)
          ⟨j, by omega, by rw [Function.update_of_ne npos]; exact ej⟩
        refine ⟨H', E', e', R', C'.congr fun x => ?_⟩
        by_cases e : x = k1
        · subst e; simp [sk1]
        · simp [e]
      · rw [if_neg q]
        have hd' : probe i pos (hashOf hasher k) + 1 < cap i := by omega
        exact ih H E S k (next i pos) (dist + 1) R C nk (next_lt hi hpos) (by rw [probe_next hi hpos (hashOf_lt k) hd', hd])
          (.inr ⟨pos, hpos, rfl, h0, by omega⟩) ⟨j, by omega, ej⟩

/-- Two places exchanged. -/
theorem Holds.swap {H : Nat → Nat} {E : Nat → Option K} {S : K → Prop} (C : Holds hasher i H E S) {p q : Nat} (hp : p < cap i) (hq : q < cap i) (ne : q ≠ p) :
    Holds hasher i (Function.update (Function.update H q (H p)) p (H q)) (Function.update (Function.update E q (E p)) p (E q)) S := by
  let σ : Nat → Nat := fun x => if x = p then q else if x = q then p else x
  have hσ : ∀ x, x < cap i → σ x < cap i := by intro x hx; simp only [σ]; split_ifs <;> omega
  have sσ : ∀ x, σ (σ x) = x := by intro x; simp only [σ]; split_ifs <;> omega
  have eH : ∀ x, Function.update (Function.update H q (H p)) p (H q) x = H (σ x) := by
    intro x
    simp only [σ]
    by_cases e1 : x = p
    · subst e1; simp
    · rw [Function.update_of_ne e1, if_neg e1]
      by_cases e2 : x = q
      · subst e2; simp
      · rw [Function.update_of_ne e2, if_neg e2]
  have eE : ∀ x, Function.update (Function.update E q (E p)) p (E q) x = E (σ x) := by
    intro x
    simp only [σ]
    by_cases e1 : x = p
    · subst e1; simp
    · rw [Function.update_of_ne e1, if_neg e1]
      by_cases e2 : x = q
      · subst e2; simp
      · rw [Function.update_of_ne e2, if_neg e2]
  refine ⟨fun x hx h1 => ?_, fun x hx y hy h1 h2 e => ?_, fun k => (C.mem k).trans ⟨?_, ?_⟩⟩
  · rw [eH] at h1 ⊢; rw [eE]; exact C.own _ (hσ x hx) h1
  · rw [eH] at h1 h2; rw [eE, eE] at e
    have := congrArg σ (C.inj _ (hσ x hx) _ (hσ y hy) h1 h2 e)
    rwa [sσ, sσ] at this
  · rintro ⟨x, hx, h1, h2⟩
    exact ⟨σ x, hσ x hx, by rwa [eH, sσ], by rwa [eE, sσ]⟩
  · rintro ⟨x, hx, h1, h2⟩
    rw [eH] at h1; rw [eE] at h2
    exact ⟨σ x, hσ x hx, h1, h2⟩

theorem shiftLoop_run (hi : i < 29) : ∀ fuel (H : Nat → Nat) (E : Nat → Option K) (S : K → Prop) (k : K) pos B,
    Order i (fun p => p = pos ∨ H p ≠ 0) (fun p => if p = pos then B else probe i p (H p)) → Holds hasher i H E S → pos < cap i → H pos ≠ 0 →
    E pos = some k → (∃ j, j < fuel ∧ H ((next i)^[j] (next i pos)) = 0) →
    ∃ H' E' pos', shiftLoop i fuel H E pos = some (H', E', pos') ∧ pos' < cap i ∧ H' pos' ≠ 0 ∧ E' pos' = some k ∧ Holds hasher i H' E' S ∧
      Robin i (Function.update H' pos' 0) := by
  intro fuel
  induction fuel with
  | zero => rintro H E S k pos B - - - - - ⟨j, hj, -⟩; omega
  | succ fuel ih =>
    intro H E S k pos B R C hpos h0 hk ⟨j, hj, ej⟩
    have hn := next_lt hi hpos
    have nn := next_ne hi hpos
    unfold shiftLoop
    split_ifs with q
    · obtain ⟨q1, q2⟩ := q
      have hj0 : j ≠ 0 := by rintro rfl; exact q1 ej
      obtain ⟨j, rfl⟩ := Nat.exists_eq_succ_of_ne_zero hj0
      rw [Function.iterate_succ_apply] at ej
      set H1 := Function.update (Function.update H (next i pos) (H pos)) pos (H (next i pos)) with eH1
      have v1 : H1 pos = H (next i pos) := Function.update_self ..
      have v2 : H1 (next i pos) = H pos := by rw [eH1, Function.update_of_ne nn, Function.update_self]
      have v3 : ∀ x, x ≠ pos → x ≠ next i pos → H1 x = H x := fun x a b => by rw [eH1, Function.update_of_ne a, Function.update_of_ne b]
      have hx : H (next i pos) < 2 ^ 32 := by
        obtain ⟨k', _, e⟩ := C.own _ hn q1
        rw [e]; exact hashOf_lt k'
      have pp := probe_pred hi hpos hx q2
      have Rn := R pos hpos (.inr q1) (by dsimp only; rw [if_neg nn]; exact q2)
      dsimp only at Rn
      rw [if_neg nn, if_pos rfl] at Rn
      refine ih H1 _ S k (next i pos) (probe i (next i pos) (H (next i pos))) ?_ (C.swap hpos hn nn) hn (by rw [v2]; exact h0)
        (by rw [Function.update_of_ne nn, Function.update_self]; exact hk) ⟨j, by omega, ?_⟩
      · intro p hp h1 h2
        dsimp only at h1 h2 ⊢
        by_cases e : p = pos
        · subst e
          rw [if_pos rfl, if_neg (fun c => nn c.symm), v1]
          exact ⟨.inr q1, by omega⟩
        · have e' : next i p ≠ next i pos := fun c => e (next_inj hi hp hpos c)
          rw [if_neg e'] at h2 ⊢
          by_cases e2 : next i p = pos
          · -- the element moved to `pos` follows the one before
            rw [e2, v1] at h2 ⊢
            have hB : B ≠ 0 := by omega
            obtain ⟨a, b⟩ := R p hp (.inl e2) (by dsimp only; rw [if_pos e2]; exact hB)
            dsimp only at a b
            rw [if_pos e2, if_neg e] at b
            have a : H p ≠ 0 := a.resolve_left e
            by_cases e3 : p = next i pos
            · rw [if_pos e3]
              rw [e3] at b
              exact ⟨.inl e3, by omega⟩
            · rw [if_neg e3, v3 p e e3]
              exact ⟨.inr a, by omega⟩
          · rw [v3 _ e2 e'] at h1 h2 ⊢
            obtain ⟨a, b⟩ := R p hp (.inr (h1.resolve_left e')) (by dsimp only; rw [if_neg e2]; exact h2)
            dsimp only at a b
            rw [if_neg e2, if_neg e] at b
            have a : H p ≠ 0 := a.resolve_left e
            by_cases e3 : p = next i pos
            · subst e3
              rw [if_pos rfl]
              exact ⟨.inl rfl, b⟩
            · rw [if_neg e3, v3 p e e3]
              exact ⟨.inr a, b⟩
      · rw [v3]
        · exact ej
        · intro c; rw [c] at ej; exact h0 ej
        · intro c; rw [c] at ej; exact q1 ej
    · refine ⟨H, E, pos, rfl, hpos, h0, hk, C, ?_⟩
      intro p hp h1 h2
      dsimp only at h1 h2 ⊢
      have e : next i p ≠ pos := by intro e; rw [e] at h1; exact h1 (Function.update_self ..)
      rw [Function.update_of_ne e] at h1 h2 ⊢
      have ne : p ≠ pos := by rintro rfl; exact q ⟨h1, h2⟩
      obtain ⟨a, b⟩ := R p hp (.inr h1) (by dsimp only; rw [if_neg e]; exact h2)
      dsimp only at a b
      rw [if_neg e, if_neg ne] at b
      rw [Function.update_of_ne ne]
      exact ⟨a.resolve_left ne, b⟩

/-- A table with fewer keys than places has an empty place. -/
theorem Holds.empty_place {H : Nat → Nat} {E : Nat → Option K} {S : K → Prop} (C : Holds hasher i H E S) {L : List K} (hS : ∀ k, S k → k ∈ L)
    (hl : L.length < cap i) : ∃ p < cap i, H p = 0 := by
  by_contra hc
  push Not at hc
  have nd : ((List.range (cap i)).map E).Nodup := by
    refine List.Nodup.map_on ?_ List.nodup_range
    intro x hx y hy e
    rw [List.mem_range] at hx hy
    exact C.inj x hx y hy (hc x hx) (hc y hy) e
  have sub : (List.range (cap i)).map E ⊆ L.map some := by
    intro e he
    obtain ⟨p, hp, rfl⟩ := List.mem_map.1 he
    rw [List.mem_range] at hp
    obtain ⟨k, hk, _⟩ := C.own p hp (hc p hp)
    rw [hk]
    exact List.mem_map.2 ⟨k, hS k ((C.mem k).2 ⟨p, hp, hc p hp, hk⟩), rfl⟩
  have := (nd.subperm sub).length_le
  simp at this
  omega

/-! ## The map -/

/-- What holds of every map that can be made. -/
structure Inv (hasher : K → UInt32) (m : Map K V) : Prop where
  idx : m.capacity_index < 29
  num : m.num_elements = m.list.length
  nodup : (m.list.map (·.1)).Nodup
  fits : 4 * m.num_elements ≤ 3 * cap m.capacity_index
  blank : m.alloc = false → m.list = []
  robin : m.alloc = true → Robin m.capacity_index m.hashes
  holds : m.alloc = true → Holds hasher m.capacity_index m.hashes m.elements (· ∈ m.list.map (·.1))

theorem Inv.lt {m : Map K V} (I : Inv hasher m) : m.list.length < cap m.capacity_index := by
  have := I.fits
  have := I.num
  have := table_facts _ I.idx
  omega

theorem Inv.lookup {m : Map K V} (I : Inv hasher m) (k : K) :
    (k ∈ m.list.map (·.1) ∧ ∃ p < cap m.capacity_index, lookup hasher m k = some (some p) ∧ m.alloc = true ∧ m.hashes p ≠ 0 ∧ m.elements p = some k) ∨
    (k ∉ m.list.map (·.1) ∧ lookup hasher m k = some none) := by
  unfold HashMap.lookup
  by_cases q : m.alloc = false ∨ m.num_elements = 0
  · refine .inr ⟨?_, if_pos q⟩
    have : m.list = [] := by
      rcases q with q | q
      · exact I.blank q
      · exact List.length_eq_zero_iff.1 (I.num ▸ q)
    simp [this]
  · rw [if_neg q]
    push Not at q
    have ha : m.alloc = true := by simpa using q.1
    have C := I.holds ha
    have hs := slot_lt I.idx (hashOf_lt (hasher := hasher) k)
    by_cases hk : k ∈ m.list.map (·.1)
    · obtain ⟨p, hp, h0, e⟩ := (C.mem k).1 hk
      refine .inl ⟨hk, p, hp, ?_, ha, h0, e⟩
      have := probe_lt I.idx hp (hashOf_lt (hasher := hasher) k)
      exact lookupLoop_found I.idx (I.robin ha) C hp h0 e (probe m.capacity_index p (hashOf hasher k)) _ _ 0 hs (iter_home I.idx hp (hashOf_lt k))
        (probe_slot I.idx (hashOf_lt k)) (by omega) (by omega)
    · refine .inr ⟨hk, ?_⟩
      obtain ⟨p, hp, h0⟩ := C.empty_place (L := m.list.map (·.1)) (fun _ => id) (by simpa using I.lt)
      obtain ⟨j, hj, e⟩ := reach I.idx hp hs
      exact lookupLoop_missing I.idx (fun q hq h1 h2 => hk ((C.mem k).2 ⟨q, hq, h1, h2⟩)) j _ _ 0 hs (by rw [e]; exact h0) (by omega)

theorem robin_empty (i : Nat) : Robin i (fun _ => 0) := fun _ _ h => absurd rfl h

theorem holds_empty (i : Nat) (E : Nat → Option K) : Holds hasher i (fun _ => 0) E (fun _ => False) :=
  ⟨fun _ _ h => absurd rfl h, fun _ _ _ _ h => absurd rfl h, fun k => ⟨False.elim, fun ⟨_, _, h, _⟩ => h rfl⟩⟩

theorem insert_with_hash_run {m : Map K V} (hi : m.capacity_index < 29) {S : K → Prop} (R : Robin m.capacity_index m.hashes)
    (C : Holds hasher m.capacity_index m.hashes m.elements S) {k : K} (nk : ¬ S k) (emp : ∃ p < cap m.capacity_index, m.hashes p = 0) :
    ∃ H' E', insert_with_hash m (hashOf hasher k) (some k) = some { m with hashes := H', elements := E', num_elements := m.num_elements + 1 } ∧
      Robin m.capacity_index H' ∧ Holds hasher m.capacity_index H' E' (fun x => x = k ∨ S x) := by
  obtain ⟨p, hp, h0⟩ := emp
  have hs := slot_lt hi (hashOf_lt (hasher := hasher) k)
  obtain ⟨j, hj, e⟩ := reach hi hp hs
  obtain ⟨H', E', e', R', C'⟩ := placeLoop_run hi (cap m.capacity_index + 1) m.hashes m.elements S k _ 0 R C nk hs (probe_slot hi (hashOf_lt k)) (.inl rfl)
    ⟨j, by omega, by rw [e]; exact h0⟩
  refine ⟨H', E', ?_, R', C'⟩
  unfold insert_with_hash
  rw [e']; rfl

/-- The keys in the first `n` places. -/
def firstKeys (H : Nat → Nat) (E : Nat → Option K) (n : Nat) : List K := (List.range n).filterMap fun p => if H p = 0 then none else E p

theorem mem_firstKeys {H : Nat → Nat} {E : Nat → Option K} {n : Nat} {k : K} : k ∈ firstKeys H E n ↔ ∃ p < n, H p ≠ 0 ∧ E p = some k := by
  unfold firstKeys
  rw [List.mem_filterMap]
  constructor
  · rintro ⟨p, hp, e⟩
    rw [List.mem_range] at hp
    split_ifs at e with q
    exact ⟨p, hp, q, e⟩
  · rintro ⟨p, hp, q, e⟩
    exact ⟨p, List.mem_range.2 hp, by rw [if_neg q]; exact e⟩

theorem firstKeys_succ (H : Nat → Nat) (E : Nat → Option K) (n : Nat) :
    firstKeys H E (n + 1) = firstKeys H E n ++ (if H n = 0 then none else E n).toList := by
  unfold firstKeys
  rw [List.range_succ, List.filterMap_append]
  cases h : (if H n = 0 then none else E n) <;> simp [h]

theorem rehashLoop_run {H : Nat → Nat} {E : Nat → Option K} {S : K → Prop} (C : Holds hasher i H E S) {L : List K} (hS : ∀ k, S k ↔ k ∈ L) (nd : L.Nodup)
    {m0 : Map K V} (h0 : m0.num_elements = 0) (hH : m0.hashes = fun _ => 0) (hi : m0.capacity_index < 29) (hl : L.length ≤ cap m0.capacity_index) :
    ∀ n ≤ cap i, ∃ m : Map K V, rehashLoop H E n m0 = some m ∧ m.alloc = m0.alloc ∧ m.list = m0.list ∧ m.capacity_index = m0.capacity_index ∧
      m.num_elements = (firstKeys H E n).length ∧ (firstKeys H E n).Nodup ∧ Robin m.capacity_index m.hashes ∧
      Holds hasher m.capacity_index m.hashes m.elements (· ∈ firstKeys H E n) := by
  intro n
  induction n with
  | zero =>
    intro _
    refine ⟨m0, rfl, rfl, rfl, rfl, by rw [h0]; rfl, List.nodup_nil, by rw [hH]; exact robin_empty _, ?_⟩
    rw [hH]
    exact (holds_empty _ _).congr fun k => by simp [firstKeys]
  | succ n ih =>
    intro hn
    obtain ⟨m, e, a1, a2, a3, a4, a5, R, D⟩ := ih (by omega)
    unfold rehashLoop
    rw [e]
    by_cases q : H n = 0
    · have fk : firstKeys H E (n + 1) = firstKeys H E n := by rw [firstKeys_succ, if_pos q]; simp
      refine ⟨m, by show (if H n = 0 then _ else _) = _; rw [if_pos q]; rfl, a1, a2, a3, ?_⟩
      rw [fk]
      exact ⟨a4, a5, R, D⟩
    · obtain ⟨k, ek, eh⟩ := C.own n (by omega) q
      have fk : firstKeys H E (n + 1) = firstKeys H E n ++ [k] := by rw [firstKeys_succ, if_neg q, ek]; rfl
      have nk : k ∉ firstKeys H E n := by
        intro c
        obtain ⟨p, hp, h1, h2⟩ := mem_firstKeys.1 c
        have := C.inj p (by omega) n (by omega) h1 q (h2.trans ek.symm)
        omega
      have nd' : (firstKeys H E n ++ [k]).Nodup := by
        rw [List.nodup_append]
        exact ⟨a5, List.nodup_singleton _, fun a ha b hb => by rw [List.mem_singleton] at hb; rintro rfl; exact nk (hb ▸ ha)⟩
      have len : (firstKeys H E n).length < L.length := by
        have sub : firstKeys H E n ++ [k] ⊆ L := by
          intro x hx
          rw [← fk] at hx
          obtain ⟨p, hp, h1, h2⟩ := mem_firstKeys.1 hx
          exact (hS x).1 ((C.mem x).2 ⟨p, by omega, h1, h2⟩)
        have := (nd'.subperm sub).length_le
        simp at this
        omega
      obtain ⟨H', E', e', R', C'⟩ := insert_with_hash_run (by omega) R D nk (D.empty_place (fun _ => id) (by rw [a3]; omega))
      refine ⟨{ m with hashes := H', elements := E', num_elements := m.num_elements + 1 }, by show (if H n = 0 then _ else _) = _; rw [if_neg q, eh, ek]; exact e', a1, a2, a3, ?_,
        by rw [fk]; exact nd', R', C'.congr fun x => ?_⟩
      · rw [fk, List.length_append]; simp [a4]
      · rw [fk]; simp [or_comm]

theorem Inv.rehash {m : Map K V} (I : Inv hasher m) (ha : m.alloc = true) {j : Nat} (hj : j < 29) (hle : m.capacity_index ≤ j) :
    ∃ m' : Map K V, resize_and_rehash m j = some m' ∧ Inv hasher m' ∧ m'.list = m.list ∧ m'.alloc = true ∧ m'.capacity_index = max 2 j := by
  have hj' : max 2 j < 29 := by omega
  have hc := cap_mono _ I.idx _ hj' (by omega)
  obtain ⟨m', e, a1, a2, a3, a4, a5, R, D⟩ := rehashLoop_run (I.holds ha) (fun k => Iff.rfl) I.nodup
    (m0 := { m with capacity_index := max 2 j, num_elements := 0, hashes := fun _ => 0, elements := fun _ => none }) rfl rfl hj'
    (by have := I.lt; simp; omega) _ le_rfl
  have mem : ∀ k, k ∈ firstKeys m.hashes m.elements (cap m.capacity_index) ↔ k ∈ m.list.map (·.1) := fun k =>
    mem_firstKeys.trans ((I.holds ha).mem k).symm
  have len : (firstKeys m.hashes m.elements (cap m.capacity_index)).length = m.list.length := by
    have := ((List.perm_ext_iff_of_nodup a5 I.nodup).2 mem).length_eq
    simpa using this
  dsimp only at a1 a2 a3
  refine ⟨m', e, ⟨by omega, by rw [a4, len, a2], by rw [a2]; exact I.nodup, ?_, fun c => ?_, fun _ => R, fun _ => ?_⟩, a2, a1.trans ha, a3⟩
  · rw [a4, len, a3, ← I.num]
    have := I.fits
    omega
  · rw [a1, ha] at c; cases c
  · rw [a2]; exact D.congr fun k => (mem k).symm

end Verif.HashMap
