import Verif.Lemmas.Cow

/-! # `CowData` and `Vector`: what the operations do to the lists -/

set_option linter.unusedSectionVars false

namespace Verif.Cow
open Spec.Values
variable {X T : Type} [DecidableEq X] [DecidableEq T] [Fintype X] {s : Nat} {ctor : Option T} {σ : St X T} {ls : Option X → List T} {x : Option X}

theorem Rep.eq {ls' : Option X → List T} (R : Rep s σ ls) (e : ls = ls') : Rep s σ ls' := e ▸ R

theorem put_self {b : Nat} {k : Block T} (hk : σ.blocks b = some k) : put σ b k = σ := by
  unfold put
  rw [← hk, Function.update_eq_self]

theorem put_put {b : Nat} (k k' : Block T) : put (put σ b k) b k' = put σ b k' := by
  unfold put
  simp only [Function.update_idem]

theorem put_blocks {b : Nat} (k : Block T) : (put σ b k).blocks b = some k := Function.update_self ..

/-! ## `resize` -/

theorem Rep.prepare (R : Rep s σ ls) {b : Nat} {k : Block T} (O : Own σ x) (hp : σ.ptr x = some b) (hk : σ.blocks b = some k) {n : Nat} (fn : Fine s n) :
    ∃ σ2 b2 k2, shrinkBlock s σ x k.size n 1 = .ok σ2 ∧ Into σ σ2 x b2 ∧ σ2.blocks b2 = some k2 ∧
      k2.refc = 1 ∧ k2.size = k.size ∧ k2.bytes = allocSize s n ∧ ∀ i, i < k.size → i < n → k2.data i = k.data i := by
  obtain ⟨k0, hk0, r1⟩ := O b hp
  obtain rfl : k = k0 := by rw [hk] at hk0; exact Option.some.inj hk0
  unfold shrinkBlock
  by_cases q : allocSize s n ≠ allocSize s k.size
  · rw [if_pos q]
    unfold realloc
    rw [bind_ok' (block_eq hp hk)]
    refine ⟨_, σ.next, _, rfl, ⟨rfl, fun c hc => ?_, .inl le_rfl, Nat.lt_succ_self _, Nat.le_succ _⟩, Function.update_self .., rfl, rfl, rfl, fun i hi hn => ?_⟩
    · show Function.update (Function.update σ.blocks b none) σ.next _ c = _
      rw [Function.update_of_ne hc, hp]
      by_cases qc : c = b
      · subst qc; rw [Function.update_self, if_pos rfl]
      · rw [Function.update_of_ne qc, if_neg (fun e => qc (Option.some.inj e).symm)]
    · exact if_pos ⟨R.bytes hk hi, (Nat.mul_le_mul_right s hn).trans fn.alloc⟩
  · rw [if_neg q]
    have q : allocSize s n = allocSize s k.size := by simpa using q
    refine ⟨σ, b, k, rfl, ⟨by rw [← hp, Function.update_eq_self], fun c hc => ?_, .inr hp, R.lt hk, le_rfl⟩, hk, r1, rfl, ?_, fun _ _ _ => rfl⟩
    · rw [if_neg]
      intro e; rw [hp] at e; exact hc (Option.some.inj e).symm
    · rw [q]; exact (R.blk b k hk).2.2.2.2

theorem setSize_run {b : Nat} {k : Block T} (hp : σ.ptr x = some b) (hk : σ.blocks b = some k) (n : Nat) : setSize σ x n = .ok (put σ b { k with size := n }) := by
  unfold setSize
  rw [bind_ok' (block_eq hp hk)]

theorem construct_run {b : Nat} {k : Block T} (hp : σ.ptr x = some b) (hk : σ.blocks b = some k) {n : Nat} (hn : k.size ≤ n) (hb : n * s ≤ k.bytes) :
    ∃ data', (construct s ctor σ x k.size n >>= fun σ => setSize σ x n) = .ok (put σ b { k with size := n, data := data' }) ∧
      (∀ i < k.size, data' i = k.data i) ∧ ∀ d, ctor = some d → ∀ i, k.size ≤ i → i < n → data' i = d := by
  unfold construct
  match ctor with
  | none => exact ⟨k.data, by rw [bind_ok' rfl, setSize_run hp hk], fun _ _ => rfl, nofun⟩
  | some d =>
    obtain ⟨σ', e, data', rfl, h1, h2⟩ := loop_inv (f := fun i σ => Cow.store s σ x (k.size + i) d) (n := n - k.size) (σ := σ)
      (fun j τ => ∃ data', τ = put σ b { k with data := data' } ∧ (∀ i < k.size, data' i = k.data i) ∧ ∀ i, k.size ≤ i → i < k.size + j → data' i = d)
      ⟨k.data, (put_self hk).symm, fun _ _ => rfl, fun i _ _ => by omega⟩ (by
        rintro j hj τ ⟨data', rfl, h1, h2⟩
        refine ⟨put σ b { k with data := Function.update data' (k.size + j) d }, ?_, _, rfl, fun i hi => ?_, fun i hi hi' => ?_⟩
        · show Cow.store s (put σ b { k with data := data' }) x (k.size + j) d = _
          unfold Cow.store
          rw [bind_ok' (block_eq (σ := put σ b { k with data := data' }) (show (put σ b { k with data := data' }).ptr x = some b from hp) (put_blocks _))]
          show (if (k.size + j + 1) * s ≤ k.bytes then _ else _) = _
          rw [if_pos ((Nat.mul_le_mul_right s (by omega)).trans hb), put_put]
        · rw [Function.update_of_ne (by omega)]; exact h1 i hi
        · by_cases q : i = k.size + j
          · rw [q, Function.update_self]
          · rw [Function.update_of_ne q]; exact h2 i hi (by omega))
    refine ⟨data', ?_, h1, fun d' hd i hi hi' => ?_⟩
    · show (loop _ _ _ >>= _) = _
      rw [bind_ok' e, setSize_run (σ := put σ b { k with data := data' }) hp (put_blocks _), put_put]
    · obtain rfl := Option.some.inj hd
      exact h2 i hi (by omega)

theorem list_grow {k k' : Block T} (h : k.size ≤ k'.size) (e : ∀ i < k.size, k'.data i = k.data i) :
    k'.list = k.list ++ (List.range (k'.size - k.size)).map fun i => k'.data (k.size + i) := by
  unfold Block.list
  rw [show k'.size = k.size + (k'.size - k.size) by omega, List.range_add, List.map_append, List.map_map]
  congr 1
  · exact List.map_congr_left fun i hi => e i (List.mem_range.1 hi)
  · rw [Nat.add_sub_cancel_left]; rfl

/-- `resize` to a size that can be allocated keeps the elements and adds new ones at the end. -/
theorem Rep.resize (hX : Fintype.card X + 1 < 2 ^ 32) (hs : 0 < s) (R : Rep s σ ls) (x : Option X) {n : Nat} (fn : Fine s n) :
    ∃ σ' new, resize s ctor σ x n = .ok (σ', true) ∧ Rep s σ' (Function.update ls x ((ls x).take n ++ new)) ∧ new.length = n - (ls x).length ∧
      ∀ d, ctor = some d → ∀ v ∈ new, v = d := by
  unfold Cow.resize
  rw [if_neg (by omega), bind_ok' (R.size x), Int.toNat_natCast]
  by_cases q : n = (ls x).length
  · rw [if_pos q]
    refine ⟨σ, [], rfl, ?_, by simp [q], by simp⟩
    rw [q, List.take_length, List.append_nil, Function.update_eq_self]; exact R
  · rw [if_neg q]
    by_cases q0 : n = 0
    · subst q0
      rw [if_pos rfl]
      obtain ⟨σ', e, R', _⟩ := R.unref hX x
      rw [bind_ok' e]
      exact ⟨_, [], rfl, by simpa using R', by simp, by simp⟩
    · rw [if_neg q0]
      obtain ⟨σ1, r, e1, R1, O1, hr⟩ := R.cow hX x
      rw [bind_ok' e1]
      match hp : σ1.ptr x with
      | none =>
        have l0 := R1.null x hp
        have g0 : n > (ls x).length := by rw [l0]; simp only [List.length_nil]; omega
        have fa : n * s ≤ allocSize s n := fn.alloc
        have pos : 0 < n * s := Nat.mul_pos (by omega) hs
        have a0 : allocSize s 0 = 0 := by unfold allocSize next_power_of_2; simp
        set α := alloc σ1 x (allocSize s n) with eα
        have hα : α.ptr x = some σ1.next := Function.update_self ..
        have kα : α.blocks σ1.next = some ⟨1, 0, allocSize s n, σ1.junk σ1.next⟩ := Function.update_self ..
        obtain ⟨data', ed, h1, h2⟩ := construct_run (ctor := ctor) (s := s) hα kα (n := n) (Nat.zero_le _) fa
        have I : Into σ1 α x σ1.next := by
          refine ⟨rfl, fun c hc => ?_, .inl le_rfl, Nat.lt_succ_self _, Nat.le_succ _⟩
          show Function.update _ _ _ c = _
          rw [Function.update_of_ne hc, hp, if_neg nofun]
        have R2 := R1.replace O1 (I.put ⟨1, n, allocSize s n, data'⟩) (put_blocks _) rfl (by show 0 < n; omega) fn rfl
        refine ⟨_, (List.range n).map data', ?_, R2.eq ?_, by simp [l0], fun d hd v hv => ?_⟩
        · have eg : grow s ctor σ1 x (ls x).length n r = .ok (put α σ1.next ⟨1, n, allocSize s n, data'⟩) := by
            unfold grow
            have e3 : growBlock s σ1 x (ls x).length n r = .ok α := by
              unfold growBlock
              rw [l0, List.length_nil, a0, if_pos (by omega), if_pos rfl]
            rw [bind_ok' e3, bind_ok' (block_eq hα kα)]
            exact ed
          have ec : change s ctor σ1 x (ls x).length n r = _ := (if_pos g0).trans eg
          simp only
          rw [bind_ok' ec]
        · rw [l0, List.take_nil, List.nil_append]; rfl
        · obtain ⟨i, hi, rfl⟩ := List.mem_map.1 hv
          exact h2 d hd i (Nat.zero_le _) (List.mem_range.1 hi)
      | some b =>
        obtain ⟨k, hk, hl⟩ := R1.ptr x b hp
        obtain rfl : r = 1 := hr (by rw [hp]; nofun)
        have len : (ls x).length = k.size := by rw [hl, Block.length_list]
        obtain ⟨σ2, b2, k2, e2, I, hk2, r2, s2, by2, d2⟩ := R1.prepare O1 hp hk fn
        have hp2 : σ2.ptr x = some b2 := by rw [I.ptr, Function.update_self]
        by_cases g : n > (ls x).length
        · obtain ⟨data', ed, h1, h2⟩ := construct_run (ctor := ctor) (s := s) hp2 hk2 (n := n) (by omega) (by rw [by2]; exact fn.alloc)
          have R2 := R1.replace O1 (I.put { k2 with size := n, data := data' }) (put_blocks _) r2 (by show 0 < n; omega) fn by2
          refine ⟨_, (List.range (n - k.size)).map fun i => data' (k.size + i), ?_, R2.eq ?_, by simp [len], fun d hd v hv => ?_⟩
          · have eg : grow s ctor σ1 x (ls x).length n 1 = .ok (put σ2 b2 { k2 with size := n, data := data' }) := by
              unfold grow
              rw [len]
              have e3 : growBlock s σ1 x k.size n 1 = .ok σ2 := by
                have : k.size ≠ 0 := by have := (R1.blk b k hk).2.2.1; omega
                unfold growBlock
                rw [if_neg this]; exact e2
              rw [bind_ok' e3, bind_ok' (block_eq hp2 hk2)]
              exact ed
            have ec : change s ctor σ1 x (ls x).length n 1 = _ := (if_pos g).trans eg
            simp only
            rw [bind_ok' ec]
          · congr 1
            rw [List.take_of_length_le (by omega), hl]
            exact list_grow (k := k) (k' := { k2 with size := n, data := data' }) (by show k.size ≤ n; omega)
              fun i hi => (h1 i (by omega)).trans (d2 i hi (by omega))
          · obtain ⟨i, hi, rfl⟩ := List.mem_map.1 hv
            have := List.mem_range.1 hi
            exact h2 d hd _ (by omega) (by omega)
        · have R2 := R1.replace O1 (I.put { k2 with size := n }) (put_blocks _) r2 (by show 0 < n; omega) fn by2
          refine ⟨_, [], ?_, R2.eq ?_, by simp only [List.length_nil]; omega, by simp⟩
          · have eg : shrink s σ1 x (ls x).length n 1 = .ok (put σ2 b2 { k2 with size := n }) := by
              unfold shrink
              rw [len, bind_ok' e2, setSize_run hp2 hk2]
            have ec : change s ctor σ1 x (ls x).length n 1 = _ := (if_neg g).trans eg
            simp only
            rw [bind_ok' ec]
          · congr 1
            rw [List.append_nil]
            refine List.ext_getElem (by simp; omega) fun i h1 h2 => ?_
            have hi : i < n := by simpa using h1
            rw [Block.getElem_list, List.getElem_take]
            simp only [hl]
            rw [Block.getElem_list]
            exact d2 i (by omega) hi

/-! ## Elements -/

theorem Rep.set (hX : Fintype.card X + 1 < 2 ^ 32) (R : Rep s σ ls) (x : Option X) {i : Int} (h0 : 0 ≤ i) (hi : i < (ls x).length) (v : T) :
    ∃ σ', set s σ x i v = .ok σ' ∧ Rep s σ' (Function.update ls x ((ls x).set i.toNat v)) := by
  unfold Cow.set
  rw [bind_ok' (R.size x), if_neg (by omega)]
  obtain ⟨σ1, r, e1, R1, O1, _⟩ := R.cow hX x
  rw [bind_ok' e1]
  obtain ⟨σ2, e2, R2, _⟩ := R1.store O1 v (by omega : i.toNat < (ls x).length)
  exact ⟨σ2, e2, R2⟩

theorem Rep.load' (R : Rep s σ ls) {l : List T} (e : ls x = l) {i : Nat} {v : T} (h : l[i]? = some v) : Cow.load s σ x i = .ok v := by
  subst e
  obtain ⟨hi, rfl⟩ := List.getElem?_eq_some_iff.1 h
  exact R.load hi

theorem Rep.get' (R : Rep s σ ls) {l : List T} (e : ls x = l) {i : Int} {j : Nat} {v : T} (hi : i = j) (h : l[j]? = some v) : Cow.get s σ x i = .ok v := by
  subst e hi
  obtain ⟨hi, rfl⟩ := List.getElem?_eq_some_iff.1 h
  rw [R.get (by omega) (by omega)]
  rfl

theorem Rep.store' (R : Rep s σ ls) (O : Own σ x) {l : List T} (e : ls x = l) {i : Nat} (v : T) (hi : i < l.length) :
    ∃ σ', Cow.store s σ x i v = .ok σ' ∧ Rep s σ' (Function.update ls x (l.set i v)) ∧ Own σ' x := by
  subst e
  exact R.store O v hi

theorem Rep.set' (hX : Fintype.card X + 1 < 2 ^ 32) (R : Rep s σ ls) {l : List T} (e : ls x = l) {i : Int} {j : Nat} (hi : i = j) (h : j < l.length) (v : T) :
    ∃ σ', Cow.set s σ x i v = .ok σ' ∧ Rep s σ' (Function.update ls x (l.set j v)) := by
  subst e hi
  exact R.set hX x (by omega) (by omega) v

theorem Rep.fill (hX : Fintype.card X + 1 < 2 ^ 32) (R : Rep s σ ls) (x : Option X) (v : T) :
    ∃ σ', fill s σ x v = .ok σ' ∧ Rep s σ' (Function.update ls x (List.replicate (ls x).length v)) := by
  unfold Cow.fill
  rw [bind_ok' (R.size x)]
  by_cases q : (ls x).length = 0
  · rw [if_pos q]
    refine ⟨σ, rfl, ?_⟩
    rw [q, List.replicate_zero, ← List.length_eq_zero_iff.1 q, Function.update_eq_self]; exact R
  · rw [if_neg q]
    obtain ⟨σ1, r, e1, R1, O1, _⟩ := R.cow hX x
    rw [bind_ok' e1]
    obtain ⟨σ2, e2, R2, _⟩ := loop_inv (f := fun i σ => Cow.store s σ x i v) (n := (ls x).length) (σ := σ1)
      (fun j τ => Rep s τ (Function.update ls x (List.replicate j v ++ (ls x).drop j)) ∧ Own τ x)
      ⟨by simpa using R1, O1⟩ (by
        rintro j hj τ ⟨Rj, Oj⟩
        obtain ⟨τ', e, R', O'⟩ := Rj.store Oj (i := j) v (by simp; omega)
        refine ⟨τ', e, R'.eq ?_, O'⟩
        rw [Function.update_idem, Function.update_self]
        congr 1
        refine List.ext_getElem (by simp; omega) fun i h1 h2 => ?_
        rw [List.getElem_set, List.getElem_append, List.getElem_append]
        simp only [List.length_replicate, List.getElem_replicate, List.getElem_drop]
        split_ifs <;> first | rfl | omega | skip
        all_goals first | (congr 1; omega) | skip)
    refine ⟨σ2, e2, ?_⟩
    rwa [List.drop_length, List.append_nil] at R2

theorem findLoop_run (R : Rep s σ ls) (v : T) (n : Nat) : ∀ i, i + n = (ls x).length →
    findLoop s σ x v n i = .ok (if v ∈ (ls x).drop i then ((i + ((ls x).drop i).idxOf v : Nat) : Int) else -1) := by
  induction n with
  | zero =>
    intro i hi
    rw [List.drop_eq_nil_of_le (by omega)]; rfl
  | succ n ih =>
    intro i hi
    unfold findLoop
    have hlt : i < (ls x).length := by omega
    rw [bind_ok' (R.get (x := x) (i := i) (by omega) (by omega)), ih (i + 1) (by omega)]
    simp only [Int.toNat_natCast]
    rw [List.drop_eq_getElem_cons hlt]
    by_cases q : (ls x)[i] = v
    · simp [q]
    · rw [if_neg q]
      have q' : v ≠ (ls x)[i] := fun c => q c.symm
      simp only [List.mem_cons, q', false_or]
      by_cases m : v ∈ (ls x).drop (i + 1)
      · rw [if_pos m, if_pos m, List.idxOf_cons_ne _ q]
        congr 1
        push_cast
        ring
      · rw [if_neg m, if_neg m]

theorem Rep.find (R : Rep s σ ls) (x : Option X) (v : T) (start : Int) : find s σ x v start = .ok (position (ls x) v start) := by
  unfold Cow.find position
  rw [bind_ok' (R.size x)]
  by_cases h0 : start < 0
  · rw [if_pos (.inl h0), if_pos (.inl h0)]
  · by_cases hl : (ls x).length = 0
    · rw [if_pos (.inr hl), if_pos]
      right
      rw [List.length_eq_zero_iff.1 hl]; simp
    · rw [if_neg (by omega)]
      by_cases q : start.toNat ≤ (ls x).length
      · rw [findLoop_run R v _ _ (by omega)]
        by_cases m : v ∈ (ls x).drop start.toNat
        · rw [if_pos m, if_neg (by simp [h0, m])]
          congr 1
          push_cast
          omega
        · rw [if_neg m, if_pos (.inr m)]
      · rw [show (ls x).length - start.toNat = 0 by omega, if_pos]
        · rfl
        · right
          rw [List.drop_eq_nil_of_le (by omega)]; simp

/-- A loop that moves the elements behind `i` one place to the front. -/
theorem shift_list (l : List T) (i j : Nat) (h : i + j + 1 < l.length) :
    ((l.eraseIdx i).take (i + j) ++ l.drop (i + j)).set (i + j) (l[i + j + 1]) = (l.eraseIdx i).take (i + (j + 1)) ++ l.drop (i + (j + 1)) := by
  have le : (l.eraseIdx i).length = l.length - 1 := by rw [List.length_eraseIdx_of_lt (by omega)]
  refine List.ext_getElem (by simp [le]; omega) fun p h1 h2 => ?_
  simp only [List.getElem_set, List.getElem_append, List.length_take, le, List.getElem_take, List.getElem_drop, List.getElem_eraseIdx]
  split_ifs <;> first | rfl | omega | (congr 1; omega)

theorem Rep.remove (hX : Fintype.card X + 1 < 2 ^ 32) (hs : 0 < s) (R : Rep s σ ls) (x : Option X) (i : Int) :
    ∃ σ', remove s ctor σ x i = .ok σ' ∧ Rep s σ' (if 0 ≤ i then Function.update ls x ((ls x).eraseIdx i.toNat) else ls) := by
  unfold Cow.remove
  rw [bind_ok' (R.size x)]
  by_cases q : i < 0 ∨ i ≥ (ls x).length
  · rw [if_pos q]
    refine ⟨σ, rfl, ?_⟩
    split_ifs with h
    · rw [List.eraseIdx_of_length_le (by omega), Function.update_eq_self]; exact R
    · exact R
  · rw [if_neg q, if_pos (by omega)]
    obtain ⟨σ1, r, e1, R1, O1, _⟩ := R.cow hX x
    rw [bind_ok' e1]
    simp only
    rw [bind_ok' (R1.size x)]
    have hi : i.toNat < (ls x).length := by omega
    have le : ((ls x).eraseIdx i.toNat).length = (ls x).length - 1 := by rw [List.length_eraseIdx_of_lt hi]
    have start : (((ls x).eraseIdx i.toNat).take (i.toNat + 0) ++ (ls x).drop (i.toNat + 0)) = ls x := by
      refine List.ext_getElem (by simp [le]; omega) fun p h1 h2 => ?_
      simp only [List.getElem_append, List.length_take, le, List.getElem_take, List.getElem_drop, List.getElem_eraseIdx]
      split_ifs <;> first | rfl | omega | (congr 1; omega)
    obtain ⟨σ2, e2, R2, _⟩ := loop_inv (f := fun j σ => do
        let v ← Cow.load s σ x (i.toNat + j + 1)
        Cow.store s σ x (i.toNat + j) v) (n := (ls x).length - 1 - i.toNat) (σ := σ1)
      (fun j τ => Rep s τ (Function.update ls x (((ls x).eraseIdx i.toNat).take (i.toNat + j) ++ (ls x).drop (i.toNat + j))) ∧ Own τ x)
      ⟨by rw [start, Function.update_eq_self]; exact R1, O1⟩ (by
        rintro j hj τ ⟨Rj, Oj⟩
        have hlen : (((ls x).eraseIdx i.toNat).take (i.toNat + j) ++ (ls x).drop (i.toNat + j)).length = (ls x).length := by simp [le]; omega
        have el := Rj.load (x := x) (i := i.toNat + j + 1) (by rw [Function.update_self, hlen]; omega)
        rw [bind_ok' el]
        obtain ⟨τ', e, R', O'⟩ := Rj.store Oj (i := i.toNat + j) _ (by rw [Function.update_self, hlen]; omega)
        refine ⟨τ', e, R'.eq ?_, O'⟩
        rw [Function.update_idem]
        simp only [Function.update_self]
        congr 1
        rw [← shift_list (ls x) i.toNat j (by omega)]
        congr 1
        rw [List.getElem_append_right (by simp)]
        simp only [List.getElem_drop]
        congr 1
        simp [le]
        omega)
    rw [bind_ok' e2]
    have ez : ((((ls x).length : Nat) : Int) - 1) = (((ls x).length - 1 : Nat) : Int) := by omega
    rw [ez]
    obtain ⟨σ3, new, e3, R3, ln, _⟩ := R2.resize (ctor := ctor) hX hs x ((R.fine x).mono (by omega : (ls x).length - 1 ≤ (ls x).length))
    rw [bind_ok' e3]
    refine ⟨σ3, rfl, R3.eq ?_⟩
    have hlen : (((ls x).eraseIdx i.toNat).take (i.toNat + ((ls x).length - 1 - i.toNat)) ++ (ls x).drop (i.toNat + ((ls x).length - 1 - i.toNat))).length = (ls x).length := by
      simp [le]; omega
    rw [Function.update_self, hlen] at ln
    obtain rfl : new = [] := List.length_eq_zero_iff.1 (by omega)
    rw [Function.update_idem, Function.update_self, List.append_nil]
    congr 1
    rw [List.take_append_of_le_length (by simp [le]; omega), List.take_take, List.take_of_length_le (by rw [le]; omega)]

theorem Rep.erase (hX : Fintype.card X + 1 < 2 ^ 32) (hs : 0 < s) (R : Rep s σ ls) (x : Option X) (v : T) :
    ∃ σ', erase s ctor σ x v = .ok (σ', decide (v ∈ ls x)) ∧ Rep s σ' (Function.update ls x ((ls x).erase v)) := by
  unfold Cow.erase
  rw [bind_ok' (R.find x v 0)]
  unfold position
  simp only [Int.toNat_zero, List.drop_zero, lt_self_iff_false, false_or]
  by_cases q : v ∈ ls x
  · simp only [q, not_true_eq_false, if_false, decide_true]
    rw [if_pos (by omega)]
    obtain ⟨σ', e, R'⟩ := R.remove (ctor := ctor) hX hs x (0 + ((ls x).idxOf v : Nat))
    rw [bind_ok' e]
    refine ⟨σ', rfl, R'.eq ?_⟩
    rw [if_pos (by omega), List.erase_eq_eraseIdx_of_idxOf rfl]
    congr 2
    omega
  · simp only [q, not_false_eq_true, if_true, decide_false]
    rw [if_neg (by omega)]
    refine ⟨σ, rfl, R.eq ?_⟩
    rw [List.erase_of_not_mem q, Function.update_eq_self]

theorem Rep.push_back (hX : Fintype.card X + 1 < 2 ^ 32) (hs : 0 < s) (R : Rep s σ ls) (x : Option X) (v : T) (fn : Fine s ((ls x).length + 1)) :
    ∃ σ', push_back s ctor σ x v = .ok (σ', false) ∧ Rep s σ' (Function.update ls x (ls x ++ [v])) := by
  unfold Cow.push_back
  rw [bind_ok' (R.size x)]
  obtain ⟨σ1, new, e1, R1, ln, _⟩ := R.resize (ctor := ctor) hX hs x fn
  push_cast at e1
  rw [bind_ok' e1]
  simp only [if_true]
  rw [bind_ok' (R1.size x), Function.update_self]
  have l1 : new.length = 1 := by omega
  obtain ⟨w, rfl⟩ := List.length_eq_one_iff.1 l1
  rw [List.take_of_length_le (by omega)] at R1 ⊢
  have hl : ((ls x ++ [w]).length : Int) - 1 = ((ls x).length : Nat) := by simp
  rw [hl]
  obtain ⟨σ2, e2, R2⟩ := R1.set hX x (i := ((ls x).length : Nat)) (by omega) (by simp) v
  rw [bind_ok' e2]
  refine ⟨σ2, rfl, R2.eq ?_⟩
  rw [Function.update_idem, Function.update_self]
  congr 1
  simp

theorem Rep.insert (hX : Fintype.card X + 1 < 2 ^ 32) (hs : 0 < s) (R : Rep s σ ls) (x : Option X) (pos : Int) (v : T)
    (fn : Fine s ((ls x).length + 1)) :
    ∃ σ', insert s ctor σ x pos v = .ok (σ', decide (0 ≤ pos ∧ pos ≤ (ls x).length)) ∧
      Rep s σ' (if 0 ≤ pos ∧ pos ≤ (ls x).length then Function.update ls x ((ls x).insertIdx pos.toNat v) else ls) := by
  unfold Cow.insert
  rw [bind_ok' (R.size x)]
  by_cases q : pos < 0 ∨ pos ≥ (ls x).length + 1
  · have q' : ¬ (0 ≤ pos ∧ pos ≤ (ls x).length) := by omega
    rw [if_pos q, if_neg q', decide_eq_false q']
    exact ⟨σ, rfl, R⟩
  · have q' : 0 ≤ pos ∧ pos ≤ (ls x).length := by omega
    rw [if_neg q, if_pos q', decide_eq_true q']
    obtain ⟨σ1, new, e1, R1, ln, _⟩ := R.resize (ctor := ctor) hX hs x fn
    push_cast at e1
    rw [bind_ok' e1]
    simp only
    rw [bind_ok' (R1.size x), Function.update_self]
    have l1 : new.length = 1 := by omega
    obtain ⟨w, rfl⟩ := List.length_eq_one_iff.1 l1
    rw [List.take_of_length_le (by omega)] at R1 ⊢
    have hl : (ls x ++ [w]).length = (ls x).length + 1 := by simp
    rw [hl]
    set l := ls x with el
    obtain ⟨σ2, e2, a, R2, la, ha1, ha2⟩ := loop_inv (f := fun j σ => do
        let w ← Cow.get s σ x (((l.length + 1 : Nat) : Int) - 1 - j - 1)
        Cow.set s σ x (((l.length + 1 : Nat) : Int) - 1 - j) w) (n := l.length + 1 - 1 - pos.toNat) (σ := σ1)
      (fun j τ => ∃ a : List T, Rep s τ (Function.update ls x a) ∧ a.length = l.length + 1 ∧ (∀ i (h : i < l.length), i < l.length - j → a[i]? = some l[i]) ∧
        ∀ i (h : i < l.length), l.length - j ≤ i → a[i + 1]? = some l[i])
      ⟨l ++ [w], R1, by simp, fun i h _ => by rw [List.getElem?_append_left h, List.getElem?_eq_getElem h], fun i h h' => by omega⟩ (by
        rintro j hj τ ⟨a, Rj, la, ha1, ha2⟩
        have hl1 := ha1 (l.length - j - 1) (by omega) (by omega)
        rw [bind_ok' (Rj.get' (Function.update_self ..) (by omega) hl1)]
        obtain ⟨τ', e, R'⟩ := Rj.set' hX (Function.update_self ..) (i := ((l.length + 1 : Nat) : Int) - 1 - j) (j := l.length - j) (by omega) (by omega) (l[l.length - j - 1])
        refine ⟨τ', e, _, R'.eq (Function.update_idem ..), by simp [la], fun i h hi => ?_, fun i h hi => ?_⟩
        · rw [List.getElem?_set_ne (by omega)]
          exact ha1 i h (by omega)
        · by_cases qi : i = l.length - j - 1
          · subst qi
            rw [List.getElem?_set, if_pos (by omega), if_pos (by omega)]
          · rw [List.getElem?_set_ne (by omega)]
            exact ha2 i h (by omega))
    rw [bind_ok' e2]
    obtain ⟨σ3, e3, R3⟩ := R2.set hX x (i := pos) q'.1 (by rw [Function.update_self]; omega) v
    rw [bind_ok' e3]
    refine ⟨σ3, rfl, R3.eq ?_⟩
    rw [Function.update_idem, Function.update_self]
    congr 1
    refine List.ext_getElem? fun i => ?_
    rw [List.getElem?_set, List.getElem?_insertIdx]
    by_cases c1 : pos.toNat = i
    · subst c1
      simp only [if_true, lt_self_iff_false, if_false]
      rw [if_pos (by omega), if_pos (by omega)]
    · rw [if_neg c1]
      by_cases c2 : i < pos.toNat
      · rw [if_pos c2, ha1 i (by omega) (by omega), List.getElem?_eq_getElem (by omega)]
      · rw [if_neg c2, if_neg (Ne.symm c1)]
        by_cases c3 : i - 1 < l.length
        · have := ha2 (i - 1) c3 (by omega)
          rw [show i - 1 + 1 = i by omega] at this
          rw [this, List.getElem?_eq_getElem c3]
        · rw [List.getElem?_eq_none (by omega), List.getElem?_eq_none (by omega)]

theorem orderLoop_run {lt : T → T → Bool} (R : Rep s σ ls) (v : T) (n : Nat) : ∀ i, i + n = (ls x).length →
    orderLoop s lt σ x v n i = .ok (i + (((ls x).drop i).takeWhile fun a => !lt v a).length) := by
  induction n with
  | zero =>
    intro i hi
    rw [List.drop_eq_nil_of_le (by omega)]; rfl
  | succ n ih =>
    intro i hi
    unfold orderLoop
    have hlt : i < (ls x).length := by omega
    rw [bind_ok' (R.get (x := x) (i := i) (by omega) (by omega)), ih (i + 1) (by omega)]
    simp only [Int.toNat_natCast]
    rw [List.drop_eq_getElem_cons hlt, List.takeWhile_cons]
    by_cases q : lt v (ls x)[i] = true
    · simp [q]
    · rw [if_neg q, if_pos (by simpa using q), List.length_cons]
      congr 1
      omega

theorem Rep.ordered_insert {lt : T → T → Bool} (hX : Fintype.card X + 1 < 2 ^ 32) (hs : 0 < s) (R : Rep s σ ls) (x : Option X) (v : T)
    (fn : Fine s ((ls x).length + 1)) :
    ∃ σ', ordered_insert s ctor lt σ x v = .ok σ' ∧ Rep s σ' (Function.update ls x ((ls x).insertIdx (place lt (ls x) v) v)) := by
  unfold Cow.ordered_insert
  rw [bind_ok' (R.size x), bind_ok' (orderLoop_run R v _ 0 (by omega))]
  have hle : place lt (ls x) v ≤ (ls x).length := (List.takeWhile_sublist _).length_le
  obtain ⟨σ', e, R'⟩ := R.insert (ctor := ctor) hX hs x (place lt (ls x) v : Nat) v fn
  refine ⟨σ', ?_, R'.eq ?_⟩
  · have : (((0 + (((ls x).drop 0).takeWhile fun a => !lt v a).length : Nat) : Nat) : Int) = (place lt (ls x) v : Nat) := by
      rw [List.drop_zero, Nat.zero_add]; rfl
    rw [this, bind_ok' e]
  · rw [if_pos (by omega), Int.toNat_natCast]

theorem Rep.invert (hX : Fintype.card X + 1 < 2 ^ 32) (R : Rep s σ ls) (x : Option X) :
    ∃ σ', invert s σ x = .ok σ' ∧ Rep s σ' (Function.update ls x (ls x).reverse) := by
  unfold Cow.invert
  rw [bind_ok' (R.size x)]
  set l := ls x with el
  obtain ⟨σ2, e2, a, R2, la, ha1, ha2⟩ := loop_inv (f := fun i σ => do
      let (σ, _) ← copy_on_write s σ x
      let n ← Cow.size σ x
      let a ← Cow.load s σ x i
      let b ← Cow.load s σ x (n - i - 1)
      let σ ← Cow.store s σ x i b
      Cow.store s σ x (n - i - 1) a) (n := l.length / 2) (σ := σ)
    (fun j τ => ∃ a : List T, Rep s τ (Function.update ls x a) ∧ a.length = l.length ∧
      (∀ i (h : i < l.length), i < j ∨ l.length - j ≤ i → a[i]? = some (l[l.length - 1 - i])) ∧
      ∀ i (h : i < l.length), j ≤ i → i < l.length - j → a[i]? = some l[i])
    ⟨l, R.eq (Function.update_eq_self ..).symm, rfl, fun i h h' => by omega, fun i h _ _ => by rw [List.getElem?_eq_getElem h]⟩ (by
      rintro j hj τ ⟨a, Rj, la, ha1, ha2⟩
      obtain ⟨τ1, r, e1, R1, O1, _⟩ := Rj.cow hX x
      rw [bind_ok' e1]
      have hjl : j < l.length / 2 := hj
      simp only
      have g1 := ha2 j (by omega) (by omega) (by omega)
      have g2 := ha2 (l.length - j - 1) (by omega) (by omega) (by omega)
      rw [bind_ok' (R1.size x), Function.update_self, la, bind_ok' (R1.load' (Function.update_self ..) g1), bind_ok' (R1.load' (Function.update_self ..) g2)]
      obtain ⟨τ2, e2, R2, O2⟩ := R1.store' O1 (Function.update_self ..) (i := j) (l[l.length - j - 1]) (by omega)
      rw [bind_ok' e2]
      obtain ⟨τ3, e3, R3, O3⟩ := R2.store' O2 (Function.update_self ..) (i := l.length - j - 1) (l[j]) (by simp; omega)
      refine ⟨τ3, e3, _, R3.eq ((Function.update_idem ..).trans (Function.update_idem ..)), by simp [la], fun i h hi => ?_, fun i h hi hi' => ?_⟩
      · by_cases c1 : l.length - j - 1 = i
        · subst c1
          rw [List.getElem?_set_self (by simp; omega)]
          congr 2
          omega
        · rw [List.getElem?_set_ne c1]
          by_cases c2 : j = i
          · subst c2
            rw [List.getElem?_set_self (by omega)]
            congr 2
            omega
          · rw [List.getElem?_set_ne c2]
            exact ha1 i h (by omega)
      · rw [List.getElem?_set_ne (by omega), List.getElem?_set_ne (by omega)]
        exact ha2 i h (by omega) (by omega))
  refine ⟨σ2, e2, R2.eq ?_⟩
  congr 1
  refine List.ext_getElem? fun i => ?_
  by_cases c : i < l.length
  · rw [List.getElem?_reverse c]
    by_cases q : i < l.length / 2 ∨ l.length - l.length / 2 ≤ i
    · rw [ha1 i c q, List.getElem?_eq_getElem (by omega)]
    · rw [ha2 i c (by omega) (by omega), List.getElem?_eq_getElem (by omega)]
      congr 2
      omega
  · rw [List.getElem?_eq_none (by omega), List.getElem?_eq_none (by simp; omega)]

theorem Rep.append_array (hX : Fintype.card X + 1 < 2 ^ 32) (hs : 0 < s) (R : Rep s σ ls) (hn : ls none = []) (x y : X)
    (fn : Fine s ((ls (some x)).length + (ls (some y)).length)) :
    ∃ σ', append_array s ctor σ x y = .ok σ' ∧ Rep s σ' (Function.update ls (some x) (ls (some x) ++ ls (some y))) := by
  unfold Cow.append_array
  obtain ⟨σ1, e1, R1⟩ := R.ref hX none (some y)
  rw [bind_ok' e1, bind_ok' (R1.size none), Function.update_self]
  have l1 : Function.update ls none (ls (some y)) (some x) = ls (some x) := Function.update_of_ne (Option.some_ne_none x) ..
  have fin : ∀ {τ : St X T} {l : List T}, Rep s τ (Function.update (Function.update ls none (ls (some y))) (some x) l) →
      ∃ σ', (do
        let σ ← Cow.unref τ none
        .ok (Cow.null σ none)) = (.ok σ' : Except Fail (St X T)) ∧ Rep s σ' (Function.update ls (some x) l) := by
    intro τ l Rτ
    obtain ⟨τ', e, R'⟩ := Rτ.destroy hX none
    rw [bind_ok' e]
    refine ⟨_, rfl, R'.eq ?_⟩
    have hx : Function.update ls (some x) l none = [] := by rw [Function.update_of_ne (Option.some_ne_none x).symm, hn]
    rw [Function.update_comm (Option.some_ne_none x).symm, Function.update_idem, ← hx, Function.update_eq_self]
  by_cases q : (ls (some y)).length = 0
  · have ea : appendAll s ctor σ1 x (ls (some y)).length = .ok σ1 := if_pos q
    rw [bind_ok' ea]
    refine fin (R1.eq ?_)
    rw [List.length_eq_zero_iff.1 q, List.append_nil]
    conv_rhs => rw [← Function.update_of_ne (Option.some_ne_none x) [] ls]
    rw [Function.update_eq_self]
  · have : ∃ τ, appendAll s ctor σ1 x (ls (some y)).length = .ok τ ∧
        Rep s τ (Function.update (Function.update ls none (ls (some y))) (some x) (ls (some x) ++ ls (some y))) := by
      unfold appendAll
      rw [if_neg q, bind_ok' (R1.size (some x)), l1]
      obtain ⟨σ2, new, e2, R2, ln, _⟩ := R1.resize (ctor := ctor) hX hs (some x) fn
      rw [bind_ok' e2]
      rw [l1, List.take_of_length_le (by omega)] at R2
      rw [l1] at ln
      obtain ⟨σ3, e3, R3⟩ := loop_inv (f := fun i σ => do
          let (σ, _) ← copy_on_write s σ (some x)
          let v ← Cow.get s σ none i
          Cow.store s σ (some x) ((ls (some x)).length + i) v) (n := (ls (some y)).length) (σ := σ2)
        (fun j τ => Rep s τ (Function.update (Function.update ls none (ls (some y))) (some x) (ls (some x) ++ ((ls (some y)).take j ++ new.drop j))))
        (by simpa using R2) (by
          intro j hj τ Rj
          obtain ⟨τ1, r, f1, Q1, O1, _⟩ := Rj.cow hX (some x)
          rw [bind_ok' f1]
          have ly : Function.update (Function.update ls none (ls (some y))) (some x) (ls (some x) ++ ((ls (some y)).take j ++ new.drop j)) none = ls (some y) := by
            rw [Function.update_of_ne (Option.some_ne_none x).symm, Function.update_self]
          simp only
          rw [bind_ok' (Q1.get' ly rfl (List.getElem?_eq_getElem hj))]
          obtain ⟨τ2, f2, Q2, _⟩ := Q1.store' O1 (Function.update_self ..) (i := (ls (some x)).length + j) ((ls (some y))[j]) (by simp; omega)
          refine ⟨τ2, f2, Q2.eq ?_⟩
          rw [Function.update_idem]
          congr 1
          rw [List.set_append_right _ _ (by omega), Nat.add_sub_cancel_left]
          congr 1
          refine List.ext_getElem (by simp; omega) fun i h1 h2 => ?_
          simp only [List.getElem_set, List.getElem_append, List.length_take, List.getElem_take, List.getElem_drop]
          split_ifs <;> first | rfl | omega | (congr 1; omega) | (subst_vars; rfl))
      refine ⟨σ3, e3, R3.eq ?_⟩
      rw [List.take_length, List.drop_eq_nil_of_le (by omega), List.append_nil]
    obtain ⟨τ, eτ, Rτ⟩ := this
    rw [bind_ok' eτ]
    exact fin Rτ

theorem clamp_eq (p : Int) (n : Nat) : clamp p n = border p n := by
  unfold clamp border
  simp only
  split_ifs <;> omega

theorem Rep.slice (hX : Fintype.card X + 1 < 2 ^ 32) (hs : 0 < s) (R : Rep s σ ls) (hn : ls none = []) (x y : X) (b e : Int) :
    ∃ σ', slice s ctor σ x y b e = .ok σ' ∧
      Rep s σ' (Function.update ls (some x) (((ls (some y)).take (border e (ls (some y)).length)).drop (border b (ls (some y)).length))) := by
  unfold Cow.slice
  rw [bind_ok' (R.size (some y)), clamp_eq, clamp_eq]
  set l := ls (some y) with el
  have hbl : border b l.length ≤ l.length := by unfold border; split_ifs <;> omega
  have hel : border e l.length ≤ l.length := by unfold border; split_ifs <;> omega
  generalize border b l.length = b' at hbl ⊢
  generalize border e l.length = e' at hel ⊢
  have : ∃ τ, sliceResult s ctor σ y b' e' = .ok τ ∧ Rep s τ (Function.update ls none ((l.take e').drop b')) := by
    unfold sliceResult
    by_cases q : b' > e'
    · rw [if_pos q]
      refine ⟨σ, rfl, R.eq ?_⟩
      rw [List.drop_eq_nil_of_le (by simp; omega), ← hn, Function.update_eq_self]
    · rw [if_neg q]
      obtain ⟨σ1, new, e1, R1, ln, _⟩ := R.resize (ctor := ctor) hX hs none ((R.fine (some y)).mono (show e' - b' ≤ l.length by omega))
      rw [bind_ok' e1]
      obtain ⟨σ2, r, e2, R2, O2, _⟩ := R1.cow hX none
      simp only
      rw [bind_ok' e2]
      rw [hn, List.take_nil, List.nil_append] at R2
      rw [hn, List.length_nil, Nat.sub_zero] at ln
      obtain ⟨σ3, e3, R3, _⟩ := loop_inv (f := fun i σ => do
          let v ← Cow.load s σ (some y) (b' + i)
          Cow.store s σ none i v) (n := e' - b') (σ := σ2)
        (fun j τ => Rep s τ (Function.update ls none (((l.take e').drop b').take j ++ new.drop j)) ∧ Own τ none)
        ⟨by simpa using R2, O2⟩ (by
          rintro j hj τ ⟨Rj, Oj⟩
          have ly : Function.update ls none (((l.take e').drop b').take j ++ new.drop j) (some y) = l := Function.update_of_ne (Option.some_ne_none y) ..
          rw [bind_ok' (Rj.load' ly (List.getElem?_eq_getElem (by omega : b' + j < l.length)))]
          obtain ⟨τ2, f2, Q2, O2⟩ := Rj.store' Oj (Function.update_self ..) (i := j) (l[b' + j]) (by simp; omega)
          refine ⟨τ2, f2, Q2.eq ?_, O2⟩
          rw [Function.update_idem]
          congr 1
          refine List.ext_getElem (by simp; omega) fun i h1 h2 => ?_
          simp only [List.getElem_set, List.getElem_append, List.length_take, List.getElem_take, List.getElem_drop, List.length_drop]
          split_ifs <;> first | rfl | omega | (congr 1; omega))
      refine ⟨σ3, e3, R3.eq ?_⟩
      rw [List.take_of_length_le (by simp; omega), show new.drop (e' - b') = [] from List.drop_eq_nil_of_le (by omega), List.append_nil]
  obtain ⟨τ, eτ, Rτ⟩ := this
  rw [bind_ok' eτ]
  obtain ⟨τ1, f1, Q1⟩ := Rτ.ref hX (some x) none
  rw [bind_ok' f1]
  obtain ⟨τ2, f2, Q2⟩ := Q1.destroy hX none
  rw [bind_ok' f2]
  refine ⟨_, rfl, Q2.eq ?_⟩
  rw [Function.update_self, Function.update_comm (Option.some_ne_none x).symm, Function.update_idem]
  have hx : Function.update ls (some x) ((l.take e').drop b') none = [] := by rw [Function.update_of_ne (Option.some_ne_none x).symm, hn]
  rw [← hx, Function.update_eq_self]

end Verif.Cow
