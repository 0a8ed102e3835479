import Verif.Lemmas.CowOps

/-! # C148: vectors are values, although copies share memory -/

set_option linter.unusedSectionVars false

namespace Verif.Cow
open Spec.Values
variable {X T : Type} [DecidableEq X] [DecidableEq T] [Fintype X] {s : Nat} {ctor : Option T} {lt : T → T → Bool} {σ : St X T}

/-- The lists of the variables; the temporary is empty. -/
def vals (ls : X → List T) : Option X → List T
  | none => []
  | some x => ls x

theorem vals_update (ls : X → List T) (x : X) (l : List T) : Function.update (vals ls) (some x) l = vals (Function.update ls x l) := by
  funext z
  match z with
  | none => rw [Function.update_of_ne (Option.some_ne_none x).symm]; rfl
  | some z =>
    by_cases q : z = x
    · subst q; simp [vals]
    · rw [Function.update_of_ne (fun c => q (Option.some.inj c))]
      simp [vals, q]

theorem fine_of {n : Nat} (h : ¬ TooLarge.large s n) : Fine s n := by
  unfold TooLarge.large at h
  unfold Fine
  omega

/-- One operation: it does what the specification says, unless an element does not exist or a vector gets too large. -/
theorem step_run (hX : Fintype.card X + 1 < 2 ^ 32) (hs : 0 < s) (ls : X → List T) (R : Rep s σ (vals ls)) (o : Op X T) :
    (∃ σ' a ls', step s ctor lt σ o = .ok (σ', a) ∧ Rep s σ' (vals ls') ∧ Step ctor lt ls o ls' a) ∨
      (BadIndex ls o ∧ step s ctor lt σ o = .error .crash) ∨ TooLarge s ls o := by
  cases o with
  | assign x y =>
    obtain ⟨σ', e, R'⟩ := R.ref hX (some x) (some y)
    exact .inl ⟨σ', .unit, _, bind_ok' e _, R'.eq (vals_update ..), rfl, rfl⟩
  | destroy x =>
    obtain ⟨σ', e, R'⟩ := R.destroy hX (some x)
    exact .inl ⟨_, .unit, _, bind_ok' e _, R'.eq (vals_update ..), rfl, rfl⟩
  | resize x n =>
    by_cases h0 : n < 0
    · refine .inl ⟨σ, .bool false, ls, ?_, R, ?_⟩
      · have e : Cow.resize s ctor σ (some x) n = .ok (σ, false) := if_pos h0
        exact bind_ok' e _
      · simp only [Step, if_pos h0]; exact ⟨trivial, trivial⟩
    · by_cases q : TooLarge.large s n.toNat
      · exact .inr (.inr q)
      · obtain ⟨σ', new, e, R', ln, hd⟩ := R.resize (ctor := ctor) hX hs (some x) (fine_of q)
        rw [Int.toNat_of_nonneg (by omega)] at e
        refine .inl ⟨σ', .bool true, _, bind_ok' e _, R'.eq (vals_update ..), ?_⟩
        simp only [Step, if_neg h0]
        exact ⟨trivial, new, hd, rfl, ln⟩
  | set x i v =>
    by_cases q : 0 ≤ i ∧ i < (ls x).length
    · obtain ⟨σ', e, R'⟩ := R.set hX (some x) q.1 q.2 v
      exact .inl ⟨σ', .unit, _, bind_ok' e _, R'.eq (vals_update ..), q.1, q.2, rfl, rfl⟩
    · refine .inr (.inl ⟨q, ?_⟩)
      have : Cow.set s σ (some x) i v = .error .crash := by
        unfold Cow.set
        rw [bind_ok' (R.size (some x)), if_pos (by show i < 0 ∨ i ≥ (ls x).length; omega)]
      simp only [step, this]; rfl
  | get x i =>
    by_cases q : 0 ≤ i ∧ i < (ls x).length
    · have hi : i.toNat < (ls x).length := by omega
      have e := R.get' (x := some x) (l := ls x) rfl (i := i) (j := i.toNat) (by omega) (List.getElem?_eq_getElem hi)
      exact .inl ⟨σ, .value _, ls, bind_ok' e _, R, rfl, q.1, _, List.getElem?_eq_getElem hi, rfl⟩
    · refine .inr (.inl ⟨q, ?_⟩)
      have : Cow.get s σ (some x) i = .error .crash := by
        unfold Cow.get
        rw [bind_ok' (R.size (some x)), if_pos (by show i < 0 ∨ i ≥ (ls x).length; omega)]
      simp only [step, this]; rfl
  | push_back x v =>
    by_cases q : TooLarge.large s ((ls x).length + 1)
    · exact .inr (.inr q)
    · obtain ⟨σ', e, R'⟩ := R.push_back (ctor := ctor) hX hs (some x) v (fine_of q)
      exact .inl ⟨σ', .bool false, _, bind_ok' e _, R'.eq (vals_update ..), rfl, rfl⟩
  | insert x i v =>
    by_cases q : TooLarge.large s ((ls x).length + 1)
    · exact .inr (.inr q)
    · obtain ⟨σ', e, R'⟩ := R.insert (ctor := ctor) hX hs (some x) i v (fine_of q)
      by_cases c : 0 ≤ i ∧ i ≤ (ls x).length
      · have R'' := R'.eq ((if_pos c).trans (vals_update ..))
        refine .inl ⟨σ', .bool true, _, ?_, R'', ?_⟩
        · exact (bind_ok' e _).trans (congrArg (fun b => Except.ok (σ', Ans.bool b)) (decide_eq_true c))
        · simp only [Step, if_pos c]; exact ⟨rfl, trivial⟩
      · have R'' := R'.eq (if_neg c)
        refine .inl ⟨σ', .bool false, _, ?_, R'', ?_⟩
        · exact (bind_ok' e _).trans (congrArg (fun b => Except.ok (σ', Ans.bool b)) (decide_eq_false c))
        · simp only [Step, if_neg c]; exact ⟨trivial, trivial⟩
  | remove x i =>
    obtain ⟨σ', e, R'⟩ := R.remove (ctor := ctor) hX hs (some x) i
    refine .inl ⟨σ', .unit, _, bind_ok' e _, R'.eq ?_, rfl, rfl⟩
    by_cases c : 0 ≤ i
    · rw [if_pos c, if_pos c]; exact vals_update ..
    · rw [if_neg c, if_neg c]
  | erase x v =>
    obtain ⟨σ', e, R'⟩ := R.erase (ctor := ctor) hX hs (some x) v
    exact .inl ⟨σ', .bool _, _, bind_ok' e _, R'.eq (vals_update ..), rfl, rfl⟩
  | find x v start =>
    exact .inl ⟨σ, .int _, ls, bind_ok' (R.find (some x) v start) _, R, rfl, rfl⟩
  | fill x v =>
    obtain ⟨σ', e, R'⟩ := R.fill hX (some x) v
    exact .inl ⟨σ', .unit, _, bind_ok' e _, R'.eq (vals_update ..), rfl, rfl⟩
  | invert x =>
    obtain ⟨σ', e, R'⟩ := R.invert hX (some x)
    exact .inl ⟨σ', .unit, _, bind_ok' e _, R'.eq (vals_update ..), rfl, rfl⟩
  | append_array x y =>
    by_cases q : TooLarge.large s ((ls x).length + (ls y).length)
    · exact .inr (.inr q)
    · obtain ⟨σ', e, R'⟩ := R.append_array (ctor := ctor) hX hs rfl x y (fine_of q)
      exact .inl ⟨σ', .unit, _, bind_ok' e _, R'.eq (vals_update ..), rfl, rfl⟩
  | slice x y b e =>
    obtain ⟨σ', e, R'⟩ := R.slice (ctor := ctor) hX hs rfl x y b e
    exact .inl ⟨σ', .unit, _, bind_ok' e _, R'.eq (vals_update ..), rfl, rfl⟩
  | ordered_insert x v =>
    by_cases q : TooLarge.large s ((ls x).length + 1)
    · exact .inr (.inr q)
    · obtain ⟨σ', e, R'⟩ := R.ordered_insert (ctor := ctor) (lt := lt) hX hs (some x) v (fine_of q)
      exact .inl ⟨σ', .unit, _, bind_ok' e _, R'.eq (vals_update ..), rfl, rfl⟩
  | size x =>
    exact .inl ⟨σ, .int _, ls, bind_ok' (R.size (some x)) _, R, rfl, rfl⟩
  | empty x =>
    refine .inl ⟨σ, .bool _, ls, rfl, R, rfl, ?_⟩
    congr 1
    show (σ.ptr (some x)).isNone = (vals ls (some x)).isEmpty
    match h : σ.ptr (some x) with
    | none => rw [R.null _ h]; rfl
    | some b =>
      obtain ⟨k, ek, lk⟩ := R.ptr _ b h
      have := (R.blk b k ek).2.2.1
      have hl : (vals ls (some x)).length = k.size := by rw [lk, Block.length_list]
      cases e : vals ls (some x) with
      | nil => rw [e] at hl; simp at hl; omega
      | cons a t => rfl

theorem rep_start (s : Nat) (junk : Nat → Nat → T) : Rep s (start junk : St X T) (vals fun _ => []) :=
  ⟨fun _ _ => rfl, fun x _ => by cases x <;> rfl, nofun, nofun⟩

theorem exec_run (hX : Fintype.card X + 1 < 2 ^ 32) (hs : 0 < s) (ops : List (Op X T)) : ∀ (ls : X → List T) (σ : St X T), Rep s σ (vals ls) →
    Exec s ctor lt ls ops (run s ctor lt ops σ) := by
  induction ops with
  | nil => exact fun ls _ _ => .done ls
  | cons o ops ih =>
    intro ls σ R
    unfold run
    rcases step_run (ctor := ctor) (lt := lt) hX hs ls R o with ⟨σ', a, ls', e, R', st⟩ | ⟨bad, e⟩ | l
    · rw [bind_ok' e]
      have := Exec.step st (ih ls' σ' R')
      simp only
      cases h : run s ctor lt ops σ' <;> rw [h] at this <;> exact this
    · rw [e]; exact .stop bad
    · exact .large l

/-- **C148**: for every number of variables of type `Vector<T>` and every history of operations on them, every variable behaves as a list of its own, although copies
share their memory: a change of one variable is never seen in another; no memory is used after it was freed or outside of what was allocated; the program stops only when
an element that does not exist is asked for. Nothing is claimed after a vector would need more than 2³¹ bytes. -/
theorem C148_values (hX : Fintype.card X + 1 < 2 ^ 32) (hs : 0 < s) (junk : Nat → Nat → T) (ops : List (Op X T)) :
    Exec s ctor lt (fun _ : X => []) ops (run s ctor lt ops (start junk)) := exec_run hX hs ops _ _ (rep_start s junk)

/-- The elements that a variable refers to. -/
def contents (σ : St X T) (x : X) : List T :=
  match (σ.ptr (some x)).bind σ.blocks with
  | none => []
  | some k => (List.range k.size).map k.data

/-- The states that a history can reach without a vector that gets too large. -/
inductive Reach (s : Nat) (ctor : Option T) (lt : T → T → Bool) (junk : Nat → Nat → T) : St X T → Prop where
  | start : Reach s ctor lt junk (Cow.start junk)
  | step {σ σ' : St X T} {o : Op X T} {a : Ans T} : Reach s ctor lt junk σ → ¬ TooLarge s (contents σ) o → step s ctor lt σ o = .ok (σ', a) →
    Reach s ctor lt junk σ'

theorem Rep.contents {ls : X → List T} (R : Rep s σ (vals ls)) : contents σ = ls := by
  funext x
  unfold Cow.contents
  match h : σ.ptr (some x) with
  | none => exact (R.null _ h).symm
  | some b =>
    obtain ⟨k, ek, lk⟩ := R.ptr _ b h
    simp only [Option.bind_some, ek]
    exact lk.symm

/-- **C148** (reference counts, no leaks): in every state that a history reaches, a block is allocated exactly if some variable points to it, the reference count is the number of
variables that point to it, and the elements fit into its bytes. -/
theorem C148_memory (hX : Fintype.card X + 1 < 2 ^ 32) (hs : 0 < s) (junk : Nat → Nat → T) (σ : St X T) (r : Reach s ctor lt junk σ) :
    (∀ b, σ.blocks b ≠ none ↔ ∃ x, σ.ptr (some x) = some b) ∧
    (∀ b k, σ.blocks b = some k → k.refc = (Finset.univ.filter fun x : X => σ.ptr (some x) = some b).card ∧ k.size * s ≤ k.bytes) ∧ σ.ptr none = none := by
  obtain ⟨ls, R⟩ : ∃ ls, Rep s σ (vals ls) := by
    induction r with
    | start => exact ⟨_, rep_start s junk⟩
    | step r nl e ih =>
      rename_i σ0 σ1 o a
      obtain ⟨ls, R⟩ := ih
      rw [R.contents] at nl
      rcases step_run (ctor := ctor) (lt := lt) hX hs _ R o with ⟨σ', a', ls', e', R', st'⟩ | ⟨bad, e'⟩ | l
      · rw [e] at e'
        obtain ⟨rfl, rfl⟩ : σ1 = σ' ∧ a = a' := by simpa using e'
        exact ⟨_, R'⟩
      · rw [e] at e'; cases e'
      · exact absurd l nl
  have tmp : σ.ptr none = none := by
    match h : σ.ptr none with
    | none => rfl
    | some b =>
      obtain ⟨k, ek, lk⟩ := R.ptr none b h
      have := (R.blk b k ek).2.2.1
      have hl : (vals ls none).length = k.size := by rw [lk, Block.length_list]
      simp [vals] at hl
      omega
  refine ⟨fun b => ⟨fun h => ?_, fun ⟨x, h⟩ => ?_⟩, fun b k h => ?_, tmp⟩
  · obtain ⟨k, ek⟩ := Option.ne_none_iff_exists'.1 h
    obtain ⟨c1, c2, _⟩ := R.blk b k ek
    rw [c1] at c2
    obtain ⟨z, hz⟩ := Finset.card_pos.1 c2
    have hz := (Finset.mem_filter.1 hz).2
    match z with
    | none => rw [tmp] at hz; cases hz
    | some x => exact ⟨x, hz⟩
  · obtain ⟨k, ek, _⟩ := R.ptr _ b h
    rw [ek]; nofun
  · obtain ⟨c1, c2, c3, c4, c5⟩ := R.blk b k h
    refine ⟨?_, by rw [c5]; exact c4.alloc⟩
    rw [c1, count]
    symm
    refine Finset.card_bij (fun x _ => some x) (fun x hx => ?_) (fun x _ y _ e => Option.some.inj e) fun z hz => ?_
    · simpa using hx
    · have hz := (Finset.mem_filter.1 hz).2
      match z with
      | none => rw [tmp] at hz; cases hz
      | some x => exact ⟨x, by simpa using hz, rfl⟩

/-- **C148** (allocation): `next_power_of_2` is the least power of two that is not smaller, up to 2³¹. -/
theorem C148_next_power (x : Nat) (h0 : 0 < x) (h : x ≤ 2 ^ 31) :
    ∃ e, next_power_of_2 x = 2 ^ e ∧ x ≤ 2 ^ e ∧ ∀ e', x ≤ 2 ^ e' → e ≤ e' := by
  refine ⟨Nat.clog 2 x, ?_, Nat.le_pow_clog (by omega) _, fun e' he => Nat.clog_le_of_le_pow he⟩
  rw [next_power h0 (by omega), Nat.mod_eq_of_lt]
  have : Nat.clog 2 x ≤ 31 := Nat.clog_le_of_le_pow h
  exact (Nat.pow_le_pow_right (by omega) this).trans_lt (by decide)

/-- **C148** is false of large vectors: the bytes needed are rounded up in 32 bits and become 0, no memory is allocated, and `resize` of an empty vector to more than 2³¹ (and at
most 2³²) bytes uses a null pointer. -/
theorem C148_large_fails (junk : Nat → Nat → T) (x : X) (n : Nat) (h : 2 ^ 31 < n * s) (h' : n * s ≤ 2 ^ 32) (ops : List (Op X T)) :
    run s ctor lt (.resize x n :: ops) (start junk) = .error .ub := by
  have a : allocSize s n = 0 := next_power_large h h'
  have a0 : allocSize s 0 = 0 := by unfold allocSize next_power_of_2; simp
  have n0 : n ≠ 0 := by rintro rfl; simp at h
  have e : step s ctor lt (start junk : St X T) (.resize x n) = .error .ub := by
    simp only [step]
    unfold Cow.resize
    rw [if_neg (by omega)]
    have es : Cow.size (start junk : St X T) (some x) = .ok 0 := rfl
    rw [bind_ok' es, Int.toNat_natCast, if_neg n0, if_neg n0]
    have ec : copy_on_write s (start junk : St X T) (some x) = .ok (start junk, 0) := rfl
    rw [bind_ok' ec]
    have eg : change s ctor (start junk : St X T) (some x) 0 n 0 = .error .ub := by
      unfold change grow growBlock
      rw [if_pos (by omega), a, a0, if_neg (by simp), bind_ok' rfl]
      rfl
    simp only
    rw [eg]; rfl
  unfold run
  rw [e]; rfl

/-- Two variables share their memory until one of them is changed; a vector is appended to itself. -/
example : run 8 none (fun a b => decide (a < b)) [.push_back false 1, .push_back false 2, .assign true false, .set true 0 9, .get false 0, .append_array false false, .size false,
    .get false 3, .slice true false 1 (-1), .size true, .find false 2 2, .get true 7]
    (start fun _ _ => (0 : Int) : St Bool Int) = .error .crash := by rfl
example : run 8 none (fun a b => decide (a < b)) [.push_back false 1, .push_back false 2, .assign true false, .set true 0 9, .get false 0, .append_array false false, .size false,
    .get false 3, .slice true false 1 (-1), .size true, .find false 2 2]
    (start fun _ _ => (0 : Int) : St Bool Int) =
    .ok [.bool false, .bool false, .unit, .unit, .value 1, .unit, .int 4, .value 2, .unit, .int 2, .int 3] := by rfl
example : Fintype.card Bool + 1 < 2 ^ 32 := by decide

/-- A state that is reached, with one block that both variables share. -/
example : ∃ σ : St Bool Int, Reach 8 none (fun a b => decide (a < b)) (fun _ _ => 0) σ ∧ (σ.blocks 0).map (·.refc) = some 2 :=
  ⟨_, .step (.step .start (o := .push_back false 1) (by simp [TooLarge, TooLarge.large, contents, Cow.start]) rfl) (o := .assign true false) id rfl, rfl⟩

end Verif.Cow
