/-!
# Specification of `MLPPVector` as a mathematical list

Nothing here refers to the model. `VOp` is the container API, `VState` says what each vector holds, and `VRel op s ans s'`
says what a call may answer and how the contents may change.
-/

namespace Verif.Spec
variable {R : Type}

/-- Container calls. `i`, `j` name vectors (`none` = null handle); positions are arbitrary integers. -/
inductive VOp (R : Type) where
  | size (i : Nat)
  | element_get (i : Nat) (p : Int)
  | element_set (i : Nat) (p : Int) (x : R)
  | find (i : Nat) (x : R) (start : Nat)
  | get_data (i : Nat)
  | set_data (i : Nat) (xs : List R)
  | push_back (i : Nat) (x : R)
  | append (i : Nat) (j : Option Nat)
  | set_from (i : Nat) (j : Option Nat)
  | insert (i : Nat) (p : Int) (x : R)
  | ordered_insert (i : Nat) (x : R)
  | remove (i : Nat) (p : Int)
  | remove_unordered (i : Nat) (p : Int)
  | erase (i : Nat) (x : R)
  | erase_multiple_unordered (i : Nat) (x : R)
  | invert (i : Nat)
  | fill (i : Nat) (x : R)
  | clear (i : Nat)
  | reset (i : Nat)
  | resize (i : Nat) (n : Nat)

/-- The vector a call may change (the vector it is made on). -/
def VOp.target : VOp R → Nat
  | .size i | .element_get i _ | .element_set i _ _ | .find i _ _ | .get_data i | .set_data i _ | .push_back i _
  | .append i _ | .set_from i _ | .insert i _ _ | .ordered_insert i _ | .remove i _ | .remove_unordered i _
  | .erase i _ | .erase_multiple_unordered i _ | .invert i | .fill i _ | .clear i | .reset i | .resize i _ => i

/-- What a call returns. -/
inductive Ans (R : Type) where
  | unit
  | int (n : Int)
  | val (x : R)
  | list (xs : List R)

/-- What every vector contains. -/
abbrev VState (R : Type) := Nat → List R

/-- `s` with the contents of vector `i` replaced. -/
def VState.put (s : VState R) (i : Nat) (l : List R) : VState R := fun j => if j = i then l else s j

/-- `p` is a valid position in a list of length `n`. -/
def Valid (p : Int) (n : Nat) : Prop := 0 ≤ p ∧ p < (n : Int)

/-- `r` is the answer of a search for `x` in `l` from position `start`: the first matching position, or -1. -/
def IsFirst [BEq R] (l : List R) (x : R) (start : Nat) (r : Int) : Prop :=
  (r = -1 ∧ ∀ k y, start ≤ k → l[k]? = some y → (y == x) = false) ∨
  (∃ k : Nat, r = (k : Int) ∧ start ≤ k ∧ (∃ y, l[k]? = some y ∧ (y == x) = true) ∧
    ∀ m y, start ≤ m → m < k → l[m]? = some y → (y == x) = false)

/-- `l'` is `l` without position `k`, its place being taken by the last element. -/
def MovedLast (l : List R) (k : Nat) (l' : List R) : Prop :=
  l'.length + 1 = l.length ∧ ∀ m, m < l'.length → l'[m]? = if m = k then l[l.length - 1]? else l[m]?

/-- `l'` is `l` with `x` put in front of the first element greater than `x` (at the end if there is none). -/
def InsertedInOrder [LT R] (l : List R) (x : R) (l' : List R) : Prop :=
  ∃ a b, l = a ++ b ∧ l' = a ++ x :: b ∧ (∀ y ∈ a, ¬ x < y) ∧ (∀ y, b.head? = some y → x < y)

/-- One call. -/
def VRel [BEq R] [LT R] [Zero R] (s : VState R) : VOp R → Ans R → VState R → Prop
  | .size i, a, s' => a = .int (s i).length ∧ s' = s
  | .element_get i p, a, s' => s' = s ∧
      (Valid p (s i).length → ∃ x, (s i)[p.toNat]? = some x ∧ a = .val x) ∧ (¬Valid p (s i).length → a = .val 0)
  | .element_set i p x, a, s' => a = .unit ∧
      (Valid p (s i).length → s' = s.put i ((s i).set p.toNat x)) ∧ (¬Valid p (s i).length → s' = s)
  | .find i x start, a, s' => s' = s ∧ ∃ r, a = .int r ∧ IsFirst (s i) x start r
  | .get_data i, a, s' => a = .list (s i) ∧ s' = s
  | .set_data i xs, a, s' => a = .unit ∧ s' = s.put i xs
  | .push_back i x, a, s' => a = .unit ∧ s' = s.put i (s i ++ [x])
  | .append _ none, a, s' => a = .unit ∧ s' = s
  | .append i (some j), a, s' => a = .unit ∧ s' = s.put i (s i ++ s j)
  | .set_from _ none, a, s' => a = .unit ∧ s' = s
  | .set_from i (some j), a, s' => a = .unit ∧ s' = s.put i (s j)
  | .insert i p x, a, s' => a = .unit ∧
      (Valid p ((s i).length + 1) → s' = s.put i ((s i).take p.toNat ++ x :: (s i).drop p.toNat)) ∧
      (¬Valid p ((s i).length + 1) → s' = s)
  | .ordered_insert i x, a, s' => a = .unit ∧ ∃ l', s' = s.put i l' ∧ InsertedInOrder (s i) x l'
  | .remove i p, a, s' => a = .unit ∧
      (Valid p (s i).length → s' = s.put i ((s i).take p.toNat ++ (s i).drop (p.toNat + 1))) ∧
      (¬Valid p (s i).length → s' = s)
  | .remove_unordered i p, a, s' => a = .unit ∧
      (Valid p (s i).length → ∃ l', s' = s.put i l' ∧ MovedLast (s i) p.toNat l') ∧
      (¬Valid p (s i).length → s' = s)
  | .erase i x, a, s' => a = .unit ∧
      (((∀ y ∈ s i, (y == x) = false) ∧ s' = s) ∨
        ∃ u y w, s i = u ++ y :: w ∧ (y == x) = true ∧ (∀ z ∈ u, (z == x) = false) ∧ s' = s.put i (u ++ w))
  | .erase_multiple_unordered i x, a, s' => a = .int ((s i).countP (· == x)) ∧
      ∃ l', s' = s.put i l' ∧ l'.Perm ((s i).filter fun y => !(y == x))
  | .invert i, a, s' => a = .unit ∧ s' = s.put i (s i).reverse
  | .fill i x, a, s' => a = .unit ∧ s' = s.put i ((s i).map fun _ => x)
  | .clear i, a, s' => a = .unit ∧ s' = s.put i []
  | .reset i, a, s' => a = .unit ∧ s' = s.put i []
  | .resize i n, a, s' => a = .unit ∧ ∃ l', s' = s.put i l' ∧ l'.length = n ∧
      ∀ k, k < (s i).length → k < n → l'[k]? = (s i)[k]?

/-- A history of calls, with the answers given. -/
inductive VRun [BEq R] [LT R] [Zero R] : VState R → List (VOp R) → List (Ans R) → VState R → Prop
  | nil (s) : VRun s [] [] s
  | cons {s s1 s2 op ops a as} : VRel s op a s1 → VRun s1 ops as s2 → VRun s (op :: ops) (a :: as) s2

end Verif.Spec
