import Mathlib.Data.List.Basic

/-! # A set as a list of keys, in the order in which they are visited -/

namespace Verif.Spec.ListSet

variable {K : Type} [DecidableEq K]

/-- The largest number of keys. -/
def maxSize : Nat := 1207959555

/-- What can be done with a set. -/
inductive Op (K : Type) where
  | insert (k : K)
  | erase (k : K)
  /-- `remove(it)`, where the iterator `it` is at the given place of the order -/
  | remove (place : Nat)
  | clear
  | reset
  | reserve (n : Nat)
  | has (k : K)
  | find (k : K)
  | size
  | empty
  /-- the keys, visited with `begin()` and `++` -/
  | keys
  /-- the set is replaced by a copy of itself -/
  | copy
  /-- another set, made from nothing by inserting the given keys, is assigned -/
  | assign (other : List K)

/-- What an operation returns. An iterator is the place of its key in the order, `none` is `end()`. -/
inductive Ans (K : Type) where
  | unit
  | bool (b : Bool)
  | num (n : Nat)
  | iter (place : Option Nat)
  | keys (l : List K)

/-- The place of a key in the order. -/
def place (l : List K) (k : K) : Option Nat := if k ∈ l then some (l.idxOf k) else none

/-- `insert(k)`: a new key goes to the end. -/
def insert (l : List K) (k : K) : List K := if k ∈ l ∨ l.length = maxSize then l else l ++ [k]

/-- `erase(k)`: the last key takes the place of `k`. -/
def erase (l : List K) (k : K) : List K := if k ∈ l then l.dropLast.map fun x => if x = k then l.getLast?.getD x else x else l

/-- What an operation does to the list, and what it returns; `none`: undefined behaviour. -/
def step (l : List K) : Op K → Option (List K × Ans K)
  | .insert k => some (insert l k, .iter (place (insert l k) k))
  | .erase k => some (erase l k, .bool (k ∈ l))
  | .remove j => l[j]?.map fun k => (erase l k, .unit)
  | .clear => some ([], .unit)
  | .reset => some ([], .unit)
  | .reserve _ => some (l, .unit)
  | .has k => some (l, .bool (k ∈ l))
  | .find k => some (l, .iter (place l k))
  | .size => some (l, .num l.length)
  | .empty => some (l, .bool l.isEmpty)
  | .keys => some (l, .keys l)
  | .copy => some (l, .unit)
  | .assign other => some (other.foldl insert [], .unit)

/-- The answers to a history of operations. -/
def run : List (Op K) → List K → Option (List (Ans K))
  | [], _ => some []
  | o :: ops, l => do
    let r ← step l o
    let a ← run ops r.1
    pure (r.2 :: a)

end Verif.Spec.ListSet
