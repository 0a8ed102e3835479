import Mathlib.Data.List.Basic

/-! # A map as a list of keys and values, in the order in which they are visited -/

namespace Verif.Spec.AssocMap

variable {K V : Type} [DecidableEq K] [Inhabited V]

/-- The largest number of elements. -/
def maxSize : Nat := 1207959555

/-- The value of a key. -/
def find (l : List (K × V)) (k : K) : Option V := (l.find? fun p => p.1 = k).map (·.2)

/-- What can be done with a map. -/
inductive Op (K V : Type) where
  /-- `insert(k, v, front)` -/
  | insert (k : K) (v : V) (front : Bool)
  /-- `map[k] = f(map[k])`, for instance `map[k] = v` or `map[k]++` -/
  | update (k : K) (f : V → V)
  | erase (k : K)
  | clear
  | reserve (n : Nat)
  | has (k : K)
  | getptr (k : K)
  | get (k : K)
  | size
  | empty
  | keys
  /-- the map is replaced by a copy of itself -/
  | copy
  /-- another map, made from nothing by inserting the given pairs, is assigned -/
  | assign (other : List (K × V))

/-- What an operation returns. -/
inductive Ans (K V : Type) where
  | unit
  | bool (b : Bool)
  | num (n : Nat)
  | value (v : V)
  | maybe (v : Option V)
  | keys (l : List K)

/-- `insert(k, v, front)`: the value of a key that exists is replaced where it is; a new key goes to the end, or to the front. -/
def insert (l : List (K × V)) (k : K) (v : V) (front : Bool) : List (K × V) :=
  if k ∈ l.map (·.1) then l.map fun p => if p.1 = k then (k, v) else p
  else if l.length = maxSize then l
  else if front then (k, v) :: l else l ++ [(k, v)]

/-- What an operation does to the list, and what it returns; `none`: the program stops. -/
def step (l : List (K × V)) : Op K V → Option (List (K × V) × Ans K V)
  | .insert k v front => some (insert l k v front, .bool (k ∈ l.map (·.1) ∨ l.length ≠ maxSize))
  | .update k f =>
    if k ∈ l.map (·.1) then some (l.map fun p => if p.1 = k then (k, f p.2) else p, .unit)
    else if l.length = maxSize then none else some (l ++ [(k, f default)], .unit)
  | .erase k => some (l.filter fun p => p.1 ≠ k, .bool (k ∈ l.map (·.1)))
  | .clear => some ([], .unit)
  | .reserve _ => some (l, .unit)
  | .has k => some (l, .bool (k ∈ l.map (·.1)))
  | .getptr k => some (l, .maybe (find l k))
  | .get k => (find l k).map fun v => (l, .value v)
  | .size => some (l, .num l.length)
  | .empty => some (l, .bool l.isEmpty)
  | .keys => some (l, .keys (l.map (·.1)))
  | .copy => some (l, .unit)
  | .assign other => some (other.foldl (fun l p => insert l p.1 p.2 false) [], .unit)

/-- The answers to a history of operations. -/
def run : List (Op K V) → List (K × V) → Option (List (Ans K V))
  | [], _ => some []
  | o :: ops, l => do
    let r ← step l o
    let a ← run ops r.1
    pure (r.2 :: a)

end Verif.Spec.AssocMap
