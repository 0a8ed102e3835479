import Mathlib.Data.List.Basic
import Mathlib.Data.Nat.Log

/-! # Vectors as values: every variable holds a list of its own -/

namespace Verif.Spec.Values

/-- What can be done with the variables `x`, `y` of type `Vector<T>`. -/
inductive Op (X T : Type) where
  /-- `x = y`, also the making of a copy -/
  | assign (x y : X)
  /-- the variable goes out of scope; when it is declared again it is empty -/
  | destroy (x : X)
  | resize (x : X) (n : Int)
  /-- `set`, `write[i] = v`, `ptrw()[i] = v` -/
  | set (x : X) (i : Int) (v : T)
  | get (x : X) (i : Int)
  | push_back (x : X) (v : T)
  | insert (x : X) (i : Int) (v : T)
  | remove (x : X) (i : Int)
  | erase (x : X) (v : T)
  | find (x : X) (v : T) (start : Int)
  | fill (x : X) (v : T)
  | invert (x : X)
  | append_array (x y : X)
  /-- `x = y.slice(b, e)` -/
  | slice (x y : X) (b e : Int)
  | ordered_insert (x : X) (v : T)
  | size (x : X)
  | empty (x : X)

/-- What an operation returns. -/
inductive Ans (T : Type) where
  | unit
  | bool (b : Bool)
  | int (i : Int)
  | value (v : T)

/-- Why a program stops: a check that is meant to stop it, or undefined behaviour. -/
inductive Fail where
  | crash
  | ub

variable {X T : Type} [DecidableEq X] [DecidableEq T]

/-- The index meant by `p` in a list of length `n`: negative numbers count from the end, what is outside is moved to the border. -/
def border (p : Int) (n : Nat) : Nat := if p < 0 then (max 0 (p + n)).toNat else min p.toNat n

/-- The position of the first `v` at or after `start`, or -1. -/
def position (l : List T) (v : T) (start : Int) : Int :=
  if start < 0 ∨ v ∉ l.drop start.toNat then -1 else start + (l.drop start.toNat).idxOf v

/-- Where `ordered_insert` puts `v`: before the first element that is greater. -/
def place (lt : T → T → Bool) (l : List T) (v : T) : Nat := (l.takeWhile fun a => !lt v a).length

/-- What becomes of the variables, and what is returned. `ctor` is the value that the constructor of `T` gives to a new element, or `none` if the constructor is
trivial: then `resize` may give any value to new elements. -/
def Step (ctor : Option T) (lt : T → T → Bool) (ls : X → List T) : Op X T → (X → List T) → Ans T → Prop
  | .assign x y, ls', a => ls' = Function.update ls x (ls y) ∧ a = .unit
  | .destroy x, ls', a => ls' = Function.update ls x [] ∧ a = .unit
  | .resize x n, ls', a =>
    if n < 0 then ls' = ls ∧ a = .bool false
    else a = .bool true ∧ ∃ new : List T, (∀ d, ctor = some d → ∀ v ∈ new, v = d) ∧ ls' = Function.update ls x ((ls x).take n.toNat ++ new) ∧
      new.length = n.toNat - (ls x).length
  | .set x i v, ls', a => 0 ≤ i ∧ i < (ls x).length ∧ ls' = Function.update ls x ((ls x).set i.toNat v) ∧ a = .unit
  | .get x i, ls', a => ls' = ls ∧ 0 ≤ i ∧ ∃ v, (ls x)[i.toNat]? = some v ∧ a = .value v
  | .push_back x v, ls', a => ls' = Function.update ls x (ls x ++ [v]) ∧ a = .bool false
  | .insert x i v, ls', a =>
    if 0 ≤ i ∧ i ≤ (ls x).length then ls' = Function.update ls x ((ls x).insertIdx i.toNat v) ∧ a = .bool true else ls' = ls ∧ a = .bool false
  | .remove x i, ls', a => a = .unit ∧ ls' = if 0 ≤ i then Function.update ls x ((ls x).eraseIdx i.toNat) else ls
  | .erase x v, ls', a => ls' = Function.update ls x ((ls x).erase v) ∧ a = .bool (v ∈ ls x)
  | .find x v start, ls', a => ls' = ls ∧ a = .int (position (ls x) v start)
  | .fill x v, ls', a => ls' = Function.update ls x (List.replicate (ls x).length v) ∧ a = .unit
  | .invert x, ls', a => ls' = Function.update ls x (ls x).reverse ∧ a = .unit
  | .append_array x y, ls', a => ls' = Function.update ls x (ls x ++ ls y) ∧ a = .unit
  | .slice x y b e, ls', a =>
    ls' = Function.update ls x (((ls y).take (border e (ls y).length)).drop (border b (ls y).length)) ∧ a = .unit
  | .ordered_insert x v, ls', a => ls' = Function.update ls x ((ls x).insertIdx (place lt (ls x) v) v) ∧ a = .unit
  | .size x, ls', a => ls' = ls ∧ a = .int (ls x).length
  | .empty x, ls', a => ls' = ls ∧ a = .bool (ls x).isEmpty

/-- An element that does not exist is read or written. -/
def BadIndex (ls : X → List T) : Op X T → Prop
  | .set x i _ | .get x i => ¬ (0 ≤ i ∧ i < (ls x).length)
  | _ => False

/-- A vector would get so many elements of `s` bytes that it needs more than 2³¹ bytes, or that their number is not an `int`. -/
def TooLarge (s : Nat) (ls : X → List T) : Op X T → Prop
  | .resize _ n => large n.toNat
  | .push_back x _ | .insert x _ _ | .ordered_insert x _ => large ((ls x).length + 1)
  | .append_array x y => large ((ls x).length + (ls y).length)
  | _ => False
where large (n : Nat) : Prop := 2 ^ 31 < n * s ∨ 2 ^ 31 ≤ n

/-- The possible results of a history of operations: the answers, or the stop at an index that does not exist. Nothing is said about what happens from the point where
a vector would get too large. -/
inductive Exec (s : Nat) (ctor : Option T) (lt : T → T → Bool) : (X → List T) → List (Op X T) → Except Fail (List (Ans T)) → Prop where
  | done (ls : X → List T) : Exec s ctor lt ls [] (.ok [])
  | step {ls ls' : X → List T} {o : Op X T} {a : Ans T} {ops : List (Op X T)} {r : Except Fail (List (Ans T))} :
    Step ctor lt ls o ls' a → Exec s ctor lt ls' ops r → Exec s ctor lt ls (o :: ops) (r.map (a :: ·))
  | stop {ls : X → List T} {o : Op X T} {ops : List (Op X T)} : BadIndex ls o → Exec s ctor lt ls (o :: ops) (.error .crash)
  | large {ls : X → List T} {o : Op X T} {ops : List (Op X T)} {r : Except Fail (List (Ans T))} : TooLarge s ls o → Exec s ctor lt ls (o :: ops) r

end Verif.Spec.Values
