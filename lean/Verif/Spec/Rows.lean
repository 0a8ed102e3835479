import Verif.Spec.Vector

/-!
# Specification of `MLPPMatrix` as a list of rows

Nothing here refers to the model. A matrix is a *width* (the number of columns) and a list of rows, each of that length.
Histories may mix calls on vectors (`VOp`) with calls on matrices.
-/

namespace Verif.Spec
variable {R : Type}

/-- Width and rows. Width 0 means that no row has fixed the width yet. -/
structure Table (R : Type) where
  width : Nat
  rows : List (List R)

/-- Contents of all matrices and of all vectors. -/
structure MState (R : Type) where
  mats : Nat → Table R
  vecs : VState R

def MState.putM (s : MState R) (o : Nat) (t : Table R) : MState R := { s with mats := fun k => if k = o then t else s.mats k }
def MState.putV (s : MState R) (i : Nat) (l : List R) : MState R := { s with vecs := s.vecs.put i l }

/-- Calls. `o`, `p` name matrices, `v` vectors (`none` = null handle); positions are arbitrary integers. -/
inductive MOp (R : Type) where
  | vec (op : VOp R)
  | size (o : Nat)
  | element_get (o : Nat) (y x : Int)
  | element_set (o : Nat) (y x : Int) (a : R)
  | row_add (o : Nat) (r : List R)
  | row_add_mlpp_vector (o : Nat) (v : Option Nat)
  | rows_add_mlpp_matrix (o : Nat) (p : Option Nat)
  | row_remove (o : Nat) (y : Int)
  | row_remove_unordered (o : Nat) (y : Int)
  | row_swap (o : Nat) (y y' : Int)
  | row_get_vector (o : Nat) (y : Int)
  | row_get_into_mlpp_vector (o : Nat) (y : Int) (v : Option Nat)
  | row_set_vector (o : Nat) (y : Int) (r : List R)
  | row_set_mlpp_vector (o : Nat) (y : Int) (v : Option Nat)
  | fill (o : Nat) (a : R)
  | set_from (o : Nat) (p : Option Nat)
  | set_from_vectors (o : Nat) (rs : List (List R))
  | clear (o : Nat)
  | reset (o : Nat)
  | resize (o : Nat) (cols rows : Nat)

/-- The calls whose arguments describe a table: no rows of width 0, rows of one common length. -/
def MOp.ok : MOp R → Prop
  | .set_from_vectors _ rs => ∃ w, 0 < w ∧ ∀ r ∈ rs, r.length = w
  | .resize _ cols rows => cols = 0 → rows = 0
  | _ => True

/-- The matrix a call may change. -/
def MOp.target : MOp R → Option Nat
  | .vec _ | .size _ | .element_get _ _ _ | .row_get_vector _ _ | .row_get_into_mlpp_vector _ _ _ => none
  | .element_set o _ _ _ | .row_add o _ | .row_add_mlpp_vector o _ | .rows_add_mlpp_matrix o _ | .row_remove o _
  | .row_remove_unordered o _ | .row_swap o _ _ | .row_set_vector o _ _ | .row_set_mlpp_vector o _ _ | .fill o _
  | .set_from o _ | .set_from_vectors o _ | .clear o | .reset o | .resize o _ _ => some o

/-- What a call returns. -/
inductive MAns (R : Type) where
  | unit
  | vec (a : Ans R)
  | dims (cols rows : Nat)
  | val (x : R)
  | list (xs : List R)

/-- Rows `i` and `j` exchanged. -/
def swapRows (l : List (List R)) (i j : Nat) : List (List R) := (l.set i (l.getD j [])).set j (l.getD i [])

/-- Adding the rows `new` (all of length `w`) below a table. -/
def Table.add (t : Table R) (w : Nat) (new : List (List R)) : Table R :=
  if w = 0 ∨ new = [] then t
  else if t.width = 0 then ⟨w, new⟩
  else if t.width = w then ⟨w, t.rows ++ new⟩
  else t

/-- One call. -/
def MRel [BEq R] [LT R] [Zero R] (s : MState R) : MOp R → MAns R → MState R → Prop
  | .vec op, a, s' => ∃ b, a = .vec b ∧ VRel s.vecs op b s'.vecs ∧ s'.mats = s.mats
  | .size o, a, s' => a = .dims (s.mats o).width (s.mats o).rows.length ∧ s' = s
  | .element_get o y x, a, s' => s' = s ∧
      (Valid y (s.mats o).rows.length ∧ Valid x (s.mats o).width →
        ∃ r c, (s.mats o).rows[y.toNat]? = some r ∧ r[x.toNat]? = some c ∧ a = .val c) ∧
      (¬(Valid y (s.mats o).rows.length ∧ Valid x (s.mats o).width) → a = .val 0)
  | .element_set o y x c, a, s' => a = .unit ∧
      (Valid y (s.mats o).rows.length ∧ Valid x (s.mats o).width →
        s' = s.putM o ⟨(s.mats o).width, (s.mats o).rows.modify y.toNat (·.set x.toNat c)⟩) ∧
      (¬(Valid y (s.mats o).rows.length ∧ Valid x (s.mats o).width) → s' = s)
  | .row_add o r, a, s' => a = .unit ∧ s' = s.putM o ((s.mats o).add r.length [r])
  | .row_add_mlpp_vector _ none, a, s' => a = .unit ∧ s' = s
  | .row_add_mlpp_vector o (some v), a, s' => a = .unit ∧ s' = s.putM o ((s.mats o).add (s.vecs v).length [s.vecs v])
  | .rows_add_mlpp_matrix _ none, a, s' => a = .unit ∧ s' = s
  | .rows_add_mlpp_matrix o (some p), a, s' => a = .unit ∧
      s' = s.putM o ((s.mats o).add (s.mats p).width (s.mats p).rows)
  | .row_remove o y, a, s' => a = .unit ∧
      (Valid y (s.mats o).rows.length → s' = s.putM o ⟨(s.mats o).width, (s.mats o).rows.eraseIdx y.toNat⟩) ∧
      (¬Valid y (s.mats o).rows.length → s' = s)
  | .row_remove_unordered o y, a, s' => a = .unit ∧
      (Valid y (s.mats o).rows.length → ∃ l, s' = s.putM o ⟨(s.mats o).width, l⟩ ∧ MovedLast (s.mats o).rows y.toNat l) ∧
      (¬Valid y (s.mats o).rows.length → s' = s)
  | .row_swap o y y', a, s' => a = .unit ∧
      (Valid y (s.mats o).rows.length ∧ Valid y' (s.mats o).rows.length →
        s' = s.putM o ⟨(s.mats o).width, swapRows (s.mats o).rows y.toNat y'.toNat⟩) ∧
      (¬(Valid y (s.mats o).rows.length ∧ Valid y' (s.mats o).rows.length) → s' = s)
  | .row_get_vector o y, a, s' => s' = s ∧
      (Valid y (s.mats o).rows.length → ∃ r, (s.mats o).rows[y.toNat]? = some r ∧ a = .list r) ∧
      (¬Valid y (s.mats o).rows.length → a = .list [])
  | .row_get_into_mlpp_vector _ _ none, a, s' => a = .unit ∧ s' = s
  | .row_get_into_mlpp_vector o y (some v), a, s' => a = .unit ∧
      (Valid y (s.mats o).rows.length → ∃ r, (s.mats o).rows[y.toNat]? = some r ∧ s' = s.putV v r) ∧
      (¬Valid y (s.mats o).rows.length → s' = s)
  | .row_set_vector o y r, a, s' => a = .unit ∧
      (r.length = (s.mats o).width ∧ Valid y (s.mats o).rows.length →
        s' = s.putM o ⟨(s.mats o).width, (s.mats o).rows.set y.toNat r⟩) ∧
      (¬(r.length = (s.mats o).width ∧ Valid y (s.mats o).rows.length) → s' = s)
  | .row_set_mlpp_vector _ _ none, a, s' => a = .unit ∧ s' = s
  | .row_set_mlpp_vector o y (some v), a, s' => a = .unit ∧
      ((s.vecs v).length = (s.mats o).width ∧ Valid y (s.mats o).rows.length →
        s' = s.putM o ⟨(s.mats o).width, (s.mats o).rows.set y.toNat (s.vecs v)⟩) ∧
      (¬((s.vecs v).length = (s.mats o).width ∧ Valid y (s.mats o).rows.length) → s' = s)
  | .fill o c, a, s' => a = .unit ∧ s' = s.putM o ⟨(s.mats o).width, (s.mats o).rows.map (·.map fun _ => c)⟩
  | .set_from _ none, a, s' => a = .unit ∧ s' = s
  | .set_from o (some p), a, s' => a = .unit ∧ s' = s.putM o (s.mats p)
  | .set_from_vectors o rs, a, s' => a = .unit ∧ ∃ w, s' = s.putM o ⟨w, rs⟩ ∧ (∀ r ∈ rs, r.length = w)
  | .clear o, a, s' => a = .unit ∧ s' = s.putM o ⟨0, []⟩
  -- the width survives a `reset()` of a matrix that has no rows
  | .reset o, a, s' => a = .unit ∧ s' = s.putM o ⟨if (s.mats o).rows = [] then (s.mats o).width else 0, []⟩
  -- the cells of a resized matrix are specified only if the width stays the same
  | .resize o cols rows, a, s' => a = .unit ∧ ∃ l, s' = s.putM o ⟨cols, l⟩ ∧ l.length = rows ∧
      (∀ r ∈ l, r.length = cols) ∧
      (cols = (s.mats o).width → ∀ k, k < (s.mats o).rows.length → k < rows → l[k]? = (s.mats o).rows[k]?)

/-- A history of calls, with the answers given. -/
inductive MRun [BEq R] [LT R] [Zero R] : MState R → List (MOp R) → List (MAns R) → MState R → Prop
  | nil (s) : MRun s [] [] s
  | cons {s s1 s2 op ops a as} : MRel s op a s1 → MRun s1 ops as s2 → MRun s (op :: ops) (a :: as) s2

end Verif.Spec
