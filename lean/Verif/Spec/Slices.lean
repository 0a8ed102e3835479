import Verif.Spec.Vector

/-!
# Specification of `MLPPTensor3` as a list of z slices

Nothing here refers to the model. A tensor is a number of columns, a number of rows and a list of slices; a slice is the
list of its cells, row by row. Histories read and write vectors and matrices too.
-/

namespace Verif.Spec
variable {R : Type}

/-- Columns, rows, slices. -/
structure Stack (R : Type) where
  cols : Nat
  rows : Nat
  slices : List (List R)

/-- Columns, rows, cells (row by row) of a matrix. -/
structure Plane (R : Type) where
  cols : Nat
  rows : Nat
  cells : List R

/-- Contents of all tensors, matrices and vectors. -/
structure TState (R : Type) where
  tens : Nat → Stack R
  mats : Nat → Plane R
  vecs : Nat → List R

def TState.putT (s : TState R) (o : Nat) (t : Stack R) : TState R := { s with tens := fun k => if k = o then t else s.tens k }
def TState.putM (s : TState R) (o : Nat) (p : Plane R) : TState R := { s with mats := fun k => if k = o then p else s.mats k }
def TState.putV (s : TState R) (o : Nat) (l : List R) : TState R := { s with vecs := fun k => if k = o then l else s.vecs k }

/-- Calls. `o`, `p` name tensors, `m` matrices, `v` vectors (`none` = null handle); positions are arbitrary integers. -/
inductive TOp (R : Type) where
  | size (o : Nat)
  | element_get (o : Nat) (z y x : Int)
  | element_set (o : Nat) (z y x : Int) (a : R)
  | z_slice_add (o : Nat) (l : List R)
  | z_slice_add_mlpp_vector (o : Nat) (v : Option Nat)
  | z_slice_add_mlpp_matrix (o : Nat) (m : Option Nat)
  | z_slice_remove (o : Nat) (z : Int)
  | z_slice_remove_unordered (o : Nat) (z : Int)
  | z_slice_swap (o : Nat) (z z' : Int)
  | z_slice_get_vector (o : Nat) (z : Int)
  | z_slice_get_into_mlpp_vector (o : Nat) (z : Int) (v : Option Nat)
  | z_slice_get_into_mlpp_matrix (o : Nat) (z : Int) (m : Option Nat)
  | z_slice_set_vector (o : Nat) (z : Int) (l : List R)
  | z_slice_set_mlpp_vector (o : Nat) (z : Int) (v : Option Nat)
  | z_slice_set_mlpp_matrix (o : Nat) (z : Int) (m : Option Nat)
  | row_get (o : Nat) (z y : Int)
  | row_get_into_mlpp_vector (o : Nat) (z y : Int) (v : Option Nat)
  | row_set_vector (o : Nat) (z y : Int) (l : List R)
  | row_set_mlpp_vector (o : Nat) (z y : Int) (v : Option Nat)
  | fill (o : Nat) (a : R)
  | set_from_tensor (o : Nat) (p : Option Nat)
  | set_from_matrix (o : Nat) (m : Option Nat)
  | clear (o : Nat)
  | reset (o : Nat)
  | resize (o : Nat) (cols rows depth : Nat)
  | shape_set (o : Nat) (cols rows depth : Nat)

/-- The calls the class handles correctly: `z_slice_remove_unordered` not beyond the first slice, no null target for the
two `z_slice_get_into_*`. -/
def TOp.ok : TOp R → Prop
  | .z_slice_remove_unordered _ z => z ≤ 0
  | .z_slice_get_into_mlpp_vector _ _ v => v ≠ none
  | .z_slice_get_into_mlpp_matrix _ _ m => m ≠ none
  | _ => True

/-- The tensor a call may change. -/
def TOp.target : TOp R → Option Nat
  | .size _ | .element_get _ _ _ _ | .z_slice_get_vector _ _ | .z_slice_get_into_mlpp_vector _ _ _
  | .z_slice_get_into_mlpp_matrix _ _ _ | .row_get _ _ _ | .row_get_into_mlpp_vector _ _ _ _ => none
  | .element_set o _ _ _ _ | .z_slice_add o _ | .z_slice_add_mlpp_vector o _ | .z_slice_add_mlpp_matrix o _
  | .z_slice_remove o _ | .z_slice_remove_unordered o _ | .z_slice_swap o _ _ | .z_slice_set_vector o _ _
  | .z_slice_set_mlpp_vector o _ _ | .z_slice_set_mlpp_matrix o _ _ | .row_set_vector o _ _ _
  | .row_set_mlpp_vector o _ _ _ | .fill o _ | .set_from_tensor o _ | .set_from_matrix o _ | .clear o | .reset o
  | .resize o _ _ _ | .shape_set o _ _ _ => some o

/-- What a call returns. -/
inductive TAns (R : Type) where
  | unit
  | dims (cols rows depth : Nat)
  | val (x : R)
  | list (xs : List R)

/-- The cell `(z, y, x)` exists. -/
def Stack.has (t : Stack R) (z y x : Int) : Prop := Valid z t.slices.length ∧ Valid y t.rows ∧ Valid x t.cols
/-- The row `(z, y)` exists. -/
def Stack.hasRow (t : Stack R) (z y : Int) : Prop := Valid z t.slices.length ∧ Valid y t.rows

/-- Row `y` of a slice of width `c`. -/
def rowOf (c : Nat) (slice : List R) (y : Nat) : List R := (slice.drop (y * c)).take c
/-- Row `y` of a slice of width `c` replaced. -/
def withRow (c : Nat) (slice : List R) (y : Nat) (r : List R) : List R := slice.take (y * c) ++ r ++ slice.drop ((y + 1) * c)

/-- Slices `i` and `j` exchanged. -/
def swapSlices (l : List (List R)) (i j : Nat) : List (List R) := (l.set i (l.getD j [])).set j (l.getD i [])

/-- Adding a slice with the cells `l` at the end: only if it has the right number of cells, and at least one. -/
def Stack.add (t : Stack R) (l : List R) : Stack R :=
  if l ≠ [] ∧ l.length = t.cols * t.rows then ⟨t.cols, t.rows, t.slices ++ [l]⟩ else t

/-- One call. -/
def TRel [Zero R] (s : TState R) : TOp R → TAns R → TState R → Prop
  | .size o, a, s' => a = .dims (s.tens o).cols (s.tens o).rows (s.tens o).slices.length ∧ s' = s
  | .element_get o z y x, a, s' => s' = s ∧
      ((s.tens o).has z y x → ∃ l c, (s.tens o).slices[z.toNat]? = some l ∧
        (rowOf (s.tens o).cols l y.toNat)[x.toNat]? = some c ∧ a = .val c) ∧
      (¬(s.tens o).has z y x → a = .val 0)
  | .element_set o z y x c, a, s' => a = .unit ∧
      ((s.tens o).has z y x → s' = s.putT o ⟨(s.tens o).cols, (s.tens o).rows,
        (s.tens o).slices.modify z.toNat (·.set (y.toNat * (s.tens o).cols + x.toNat) c)⟩) ∧
      (¬(s.tens o).has z y x → s' = s)
  | .z_slice_add o l, a, s' => a = .unit ∧ s' = s.putT o ((s.tens o).add l)
  | .z_slice_add_mlpp_vector _ none, a, s' => a = .unit ∧ s' = s
  | .z_slice_add_mlpp_vector o (some v), a, s' => a = .unit ∧ s' = s.putT o ((s.tens o).add (s.vecs v))
  | .z_slice_add_mlpp_matrix _ none, a, s' => a = .unit ∧ s' = s
  | .z_slice_add_mlpp_matrix o (some m), a, s' => a = .unit ∧
      ((s.mats m).cols = (s.tens o).cols ∧ (s.mats m).rows = (s.tens o).rows →
        s' = s.putT o ((s.tens o).add (s.mats m).cells)) ∧
      (¬((s.mats m).cols = (s.tens o).cols ∧ (s.mats m).rows = (s.tens o).rows) → s' = s)
  | .z_slice_remove o z, a, s' => a = .unit ∧
      (Valid z (s.tens o).slices.length →
        s' = s.putT o ⟨(s.tens o).cols, (s.tens o).rows, (s.tens o).slices.eraseIdx z.toNat⟩) ∧
      (¬Valid z (s.tens o).slices.length → s' = s)
  | .z_slice_remove_unordered o z, a, s' => a = .unit ∧
      (Valid z (s.tens o).slices.length → ∃ l, s' = s.putT o ⟨(s.tens o).cols, (s.tens o).rows, l⟩ ∧
        MovedLast (s.tens o).slices z.toNat l) ∧
      (¬Valid z (s.tens o).slices.length → s' = s)
  | .z_slice_swap o z z', a, s' => a = .unit ∧
      (Valid z (s.tens o).slices.length ∧ Valid z' (s.tens o).slices.length →
        s' = s.putT o ⟨(s.tens o).cols, (s.tens o).rows, swapSlices (s.tens o).slices z.toNat z'.toNat⟩) ∧
      (¬(Valid z (s.tens o).slices.length ∧ Valid z' (s.tens o).slices.length) → s' = s)
  | .z_slice_get_vector o z, a, s' => s' = s ∧
      (Valid z (s.tens o).slices.length → ∃ l, (s.tens o).slices[z.toNat]? = some l ∧ a = .list l) ∧
      (¬Valid z (s.tens o).slices.length → a = .list [])
  | .z_slice_get_into_mlpp_vector _ _ none, a, s' => a = .unit ∧ s' = s
  | .z_slice_get_into_mlpp_vector o z (some v), a, s' => a = .unit ∧
      (Valid z (s.tens o).slices.length → ∃ l, (s.tens o).slices[z.toNat]? = some l ∧ s' = s.putV v l) ∧
      (¬Valid z (s.tens o).slices.length → s' = s)
  | .z_slice_get_into_mlpp_matrix _ _ none, a, s' => a = .unit ∧ s' = s
  | .z_slice_get_into_mlpp_matrix o z (some m), a, s' => a = .unit ∧
      (Valid z (s.tens o).slices.length → ∃ l, (s.tens o).slices[z.toNat]? = some l ∧
        s' = s.putM m ⟨(s.tens o).cols, (s.tens o).rows, l⟩) ∧
      (¬Valid z (s.tens o).slices.length → s' = s)
  | .z_slice_set_vector o z l, a, s' => a = .unit ∧
      (Valid z (s.tens o).slices.length ∧ l.length = (s.tens o).cols * (s.tens o).rows →
        s' = s.putT o ⟨(s.tens o).cols, (s.tens o).rows, (s.tens o).slices.set z.toNat l⟩) ∧
      (¬(Valid z (s.tens o).slices.length ∧ l.length = (s.tens o).cols * (s.tens o).rows) → s' = s)
  | .z_slice_set_mlpp_vector _ _ none, a, s' => a = .unit ∧ s' = s
  | .z_slice_set_mlpp_vector o z (some v), a, s' => a = .unit ∧
      (Valid z (s.tens o).slices.length ∧ (s.vecs v).length = (s.tens o).cols * (s.tens o).rows →
        s' = s.putT o ⟨(s.tens o).cols, (s.tens o).rows, (s.tens o).slices.set z.toNat (s.vecs v)⟩) ∧
      (¬(Valid z (s.tens o).slices.length ∧ (s.vecs v).length = (s.tens o).cols * (s.tens o).rows) → s' = s)
  | .z_slice_set_mlpp_matrix _ _ none, a, s' => a = .unit ∧ s' = s
  | .z_slice_set_mlpp_matrix o z (some m), a, s' => a = .unit ∧
      (Valid z (s.tens o).slices.length ∧ (s.mats m).cols = (s.tens o).cols ∧ (s.mats m).rows = (s.tens o).rows →
        s' = s.putT o ⟨(s.tens o).cols, (s.tens o).rows, (s.tens o).slices.set z.toNat (s.mats m).cells⟩) ∧
      (¬(Valid z (s.tens o).slices.length ∧ (s.mats m).cols = (s.tens o).cols ∧ (s.mats m).rows = (s.tens o).rows) →
        s' = s)
  | .row_get o z y, a, s' => s' = s ∧
      ((s.tens o).hasRow z y → ∃ l, (s.tens o).slices[z.toNat]? = some l ∧ a = .list (rowOf (s.tens o).cols l y.toNat)) ∧
      (¬(s.tens o).hasRow z y → a = .list [])
  | .row_get_into_mlpp_vector _ _ _ none, a, s' => a = .unit ∧ s' = s
  | .row_get_into_mlpp_vector o z y (some v), a, s' => a = .unit ∧
      ((s.tens o).hasRow z y → ∃ l, (s.tens o).slices[z.toNat]? = some l ∧
        s' = s.putV v (rowOf (s.tens o).cols l y.toNat)) ∧
      (¬(s.tens o).hasRow z y → s' = s)
  | .row_set_vector o z y r, a, s' => a = .unit ∧
      ((s.tens o).hasRow z y ∧ r.length = (s.tens o).cols → s' = s.putT o ⟨(s.tens o).cols, (s.tens o).rows,
        (s.tens o).slices.modify z.toNat (withRow (s.tens o).cols · y.toNat r)⟩) ∧
      (¬((s.tens o).hasRow z y ∧ r.length = (s.tens o).cols) → s' = s)
  | .row_set_mlpp_vector _ _ _ none, a, s' => a = .unit ∧ s' = s
  | .row_set_mlpp_vector o z y (some v), a, s' => a = .unit ∧
      ((s.tens o).hasRow z y ∧ (s.vecs v).length = (s.tens o).cols → s' = s.putT o ⟨(s.tens o).cols, (s.tens o).rows,
        (s.tens o).slices.modify z.toNat (withRow (s.tens o).cols · y.toNat (s.vecs v))⟩) ∧
      (¬((s.tens o).hasRow z y ∧ (s.vecs v).length = (s.tens o).cols) → s' = s)
  | .fill o c, a, s' => a = .unit ∧
      s' = s.putT o ⟨(s.tens o).cols, (s.tens o).rows, (s.tens o).slices.map (·.map fun _ => c)⟩
  | .set_from_tensor _ none, a, s' => a = .unit ∧ s' = s
  | .set_from_tensor o (some p), a, s' => a = .unit ∧ s' = s.putT o (s.tens p)
  | .set_from_matrix _ none, a, s' => a = .unit ∧ s' = s
  | .set_from_matrix o (some m), a, s' => a = .unit ∧
      s' = s.putT o ⟨(s.mats m).cols, (s.mats m).rows, [(s.mats m).cells]⟩
  | .clear o, a, s' => a = .unit ∧ s' = s.putT o ⟨0, 0, []⟩
  -- a tensor without cells keeps its extents
  | .reset o, a, s' => a = .unit ∧
      s' = s.putT o (if (s.tens o).slices.flatten = [] then s.tens o else ⟨0, 0, []⟩)
  -- cells keep their position in the sequence of all cells; new ones are arbitrary
  | .resize o c r d, a, s' => a = .unit ∧ ∃ l, s' = s.putT o ⟨c, r, l⟩ ∧ l.length = d ∧ (∀ x ∈ l, x.length = c * r) ∧
      ∀ k, k < (s.tens o).slices.flatten.length → k < l.flatten.length →
        l.flatten[k]? = (s.tens o).slices.flatten[k]?
  -- the sequence of all cells stays the same
  | .shape_set o c r d, a, s' => a = .unit ∧
      ((s.tens o).cols * (s.tens o).rows * (s.tens o).slices.length = c * r * d →
        ∃ l, s' = s.putT o ⟨c, r, l⟩ ∧ l.length = d ∧ (∀ x ∈ l, x.length = c * r) ∧
          l.flatten = (s.tens o).slices.flatten) ∧
      (¬((s.tens o).cols * (s.tens o).rows * (s.tens o).slices.length = c * r * d) → s' = s)

/-- A history of calls, with the answers given. -/
inductive TRun [Zero R] : TState R → List (TOp R) → List (TAns R) → TState R → Prop
  | nil (s) : TRun s [] [] s
  | cons {s s1 s2 op ops a as} : TRel s op a s1 → TRun s1 ops as s2 → TRun s (op :: ops) (a :: as) s2

end Verif.Spec
