import Verif.Props.KNN
import Verif.Model.KNNLife

/-! # Specification vocabulary for the life of a nearest-neighbours classifier -/

namespace Verif.Spec.KNNLife
open KNN
noncomputable section
variable {n m : Nat}

/-- What a user knows of an object: the inputs, the labels and the number `k` set last. -/
structure Known where
  input : Option Nat
  output : Option Nat
  k : Int

/-- What a call changes: a setter what it sets, a question nothing. -/
def knownBy (P : Known) : Call → Known
  | .set_input_set v => { P with input := v }
  | .set_output_set v => { P with output := v }
  | .set_k v => { P with k := v }
  | _ => P

/-- What a user knows of an object that was made empty, after a history of calls. -/
def known (hist : List Call) : Known := hist.foldl knownBy ⟨none, none, 0⟩

/-- The data: the rows of `A`, with the classes `t`, which are 32-bit integers. -/
def Data (h : Heap ℝ) (P : Known) (A : Matrix (Fin (m + 1)) (Fin n) ℝ) (t : Fin (m + 1) → ℤ) : Prop :=
  (∃ a, P.input = some a ∧ IsMat h a A ∧ h.live (.m a)) ∧ (∃ o, P.output = some o ∧ IsVec h o (fun i => (t i : ℝ)) ∧ h.live (.v o)) ∧
  ∀ i, -2147483648 ≤ t i ∧ t i < 2147483648

/-- What a call is given: a question is asked when there are data, about a vector or a matrix with the number of columns of the data. -/
def Admissible (h : Heap ℝ) (P : Known) : Call → Prop
  | .model_test x => ∃ (m n : Nat) (A : Matrix (Fin (m + 1)) (Fin n) ℝ) (t : Fin (m + 1) → ℤ) (o : Nat) (u : Fin n → ℝ), Data h P A t ∧ x = some (.v o) ∧ IsVec h o u ∧ h.live (.v o)
  | .model_set_test X => X = none ∨ ∃ (m n l : Nat) (A : Matrix (Fin (m + 1)) (Fin n) ℝ) (t : Fin (m + 1) → ℤ) (o : Nat) (B : Matrix (Fin l) (Fin n) ℝ),
      Data h P A t ∧ X = some o ∧ IsMat h o B ∧ h.live (.m o)
  | .score => ∃ (m n : Nat) (A : Matrix (Fin (m + 1)) (Fin n) ℝ) (t : Fin (m + 1) → ℤ), Data h P A t
  | _ => True

open Classical in
/-- The class `r` is what the code makes of the point `u`: there are different rows, nearest first, none of the other rows nearer than one of them, at most `k` and at most one
more than the rows that are nearer than row 0; and `r` is the first class with the most votes, in the sense of `votes`. -/
def Answer (k : Int) (A : Matrix (Fin (m + 1)) (Fin n) ℝ) (t : Fin (m + 1) → ℤ) (u : Fin n → ℝ) (r : ℤ) : Prop :=
  ∃ q : List (Fin (m + 1)), q.Nodup ∧ q.Pairwise (fun i j => dist2 u (A i) ≤ dist2 u (A j)) ∧ (∀ i ∈ q, ∀ j, j ∉ q → dist2 u (A i) ≤ dist2 u (A j)) ∧
    q.length = min k.toNat ((Finset.univ.filter fun j => dist2 u (A j) < dist2 u (A 0)).card + 1) ∧
    ∃ i, r = t i ∧ (∀ j, votes (q.map Fin.val) t (t j) ≤ votes (q.map Fin.val) t (t i)) ∧ ∀ j < i, votes (q.map Fin.val) t (t j) < votes (q.map Fin.val) t (t i)

end
end Verif.Spec.KNNLife
