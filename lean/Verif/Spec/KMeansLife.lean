import Verif.Spec.KMeans
import Verif.Model.KMeansLife

/-! # Specification vocabulary for the life of a k-means object -/

namespace Verif.Spec.KMeansLife
open KMeans
noncomputable section
variable {n d k : Nat}

/-- What a user knows of an object after some calls: the data and the number of clusters set last; the rows drawn for the centroids and the number of turns of training
since they were drawn, `none` if they are not drawn. -/
structure Progress where
  input : Ref
  k : Nat
  drawn : Option ((Nat → Int) × ℕ)

/-- What a call changes: a setter asks for new centroids; `initialize` draws them; `train(e)` draws them if this was not done, and then makes `max(e, 1)` turns; the
other calls change nothing. Without data no call does anything but the setters. -/
def progressBy (P : Progress) : Call → Progress
  | .set_input_set v => ⟨v, P.k, none⟩
  | .set_k v => ⟨P.input, v, none⟩
  | .set_mean_type _ => ⟨P.input, P.k, none⟩
  | .initialise pick => if P.input = none then P else ⟨P.input, P.k, some (pick, 0)⟩
  | .train e pick =>
    if P.input = none then P
    else match P.drawn with
      | none => ⟨P.input, P.k, some (pick, max e.toNat 1)⟩
      | some (pick', t) => ⟨P.input, P.k, some (pick', t + max e.toNat 1)⟩
  | .model_test _ | .model_set_test _ | .score => P

/-- What a user knows after a history of calls. -/
def progress (hist : List Call) : Progress := hist.foldl progressBy ⟨none, 0, none⟩

/-- `C` are the centroids after `t` turns of training, if the rows `pick` of the data `X` were drawn. In a turn the points are assigned to clusters (see `Carried`); if
there are as many clusters as columns, the centroids are then moved to the means of their points (see C112). -/
inductive Turned (X : Matrix (Fin n) (Fin d) ℝ) (pick : Nat → Int) : ℕ → Matrix (Fin k) (Fin d) ℝ → Prop
  | start (C : Matrix (Fin k) (Fin d) ℝ) (row : ∀ i : Fin k, ∃ a : Fin n, (a.val : Int) = pick i.val ∧ C i = X a) : Turned X pick 0 C
  | turn {t : ℕ} {C C' : Matrix (Fin k) (Fin d) ℝ} (before : Turned X pick t C) (c : Fin n → Fin k) (assigned : Carried X C c)
      (moved : k = d → Means X c C') (kept : k ≠ d → C' = C) : Turned X pick (t + 1) C'

/-- What a call is given, on an object of which `P` is known: data, in existence before the object was made, with any numbers of rows and columns; at least one cluster;
random centroids, drawn from the rows of the data; a vector or matrix to test, of as many columns as the data. The memberships that `score` and `model_set_test` use are
there only after a turn of training. -/
def Admissible (h : Heap ℝ) (P : Progress) : Call → Prop
  | .set_input_set v => v = none ∨ ∃ (n d : Nat) (X : Matrix (Fin n) (Fin d) ℝ), HasM h v X
  | .set_k v => 0 < v
  | .set_mean_type v => v = .centroid
  | .initialise pick => ∀ (n d : Nat) (X : Matrix (Fin n) (Fin d) ℝ), HasM h P.input X → ∀ i, 0 ≤ pick i ∧ pick i < n
  | .train _ pick => P.input = none ∨ 0 < P.k ∧ ∀ (n d : Nat) (X : Matrix (Fin n) (Fin d) ℝ), HasM h P.input X → ∀ i, 0 ≤ pick i ∧ pick i < n
  | .model_test x => x = none ∨ P.drawn = none ∨ 0 < P.k ∧ ∀ (n d : Nat) (X : Matrix (Fin n) (Fin d) ℝ), HasM h P.input X → ∃ v : Fin d → ℝ, HasV h x v
  | .model_set_test Z => Z = none ∨ P.drawn = none ∨ (∃ pick t, P.drawn = some (pick, t) ∧ 0 < t) ∧ ∀ (n d : Nat) (X : Matrix (Fin n) (Fin d) ℝ), HasM h P.input X →
      ∃ (m : Nat) (V : Matrix (Fin m) (Fin d) ℝ), 0 < m ∧ HasM h Z V
  | .score => P.drawn = none ∨ ∃ pick t, P.drawn = some (pick, t) ∧ 0 < t

/-- Every call of the history is given what it needs. -/
def AllAdmissible (h : Heap ℝ) (hist : List Call) : Prop :=
  ∀ before c after, hist = before ++ c :: after → Admissible h (progress before) c

end
end Verif.Spec.KMeansLife
