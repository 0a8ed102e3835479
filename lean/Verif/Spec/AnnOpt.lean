import Verif.Spec.Ann
import Verif.Model.AnnOpt

/-! # Specification vocabulary for the adaptive training methods of networks -/

namespace Verif.Spec
noncomputable section
variable {n k : Nat}

/-- Something (`τ`) for every weight of a chain of hidden layers. -/
@[reducible] def Hid (τ : Type) : Nat → List Lay → Type
  | _, [] => Unit
  | k, u :: us => Matrix (Fin k) (Fin u.units) τ × Hid τ u.units us

/-- Something for every weight of a network. -/
abbrev Wts (τ : Type) (k : Nat) (us : List Lay) : Type := Hid τ k us × (Fin (width k us) → τ)

/-- Weight by weight. -/
def zipH {α β γ : Type} (f : α → β → γ) : {k : Nat} → (us : List Lay) → Hid α k us → Hid β k us → Hid γ k us
  | _, [], _, _ => ()
  | _, _ :: us, A, B => (fun i j => f (A.1 i j) (B.1 i j), zipH f us A.2 B.2)

/-- The weights of hidden layers, without the biases. -/
def weightsH : {k : Nat} → (us : List Lay) → Hiddens k us → Hid ℝ k us
  | _, [], _ => ()
  | _, _ :: us, H => (H.1.1, weightsH us H.2)

/-- The parameters `H` after `U` has been subtracted from the weights, and `c` times the gradient `G` from the biases. -/
def takeH (c : ℝ) : {k : Nat} → (us : List Lay) → Hiddens k us → Hid ℝ k us → Hiddens k us → Hiddens k us
  | _, [], _, _, _ => ()
  | _, _ :: us, H, U, G => ((fun i j => H.1.1 i j - U.1 i j, fun j => H.1.2 j - G.1.2 j * c), takeH c us H.2 U.2 G.2)

/-- The network after the updates `U` have been subtracted from the weights, and `c` times the gradient from the biases. -/
def take (c : ℝ) (us : List Lay) (N : Net k us) (U : Wts ℝ k us) (G : Net k us) : Net k us :=
  (takeH c us N.1 U.1 G.1, (fun j => N.2.1 j - U.2 j, N.2.2 - G.2.2 * c))

/-- A training method: what it remembers about a weight and its gradient make what it remembers next, and the update. -/
abbrev Rule (τ : Type) := τ → ℝ → τ × ℝ

/-- A step of a training method, with the rules `hid` for the weights of hidden layers and `out` for those of the output layer, on the samples `X`, `y`: the
network `N` and what is remembered, `S`, become `N'` and `S'`. For the biases it is a step of gradient descent of size `c`. -/
def Improves {τ : Type} (o : Top) (us : List Lay) (X : Matrix (Fin n) (Fin k) ℝ) (y : Fin n → ℝ) (c : ℝ) (hid out : Rule τ) (N : Net k us) (S : Wts τ k us)
    (N' : Net k us) (S' : Wts τ k us) : Prop :=
  ∃ G : Net k us, (SmoothNet o us X y N → NetGradient us (objective o us X y) N G) ∧
    N' = take c us N (zipH (fun s g => (hid s g).2) us S.1 (weightsH us G.1), fun j => (out (S.2 j) (G.2.1 j)).2) G ∧
    S' = (zipH (fun s g => (hid s g).1) us S.1 (weightsH us G.1), fun j => (out (S.2 j) (G.2.1 j)).1)

/-! ## The rules: `c` is the step size -/

/-- Momentum. -/
def heavyBall (γ c : ℝ) : Rule ℝ := fun v g => (γ * v + c * g, γ * v + c * g)
/-- Momentum; the weights have been moved by the last velocity before. -/
def lookAhead (γ c : ℝ) : Rule ℝ := fun v g => (γ * v + c * g, v + (γ * v + c * g))
/-- The sum of the squares of all gradients. -/
def sumSquares (ε c : ℝ) : Rule ℝ := fun v g => (v + g ^ 2, c * (g / (Real.sqrt (v + g ^ 2) + ε)))
/-- The decaying mean of the squares of the gradients. -/
def meanSquares (b ε c : ℝ) : Rule ℝ := fun v g => ((1 - b) * v + b * g ^ 2, c * (g / (Real.sqrt ((1 - b) * v + b * g ^ 2) + ε)))
/-- Adam with the maximum norm, in epoch `e`; `f` is the absolute value. -/
def maxNorm (f : ℝ → ℝ) (b1 b2 ε c : ℝ) (e : Nat) : Rule (ℝ × ℝ) := fun s g =>
  let m := b1 * s.1 + (1 - b1) * g
  let u := max (b2 * s.2) (f g)
  ((m, u), c * (m / (1 - b1 ^ e) / (u + ε)))
/-- Adam with Nesterov momentum, in epoch `e`. -/
def nesterov (b1 b2 ε c : ℝ) (e : Nat) : Rule (ℝ × ℝ) := fun s g =>
  let m := b1 * s.1 + (1 - b1) * g
  let v := b2 * s.2 + (1 - b2) * g ^ 2
  ((m, v), c * ((b1 * (m / (1 - b1 ^ e)) + (1 - b1) / (1 - b1 ^ e) * g) / (Real.sqrt (v / (1 - b2 ^ e)) + ε)))
/-- Adam with the largest second moment so far, and without correction. -/
def largest (b1 b2 ε c : ℝ) : Rule (ℝ × ℝ × ℝ) := fun s g =>
  let m := b1 * s.1 + (1 - b1) * g
  let v := b2 * s.2.1 + (1 - b2) * g ^ 2
  let w := max s.2.2 v
  ((m, v, w), c * (m / (Real.sqrt w + ε)))

end
end Verif.Spec

namespace Verif.Ann
open Spec
variable {k : Nat} {τ σ : Type}

/-! ## The objects that hold what is remembered -/

/-- A matrix of some size. -/
abbrev HidS (τ : Type) := Σ p q : Nat, Matrix (Fin p) (Fin q) τ

/-- `r` is the matrix `f` of `A`. -/
def HasE (h : Heap ℝ) (f : τ → ℝ) (r : Ref) (A : HidS τ) : Prop := HasM h r (fun i j => f (A.2.2 i j))

/-- The matrices `rs` are `f` of those of the list. -/
def HasL (h : Heap ℝ) (f : τ → ℝ) (rs : List Ref) (L : List (HidS τ)) : Prop := List.Forall₂ (HasE h f) rs L

/-- The matrices of the layers, the first first. -/
def hidList : {k : Nat} → (us : List Lay) → Hid τ k us → List (HidS τ)
  | _, [], _ => []
  | k, u :: us, A => ⟨k, u.units, A.1⟩ :: hidList us A.2

/-- The matrices of the layers `rs`, the last first, are `f` of `A`. -/
def HasH (h : Heap ℝ) (f : τ → ℝ) (us : List Lay) (rs : List Ref) (A : Hid τ k us) : Prop := HasL h f rs (hidList us A).reverse

/-- The vectors of the moments. -/
def outs (ms : List Moment) : List Ref := ms.map (·.output)

/-- The moments are the functions `fs` of what is remembered, `S`. -/
def Holds (h : Heap ℝ) (us : List Lay) (ms : List Moment) (fs : List (τ → ℝ)) (S : Wts τ k us) : Prop :=
  List.Forall₂ (fun m f => HasH h f us m.hidden S.1 ∧ HasV h m.output (fun j => f (S.2 j))) ms fs

/-- What is remembered next. -/
def nextW (hid out : Rule τ) (us : List Lay) (S : Wts τ k us) (G : Wts ℝ k us) : Wts τ k us :=
  (zipH (fun s g => (hid s g).1) us S.1 G.1, fun j => (out (S.2 j) (G.2 j)).1)

/-- The updates. -/
def moveW (hid out : Rule τ) (us : List Lay) (S : Wts τ k us) (G : Wts ℝ k us) : Wts ℝ k us :=
  (zipH (fun s g => (hid s g).2) us S.1 G.1, fun j => (out (S.2 j) (G.2 j)).2)

/-- The code `rule` does what the rules `hid` and `out` say. -/
def RuleOk (mem : σ → List Moment) (fs : List (τ → ℝ)) (rule : List Ref → Ref → σ → M ℝ (σ × List Ref × Ref)) (hid out : Rule τ) : Prop :=
  ∀ (k : Nat) (us : List Lay) (h : Heap ℝ) (st : σ) (S : Wts τ k us) (gs : List Ref) (g : Ref) (G : Wts ℝ k us), h.WF → Holds h us (mem st) fs S →
    (outs (mem st)).Nodup → HasH h id us gs G.1 → HasV h g G.2 → g ∉ outs (mem st) →
    Runs (rule gs g st) h fun r h' => h'.WF ∧ Keeps h h' (some · ∈ outs (mem st)) ∧ Holds h' us (mem r.1) fs (nextW hid out us S G) ∧
      HasH h' id us r.2.1 (moveW hid out us S G).1 ∧ HasV h' r.2.2 (moveW hid out us S G).2 ∧ (outs (mem r.1)).Nodup ∧
      (∀ q ∈ outs (mem r.1), q ∈ outs (mem st) ∨ NotIn h q) ∧ ∀ m ∈ mem r.1, ∀ q ∈ m.hidden, NotIn h q

end Verif.Ann
