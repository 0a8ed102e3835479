import Verif.Model.Gan
import Verif.Spec.Ann
import Verif.Spec.Glm

/-! # Specification vocabulary for adversarial networks -/

namespace Verif.Spec
noncomputable section
open Activation Finset
variable {n m k : Nat}

/-- `n` samples of noise with `k` features; the numbers drawn are `z`. -/
def noise (z : Noise) (n k : Nat) : Matrix (Fin n) (Fin k) ℝ := fun i j => z (i.val * k + j.val)

/-- The rows of `A`, then those of `B`. -/
def stack (A : Matrix (Fin n) (Fin k) ℝ) (B : Matrix (Fin m) (Fin k) ℝ) : Matrix (Fin (n + m)) (Fin k) ℝ := Fin.append A B

/-- The targets of the critic: −1 for the `n` samples made by the generator, 1 for the `n` real ones. -/
def signs (n : Nat) : Fin (n + n) → ℝ := Fin.append (fun _ => -1) (fun _ => 1)

/-! ## Parameters -/

/-- The parameters of the generator, of the layers `gs`, and of the critic, of the layers `ds` and the output layer. -/
abbrev Duo (k : Nat) (gs ds : List Lay) : Type := Hiddens k gs × Net (width k gs) ds

/-- New weights for all layers and a new bias of the output; the biases of the hidden layers stay. -/
def redrawnAll (g : Ann.Draws) (o : Top) (gs ds : List Lay) (P : Duo k gs ds) : Duo k gs ds :=
  (redrawnH g gs 0 P.1, redrawn (fun i => g (gs.length + i)) o ds P.2)

/-- The generated sample for a sample of noise. -/
def made (gs : List Lay) (G : Hiddens k gs) (Z : Matrix (Fin n) (Fin k) ℝ) : Matrix (Fin n) (Fin (width k gs)) ℝ := fun i => through gs G (Z i)

/-- What the generator minimises: the loss of the critic's opinions on the generated samples, if the targets are 1, and the penalties of its weights. -/
def deceit (o : Top) (gs ds : List Lay) (D : Net (width k gs) ds) (Z : Matrix (Fin n) (Fin k) ℝ) (G : Hiddens k gs) : ℝ :=
  ∑ i, sampleLoss o.cost (netAt o ds D (made gs G Z i)) 1 + penalties gs G

/-- The objective of the generator is differentiable as a composition of differentiable functions. -/
def SmoothDuo (o : Top) (gs ds : List Lay) (D : Net (width k gs) ds) (Z : Matrix (Fin n) (Fin k) ℝ) (G : Hiddens k gs) : Prop :=
  (∀ i, smoothH gs G (Z i)) ∧ SmoothNet o ds (made gs G Z) (fun _ => 1) D ∧ smoothPen gs G

/-- `M` is reached from `G` by a step of size `c` against the gradient of the objective of the generator (where it is differentiable). -/
def Deceives (o : Top) (gs ds : List Lay) (D : Net (width k gs) ds) (Z : Matrix (Fin n) (Fin k) ℝ) (c : ℝ) (G M : Hiddens k gs) : Prop :=
  ∃ Γ, (SmoothDuo o gs ds D Z G → ∀ V, HasDerivAt (fun t => deceit o gs ds D Z (moveH gs G t V)) (innerH gs Γ V) 0) ∧ M = moveH gs G (-c) Γ

/-- A step of the critic, with new noise and new weights: against the gradient of its loss at the generated samples, with the targets −1, and the real ones `R`,
with the targets 1. -/
def CriticStep (o : Top) (gs ds : List Lay) (R : Matrix (Fin n) (Fin (width k gs)) ℝ) (c : ℝ) (w : Noise × Ann.Draws) (P Q : Duo k gs ds) : Prop :=
  Q.1 = (redrawnAll w.2 o gs ds P).1 ∧
    Descends o ds (stack (made gs Q.1 (noise w.1 n k)) R) (signs n) c (redrawnAll w.2 o gs ds P).2 Q.2

/-- A step of the generator, with new noise and new weights. -/
def GeneratorStep (o : Top) (gs ds : List Lay) (n : Nat) (c : ℝ) (w : Noise × Ann.Draws) (P Q : Duo k gs ds) : Prop :=
  Q.2 = (redrawnAll w.2 o gs ds P).2 ∧ Deceives o gs ds Q.2 (noise w.1 n k) c (redrawnAll w.2 o gs ds P).1 Q.1

/-- An epoch: five steps of the critic, one of the generator, then new weights. -/
def Epoch (o : Top) (gs ds : List Lay) (R : Matrix (Fin n) (Fin (width k gs)) ℝ) (c : ℝ) (w : Wgan.Rolls) (P Q : Duo k gs ds) : Prop :=
  ∃ P1 P2, Chain (fun i => CriticStep o gs ds R c (w i)) 5 P P1 ∧ GeneratorStep o gs ds n c (w 5) P1 P2 ∧ Q = redrawnAll (w 6).2 o gs ds P2

/-! ## The objects -/

/-- The objects of the layers of a generator and a critic: the generator has half of the hidden layers and one more. -/
structure DuoIs (h : Heap ℝ) (ls : List HiddenLayer) (l : OutputLayer) (o : Top) (gs ds : List Lay) (P : Duo k gs ds) : Prop where
  wf : h.WF
  split : ∃ l1 l2, ls = l1 ++ l2 ∧ LayersAre h gs P.1 l1 ∧ LayersAre h ds P.2.1 l2
  half : gs.length = (gs.length + ds.length) / 2 + 1
  out : OutputIs h l o P.2.2
  apart : l.weights ∉ ls.map (·.bias)
  nodup : (written ls).Nodup

/-- The same, if the weights of the output layer have not been drawn yet; nothing is said about the parameters of the output layer. -/
structure DuoRaw (h : Heap ℝ) (ls : List HiddenLayer) (l : OutputLayer) (o : Top) (gs ds : List Lay) (P : Duo k gs ds) : Prop where
  wf : h.WF
  split : ∃ l1 l2, ls = l1 ++ l2 ∧ LayersAre h gs P.1 l1 ∧ LayersAre h ds P.2.1 l2
  half : gs.length = (gs.length + ds.length) / 2 + 1
  out : OutputRaw h l o (width (width k gs) ds)
  apart : l.weights ∉ ls.map (·.bias)
  nodup : (written ls).Nodup

/-- The objects of a GAN with `n` real samples. -/
structure GanReady (s : Gan) (h : Heap ℝ) (o : Top) (gs ds : List Lay) (n : Nat) (P : Duo k gs ds) : Prop where
  samples : s.n = n
  inputs : s.k = k
  layers : ∃ l, s.output_layer = some l ∧ DuoIs h s.network l o gs ds P

/-- The objects of a WGAN whose real samples are `R`; what is written is none of the others. -/
structure WganReady {q : Nat} (s : Wgan) (h : Heap ℝ) (o : Top) (gs ds : List Lay) (R : Matrix (Fin n) (Fin q) ℝ) (P : Duo k gs ds) : Prop where
  inputs : s.k = k
  output_set : HasM h s.output_set R
  y_hat : ∃ (m : Nat) (v : Fin m → ℝ), HasV h s.y_hat v
  layers : ∃ l, s.output_layer = some l ∧ DuoIs h s.network l o gs ds P ∧ s.y_hat ≠ l.weights
  apart : s.output_set ∉ written s.network
  apart' : s.y_hat ∉ s.network.map (·.bias)

/-- The same, if the weights of the output layer have not been drawn yet. -/
structure WganRaw {q : Nat} (s : Wgan) (h : Heap ℝ) (o : Top) (gs ds : List Lay) (R : Matrix (Fin n) (Fin q) ℝ) (P : Duo k gs ds) : Prop where
  inputs : s.k = k
  output_set : HasM h s.output_set R
  y_hat : ∃ (m : Nat) (v : Fin m → ℝ), HasV h s.y_hat v
  layers : ∃ l, s.output_layer = some l ∧ DuoRaw h s.network l o gs ds P ∧ s.y_hat ≠ l.weights
  apart : s.output_set ∉ written s.network
  apart' : s.y_hat ∉ s.network.map (·.bias)

/-! ## Building -/

/-- The objects of a hidden layer that has not been used yet: of any sizes. -/
structure Blank (h : Heap ℝ) (l : HiddenLayer) : Prop where
  weights : ∃ (p q : Nat) (A : Matrix (Fin p) (Fin q) ℝ), HasM h l.weights A
  bias : ∃ (p : Nat) (v : Fin p → ℝ), HasV h l.bias v
  z : ∃ (p q : Nat) (A : Matrix (Fin p) (Fin q) ℝ), HasM h l.z A
  apart : l.z ≠ l.weights

/-- The hidden layers `ls` have been added, as `us` says and with the parameters `H`; the last one shows what they made of `n` samples of noise. -/
structure Stacked (h : Heap ℝ) (ls : List HiddenLayer) (us : List Lay) (n : Nat) (H : Hiddens k us) : Prop where
  wf : h.WF
  hidden : LayersAre h us H ls
  last : ls ≠ [] → ∃ z : Noise, HasM h (Ann.lastOut none ls) (made us H (noise z n k))
  units : ls ≠ [] → Ann.lastUnits 0 ls = width k us
  nodup : (written ls).Nodup

/-- A GAN for `n` samples, without an output layer. -/
structure GanBuilt (s : Gan) (h : Heap ℝ) (us : List Lay) (n : Nat) (H : Hiddens k us) : Prop where
  samples : s.n = n
  inputs : s.k = k
  layers : Stacked h s.network us n H

/-- A WGAN with the real samples `R`, without an output layer. -/
structure WganBuilt {q : Nat} (s : Wgan) (h : Heap ℝ) (us : List Lay) (R : Matrix (Fin n) (Fin q) ℝ) (H : Hiddens k us) : Prop where
  inputs : s.k = k
  output_set : HasM h s.output_set R
  y_hat : ∃ (m : Nat) (v : Fin m → ℝ), HasV h s.y_hat v
  layers : Stacked h s.network us n H
  apart : s.output_set ∉ written s.network
  apart' : s.y_hat ∉ s.network.map (·.bias)

/-- The parameters of the layers `gs`, then those of the layers `ds`. -/
def joinH : {k : Nat} → (gs ds : List Lay) → Hiddens k gs → Hiddens (width k gs) ds → Hiddens k (gs ++ ds)
  | _, [], _, _, D => D
  | _, _ :: gs, ds, G, D => (G.1, joinH gs ds G.2 D)

end
end Verif.Spec
