import Verif.Model.Mann
import Verif.Spec.Ann

/-! # Specification vocabulary for networks with several outputs -/

namespace Verif.Spec
noncomputable section
open Activation Finset
variable {n k c p : Nat}

/-- The weights and biases of a network with `c` outputs. -/
abbrev MNet (k : Nat) (us : List Lay) (c : Nat) : Type := Hiddens k us × MParams (width k us) c

/-- The outputs of the network at `x`. -/
def mnetAt (o : Top) (us : List Lay) (N : MNet k us c) (x : Fin k → ℝ) : Fin c → ℝ :=
  applied o.act fun a => ∑ j, through us N.1 x j * N.2.1 j a + N.2.2 a

/-- The hidden layers have new weights, nothing else changes. -/
def mredrawn (g : Ann.Draws) (us : List Lay) (N : MNet k us c) : MNet k us c := (redrawnH g us 0 N.1, N.2)

/-- What is minimised, as a function of the parameters of the output layer, whose inputs are the rows of `A`: with softmax the cross entropy, else the
sum of the losses at all outputs. -/
def mLoss (o : Top) (A : Matrix (Fin n) (Fin p) ℝ) (Y : Matrix (Fin n) (Fin c) ℝ) (θ : MParams p c) : ℝ :=
  match o.act with
  | .softmax => softmaxLoss A Y θ
  | f => ∑ i, ∑ a, sampleLoss o.cost (normReal f (affine A θ i a)) (Y i a)

/-- Where it is differentiable; with softmax every row of `Y` is a distribution. -/
def mSmooth (o : Top) (A : Matrix (Fin n) (Fin p) ℝ) (Y : Matrix (Fin n) (Fin c) ℝ) (θ : MParams p c) : Prop :=
  match o.act with
  | .softmax => ∀ i, ∑ a, Y i a = 1
  | f => f ∉ [Fn.gelu, .arsech] ∧ ∀ i a, affine A θ i a ∈ smoothOn f ∧ lossSmooth o.cost (normReal f (affine A θ i a)) (Y i a)

/-- A step of size `s` of gradient descent on `mLoss` (where it is differentiable), followed by the decay of the weights. -/
def MStep (o : Top) (A : Matrix (Fin n) (Fin p) ℝ) (Y : Matrix (Fin n) (Fin c) ℝ) (s : ℝ) (θ θ' : MParams p c) : Prop :=
  ∃ (G : Matrix (Fin p) (Fin c) ℝ) (g : Fin c → ℝ), (mSmooth o A Y θ →
      Gradient (fun w => mLoss o A Y (fun i j => w (i, j), θ.2)) (cells θ.1) (cells G) ∧ Gradient (fun b => mLoss o A Y (θ.1, b)) θ.2 g) ∧
    θ' = (fun i j => decay o.reg o.lambda o.alpha (θ.1 i j - s * G i j), fun j => θ.2 j - s * g j)

/-- The activation functions and losses of the output layer for which networks work. -/
def Top.WorksM (o : Top) : Prop :=
  o.act = .softmax ∨ o.act ∉ [Fn.softmax, .adj_softmax, .swish, .mish, .softplus, .softsign, .cloglog, .artanh] ∧ o.cost ∉ [Cost.Kind.rmse, .mae, .mbe]

/-- The objects of the output layer. -/
structure MultiIs (h : Heap ℝ) (l : MultiOutputLayer) (o : Top) (θ : MParams p c) : Prop where
  act : l.activation = o.act
  cost : l.cost = o.cost
  reg : l.reg = o.reg
  lambda : l.lambda = o.lambda
  alpha : l.alpha = o.alpha
  weights : HasM h l.weights θ.1
  bias : HasV h l.bias θ.2

/-- The objects of a network: the data are `X` and `Y`, the parameters `N`; what is written is none of the others. -/
structure MannReady (s : Mann) (h : Heap ℝ) (o : Top) (us : List Lay) (X : Matrix (Fin n) (Fin k) ℝ) (Y : Matrix (Fin n) (Fin c) ℝ) (N : MNet k us c) :
    Prop where
  wf : h.WF
  samples : s.n = n
  init : s.initialized = true
  input_set : HasM h s.input_set X
  output_set : HasM h s.output_set Y
  hidden : LayersAre h us N.1 s.network
  top : ∃ l, s.output_layer = some l ∧ MultiIs h l o N.2 ∧ l.weights ∉ written s.network
  apart : (s.input_set :: written s.network).Nodup
  apart' : s.output_set ∉ written s.network

/-- After training: the parameters are `N`, the object shows its predictions; only layers have changed, and of the existing objects only those of the
hidden layers. -/
structure MannTrained (s : Mann) (h : Heap ℝ) (s' : Mann) (h' : Heap ℝ) (o : Top) (us : List Lay) (X : Matrix (Fin n) (Fin k) ℝ)
    (Y : Matrix (Fin n) (Fin c) ℝ) (N : MNet k us c) : Prop where
  ready : MannReady s' h' o us X Y N
  shows : HasM h' s'.y_hat (fun i => mnetAt o us N (X i))
  same : s' = { s with network := s'.network, output_layer := s'.output_layer, y_hat := s'.y_hat }
  settled : ∀ l ∈ s'.network, l.initialized = true
  keeps : Keeps h h' (fun c => some c ∈ written s.network)

/-- A network whose hidden layers, as `us` says, have been added; `H` are their parameters. -/
structure MannBuilt (s : Mann) (h : Heap ℝ) (us : List Lay) (X : Matrix (Fin n) (Fin k) ℝ) (Y : Matrix (Fin n) (Fin c) ℝ) (H : Hiddens k us) : Prop where
  wf : h.WF
  samples : s.n = n
  inputs : s.k = k
  outputs : s.n_output = c
  init : s.initialized = true
  input_set : HasM h s.input_set X
  output_set : HasM h s.output_set Y
  hidden : LayersAre h us H s.network
  last : HasM h (Ann.lastOut s.input_set s.network) (fun i => through us H (X i))
  units : Ann.lastUnits s.k s.network = width k us
  apart : (s.input_set :: written s.network).Nodup
  apart' : Ann.lastOut s.input_set s.network ∉ written s.network
  apart'' : s.output_set ∉ written s.network
  settled : ∀ l ∈ s.network, l.initialized = true

end
end Verif.Spec
