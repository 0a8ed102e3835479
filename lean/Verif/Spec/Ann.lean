import Verif.Model.Ann
import Verif.Spec.Layers
import Verif.Spec.Cost

/-! # Specification vocabulary for networks of any depth -/

namespace Verif.Spec
noncomputable section
open Activation Finset
variable {n k : Nat}

/-- What is fixed about a hidden layer. -/
structure Lay where
  units : Nat
  act : Fn
  init : Utilities.Kind
  reg : Reg.Kind
  lambda : ℝ
  alpha : ℝ

/-- What is fixed about the output layer. -/
structure Top where
  act : Fn
  cost : Cost.Kind
  init : Utilities.Kind
  reg : Reg.Kind
  lambda : ℝ
  alpha : ℝ

/-- The number of outputs of a chain of hidden layers with `k` inputs. -/
@[reducible] def width : Nat → List Lay → Nat
  | k, [] => k
  | _, u :: us => width u.units us

/-- The weights and biases of a chain of hidden layers. -/
@[reducible] def Hiddens : Nat → List Lay → Type
  | _, [] => Unit
  | k, u :: us => MParams k u.units × Hiddens u.units us

/-- The weights and biases of a network. -/
abbrev Net (k : Nat) (us : List Lay) : Type := Hiddens k us × Params (width k us)

/-- What the hidden layers make of an input. -/
def through : {k : Nat} → (us : List Lay) → Hiddens k us → (Fin k → ℝ) → Fin (width k us) → ℝ
  | _, [], _, x => x
  | _, u :: us, H, x => through us H.2 (applied u.act fun a => ∑ j, x j * H.1.1 j a + H.1.2 a)

/-- The values inside every hidden layer with adj_softmax fit into `int`. -/
def allFit : {k : Nat} → (us : List Lay) → Hiddens k us → (Fin k → ℝ) → Prop
  | _, [], _, _ => True
  | _, u :: us, H, x => FitsInt u.act (fun a => ∑ j, x j * H.1.1 j a + H.1.2 a) ∧ allFit us H.2 (applied u.act fun a => ∑ j, x j * H.1.1 j a + H.1.2 a)

/-- The output of the network at `x`. -/
def netAt (o : Top) (us : List Lay) (N : Net k us) (x : Fin k → ℝ) : ℝ := normReal o.act (∑ j, through us N.1 x j * N.2.1 j + N.2.2)

/-! ## Draws -/

/-- The hidden layers with new weights and the same biases; `i` is the number of the first. -/
def redrawnH (g : Ann.Draws) : {k : Nat} → (us : List Lay) → Nat → Hiddens k us → Hiddens k us
  | _, [], _, H => H
  | k, u :: us, i, H => ((drawnM (g i).1 u.init k u.units, H.1.2), redrawnH g us (i + 1) H.2)

/-- The network with new weights, a new bias of the output and the same biases of the hidden layers. -/
def redrawn (g : Ann.Draws) (o : Top) (us : List Lay) (N : Net k us) : Net k us :=
  (redrawnH g us 0 N.1, (drawnV (g us.length).1 o.init (width k us), (g us.length).2.u 0))

/-! ## The objective -/

/-- The loss at one sample. -/
def sampleLoss : Cost.Kind → ℝ → ℝ → ℝ
  | .mse, p, y => (p - y) ^ 2 / 2
  | .mbe, p, y => p - y
  | .logistic_loss, p, y => -(y * Real.log p + (1 - y) * Real.log (1 - p))
  | .cross_entropy, p, y => -(y * Real.log p)
  | .hinge_loss, p, y => max 0 (1 - y * p)
  | .wasserstein_loss, p, y => -(p * y)
  | .rmse, _, _ => 0
  | .mae, _, _ => 0

/-- Where the loss is differentiable. -/
def lossSmooth : Cost.Kind → ℝ → ℝ → Prop
  | .mse, _, _ | .mbe, _, _ | .wasserstein_loss, _, _ => True
  | .logistic_loss, p, _ => 0 < p ∧ p < 1
  | .cross_entropy, p, _ => 0 < p
  | .hinge_loss, p, y => y * p ≠ 1
  | .rmse, _, _ | .mae, _, _ => False

/-- The penalty of one weight. -/
def weightPenalty (r : Reg.Kind) (l al x : ℝ) : ℝ :=
  match r with
  | .ridge => l / 2 * x ^ 2
  | .lasso => l * |x|
  | .elastic_net => l * (al * |x| + (1 - al) / 2 * x ^ 2)
  | .none | .weight_clipping => 0

/-- Where the penalty is differentiable; weight clipping is no penalty. -/
def penaltySmooth (r : Reg.Kind) (x : ℝ) : Prop :=
  match r with
  | .ridge | .none => True
  | .lasso | .elastic_net => x ≠ 0
  | .weight_clipping => False

/-- The penalties of the hidden layers. -/
def penalties : {k : Nat} → (us : List Lay) → Hiddens k us → ℝ
  | _, [], _ => 0
  | _, u :: us, H => ∑ i, ∑ j, weightPenalty u.reg u.lambda u.alpha (H.1.1 i j) + penalties us H.2

/-- The sum of the losses at the samples and of the penalties of all weights. -/
def objective (o : Top) (us : List Lay) (X : Matrix (Fin n) (Fin k) ℝ) (y : Fin n → ℝ) (N : Net k us) : ℝ :=
  ∑ i, sampleLoss o.cost (netAt o us N (X i)) (y i) + penalties us N.1 + ∑ j, weightPenalty o.reg o.lambda o.alpha (N.2.1 j)

/-! ## Directions and gradients -/

/-- `H + t · D`. -/
def moveH : {k : Nat} → (us : List Lay) → Hiddens k us → ℝ → Hiddens k us → Hiddens k us
  | _, [], H, _, _ => H
  | _, _ :: us, H, t, D => ((fun i j => H.1.1 i j + t * D.1.1 i j, fun j => H.1.2 j + t * D.1.2 j), moveH us H.2 t D.2)

/-- `N + t · D`. -/
def move (us : List Lay) (N : Net k us) (t : ℝ) (D : Net k us) : Net k us :=
  (moveH us N.1 t D.1, (fun j => N.2.1 j + t * D.2.1 j, N.2.2 + t * D.2.2))

/-- The sum of the products of corresponding parameters. -/
def innerH : {k : Nat} → (us : List Lay) → Hiddens k us → Hiddens k us → ℝ
  | _, [], _, _ => 0
  | _, _ :: us, G, D => ∑ i, ∑ j, G.1.1 i j * D.1.1 i j + ∑ j, G.1.2 j * D.1.2 j + innerH us G.2 D.2

/-- The same for networks. -/
def inner (us : List Lay) (G D : Net k us) : ℝ := innerH us G.1 D.1 + (∑ j, G.2.1 j * D.2.1 j + G.2.2 * D.2.2)

/-- `G` is the gradient of `f` at `N`: the derivative in every direction `D` is `⟨G, D⟩`. -/
def NetGradient (us : List Lay) (f : Net k us → ℝ) (N G : Net k us) : Prop :=
  ∀ D, HasDerivAt (fun t => f (move us N t D)) (inner us G D) 0

/-- The values before the activation functions of the hidden layers are where these are differentiable. -/
def smoothH : {k : Nat} → (us : List Lay) → Hiddens k us → (Fin k → ℝ) → Prop
  | _, [], _, _ => True
  | _, u :: us, H, x => u.act ∉ [Fn.gelu, .arsech] ∧ (∀ a, ∑ j, x j * H.1.1 j a + H.1.2 a ∈ smoothOn u.act) ∧
      smoothH us H.2 (applied u.act fun a => ∑ j, x j * H.1.1 j a + H.1.2 a)

/-- The weights of the hidden layers are where the penalties are differentiable. -/
def smoothPen : {k : Nat} → (us : List Lay) → Hiddens k us → Prop
  | _, [], _ => True
  | _, u :: us, H => (∀ i j, penaltySmooth u.reg (H.1.1 i j)) ∧ smoothPen us H.2

/-- The objective is differentiable at `N` as a composition of differentiable functions. -/
def SmoothNet (o : Top) (us : List Lay) (X : Matrix (Fin n) (Fin k) ℝ) (y : Fin n → ℝ) (N : Net k us) : Prop :=
  (∀ i, smoothH us N.1 (X i) ∧ ∑ j, through us N.1 (X i) j * N.2.1 j + N.2.2 ∈ smoothOn o.act ∧
    (o.act = .mish → ∑ j, through us N.1 (X i) j * N.2.1 j + N.2.2 ≠ 0) ∧ lossSmooth o.cost (netAt o us N (X i)) (y i)) ∧
  o.act ∉ [Fn.gelu, .arsech] ∧ smoothPen us N.1 ∧ ∀ j, penaltySmooth o.reg (N.2.1 j)

/-! ## The objects of a network -/

/-- The objects of a hidden layer with `k` inputs. -/
structure LayerIs (h : Heap ℝ) (l : HiddenLayer) (u : Lay) (θ : MParams k u.units) : Prop where
  units : l.n_hidden = u.units
  act : l.activation = u.act
  init : l.weight_init = u.init
  reg : l.reg = u.reg
  lambda : l.lambda = u.lambda
  alpha : l.alpha = u.alpha
  weights : HasM h l.weights θ.1
  bias : HasV h l.bias θ.2
  z : ∃ (p q : Nat) (A : Matrix (Fin p) (Fin q) ℝ), HasM h l.z A

/-- The layers `ls` are as `us` says and have the parameters `H`. -/
def LayersAre (h : Heap ℝ) : {k : Nat} → (us : List Lay) → Hiddens k us → List HiddenLayer → Prop
  | _, [], _, ls => ls = []
  | _, u :: us, H, ls => ∃ l ls', ls = l :: ls' ∧ LayerIs h l u H.1 ∧ LayersAre h us H.2 ls'

/-- The objects of the output layer. -/
structure OutputIs (h : Heap ℝ) (l : OutputLayer) (o : Top) (θ : Params k) : Prop where
  units : l.n_hidden = k
  act : l.activation = o.act
  cost : l.cost = o.cost
  init : l.weight_init = o.init
  reg : l.reg = o.reg
  lambda : l.lambda = o.lambda
  alpha : l.alpha = o.alpha
  weights : HasV h l.weights θ.1
  bias : l.bias = θ.2

/-- The objects of an output layer with `k` inputs whose weights have not been drawn yet. -/
structure OutputRaw (h : Heap ℝ) (l : OutputLayer) (o : Top) (k : Nat) : Prop where
  units : l.n_hidden = k
  act : l.activation = o.act
  cost : l.cost = o.cost
  init : l.weight_init = o.init
  reg : l.reg = o.reg
  lambda : l.lambda = o.lambda
  alpha : l.alpha = o.alpha
  weights : ∃ (p : Nat) (v : Fin p → ℝ), HasV h l.weights v

/-- The matrices that passes through the layers write. -/
def written (ls : List HiddenLayer) : List Ref := ls.flatMap fun l => [l.z, l.weights]

/-- The objects of a network: the data are `X` and `y`, the parameters `N`; what is written is none of the others. -/
structure AnnReady (s : Ann) (h : Heap ℝ) (o : Top) (us : List Lay) (X : Matrix (Fin n) (Fin k) ℝ) (y : Fin n → ℝ) (N : Net k us) : Prop where
  wf : h.WF
  samples : s.n = n
  inputs : s.k = k
  input_set : HasM h s.input_set X
  output_set : HasV h s.output_set y
  hidden : LayersAre h us N.1 s.network
  top : ∃ l, s.output_layer = some l ∧ OutputIs h l o N.2 ∧ l.weights ∉ s.output_set :: s.network.map (·.bias)
  apart : (s.input_set :: written s.network).Nodup

/-- The activation functions, initialisations and losses for which networks work. -/
def Lay.Works (u : Lay) : Prop :=
  u.act ∉ [Fn.softmax, .adj_softmax, .swish, .mish, .softplus, .softsign, .cloglog, .artanh] ∧ (u.init = .default ∨ u.init = .uniform)
def Top.Works (o : Top) : Prop :=
  o.act ∉ [Fn.softmax, .adj_softmax, .cloglog, .arcsch] ∧ o.cost ∉ [Cost.Kind.rmse, .mae]

/-- The learning rate of an epoch. -/
def rateAt (s : Ann) (rate : ℝ) (e : Nat) : ℝ :=
  match s.lr_scheduler with
  | .none => rate
  | .time => rate / (1 + s.decay_constant * e)
  | .epoch => rate * s.decay_constant / Real.sqrt e
  | .step => rate * s.decay_constant ^ ⌊(1 + e) / s.drop_rate⌋
  | .exponential => rate * Real.exp (-(s.decay_constant * e))

/-- The number of drops of a step schedule is an `int` in the first `E` epochs. -/
def RateOk (s : Ann) (E : Nat) : Prop := s.lr_scheduler = .step → 0 < s.drop_rate ∧ (1 + E) / s.drop_rate < 2147483648

/-- `M` is reached from `N` by a step of size `c` against the gradient of the objective (where it is differentiable). -/
def Descends (o : Top) (us : List Lay) (X : Matrix (Fin n) (Fin k) ℝ) (y : Fin n → ℝ) (c : ℝ) (N M : Net k us) : Prop :=
  ∃ G, (SmoothNet o us X y N → NetGradient us (objective o us X y) N G) ∧ M = move us N (-c) G

/-- The handles of what training may write to. -/
def owned (s : Ann) : List Ref := (s.output_layer.map (·.weights)).toList ++ written s.network

/-- No layer waits for new weights. -/
def Settled (s : Ann) : Prop := (∀ l ∈ s.network, l.initialized = true) ∧ ∀ l, s.output_layer = some l → l.initialized = true

/-- After training: the parameters are `N`, the object shows its predictions; only layers have changed, and of the existing objects only theirs. -/
structure AnnTrained (s : Ann) (h : Heap ℝ) (s' : Ann) (h' : Heap ℝ) (o : Top) (us : List Lay) (X : Matrix (Fin n) (Fin k) ℝ) (y : Fin n → ℝ) (N : Net k us) :
    Prop where
  ready : AnnReady s' h' o us X y N
  shows : HasV h' s'.y_hat (fun i => netAt o us N (X i))
  same : s' = { s with network := s'.network, output_layer := s'.output_layer, y_hat := s'.y_hat }
  settled : Settled s'
  keeps : Keeps h h' (fun c => some c ∈ owned s)

/-- A network whose hidden layers, as `us` says, have been added; `H` are their parameters. -/
structure AnnBuilt (s : Ann) (h : Heap ℝ) (us : List Lay) (X : Matrix (Fin n) (Fin k) ℝ) (y : Fin n → ℝ) (H : Hiddens k us) : Prop where
  wf : h.WF
  samples : s.n = n
  inputs : s.k = k
  input_set : HasM h s.input_set X
  output_set : HasV h s.output_set y
  hidden : LayersAre h us H s.network
  last : HasM h (Ann.lastOut s.input_set s.network) (fun i => through us H (X i))
  units : Ann.lastUnits s.k s.network = width k us
  apart : (s.input_set :: written s.network).Nodup
  apart' : Ann.lastOut s.input_set s.network ∉ written s.network
  settled : ∀ l ∈ s.network, l.initialized = true

/-- The parameters with those of one more layer. -/
def snoc : {k : Nat} → (us : List Lay) → Hiddens k us → (u : Lay) → MParams (width k us) u.units → Hiddens k (us ++ [u])
  | _, [], _, _, θ => (θ, ())
  | _, _ :: us, H, u, θ => (H.1, snoc us H.2 u θ)

end
end Verif.Spec
