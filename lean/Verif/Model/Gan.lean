import Verif.Model.Ann
import Verif.Model.LayerSetters

/-!
# `MLPPGAN` (modules/gan) and `MLPPWGAN` (modules/wgan)

An object is a structure of its fields. As in Model/Ann.lean the layers are records, and the random numbers drawn by a pass through layers are a
parameter; so are the cells of the matrices of noise. The layers that `MLPPWGAN::add_layer` is given are taken to be used by no one else, and
`get_layer` to answer with the current state of the layer. Not modelled: the printing of costs (`print_ui`, `handle_ui`), `save` (it does nothing), the
binding of methods, the constructor of `MLPPGAN` without arguments, which leaves the numbers of samples and inputs uninitialised. `fuel` bounds the recursion
of the activation functions that call themselves (see Model/Softmax.lean).
-/

namespace Verif
noncomputable section

namespace Hd
/-- `a->scalar_multiply(k)` of a matrix, mlpp_matrix.cpp:1171-1177. -/
def scalar_multiplym (a : Ref) (k : ℝ) : M ℝ Unit := do Mat.scalar_multiply (← derefM a) k
/-- `a->rows_add_mlpp_matrix(b)`, mlpp_matrix.cpp:167-196. -/
def rows_add_mlpp_matrix (a b : Ref) : M ℝ Unit := do Mat.rows_add_mlpp_matrix (← derefM a) b.mat
/-- `a->append_mlpp_vector(b)`, mlpp_vector.cpp:68-89. -/
def append_mlpp_vector (a b : Ref) : M ℝ Unit := do Vec.append_mlpp_vector (← derefV a) b.vec
end Hd

/-- The cells of a matrix of noise, in the order in which they are drawn. -/
abbrev Noise := Nat → ℝ

/-- `create_gaussian_noise(n, m)`, mlpp_matrix.cpp:653-670; `gaussian_noise`, 621-638, is the same. The numbers drawn are `z`. -/
def create_gaussian_noise (z : Noise) (n m : Nat) : M ℝ Ref := do
  let A ← newMat
  resizeTo A ⟨m, n, 1⟩
  let s ← getSize A
  forN s.count fun i => store A i (z i)
  pure (some A)

namespace Adversarial
open Ann (Draws layersPass layersBack layersUpdate gradientOut lastOut regTerms)

/-- `_output_layer->…`: null until `add_output_layer`. -/
def out (o : Option OutputLayer) : M ℝ OutputLayer :=
  match o with
  | some o => pure o
  | none => ub

/-- The number of layers of the generator, of `l` layers: `_network[0]` to `_network[l / 2]`. -/
def front (l : Nat) : Nat := l / 2 + 1

/-- The draws for the layers from number `m` on. -/
def from_ (g : Draws) (m : Nat) : Draws := fun i => g (m + i)

/-- `model_set_test_generator(X)`, gan.cpp:186-198, wgan.cpp:257-269: without layers `_network.write[0]` stops the program. -/
def generator (g : Draws) (ls : List HiddenLayer) (x : Ref) : M ℝ (List HiddenLayer × Ref) :=
  match ls with
  | [] => crash
  | ls => do
    let r ← layersPass g 0 x (ls.take (front ls.length))
    pure (r.1 ++ ls.drop (front ls.length), r.2)

/-- `model_set_test_discriminator(X)`, gan.cpp:200-218, wgan.cpp:271-289: the layers after those of the generator, then the output layer. Its input are
the outputs of the last layer, also if that layer belongs to the generator. -/
def discriminator (g : Draws) (ls : List HiddenLayer) (o : Option OutputLayer) (x : Ref) : M ℝ (List HiddenLayer × OutputLayer) := do
  let r ← layersPass (from_ g (front ls.length)) 0 x (ls.drop (front ls.length))
  let ls' := ls.take (front ls.length) ++ r.1
  let o ← out o
  let o := if ls.isEmpty then o else OutputLayer.set_input o (lastOut none ls')
  let o ← OutputLayer.forward_pass (g ls.length).1 (g ls.length).2 o
  pure (ls', o)

/-- `forward_pass()` without the last line, gan.cpp:234-249, wgan.cpp:313-334: a pass with noise. -/
def forward (z : Noise) (g : Draws) (n k : Nat) (ls : List HiddenLayer) (o : Option OutputLayer) : M ℝ (List HiddenLayer × OutputLayer) := do
  let x ← create_gaussian_noise z n k
  let r ← layersPass g 0 x ls
  let o ← out o
  let o ← OutputLayer.forward_pass (g ls.length).1 (g ls.length).2 (OutputLayer.set_input o r.2)
  pure (r.1, o)

/-- `cost(y_hat, y)`, gan.cpp:220-232, wgan.cpp:291-311: the penalties of the layers but the last. -/
def cost (ls : List HiddenLayer) (o : Option OutputLayer) (y_hat y : Ref) : M ℝ ℝ := do
  let t ← regTerms ls 0
  let o ← out o
  let c ← Cost.run_cost_norm_vector o.cost y_hat y
  let r ← Reg.reg_termv o.weights o.lambda o.alpha o.reg
  pure (c + t + r)

/-- The layers whose parameters a step of the discriminator changes, wgan.cpp:350-368 and 418-455: those after the generator, but always the last. -/
def back (l : Nat) : Nat := min (front l) (l - 1)

/-- `compute_discriminator_gradients(y_hat, output_set)`, wgan.cpp:396-458: the layers, and the gradients, those of the last layer first. -/
def discriminatorGradients (fuel : Nat) (ls : List HiddenLayer) (o : Option OutputLayer) (y_hat y : Ref) :
    M ℝ ((List HiddenLayer × OutputLayer) × List Ref × Ref) := do
  let o ← out o
  let p ← gradientOut o y_hat y
  let r ← layersBack fuel p.1 (ls.drop (back ls.length))
  pure ((ls.take (back ls.length) ++ r.1, p.1), r.2, p.2)

/-- `compute_generator_gradients(y_hat, output_set)`, wgan.cpp:460-525: the gradient of the output layer is not used. -/
def generatorGradients (fuel : Nat) (ls : List HiddenLayer) (o : Option OutputLayer) (y_hat y : Ref) :
    M ℝ ((List HiddenLayer × OutputLayer) × List Ref) := do
  let o ← out o
  let p ← gradientOut o y_hat y
  let r ← layersBack fuel p.1 ls
  pure ((r.1, p.1), r.2)

/-- All gradients are multiplied by `c`, wgan.cpp:97-104 and 124-128. -/
def scaleAll (c : ℝ) : List Ref → M ℝ Unit
  | [] => pure ()
  | a :: l => do
    Hd.scalar_multiplym a c
    scaleAll c l

/-- `update_discriminator_parameters(hidden_layer_updations, output_layer_updation, learning_rate)`, wgan.cpp:339-369. -/
def updateDiscriminator (n : Nat) (ls : List HiddenLayer) (o : OutputLayer) (hidden_layer_updations : List Ref) (output_layer_updation : Ref)
    (learning_rate : ℝ) : M ℝ (List HiddenLayer × OutputLayer) := do
  let w ← Hd.subn o.weights output_layer_updation
  let o := OutputLayer.set_weights o w
  let d ← Hd.sum_elements o.delta
  let o := OutputLayer.set_bias o (o.bias - learning_rate * d / n)
  let r ← layersUpdate n hidden_layer_updations learning_rate (ls.drop (back ls.length))
  pure (ls.take (back ls.length) ++ r, o)

/-- `update_generator_parameters(hidden_layer_updations, learning_rate)`, wgan.cpp:371-394: the layer `i` takes the update number `size - 1 - i`. -/
def updateGenerator (n : Nat) (ls : List HiddenLayer) (hidden_layer_updations : List Ref) (learning_rate : ℝ) : M ℝ (List HiddenLayer) := do
  let r ← layersUpdate n (hidden_layer_updations.drop (ls.length - front ls.length)) learning_rate (ls.take (front ls.length))
  pure (r ++ ls.drop (front ls.length))

end Adversarial

/-- The fields of gan.h:108-115. -/
structure Gan where
  output_set : Ref
  y_hat : Ref
  network : List HiddenLayer
  output_layer : Option OutputLayer
  n : Nat
  k : Nat

namespace Gan
open Adversarial
open Ann (Draws lastOut lastUnits gradientOut)

/-- `generate_example(n)`, gan.cpp:69-71. -/
def generate_example (z : Noise) (g : Draws) (s : Gan) (n : Nat) : M ℝ (Gan × Ref) := do
  let x ← create_gaussian_noise z n s.k
  let r ← generator g s.network x
  pure ({ s with network := r.1 }, r.2)

/-- `forward_pass()`, gan.cpp:234-251. -/
def forward_pass (z : Noise) (g : Draws) (s : Gan) : M ℝ Gan := do
  let r ← forward z g s.n s.k s.network s.output_layer
  pure { s with network := r.1, output_layer := some r.2, y_hat := r.2.a }

/-- `score()`, gan.cpp:127-133. -/
def score (z : Noise) (g : Draws) (s : Gan) : M ℝ (Gan × ℝ) := do
  let s ← forward_pass z g s
  let one ← Vec.vecn_one s.n
  let r ← Utilities.performance_vec s.y_hat.vec one.vec
  pure (s, r)

/-- `gradient_descent(learning_rate, max_epoch, ui)`, gan.cpp:73-125, up to the gradients of the discriminator, 298-310: there the targets are the member
`_output_set`, a matrix, which as a reference to a vector is null (sfw.h:19319-19331). What comes after is never reached (C133), and not modelled. -/
def gradient_descent (z : Nat → Noise) (g : Nat → Draws) (s : Gan) (_learning_rate : ℝ) (_max_epoch : Int) : M ℝ Gan := do
  let s ← forward_pass (z 0) (g 0) s
  let one ← Vec.vecn_one s.n
  let _ ← cost s.network s.output_layer s.y_hat one
  let generator_input_set ← create_gaussian_noise (z 1) s.n s.k
  let r ← generator (g 1) s.network generator_input_set
  Hd.rows_add_mlpp_matrix r.2 s.output_set
  let p ← discriminator (g 1) r.1 s.output_layer r.2
  let output_set ← Vec.vecn_zero s.n
  let output_set_real ← Vec.vecn_one s.n
  Hd.append_mlpp_vector output_set output_set_real
  let q ← gradientOut p.2 p.2.a none
  pure { s with network := p.1, output_layer := some q.1 }

/-- `add_layer(n_hidden, activation, weight_init, reg, lambda, alpha)`, gan.cpp:150-164. -/
def add_layer (z : Noise) (gw gb : Utilities.Source) (s : Gan) (n_hidden : Nat) (activation : Activation.Fn) (weight_init : Utilities.Kind) (reg : Reg.Kind)
    (lambda alpha : ℝ) : M ℝ Gan :=
  match s.network with
  | [] => do
    let x ← create_gaussian_noise z s.n s.k
    let l ← HiddenLayer.create gw gb n_hidden activation x weight_init reg lambda alpha
    let l ← HiddenLayer.forward_pass gw gb l
    pure { s with network := [l] }
  | ls => do
    let l ← HiddenLayer.create gw gb n_hidden activation (lastOut none ls) weight_init reg lambda alpha
    let l ← HiddenLayer.forward_pass gw gb l
    pure { s with network := ls ++ [l] }

/-- `add_output_layer(weight_init, reg, lambda, alpha)`, gan.cpp:166-172. -/
def add_output_layer (z : Noise) (gw gb : Utilities.Source) (s : Gan) (weight_init : Utilities.Kind) (reg : Reg.Kind) (lambda alpha : ℝ) : M ℝ Gan :=
  match s.network with
  | [] => do
    let x ← create_gaussian_noise z s.n s.k
    let o ← OutputLayer.create gw gb s.k .sigmoid .logistic_loss x weight_init reg lambda alpha
    pure { s with output_layer := some o }
  | ls => do
    let o ← OutputLayer.create gw gb (lastUnits 0 ls) .sigmoid .logistic_loss (lastOut none ls) weight_init reg lambda alpha
    pure { s with output_layer := some o }

/-- `MLPPGAN(k, output_set)`, gan.cpp:174-178: `k` is a real number, converted to `int`. A negative one, with which no noise can be made, is 0 here. -/
def create (k : ℝ) (output_set : Ref) : M ℝ Gan := do
  let s ← Hd.sizem output_set
  let k ← Activation.toInt k
  pure ⟨output_set, none, [], none, s.y, k.toNat⟩

end Gan

/-- The fields of wgan.h:109-117. -/
structure Wgan where
  output_set : Ref
  k : Nat
  network : List HiddenLayer
  output_layer : Option OutputLayer
  y_hat : Ref

namespace HiddenLayer
/-- `MLPPHiddenLayer()`, hidden_layer.cpp:223-246: the kind of regularisation is whatever the memory contained. -/
def create_empty (reg : Reg.Kind) : M ℝ HiddenLayer := do
  let z ← newMat
  let a ← newMat
  let z_test ← newVec
  let a_test ← newVec
  let delta ← newMat
  let weights ← newMat
  let bias ← newVec
  pure ⟨0, .linear, none, some weights, some bias, some z, some a, some z_test, some a_test, some delta, reg, 0, 0, .default, false⟩
end HiddenLayer

namespace OutputLayer
/-- `MLPPOutputLayer()`, output_layer.cpp:229-252: the kinds of loss and regularisation are whatever the memory contained. -/
def create_empty (cost : Cost.Kind) (reg : Reg.Kind) : M ℝ OutputLayer := do
  let z ← newVec
  let a ← newVec
  let delta ← newVec
  let weights ← newVec
  pure ⟨0, .linear, cost, none, some weights, 0, some z, some a, 0, 0, some delta, reg, 0, 0, .default, false⟩
end OutputLayer

namespace Wgan
open Adversarial
open Ann (Draws lastOut lastUnits)
open Glm (epochs)

/-- `generate_example(n)`, wgan.cpp:52-54. -/
def generate_example (z : Noise) (g : Draws) (s : Wgan) (n : Nat) : M ℝ (Wgan × Ref) := do
  let x ← create_gaussian_noise z n s.k
  let r ← generator g s.network x
  pure ({ s with network := r.1 }, r.2)

/-- `forward_pass()`, wgan.cpp:313-337. -/
def forward_pass (z : Noise) (g : Draws) (s : Wgan) : M ℝ Wgan := do
  let n ← Hd.sizem s.output_set
  let r ← forward z g n.y s.k s.network s.output_layer
  Hd.set_from_mlpp_vector s.y_hat r.2.a
  pure { s with network := r.1, output_layer := some r.2 }

/-- `score()`, wgan.cpp:144-150. -/
def score (z : Noise) (g : Draws) (s : Wgan) : M ℝ (Wgan × ℝ) := do
  let s ← forward_pass z g s
  let n ← Hd.sizem s.output_set
  let one ← Vec.vecn_one n.y
  let r ← Utilities.performance_vec s.y_hat.vec one.vec
  pure (s, r)

/-- One step of the discriminator, wgan.cpp:77-110. `n` is the number of rows of the real samples. -/
def critic (fuel : Nat) (z : Noise) (g : Draws) (n : Nat) (learning_rate : ℝ) (discriminator_input_set : Ref) (s : Wgan) : M ℝ Wgan := do
  let generator_input_set ← create_gaussian_noise z n s.k
  let r ← generator g s.network generator_input_set
  Hd.set_from_mlpp_matrix discriminator_input_set r.2
  Hd.rows_add_mlpp_matrix discriminator_input_set s.output_set
  let p ← discriminator g r.1 s.output_layer discriminator_input_set
  let one ← Vec.vecn_one n
  let loutput_set ← Hd.scalar_multiplyn one (-1)
  let output_set_real ← Vec.vecn_one n
  Hd.append_mlpp_vector loutput_set output_set_real
  let d ← discriminatorGradients fuel p.1 (some p.2) p.2.a loutput_set
  scaleAll (learning_rate / n) d.2.1
  Hd.scalar_multiply d.2.2 (learning_rate / n)
  let u ← updateDiscriminator n d.1.1 d.1.2 d.2.1 d.2.2 learning_rate
  pure { s with network := u.1, output_layer := some u.2 }

/-- The step of the generator, wgan.cpp:112-131. The gradients are computed at the member `_y_hat`. -/
def generate (fuel : Nat) (z : Noise) (g : Draws) (n : Nat) (learning_rate : ℝ) (discriminator_input_set : Ref) (s : Wgan) : M ℝ Wgan := do
  let generator_input_set ← create_gaussian_noise z n s.k
  let r ← generator g s.network generator_input_set
  Hd.set_from_mlpp_matrix discriminator_input_set r.2
  let p ← discriminator g r.1 s.output_layer discriminator_input_set
  let loutput_set ← Vec.vecn_one n
  let d ← generatorGradients fuel p.1 (some p.2) s.y_hat loutput_set
  scaleAll (learning_rate / n) d.2
  let u ← updateGenerator n d.1.1 d.2 learning_rate
  pure { s with network := u, output_layer := some d.1.2 }

/-- The random numbers of an epoch: those of step `i` of the discriminator are number `i`, those of the generator number 5, those of the pass at the end
number 6. -/
abbrev Rolls := Nat → Noise × Draws

/-- The body of the loop of `gradient_descent`, wgan.cpp:66-142. -/
def gdBody (fuel : Nat) (w : Nat → Rolls) (n : Nat) (learning_rate : ℝ) (epoch : Nat) (s : Wgan) : M ℝ Wgan := do
  let one ← Vec.vecn_one n
  let _ ← cost s.network s.output_layer s.y_hat one
  let discriminator_input_set ← newMat
  let s ← foldN 5 s fun i s => critic fuel (w epoch i).1 (w epoch i).2 n learning_rate (some discriminator_input_set) s
  let s ← generate fuel (w epoch 5).1 (w epoch 5).2 n learning_rate (some discriminator_input_set) s
  forward_pass (w epoch 6).1 (w epoch 6).2 s

/-- `gradient_descent(learning_rate, max_epoch, ui)`, wgan.cpp:56-142. The first pass draws `w 0 6`. -/
def gradient_descent (fuel : Nat) (w : Nat → Rolls) (s : Wgan) (learning_rate : ℝ) (max_epoch : Int) : M ℝ Wgan := do
  let n ← Hd.sizem s.output_set
  let s ← forward_pass (w 0 6).1 (w 0 6).2 s
  epochs max_epoch s (gdBody fuel w n.y learning_rate)

/-- `add_layer(layer)`, wgan.cpp:196-211; a null layer is ignored. -/
def add_layer (z : Noise) (gw gb : Utilities.Source) (s : Wgan) (layer : Option HiddenLayer) : M ℝ Wgan :=
  match layer with
  | none => pure s
  | some l =>
    match s.network with
    | [] => do
      let n ← Hd.sizem s.output_set
      let x ← create_gaussian_noise z n.y s.k
      let l ← HiddenLayer.forward_pass gw gb (HiddenLayer.set_input l x)
      pure { s with network := [l] }
    | ls => do
      let l ← HiddenLayer.forward_pass gw gb (HiddenLayer.set_input l (lastOut none ls))
      pure { s with network := ls ++ [l] }

/-- `create_layer(n_hidden, activation, weight_init, reg, lambda, alpha)`, wgan.cpp:170-195. -/
def create_layer (z : Noise) (gw gb : Utilities.Source) (junk : Reg.Kind) (s : Wgan) (n_hidden : Nat) (activation : Activation.Fn)
    (weight_init : Utilities.Kind) (reg : Reg.Kind) (lambda alpha : ℝ) : M ℝ Wgan := do
  let l ← HiddenLayer.create_empty junk
  let l := HiddenLayer.set_n_hidden l n_hidden
  let l := HiddenLayer.set_activation l activation
  let l := HiddenLayer.set_weight_init l weight_init
  let l := HiddenLayer.set_reg l reg
  let l := HiddenLayer.set_lambda l lambda
  let l := HiddenLayer.set_alpha l alpha
  let n ← Hd.sizem s.output_set
  match s.network with
  | [] => do
    let x ← create_gaussian_noise z n.y s.k
    let l ← HiddenLayer.forward_pass gw gb (HiddenLayer.set_input l x)
    pure { s with network := [l] }
  | ls => do
    let l ← HiddenLayer.forward_pass gw gb (HiddenLayer.set_input l (lastOut none ls))
    pure { s with network := ls ++ [l] }

/-- `get_layer(index)`, wgan.cpp:212-216: null for a bad index. -/
def get_layer (s : Wgan) (index : Int) : Option HiddenLayer := if 0 ≤ index then s.network[index.toNat]? else none

/-- `remove_layer(index)`, wgan.cpp:217-221: a bad index is ignored. -/
def remove_layer (s : Wgan) (index : Int) : Wgan := if 0 ≤ index then { s with network := s.network.eraseIdx index.toNat } else s

/-- `get_layer_count()`, wgan.cpp:222. -/
def get_layer_count (s : Wgan) : Nat := s.network.length

/-- `_output_layer.instance()` if it is null, wgan.cpp:229-231. -/
def someOut (junk : Cost.Kind × Reg.Kind) (s : Wgan) : M ℝ OutputLayer :=
  match s.output_layer with
  | some o => pure o
  | none => OutputLayer.create_empty junk.1 junk.2

/-- `add_output_layer(weight_init, reg, lambda, alpha)`, wgan.cpp:224-240: nothing happens without hidden layers. `reg` is not used. -/
def add_output_layer (junk : Cost.Kind × Reg.Kind) (s : Wgan) (weight_init : Utilities.Kind) (_reg : Reg.Kind) (lambda alpha : ℝ) : M ℝ Wgan :=
  match s.network with
  | [] => pure s
  | ls => do
    let o ← someOut junk s
    pure { s with output_layer := some { o with n_hidden := lastUnits 0 ls, activation := .linear, cost := .wasserstein_loss, input := lastOut none ls,
                                                weight_init := weight_init, lambda := lambda, alpha := alpha, initialized := false } }

/-- `MLPPWGAN(p_k, p_output_set)`, wgan.cpp:242-247. -/
def create (k : Nat) (output_set : Ref) : M ℝ Wgan := do
  let y_hat ← newVec
  pure ⟨output_set, k, [], none, some y_hat⟩

/-- `MLPPWGAN()`, wgan.cpp:249-253. -/
def create_empty : M ℝ Wgan := create 0 none

/-- `set_output_set(val)`, wgan.cpp:47. -/
def set_output_set (s : Wgan) (val : Ref) : Wgan := { s with output_set := val }
/-- `set_k(val)`, wgan.cpp:50. -/
def set_k (s : Wgan) (val : Nat) : Wgan := { s with k := val }

end Wgan
end
end Verif
