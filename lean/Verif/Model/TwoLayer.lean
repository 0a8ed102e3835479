import Verif.Model.Glm
import Verif.Model.HandleM

/-!
# Pieces shared by the networks with one hidden layer and several outputs

`MLPPSoftmaxNet` (modules/softmax_net) and `MLPPAutoEncoder` (modules/auto_encoder) contain the same expressions; each of them is modelled once,
with the handles it uses as arguments.
-/

namespace Verif.TwoLayer
noncomputable section

/-- The affine functions and the values of the hidden layer at the rows of `X`: softmax_net.cpp:517-518, 528-529, 537-538; auto_encoder.cpp:348-349,
359-360, 368-369. -/
def hiddenm (X W1 b1 : Ref) : M ℝ (Ref × Ref) := do
  let p ← Hd.multn X W1
  let z2 ← Hd.add_vecn p b1
  let a2 ← Activation.sigmoid_normm z2
  pure (z2, a2)

/-- `a2->multn(W2)->add_vecn(b2)`: softmax_net.cpp:520, 540; auto_encoder.cpp:351, 371. -/
def outm (a2 W2 b2 : Ref) : M ℝ Ref := do
  let p ← Hd.multn a2 W2
  Hd.add_vecn p b2

/-- The same for one sample: softmax_net.cpp:497-498, 508-509; auto_encoder.cpp:328-329, 339-340. -/
def hiddenv (x W1 b1 : Ref) : M ℝ (Ref × Ref) := do
  let t ← Hd.transposen W1
  let p ← Hd.mult_vec t x
  let z2 ← Hd.addn p b1
  let a2 ← Activation.sigmoid_normv z2
  pure (z2, a2)

/-- `W2->transposen()->mult_vec(a2)->addn(b2)`: softmax_net.cpp:500; auto_encoder.cpp:331. -/
def outv (a2 W2 b2 : Ref) : M ℝ Ref := do
  let t ← Hd.transposen W2
  let p ← Hd.mult_vec t a2
  Hd.addn p b2

/-- `A->transposen()->multn(E)->scalar_multiplyn(c)`, the step of weights: softmax_net.cpp:171-174, 182-185, 330-333, 342-345; auto_encoder.cpp:92-95,
103-106. -/
def slope (A E : Ref) (c : ℝ) : M ℝ Ref := do
  let t ← Hd.transposen A
  let D ← Hd.multn t E
  Hd.scalar_multiplynm D c

/-- `error->multn(W2->transposen())->hadamard_productn(sigmoid_derivm(z2))`: softmax_net.cpp:180-181, 340-341; auto_encoder.cpp:101-102. -/
def back (error W2 z2 : Ref) : M ℝ Ref := do
  let t ← Hd.transposen W2
  let D ← Hd.multn error t
  let g ← Activation.sigmoid_derivm z2
  Hd.hadamard_productnm D g

/-- The step of the weights of the outputs from one sample: softmax_net.cpp:259-261; auto_encoder.cpp:166-167. -/
def slope2v (error a2 : Ref) (c : ℝ) : M ℝ Ref := do
  let D ← Hd.outer_product error a2
  let t ← Hd.transposen D
  Hd.scalar_multiplynm t c

/-- `W2->mult_vec(error)->hadamard_productn(sigmoid_derivv(z2))`: softmax_net.cpp:268-269; auto_encoder.cpp:173-174. -/
def backv (error W2 z2 : Ref) : M ℝ Ref := do
  let D ← Hd.mult_vec W2 error
  let g ← Activation.sigmoid_derivv z2
  Hd.hadamard_productn D g

/-- The step of the weights of the hidden layer from one sample: softmax_net.cpp:270-272; auto_encoder.cpp:175-177. -/
def slope1v (x D : Ref) (c : ℝ) : M ℝ Ref := do
  let O ← Hd.outer_product x D
  Hd.scalar_multiplynm O c

end
end Verif.TwoLayer
