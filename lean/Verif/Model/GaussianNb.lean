import Verif.Model.NaiveBayes
import Verif.Model.HandleM

/-! # `MLPPGaussianNB` (modules/gaussian_nb)

As elsewhere, dividing by 0 gives 0 in the model; the code then continues with infinity or NaN. -/

namespace Verif
noncomputable section
open NaiveBayes (best)

/-- The fields of gaussian_nb.h:78-89. `_class_num` is a natural number. -/
structure GaussianNb where
  class_num : Nat
  priors : Ref
  mu : Ref
  sigma : Ref
  input_set : Ref
  output_set : Ref
  y_hat : Ref
  initialized : Bool

namespace GaussianNb

/-- The argument of the logarithm, gaussian_nb.cpp:94 and 203. -/
def weight (prior sigma x mu : ℝ) : ℝ :=
  prior * (1 / Real.sqrt (2 * Real.pi * sigma * sigma)) * Real.exp (-(x * mu) * (x * mu) / (2 * sigma * sigma))

/-- `model_test(x)`, gaussian_nb.cpp:83-111. The scores are collected in a list, the last class first. -/
def model_test (s : GaussianNb) (x : Ref) : M ℝ ℝ := do
  let r ← foldN s.class_num (Ext.fin 1, ([] : List Ext)) fun t r => do
    let i : Nat := s.class_num - 1 - t
    let sigma_i ← Hd.element_get s.sigma (i : Nat)
    let x_i ← Hd.element_get x (i : Nat)
    let mu_i ← Hd.element_get s.mu (i : Nat)
    let p ← Hd.element_get s.priors (i : Nat)
    let y_hat_i := r.1.add (Ext.log (weight p sigma_i x_i mu_i))
    pure (y_hat_i, y_hat_i.exp :: r.2)
  pure (best .ninf 0 0 r.2 : Nat)

/-- `model_set_test(X)`, gaussian_nb.cpp:65-81. -/
def model_set_test (s : GaussianNb) (X : Ref) : M ℝ Ref := NaiveBayes.setTest (model_test s) X

/-- `score()`, gaussian_nb.cpp:113-116. -/
def score (s : GaussianNb) : M ℝ ℝ := Utilities.performance_vec s.y_hat.vec s.output_set.vec

open Classical in
/-- The values that belong to class `i`, gaussian_nb.cpp:165-173. -/
def values (s : GaussianNb) (i : Nat) : M ℝ (List ℝ) := do
  let sz ← Hd.sizem s.input_set
  foldN sz.y ([] : List ℝ) fun j set =>
    foldN sz.x set fun k set => do
      let y ← Hd.element_get s.output_set (j : Nat)
      if y = (i : ℝ) then do
        let v ← Hd.element_getm s.input_set (j : Nat) (k : Nat)
        pure (set ++ [v])
      else pure set

/-- Means and deviations, gaussian_nb.cpp:157-179. -/
def moments (s : GaussianNb) : M ℝ Unit := do
  Hd.resizev s.mu s.class_num
  Hd.resizev s.sigma s.class_num
  let set_vec ← newVec
  forN s.class_num fun t => do
    let i : Nat := s.class_num - 1 - t
    let set ← values s i
    Vec.set_data set_vec.id set
    let m ← Stat.meanv (some set_vec.id)
    Hd.element_set s.mu (i : Nat) m
    let d ← Stat.standard_deviationv (some set_vec.id)
    Hd.element_set s.sigma (i : Nat) d

/-- Priors, gaussian_nb.cpp:181-189: nothing is counted. -/
def countPriors (s : GaussianNb) : M ℝ Unit := do
  Hd.resizev s.priors s.class_num
  Hd.fillv s.priors 0
  let n ← Hd.size s.output_set
  forN n fun i => do
    let y ← Hd.element_get s.output_set (i : Nat)
    let indx ← Activation.toInt y
    let p ← Hd.element_get s.priors indx
    Hd.element_set s.priors indx p
  let p ← derefV s.priors
  Vec.scalar_multiply p (1 / (n : ℝ))

/-- The predictions for the data, gaussian_nb.cpp:191-222. -/
def predictions (s : GaussianNb) : M ℝ Unit := do
  let n ← Hd.size s.output_set
  forN n fun i => do
    let sz ← Hd.sizem s.input_set
    let r ← foldN s.class_num (Ext.fin 1, ([] : List Ext)) fun t r => do
      let j : Nat := s.class_num - 1 - t
      let y_hat_i ← foldN sz.x r.1 fun k y_hat_i => do
        let sigma_j ← Hd.element_get s.sigma (j : Nat)
        let mu_j ← Hd.element_get s.mu (j : Nat)
        let v ← Hd.element_getm s.input_set (i : Nat) (k : Nat)
        let p ← Hd.element_get s.priors (j : Nat)
        pure (y_hat_i.add (Ext.log (weight p sigma_j v mu_j)))
      pure (y_hat_i, y_hat_i.exp :: r.2)
    Hd.element_set s.y_hat (i : Nat) (best .ninf 0 0 r.2 : Nat)

/-- `evaluate()`, gaussian_nb.cpp:154-223. -/
def evaluate (s : GaussianNb) : M ℝ Unit := do
  moments s
  countPriors s
  predictions s

/-- `MLPPGaussianNB(p_input_set, p_output_set, p_class_num)`, gaussian_nb.cpp:131-146. -/
def create (input_set output_set : Ref) (class_num : Nat) : M ℝ GaussianNb := do
  let mu ← newVec
  let sigma ← newVec
  let priors ← newVec
  let y_hat ← newVec
  let n ← Hd.size output_set
  resizeTo y_hat ⟨n, 1, 1⟩
  let s : GaussianNb := ⟨class_num, some priors, some mu, some sigma, input_set, output_set, some y_hat, true⟩
  evaluate s
  pure s

/-- `MLPPGaussianNB()`, gaussian_nb.cpp:148-150: the number of classes is whatever the memory contained. -/
def create_empty (class_num : Nat) : GaussianNb := ⟨class_num, none, none, none, none, none, none, false⟩

/-- `initialize()`, gaussian_nb.cpp:121-129. -/
def initialize_ (s : GaussianNb) : GaussianNb := { s with initialized := true }

end GaussianNb
end
end Verif
