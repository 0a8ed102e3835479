import Verif.Model.NaiveBayes
import Verif.Model.HandleM

/-! # `MLPPMultinomialNB` (modules/multinomial_nb)

The scores are never initialised: `junk p` is what the memory for the score of class `p` contained. -/

namespace Verif
noncomputable section
open NaiveBayes

/-- The fields of multinomial_nb.h:80-91. -/
structure MultinomialNb where
  priors : Ref
  theta : List IntMap
  vocab : Ref
  class_num : Nat
  input_set : Ref
  output_set : Ref
  y_hat : Ref
  initialized : Bool

namespace MultinomialNb

/-- `compute_theta()`, multinomial_nb.cpp:183-211. -/
def compute_theta (s : MultinomialNb) : M ℝ MultinomialNb := do
  let theta ← zeroTheta s.class_num s.vocab (resizeTheta s.theta s.class_num)
  let theta ← countTheta s.input_set s.output_set theta
  let theta ← foldN theta.length theta fun i theta => do
    let m := theta.getD i IntMap.empty
    let m ← foldN m.keys.length m fun j m => do
      let p ← Hd.element_get s.priors (i : Nat)
      let n ← Hd.size s.y_hat
      divideAt m j (p * n)
    pure (theta.set i m)
  pure { s with theta := theta }

/-- The search for the maximum of the scores, multinomial_nb.cpp:125-135 and 259-269; `score[0]` stops the program if there is no class. -/
def argmax (score : List Ext) : M ℝ Nat :=
  match score with
  | [] => crash
  | x :: l => pure (best x 0 1 l)

/-- The logarithms of the priors are added, multinomial_nb.cpp:121-123 and 250-252. -/
def addPriors (s : MultinomialNb) (score : List Ext) : M ℝ (List Ext) := do
  let n ← Hd.size s.priors
  foldN n score fun i score => do
    let p ← Hd.element_get s.priors (i : Nat)
    if i < score.length then pure (score.modify i fun x => x.add (Ext.log p)) else crash

/-- `model_test(x)`, multinomial_nb.cpp:94-138. -/
def model_test (junk : Nat → Ext) (s : MultinomialNb) (x : Ref) : M ℝ (MultinomialNb × ℝ) :=
  if s.initialized then do
    let x_size ← Hd.size x
    let s ← compute_theta s
    let vocab_size ← Hd.size s.vocab
    let score ← foldN x_size ((List.range s.class_num).map junk) fun j score =>
      foldN vocab_size score fun k score => do
        let x_j ← Hd.element_get x (j : Nat)
        let vocab_k ← Hd.element_get s.vocab (k : Nat)
        if Utilities.isEqualApprox x_j vocab_k then
          foldN s.class_num score fun t score => do
            let p : Nat := s.class_num - 1 - t
            let th ← readAt s.theta p vocab_k
            pure (score.modify p fun a => a.add (Ext.log (th : Int)))
        else pure score
    let score ← addPriors s score
    let r ← argmax score
    pure (s, (r : ℝ))
  else pure (s, 0)

/-- The loop of `model_set_test`, multinomial_nb.cpp:85-89; `junk i` is the memory for the scores of row `i`. -/
def model_set_test (junk : Nat → Nat → Ext) (s : MultinomialNb) (X : Ref) : M ℝ (MultinomialNb × Ref) :=
  if s.initialized then do
    let sz ← Hd.sizem X
    let row ← newVec
    resizeTo row ⟨sz.x, 1, 1⟩
    let y_hat ← newVec
    resizeTo y_hat ⟨sz.y, 1, 1⟩
    let s ← foldN sz.y s fun i s => do
      Hd.row_get_into X (i : Nat) (some row)
      let r ← model_test (junk i) s (some row)
      Hd.element_set (some y_hat) (i : Nat) r.2
      pure r.1
    pure (s, some y_hat)
  else pure (s, none)

/-- `score()`, multinomial_nb.cpp:140-146. -/
def score (s : MultinomialNb) : M ℝ ℝ :=
  if s.initialized then Utilities.performance_vec s.y_hat.vec s.output_set.vec else pure 0

/-- Priors, multinomial_nb.cpp:223-229: what was there is counted in; the vector is not cleared. -/
def countPriors (s : MultinomialNb) : M ℝ Unit := do
  Hd.resizev s.priors s.class_num
  let n ← Hd.size s.output_set
  forN n fun ii => do
    let y ← Hd.element_get s.output_set (ii : Nat)
    let osii ← Activation.toInt y
    let p ← Hd.element_get s.priors osii
    Hd.element_set s.priors osii (p + 1)
  let p ← derefV s.priors
  Vec.scalar_multiply p (1 / (n : ℝ))

/-- The scores of sample `i`, multinomial_nb.cpp:234-248: over as many features as there are samples, with the map of class `i`. -/
def scores (s : MultinomialNb) (i rows : Nat) (score : List Ext) : M ℝ (List Ext) :=
  foldN rows score fun j score => do
    let vs ← Hd.size s.vocab
    foldN vs score fun k score => do
      let v ← Hd.element_getm s.input_set (i : Nat) (j : Nat)
      let vocab_k ← Hd.element_get s.vocab (k : Nat)
      if Utilities.isEqualApprox v vocab_k then do
        let th ← readAt s.theta i vocab_k
        pure (score.map fun a => a.add (Ext.log (th : Int)))
      else pure score

/-- `evaluate()`, multinomial_nb.cpp:213-273; `junk i` is the memory for the scores of sample `i`. -/
def evaluate (junk : Nat → Nat → Ext) (s : MultinomialNb) : M ℝ MultinomialNb := do
  let n ← Hd.size s.output_set
  let sz ← Hd.sizem s.input_set
  foldN n s fun i s => do
    countPriors s
    let s ← compute_theta s
    let score ← scores s i sz.y ((List.range s.class_num).map (junk i))
    let score ← addPriors s score
    let r ← argmax (score.map Ext.exp)
    Hd.element_set s.y_hat (i : Nat) (r : ℝ)
    pure s

/-- `MLPPMultinomialNB(p_input_set, p_output_set, pclass_num)`, multinomial_nb.cpp:161-175. -/
def create (junk : Nat → Nat → Ext) (input_set output_set : Ref) (class_num : Nat) : M ℝ MultinomialNb := do
  let priors ← newVec
  let vocab ← newVec
  let y_hat ← newVec
  let n ← Hd.size output_set
  resizeTo y_hat ⟨n, 1, 1⟩
  evaluate junk ⟨some priors, [], some vocab, class_num, input_set, output_set, some y_hat, true⟩

/-- `MLPPMultinomialNB()`, multinomial_nb.cpp:177-179: the number of classes is whatever the memory contained. -/
def create_empty (class_num : Nat) : MultinomialNb := ⟨none, [], none, class_num, none, none, none, false⟩

/-- `initialize()`, multinomial_nb.cpp:151-159. -/
def initialize_ (s : MultinomialNb) : MultinomialNb := { s with initialized := true }

end MultinomialNb
end
end Verif
