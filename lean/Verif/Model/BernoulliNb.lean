import Verif.Model.NaiveBayes
import Verif.Model.HandleM

/-! # `MLPPBernoulliNB` (modules/bernoulli_nb) -/

namespace Verif
noncomputable section
open NaiveBayes

/-- The fields of bernoulli_nb.h:69-79. -/
structure BernoulliNb where
  prior_1 : ℝ
  prior_0 : ℝ
  theta : List IntMap
  vocab : Ref
  class_num : Nat
  input_set : Ref
  output_set : Ref
  y_hat : Ref

namespace BernoulliNb

open Classical in
/-- The loops over the features, bernoulli_nb.cpp:60-71 and 184-195, where `x j` reads the feature `j`, and `mul` puts a value of theta into a score. The
list of the indices that were found is here that of the values at these indices. -/
def foundLoop {α : Type} (s : BernoulliNb) (d : Nat) (x : Nat → M ℝ ℝ) (mul : α → Int → α) (one : α) : M ℝ (α × α × List ℝ) :=
  foldN d (one, one, ([] : List ℝ)) fun j r => do
    let vs ← Hd.size s.vocab
    foldN vs r fun k r => do
      let xj ← x j
      let v ← Hd.element_get s.vocab (k : Nat)
      if xj = v then do
        let t0 ← readAt s.theta 0 v
        let t1 ← readAt s.theta 1 v
        pure (mul r.1 t0, mul r.2.1 t1, r.2.2 ++ [v])
      else pure r

open Classical in
/-- The loop over the vocabulary, bernoulli_nb.cpp:73-85 and 197-209. -/
def missingLoop {α : Type} (s : BernoulliNb) (mul : α → Int → α) (r : α × α × List ℝ) : M ℝ (α × α) := do
  let vs ← Hd.size s.vocab
  foldN vs (r.1, r.2.1) fun i q => do
    let v ← Hd.element_get s.vocab (i : Nat)
    if v ∈ r.2.2 then pure q
    else do
      let t0 ← readAt s.theta 0 v
      let t1 ← readAt s.theta 1 v
      pure (mul q.1 t0, mul q.2 t1)

open Classical in
/-- `model_test(x)`, bernoulli_nb.cpp:56-96. -/
def model_test (s : BernoulliNb) (x : Ref) : M ℝ ℝ := do
  let d ← Hd.size x
  let r ← foundLoop s d (fun j => Hd.element_get x (j : Nat)) (fun (a : ℝ) t => a * t) 1
  let q ← missingLoop s (fun (a : ℝ) t => a * (1 - t)) r
  pure (if q.1 * s.prior_0 > q.2 * s.prior_1 then 0 else 1)

/-- `model_set_test(X)`, bernoulli_nb.cpp:38-54. -/
def model_set_test (s : BernoulliNb) (X : Ref) : M ℝ Ref := setTest (model_test s) X

/-- `score()`, bernoulli_nb.cpp:98-102. -/
def score (s : BernoulliNb) : M ℝ ℝ := Utilities.performance_vec s.y_hat.vec s.output_set.vec

/-- `compute_vocab()`, bernoulli_nb.cpp:127-131. -/
def compute_vocab (s : BernoulliNb) : M ℝ BernoulliNb := do
  let i ← derefM s.input_set
  let f ← Mat.flatten i
  let v ← Data.vec_to_setnv f
  pure { s with vocab := v }

/-- The division by the number of samples, bernoulli_nb.cpp:151-157: the size is that of the map as it grows. `fuel` is the capacity of the map: when it
is exhausted the insertion answers with a null pointer (sfw.h:16683), which is dereferenced. -/
def scale (q : ℝ) : Nat → Nat → IntMap → M ℝ IntMap
  | fuel, j, m =>
    if j < m.keys.length then
      match fuel with
      | 0 => ub
      | fuel + 1 => do
        let m ← divideAt m j q
        scale q fuel (j + 1) m
    else pure m

/-- `compute_theta()`, bernoulli_nb.cpp:133-159. -/
def compute_theta (fuel : Nat) (s : BernoulliNb) : M ℝ BernoulliNb := do
  let theta ← zeroTheta s.class_num s.vocab (resizeTheta s.theta s.class_num)
  let theta ← countTheta s.input_set s.output_set theta
  let n ← Hd.size s.y_hat
  let theta ← foldN theta.length theta fun i theta => do
    let m ← scale ((if i = 0 then s.prior_0 else s.prior_1) * n) fuel 0 (theta.getD i IntMap.empty)
    pure (theta.set i m)
  pure { s with theta := theta }

open Classical in
/-- The number of samples of class 1, bernoulli_nb.cpp:166-172. -/
def ones (s : BernoulliNb) : M ℝ ℝ := do
  let n ← Hd.size s.output_set
  foldN n (0 : ℝ) fun i sum => do
    let y ← Hd.element_get s.output_set (i : Nat)
    pure (if y = 1 then sum + 1 else sum)

open Classical in
/-- The prediction for sample `i`, bernoulli_nb.cpp:184-222. -/
def predict (s : BernoulliNb) (i : Nat) : M ℝ Unit := do
  let sz ← Hd.sizem s.input_set
  let r ← foundLoop s sz.x (fun j => Hd.element_getm s.input_set (i : Nat) (j : Nat)) (fun (a : Ext) t => a.add (Ext.log (t : Int))) (.fin 1)
  let q ← missingLoop s (fun (a : Ext) t => a.add (Ext.log (1 - (t : Int)))) r
  let score_0 := (q.1.add (Ext.log s.prior_0)).exp
  let score_1 := (q.2.add (Ext.log s.prior_1)).exp
  Hd.element_set s.y_hat (i : Nat) (if score_0.gt score_1 then 0 else 1)

/-- `evaluate()`, bernoulli_nb.cpp:161-224. -/
def evaluate (fuel : Nat) (s : BernoulliNb) : M ℝ BernoulliNb := do
  let n ← Hd.size s.output_set
  foldN n s fun i s => do
    let sum ← ones s
    let m ← Hd.size s.y_hat
    let s ← compute_theta fuel { s with prior_1 := sum / m, prior_0 := 1 - sum / m }
    let s ← compute_vocab s
    predict s i
    pure s

/-- `MLPPBernoulliNB(p_input_set, p_output_set)`, bernoulli_nb.cpp:104-118. -/
def create (fuel : Nat) (input_set output_set : Ref) : M ℝ BernoulliNb := do
  let vocab ← newVec
  let y_hat ← newVec
  let n ← Hd.size output_set
  resizeTo y_hat ⟨n, 1, 1⟩
  evaluate fuel ⟨0, 0, [], some vocab, 2, input_set, output_set, some y_hat⟩

/-- `MLPPBernoulliNB()`, bernoulli_nb.cpp:120-123: the number of classes is whatever the memory contained. -/
def create_empty (class_num : Nat) : BernoulliNb := ⟨0, 0, [], none, class_num, none, none, none⟩

end BernoulliNb
end
end Verif
