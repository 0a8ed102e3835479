import Verif.Model.KMeans
import Verif.Model.Utilities
import Verif.Model.Data
import Verif.Model.Stat

/-!
# The naive Bayes classifiers: `MLPPGaussianNB`, `MLPPBernoulliNB`, `MLPPMultinomialNB`

An object is a structure of its fields. Not modelled: the binding of methods. Arithmetic is on real numbers, but logarithms of 0 and of negative
numbers are as in the code: minus infinity and NaN (`Ext`).
-/

namespace Verif
noncomputable section

/-- The values a `real_t` takes in the scores: a number, minus infinity, or NaN. -/
inductive Ext where
  | nan
  | ninf
  | fin (r : ℝ)

namespace Ext
open Classical in
/-- `Math::log(x)` of a number. -/
def log (x : ℝ) : Ext := if 0 < x then fin (Real.log x) else if x = 0 then ninf else nan
/-- `x + y`. -/
def add : Ext → Ext → Ext
  | nan, _ => nan
  | _, nan => nan
  | ninf, _ => ninf
  | _, ninf => ninf
  | fin a, fin b => fin (a + b)
/-- `Math::exp(x)`. -/
def exp : Ext → Ext
  | nan => nan
  | ninf => fin 0
  | fin a => fin (Real.exp a)
/-- `x > y`: false if one of them is NaN. -/
def gt : Ext → Ext → Prop
  | fin a, fin b => a > b
  | fin _, ninf => True
  | _, _ => False
end Ext

namespace NaiveBayes
open Classical in
/-- The search for the maximum, gaussian_nb.cpp:99-108 and 210-219 (`-Math_INF` first); multinomial_nb.cpp:125-135 and 259-269 (the first element first). -/
def best (max_element : Ext) (index : Nat) (i : Nat) : List Ext → Nat
  | [] => index
  | x :: l => if x.gt max_element then best x i (i + 1) l else best max_element index (i + 1) l

/-- `model_set_test(X)`: gaussian_nb.cpp:65-81, bernoulli_nb.cpp:38-54, multinomial_nb.cpp:72-92 (after its check), where `test` is `model_test`. -/
def setTest (test : Ref → M ℝ ℝ) (X : Ref) : M ℝ Ref := do
  let s ← Hd.sizem X
  let y_hat ← newVec
  resizeTo y_hat ⟨s.y, 1, 1⟩
  let row ← newVec
  resizeTo row ⟨s.x, 1, 1⟩
  forN s.y fun i => do
    Hd.row_get_into X (i : Nat) (some row)
    let v ← test (some row)
    Hd.element_set (some y_hat) (i : Nat) v
  pure (some y_hat)

/-- A `HashMap<real_t, int>` (sfw.h:16099-): its keys and its values. -/
structure IntMap where
  keys : List ℝ
  val : ℝ → Int

/-- `HashMap()`. -/
def IntMap.empty : IntMap := ⟨[], fun _ => 0⟩

open Classical in
/-- `m[k] = f(m[k])` on a map that is not `const`, sfw.h:16439-16447: a missing key is inserted with the value 0. -/
def IntMap.upd (m : IntMap) (k : ℝ) (f : Int → Int) : IntMap :=
  ⟨if k ∈ m.keys then m.keys else m.keys ++ [k], Function.update m.val k (f (if k ∈ m.keys then m.val k else 0))⟩

open Classical in
/-- `_theta[i][k]`, a `const` map in a `const` vector: a bad index (sfw.h:2958) and a missing key (sfw.h:16432-16437) stop the program. -/
def readAt (theta : List IntMap) (i : Nat) (k : ℝ) : M ℝ Int :=
  match theta[i]? with
  | none => crash
  | some m => if k ∈ m.keys then pure (m.val k) else crash

/-- `_theta.write[i][k] = f(_theta.write[i][k])`: a bad index stops the program (sfw.h:2946). -/
def writeAt (theta : List IntMap) (i : Int) (k : ℝ) (f : Int → Int) : M ℝ (List IntMap) :=
  if idxOk i theta.length then pure (theta.modify i.toNat fun m => m.upd k f) else crash

/-- `_theta.resize(n)`. -/
def resizeTheta (theta : List IntMap) (n : Nat) : List IntMap := theta.take n ++ List.replicate (n - theta.length) IntMap.empty

/-- All values in the vocabulary get the count 0, bernoulli_nb.cpp:137-142, multinomial_nb.cpp:189-194. -/
def zeroTheta (class_num : Nat) (vocab : Ref) (theta : List IntMap) : M ℝ (List IntMap) :=
  foldN class_num theta fun t theta => do
    let i : Nat := class_num - 1 - t
    let vs ← Hd.size vocab
    foldN vs theta fun j theta => do
      let v ← Hd.element_get vocab (j : Nat)
      writeAt theta (i : Nat) v fun _ => 0

/-- The values of every sample are counted in its class, bernoulli_nb.cpp:144-148, multinomial_nb.cpp:198-202. -/
def countTheta (input_set output_set : Ref) (theta : List IntMap) : M ℝ (List IntMap) := do
  let sz ← Hd.sizem input_set
  foldN sz.y theta fun i theta =>
    foldN sz.x theta fun j theta => do
      let y ← Hd.element_get output_set (i : Nat)
      let c ← Activation.toInt y
      let v ← Hd.element_getm input_set (i : Nat) (j : Nat)
      writeAt theta c v fun k => k + 1

/-- `_theta.write[i][j] /= q`: the quotient is converted to `int`; for `q = 0` it is infinite or NaN, and the conversion undefined. -/
def divideAt (m : IntMap) (j : Nat) (q : ℝ) : M ℝ IntMap :=
  if q = 0 then ub
  else do
    let v ← Activation.toInt (((m.upd (j : ℝ) fun k => k).val (j : ℝ) : Int) / q)
    pure (m.upd (j : ℝ) fun _ => v)

end NaiveBayes
end
end Verif
