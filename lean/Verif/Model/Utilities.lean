import Verif.Model.MatrixApi
import Verif.Real
import Mathlib.Algebra.Order.Archimedean.Real.Basic
import Mathlib.Data.Rat.Floor

/-!
# `MLPPUtilities` (core/utilities.cpp)

A `std::vector` is a list, `v[i]` outside its length is undefined behaviour. `real_t` is the real numbers. The functions that print
(`UI`, `print_ui_*`, `CostInfo`, `cost_info`) and `saveParameters` are not modelled.
-/

namespace Verif

/-- `v[i]` for a `std::vector`. -/
def atS {R α : Type} (v : List α) (i : Nat) : M R α :=
  match v[i]? with
  | some a => pure a
  | none => ub

namespace Utilities
noncomputable section

/-! ## Random initialisation

A random source is a stream of numbers, one for each draw: `u i` in `[0, 1)` for a uniform, `z i` any number for a normal
distribution. -/

/-- The numbers drawn by `generator`. -/
structure Source where
  u : Nat → ℝ
  z : Nat → ℝ
  u_mem : ∀ i, 0 ≤ u i ∧ u i < 1

/-- `std::uniform_real_distribution<real_t> distribution(a, b)` and its `i`-th sample; `a <= b` is required by the standard
library. -/
def uniform (g : Source) (a b : ℝ) (i : Nat) : M ℝ ℝ := if a ≤ b then pure (a + g.u i * (b - a)) else ub

/-- `std::normal_distribution<real_t> distribution(0, sd)` and its `i`-th sample; `0 < sd` is required by the standard library. -/
def normal (g : Source) (sd : ℝ) (i : Nat) : M ℝ ℝ := if 0 < sd then pure (sd * g.z i) else ub

/-- `WeightDistributionType`, utilities.h:62-71. -/
inductive Kind where
  | default
  | xavier_normal
  | xavier_uniform
  | he_normal
  | he_uniform
  | le_cun_normal
  | le_cun_uniform
  | uniform

/-- The sample stored into cell `i` by `weight_initializationv`, utilities.cpp:152-211; the number of elements is converted to a
floating point number before dividing. -/
def sampleV (g : Source) (n : Nat) (type : Kind) (i : Nat) : M ℝ ℝ :=
  match type with
  | .default => uniform g 0 1 i
  | .xavier_normal => normal g (Real.sqrt (2 / (n + 1))) i
  | .xavier_uniform => uniform g (-Real.sqrt (6 / (n + 1))) (Real.sqrt (6 / (n + 1))) i
  | .he_normal => normal g (Real.sqrt (2 / n)) i
  | .he_uniform => uniform g (-Real.sqrt (6 / n)) (Real.sqrt (6 / n)) i
  | .le_cun_normal => normal g (Real.sqrt (1 / n)) i
  | .le_cun_uniform => uniform g (-Real.sqrt (3 / n)) (Real.sqrt (3 / n)) i
  | .uniform => uniform g (-1 / Real.sqrt n) (1 / Real.sqrt n) i

/-- `weight_initializationv(weights, type)`, utilities.cpp:140-212. The constructor of the distribution is run with the first draw:
for an empty vector nothing is drawn. -/
def weight_initializationv (g : Source) (weights : Option Nat) (type : Kind) : M ℝ Unit :=
  match weights with
  | none => pure ()
  | some w => do
    let n ← Vec.size w
    forN n fun i => do
      let x ← sampleV g n type i
      store (.v w) i x

/-- `a / b` for two `int`s; division by zero is undefined. -/
def intDiv (a b : Nat) : M ℝ Nat := if b = 0 then ub else pure (a / b)

/-- The sample stored into cell `i` by `weight_initializationm`, utilities.cpp:225-286, and by the overloads of
`weightInitialization`, 51-77 and 96-124: the divisions are divisions of `int`s, except for `Uniform`. -/
def sampleM (g : Source) (n s : Nat) (type : Kind) (i : Nat) : M ℝ ℝ :=
  match type with
  | .default => uniform g 0 1 i
  | .xavier_normal => do
    let q ← intDiv 2 s
    normal g (Real.sqrt q) i
  | .xavier_uniform => do
    let q ← intDiv 6 s
    uniform g (-Real.sqrt q) (Real.sqrt q) i
  | .he_normal => do
    let q ← intDiv 2 n
    normal g (Real.sqrt q) i
  | .he_uniform => do
    let q ← intDiv 6 n
    uniform g (-Real.sqrt q) (Real.sqrt q) i
  | .le_cun_normal => do
    let q ← intDiv 1 n
    normal g (Real.sqrt q) i
  | .le_cun_uniform => do
    let q ← intDiv 3 n
    uniform g (-Real.sqrt q) (Real.sqrt q) i
  | .uniform => uniform g (-1 / Real.sqrt n) (1 / Real.sqrt n) i

/-- `weight_initializationm(weights, type)`, utilities.cpp:213-287: `n` is the number of columns, `m` the number of rows. The
constructor of the distribution is run with the first draw. -/
def weight_initializationm (g : Source) (weights : Option Nat) (type : Kind) : M ℝ Unit :=
  match weights with
  | none => pure ()
  | some w => do
    let s ← Mat.size w
    forN s.count fun i => do
      let x ← sampleM g s.x (s.x + s.y) type i
      store (.m w) i x

/-- `weightInitialization(n, type)`, utilities.cpp:46-79. -/
def weightInitialization (g : Source) (n : Nat) (type : Kind) : M ℝ (List ℝ) :=
  foldN n [] fun i weights => do
    let x ← sampleM g n (n + 1) type i
    pure (weights ++ [x])

/-- `bias_initializationr()`, utilities.cpp:288-294, and `biasInitialization()`, 81-87. -/
def bias_initializationr (g : Source) : M ℝ ℝ := uniform g 0 1 0

/-- `biasInitialization(n)`, utilities.cpp:128-138. -/
def biasInitialization (g : Source) (n : Nat) : M ℝ (List ℝ) :=
  foldN n [] fun i bias => do
    let x ← uniform g 0 1 i
    pure (bias ++ [x])

/-- `bias_initializationv(z)`, utilities.cpp:295-308: the numbers are drawn into a local `std::vector`; `z` is not written. -/
def bias_initializationv (g : Source) (z : Option Nat) : M ℝ Unit :=
  match z with
  | none => pure ()
  | some z => do
    let n ← Vec.size z
    let _bias ← biasInitialization g n
    pure ()

/-! ## Performance -/

/-- `Math::round`, platform/sfw.h:2557-2562, and `std::round`: to the nearest integer, halves away from zero. -/
def roundC (x : ℝ) : ℝ := if 0 ≤ x then (⌊x + 1 / 2⌋ : ℝ) else (⌈x - 1 / 2⌉ : ℝ)

/-- `CMP_EPSILON`, platform/sfw.h:209. -/
def cmpEps : ℝ := 1 / 100000

/-- `Math::is_equal_approx(a, b)`, platform/sfw.h:2674-2685. -/
def isEqualApprox (a b : ℝ) : Bool :=
  let tol := cmpEps * absC a
  isEqualApproxS a b (if tol < cmpEps then cmpEps else tol)

open Classical in
/-- `performance(y_hat, outputSet)`, utilities.cpp:310-318. -/
def performance (y_hat outputSet : List ℝ) : M ℝ ℝ := do
  let correct ← foldN y_hat.length (0 : ℝ) fun i correct => do
    let p ← atS y_hat i
    let y ← atS outputSet i
    pure (if roundC p = y then correct + 1 else correct)
  pure (correct / y_hat.length)

open Classical in
/-- `performance(y_hat, y)` for nested vectors, utilities.cpp:320-334. -/
def performance2 (y_hat y : List (List ℝ)) : M ℝ ℝ := do
  let correct ← foldN y_hat.length (0 : ℝ) fun i correct => do
    let row ← atS y_hat i
    let r ← foldN row.length (0, correct) fun j c => do
      let p ← atS row j
      let yrow ← atS y i
      let q ← atS yrow j
      let sub_correct := if roundC p = q then c.1 + 1 else c.1
      let first ← atS y_hat 0
      pure (sub_correct, if sub_correct = first.length then c.2 + 1 else c.2)
    pure r.2
  pure (correct / y_hat.length)

/-- `performance_vec(y_hat, output_set)`, utilities.cpp:336-347. -/
def performance_vec (y_hat output_set : Option Nat) : M ℝ ℝ :=
  match y_hat with
  | none => pure 0
  | some a =>
    match output_set with
    | none => pure 0
    | some b => do
      let n ← Vec.size a
      let correct ← foldN n 0 fun i correct => do
        let p ← Vec.element_get a (i : Int)
        let y ← Vec.element_get b (i : Int)
        pure (if isEqualApprox (roundC p) y then correct + 1 else correct)
      let n ← Vec.size a
      pure (((correct : Nat) : ℝ) / n)

/-- `performance_mat(y_hat, y)`, utilities.cpp:348-367. -/
def performance_mat (y_hat y : Option Nat) : M ℝ ℝ :=
  match y_hat with
  | none => pure 0
  | some a =>
    match y with
    | none => pure 0
    | some b => do
      let s ← Mat.size a
      let correct ← foldN s.y (0 : ℝ) fun i correct => do
        let r ← foldN s.x (0, correct) fun j c => do
          let p ← Mat.element_get a (i : Int) (j : Int)
          let q ← Mat.element_get b (i : Int) (j : Int)
          let sub_correct := if isEqualApprox (roundC p) q then c.1 + 1 else c.1
          pure (sub_correct, if sub_correct = s.x then c.2 + 1 else c.2)
        pure r.2
      pure (correct / s.y)

open Classical in
/-- `performance_pool_int_array_vec(y_hat, output_set)`, utilities.cpp:368-378. -/
def performance_pool_int_array_vec (y_hat : List Int) (output_set : Option Nat) : M ℝ ℝ :=
  match output_set with
  | none => pure 0
  | some b => do
    let correct ← foldN y_hat.length (0 : ℝ) fun i correct => do
      let p ← atS y_hat i
      let y ← Vec.element_get b (i : Int)
      pure (if (p : ℝ) = roundC y then correct + 1 else correct)
    pure (correct / y_hat.length)

/-- The counters of `TF_PN`. -/
structure Counts where
  TP : ℝ
  FP : ℝ
  TN : ℝ
  FN : ℝ

open Classical in
/-- `TF_PN(y_hat, y)`, utilities.cpp:812-833. -/
def TF_PN (y_hat y : List ℝ) : M ℝ Counts :=
  foldN y_hat.length ⟨0, 0, 0, 0⟩ fun i c => do
    let p ← atS y_hat i
    let q ← atS y i
    if p = q then
      if p = 1 then pure { c with TP := c.TP + 1 } else pure { c with TN := c.TN + 1 }
    else
      if p = 1 then pure { c with FP := c.FP + 1 } else pure { c with FN := c.FN + 1 }

/-- `recall(y_hat, y)`, utilities.cpp:835-843. -/
def recall (y_hat y : List ℝ) : M ℝ ℝ := do
  let c ← TF_PN y_hat y
  pure (c.TP / (c.TP + c.FN))

/-- `precision(y_hat, y)`, utilities.cpp:845-853. -/
def precision (y_hat y : List ℝ) : M ℝ ℝ := do
  let c ← TF_PN y_hat y
  pure (c.TP / (c.TP + c.FP))

/-- `accuracy(y_hat, y)`, utilities.cpp:855-863. -/
def accuracy (y_hat y : List ℝ) : M ℝ ℝ := do
  let c ← TF_PN y_hat y
  pure ((c.TP + c.TN) / (c.TP + c.FP + c.FN + c.TN))

/-- `f1_score(y_hat, y)`, utilities.cpp:864-866. -/
def f1_score (y_hat y : List ℝ) : M ℝ ℝ := do
  let p ← precision y_hat y
  let r ← recall y_hat y
  let p' ← precision y_hat y
  let r' ← recall y_hat y
  pure (2 * p * r / (p' + r'))

end

/-! ## Mini-batches -/

variable {R α β : Type}

/-- `real_t(n) / real_t(k) - int(n / k) != 0`, utilities.cpp:569, 594, 620, in exact arithmetic; `q` is `n / k`. -/
def remains (n : Nat) (k q : Int) : Bool := decide ((n : Rat) / (k : Rat) - (q : Rat) ≠ 0)

/-- `v[i].push_back(x)` for a `std::vector` of `std::vector`s. -/
def pushAt (v : List (List α)) (i : Int) (x : α) : M R (List (List α)) :=
  if idxOk i v.length then pure (v.modify i.toNat (· ++ [x])) else ub

/-- `createMiniBatches(inputSet, n_mini_batch)`, utilities.cpp:555-575. The bound `n / n_mini_batch` of the inner loop does not change.
A division by zero is undefined. -/
def createMiniBatches (inputSet : List α) (k : Int) : M R (List (List α)) :=
  let n := inputSet.length
  if k = 0 then ub else do
    let q := (n : Int).tdiv k
    let batches ← foldN k.toNat [] fun i batches => do
      let current ← foldN q.toNat [] fun j current => do
        let x ← atS inputSet (q * i + j).toNat
        pure (current ++ [x])
      pure (batches ++ [current])
    if remains n k q then
      foldN ((n : Int) - q * k).toNat batches fun i batches => do
        let x ← atS inputSet (q * k + i).toNat
        pushAt batches (k - 1) x
    else pure batches

/-- `createMiniBatches(inputSet, outputSet, n_mini_batch)`, utilities.cpp:577-601 and 603-627: the two overloads differ in the
type of the outputs only. -/
def createMiniBatches2 (inputSet : List α) (outputSet : List β) (k : Int) : M R (List (List α) × List (List β)) :=
  let n := inputSet.length
  if k = 0 then ub else do
    let q := (n : Int).tdiv k
    let batches ← foldN k.toNat ([], []) fun i batches => do
      let current ← foldN q.toNat ([], []) fun j current => do
        let x ← atS inputSet (q * i + j).toNat
        let y ← atS outputSet (q * i + j).toNat
        pure (current.1 ++ [x], current.2 ++ [y])
      pure (batches.1 ++ [current.1], batches.2 ++ [current.2])
    if remains n k q then
      foldN ((n : Int) - q * k).toNat batches fun i batches => do
        let x ← atS inputSet (q * k + i).toNat
        let b1 ← pushAt batches.1 (k - 1) x
        let y ← atS outputSet (q * k + i).toNat
        let b2 ← pushAt batches.2 (k - 1) y
        pure (b1, b2)
    else pure batches

/-- `create_mini_batchesm(input_set, n_mini_batch)`, utilities.cpp:629-665: the batches start at multiples of `n_mini_batch`. -/
def create_mini_batchesm (input_set : Ref) (k : Int) : M R (List Ref) := do
  let a ← derefM input_set
  let s ← Mat.size a
  if k = 0 then ub else do
    let c := ((s.y : Int).tdiv k).toNat
    let row ← newVec
    resizeTo row ⟨s.x, 1, 1⟩
    foldN k.toNat [] fun i batches => do
      let b ← newMat
      resizeTo b ⟨s.x, c, 1⟩
      forN c fun j => do
        Mat.row_get_into_mlpp_vector a (k * i + j) (some row.id)
        Mat.row_set_mlpp_vector b.id (j : Int) (some row.id)
      pure (batches ++ [some b])

/-- `create_mini_batchesmv(input_set, output_set, n_mini_batch)`, utilities.cpp:666-711: the outputs of every batch are read from
the start of `output_set`. -/
def create_mini_batchesmv [Zero R] (input_set output_set : Ref) (k : Int) : M R (List Ref × List Ref) := do
  let a ← derefM input_set
  let s ← Mat.size a
  if k = 0 then ub else do
    let c := ((s.y : Int).tdiv k).toNat
    let row ← newVec
    resizeTo row ⟨s.x, 1, 1⟩
    foldN k.toNat ([], []) fun i batches => do
      let b ← newMat
      resizeTo b ⟨s.x, c, 1⟩
      let o ← newVec
      resizeTo o ⟨c, 1, 1⟩
      forN c fun j => do
        Mat.row_get_into_mlpp_vector a ((c * i + j : Nat) : Int) (some row.id)
        Mat.row_set_mlpp_vector b.id (j : Int) (some row.id)
        let y ← derefV output_set
        let v ← Vec.element_get y (j : Int)
        Vec.element_set o.id (j : Int) v
      pure (batches.1 ++ [some b], batches.2 ++ [some o])

/-- `create_mini_batchesmm(input_set, output_set, n_mini_batch)`, utilities.cpp:712-762. -/
def create_mini_batchesmm (input_set output_set : Ref) (k : Int) : M R (List Ref × List Ref) := do
  let a ← derefM input_set
  let s ← Mat.size a
  let y ← derefM output_set
  let t ← Mat.size y
  if k = 0 then ub else do
    let c := ((s.y : Int).tdiv k).toNat
    let row ← newVec
    resizeTo row ⟨s.x, 1, 1⟩
    let orow ← newVec
    resizeTo orow ⟨t.x, 1, 1⟩
    foldN k.toNat ([], []) fun i batches => do
      let b ← newMat
      resizeTo b ⟨s.x, c, 1⟩
      let o ← newMat
      resizeTo o ⟨t.x, c, 1⟩
      forN c fun j => do
        Mat.row_get_into_mlpp_vector a (k * i + j) (some row.id)
        Mat.row_set_mlpp_vector b.id (j : Int) (some row.id)
        Mat.row_get_into_mlpp_vector y (k * i + j) (some orow.id)
        Mat.row_set_mlpp_vector o.id (j : Int) (some orow.id)
      pure (batches.1 ++ [some b], batches.2 ++ [some o])

end Utilities
end Verif
