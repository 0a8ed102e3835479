import Verif.Model.Matrix
import Verif.Model.Stat
import Verif.Model.Softmax
import Verif.Model.Utilities

/-!
# The small models: `MLPPUniLinReg`, `MLPPOutlierFinder`, `MLPPKNN`

An object is a structure of its fields; a method takes the structure and, if it changes fields, returns the new one. A field that is
a handle is `none` (null) or the number of a vector or matrix. Printing and the binding of methods are not modelled.
-/

namespace Verif
open Activation (toInt)
noncomputable section

/-! ## `MLPPUniLinReg` -/

/-- The fields of `MLPPUniLinReg`, uni_lin_reg.h. -/
structure UniLinReg where
  input_set : Option Nat
  output_set : Option Nat
  b0 : ℝ
  b1 : ℝ

namespace UniLinReg

/-- `train()`, uni_lin_reg.cpp:68-75. -/
def train (s : UniLinReg) : M ℝ UniLinReg :=
  if s.input_set.isNone ∨ s.output_set.isNone then pure s
  else do
    let b1 ← Stat.b1_estimation s.input_set s.output_set
    let b0 ← Stat.b0_estimation s.input_set s.output_set
    pure { s with b0 := b0, b1 := b1 }

/-- `MLPPUniLinReg(p_input_set, p_output_set)`, uni_lin_reg.cpp:85-90; `b0` and `b1` are not initialised before `train`. -/
def create (junk0 junk1 : ℝ) (p_input_set p_output_set : Option Nat) : M ℝ UniLinReg :=
  train ⟨p_input_set, p_output_set, junk0, junk1⟩

/-- `model_set_test(x)`, uni_lin_reg.cpp:77-79. -/
def model_set_test (s : UniLinReg) (x : Ref) : M ℝ Ref := do
  let xv ← derefV x
  let p ← Vec.scalar_multiplyn xv s.b1
  let pv ← derefV p
  Vec.scalar_addn pv s.b0

/-- `model_test(x)`, uni_lin_reg.cpp:81-83. -/
def model_test (s : UniLinReg) (x : ℝ) : ℝ := s.b0 + s.b1 * x

end UniLinReg

/-! ## `MLPPOutlierFinder` -/

namespace OutlierFinder

open Classical in
/-- `model_test(input_set)`, outlier_finder.cpp:118-141. Division by a standard deviation of zero gives 0 in the model (NaN in the
code). -/
def model_test (threshold : ℝ) (input_set : Option Nat) : M ℝ (List ℝ) :=
  match input_set with
  | none => pure []
  | some v => do
    let mean ← Stat.meanv (some v)
    let s_dev ← Stat.standard_deviationv (some v)
    let input_set_size ← Vec.size v
    foldN input_set_size [] fun i outliers => do
      let input_set_i ← load (.v v) i
      let z := (input_set_i - mean) / s_dev
      if absC z > threshold then pure (outliers ++ [input_set_i]) else pure outliers

open Classical in
/-- `model_set_test(input_set)`, outlier_finder.cpp:42-73. -/
def model_set_test (threshold : ℝ) (input_set : Option Nat) : M ℝ (List (List ℝ)) :=
  match input_set with
  | none => pure []
  | some m => do
    let input_set_size ← Mat.size m
    let row ← newVec
    resizeTo row ⟨input_set_size.x, 1, 1⟩
    foldN input_set_size.y (List.replicate input_set_size.y []) fun i outliers => do
      Mat.row_get_into_mlpp_vector m i (some row.id)
      let meanv ← Stat.meanv (some row.id)
      let s_dev_v ← Stat.standard_deviationv (some row.id)
      foldN input_set_size.x outliers fun j outliers => do
        let input_set_i_j ← Mat.element_get m i j
        let z := (input_set_i_j - meanv) / s_dev_v
        if absC z > threshold then pure (outliers.modify i (· ++ [input_set_i_j])) else pure outliers

open Classical in
/-- `model_set_test_indices(input_set)`, outlier_finder.cpp:88-116. A pair is `Vector2i(j, i)`. -/
def model_set_test_indices (threshold : ℝ) (input_set : Option Nat) : M ℝ (List (Nat × Nat)) :=
  match input_set with
  | none => pure []
  | some m => do
    let input_set_size ← Mat.size m
    let row ← newVec
    resizeTo row ⟨input_set_size.x, 1, 1⟩
    foldN input_set_size.y [] fun i outliers => do
      Mat.row_get_into_mlpp_vector m i (some row.id)
      let meanv ← Stat.meanv (some row.id)
      let s_dev_v ← Stat.standard_deviationv (some row.id)
      foldN input_set_size.x outliers fun j outliers => do
        let x ← Mat.element_get m i j
        let z := (x - meanv) / s_dev_v
        if absC z > threshold then pure (outliers ++ [(j, i)]) else pure outliers

end OutlierFinder

/-! ## `MLPPKNN` -/

/-- The fields of `MLPPKNN`, knn.h:72-75. -/
structure KNN where
  input_set : Option Nat
  output_set : Option Nat
  k : Int

namespace KNN

open Classical in
/-- The inner loop of `nearest_neighbors`, knn.cpp:117-134: the candidate after all rows have been looked at. `skip` are the keys of
`skip_map`. -/
def candidate (m tmpv1 tmpv2 : Nat) (x : Ref) (iuss : Nat) (skip : List Nat) : M ℝ Nat :=
  foldN iuss 0 fun j neighbor =>
    if j ∈ skip then pure neighbor
    else do
      Mat.row_get_into_mlpp_vector m j (some tmpv1)
      Mat.row_get_into_mlpp_vector m neighbor (some tmpv2)
      let xv ← derefV x
      let d1 ← Vec.euclidean_distance xv (some tmpv1)
      let d2 ← Vec.euclidean_distance xv (some tmpv2)
      if d1 < d2 then pure j else pure neighbor

/-- `nearest_neighbors(x)`, knn.cpp:99-140. -/
def nearest_neighbors (s : KNN) (x : Ref) : M ℝ (List Nat) :=
  match s.input_set with
  | none => pure []
  | some m => do
    let tmpv1 ← newVec
    let tmpv2 ← newVec
    let size ← Mat.size m
    foldN s.k.toNat [] fun _ knn => do
      let neighbor ← candidate m tmpv1.id tmpv2.id x size.y knn
      if neighbor ∈ knn then pure knn else pure (knn ++ [neighbor])

/-- The class numbers `static_cast<int>(os_ptr[i])` of the output set. -/
def classAt (o : Nat) (i : Nat) : M ℝ Int := do
  let v ← load (.v o) i
  toInt v

/-- `determine_class(knn)`, knn.cpp:142-183. `class_nums` is a map from classes to numbers; every key that is read has been set before. -/
def determine_class (s : KNN) (knn : List Nat) : M ℝ Int :=
  match s.output_set with
  | none => pure 0
  | some o => do
    let output_set_size ← Vec.size o
    if output_set_size = 0 then pure 0
    else do
      let nums ← foldN output_set_size (fun _ : Int => (0 : Int)) fun i nums => do
        let c ← classAt o i
        pure (Function.update nums c 0)
      let nums ← foldN knn.length nums fun i nums =>
        foldN output_set_size nums fun j nums => do
          let opj ← classAt o j
          let kn ← atS knn i
          if (kn : Int) = opj then pure (Function.update nums opj (nums opj + 1)) else pure nums
      let final_class ← classAt o 0
      let r ← foldN output_set_size (final_class, nums final_class) fun i st => do
        let opi ← classAt o i
        if nums opi > st.2 then pure (opi, nums opi) else pure st
      pure r.1

/-- `model_test(x)`, knn.cpp:82-84. -/
def model_test (s : KNN) (x : Ref) : M ℝ Int := do
  let knn ← nearest_neighbors s x
  determine_class s knn

/-- `model_set_test(X)`, knn.cpp:62-80. -/
def model_set_test (s : KNN) (X : Option Nat) : M ℝ (List Int) :=
  match X with
  | none => pure []
  | some X => do
    let v ← newVec
    let size ← Mat.size X
    foldN size.y [] fun i y_hat => do
      Mat.row_get_into_mlpp_vector X i (some v.id)
      let c ← model_test s (some v)
      pure (y_hat ++ [c])

/-- `score()`, knn.cpp:86-89. -/
def score (s : KNN) : M ℝ ℝ := do
  let y_hat ← model_set_test s s.input_set
  Utilities.performance_pool_int_array_vec y_hat s.output_set

end KNN
end
end Verif
