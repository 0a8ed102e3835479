import Verif.Model.Text
import Verif.Model.Csv
import Verif.Model.Stat
import Verif.Model.Softmax
import Verif.Model.LinAlgMatrix
import Verif.Model.Utilities

/-!
# The numeric functions of `MLPPData` (core/data.cpp)

`real_t` is the real numbers. Not modelled: the image functions (they return empty vectors), `word_to_vec`, `lsa`,
`setInputNames`, the method binding.
-/

namespace Verif.Data
open Text
noncomputable section

/-- `v[i]` for a `Vector<T>` or an `Array`: an index out of range stops the program (`CRASH_BAD_INDEX`). -/
def field {α : Type} (v : List α) (i : Nat) : M ℝ α :=
  match v[i]? with
  | some s => pure s
  | none => crash

/-! ## Text frequencies -/

/-- The loop over the words of a sentence of `tfidf`, data.cpp:773-784: `st` is `(frequency, present)`. -/
def countSentence (TF : Nat) (words seg : List Str) (i : Nat) (frequency : List Nat) : M ℝ (List Nat × List Bool) :=
  foldN seg.length (frequency, List.replicate words.length false) fun j st =>
    foldN words.length st fun k st =>
      if seg[j]? = words[k]? then do
        let x ← Mat.element_get TF (i : Int) (k : Int)
        Mat.element_set TF (i : Int) (k : Int) (x + 1)
        if st.2[k]? = some false then pure (st.1.modify k (· + 1), st.2.set k true) else pure st
      else pure st

/-- `tfidf(sentences)`, data.cpp:746-810. -/
def tfidf (low : Char → Char) (stop_words sentences : List Str) : M ℝ Ref :=
  match wordList low stop_words sentences with
  | none => crash
  | some words => do
    let segs := sentences.map (remove_stop_words low stop_words)
    let TF ← newMat
    resizeTo TF ⟨words.length, segs.length, 1⟩
    let TF_row ← newVec
    resizeTo TF_row ⟨words.length, 1, 1⟩
    let frequency ← foldN segs.length (List.replicate words.length 0) fun i frequency => do
      let seg := segs.getD i []
      let st ← countSentence TF.id words seg i frequency
      Mat.row_get_into_mlpp_vector TF.id (i : Int) (some TF_row.id)
      Vec.scalar_multiply TF_row.id (1 / (seg.length : ℝ))
      Mat.row_set_mlpp_vector TF.id (i : Int) (some TF_row.id)
      pure st.1
    let TFIDF ← newMat
    resizeTo TFIDF ⟨words.length, segs.length, 1⟩
    forN segs.length fun i => forN words.length fun j => do
      let x ← Mat.element_get TF.id (i : Int) (j : Int)
      Mat.element_set TFIDF.id (i : Int) (j : Int) (x * Real.log ((segs.length : ℝ) / (frequency.getD j 0 : ℝ)))
    pure (some TFIDF)

/-! ## Splitting -/

/-- `Array::shuffle()`, platform/sfw.cpp:19241-19253; `rand i` is the value of `Math::rand()` for index `i`. -/
def shuffle {α : Type} (rand : Nat → Nat) (a : List α) : List α :=
  (List.range (a.length - 1)).foldl (fun a t =>
    let i := a.length - 1 - t
    let j := rand i % (i + 1)
    match a[j]?, a[i]? with
    | some x, some y => (a.set j y).set i x
    | _, _ => a) a

/-- `MLPPDataComplex`: the two matrices of a data set, data.h:90-108. -/
structure Complex where
  input : Ref
  output : Ref

/-- The copying loops of `train_test_split`, data.cpp:407-415, 425-433: row `indices[start + i]` goes to row `i`. -/
def copyRows (indices : List Nat) (start n : Nat) (inp out it ot ri ro : Nat) : M ℝ Unit :=
  forN n fun i => do
    let index ← field indices (start + i)
    Mat.row_get_into_mlpp_vector inp (index : Int) (some ri)
    Mat.row_get_into_mlpp_vector out (index : Int) (some ro)
    Mat.row_set_mlpp_vector it (i : Int) (some ri)
    Mat.row_set_mlpp_vector ot (i : Int) (some ro)

/-- `train_test_split(data, test_size)`, data.cpp:361-436, for `data` with two matrices; the result is `(train, test)`. A negative number
of rows cannot be allocated. `rand` are the random numbers of `shuffle`. -/
def train_test_split (rand : Nat → Nat) (inp out : Nat) (test_size : ℝ) : M ℝ (Complex × Complex) := do
  let ti ← newMat
  let tr ← newMat
  let ei ← newMat
  let eo ← newMat
  let si ← Mat.size inp
  let so ← Mat.size out
  let is := Min.min si.y so.y
  let indices := shuffle rand (List.range is)
  let ri ← newVec
  resizeTo ri ⟨si.x, 1, 1⟩
  let ro ← newVec
  resizeTo ro ⟨so.x, 1, 1⟩
  let number ← Activation.toInt (test_size * is)
  if number < 0 then crash else do
    let t := number.toNat
    resizeTo ei ⟨si.x, t, 1⟩
    resizeTo eo ⟨so.x, t, 1⟩
    copyRows indices 0 t inp out ei.id eo.id ri.id ro.id
    resizeTo ti ⟨si.x, is - t, 1⟩
    resizeTo tr ⟨so.x, is - t, 1⟩
    copyRows indices t (is - t) inp out ti.id tr.id ri.id ro.id
    pure (⟨some ti, some tr⟩, ⟨some ei, some eo⟩)

/-! ## Classes -/

/-- `one_hot_rep(temp_output_set, n_class)`, data.cpp:1035-1057. -/
def one_hot_rep (t : Option Nat) (n_class : Nat) : M ℝ Ref :=
  match t with
  | none => pure none
  | some t => do
    let output_set ← newMat
    let n ← Vec.size t
    resizeTo output_set ⟨n_class, n, 1⟩
    forN n fun i => forN n_class fun j => do
      let x ← load (.v t) i
      let k ← Activation.toInt x
      if k = (j : Int) then Mat.element_set output_set.id (i : Int) (j : Int) 1
      else Mat.element_set output_set.id (i : Int) (j : Int) 0
    pure (some output_set)

/-- The inner loop of `reverseOneHot`, data.cpp:1064-1070. -/
def classGo (current_class : Nat) : List ℝ → Nat
  | [] => current_class
  | x :: xs => if x = 1 then current_class else classGo (current_class + 1) xs

/-- `reverseOneHot(tempOutputSet)`, data.cpp:1059-1075. -/
def reverseOneHot (tempOutputSet : List (List ℝ)) : List ℝ := tempOutputSet.map fun row => (classGo 1 row : ℝ)

/-! ## Scaling -/

/-- `feature_scaling(p_X)`, data.cpp:949-983. -/
def feature_scaling [HasInf ℝ] (X : Ref) : M ℝ Ref := do
  let x ← derefM X
  let Xt ← Mat.transposen x
  let t ← derefM Xt
  let s ← Mat.size t
  let row_tmp ← newVec
  resizeTo row_tmp ⟨s.x, 1, 1⟩
  let ext ← foldN s.y ([] : List (ℝ × ℝ)) fun i ext => do
    Mat.row_get_into_mlpp_vector t (i : Int) (some row_tmp.id)
    let hi ← Vec.max_element row_tmp.id
    let lo ← Vec.min_element row_tmp.id
    pure (ext ++ [(hi, lo)])
  forN s.y fun i => do
    let e ← atS ext i
    forN s.x fun j => do
      let xij ← Mat.element_get t (i : Int) (j : Int)
      Mat.element_set t (i : Int) (j : Int) ((xij - e.2) / (e.1 - e.2))
  Mat.transposen t

/-- `mean_centering(p_X)`, data.cpp:985-1009. -/
def mean_centering (X : Ref) : M ℝ Ref := do
  let out ← newMat
  let x ← derefM X
  let s ← Mat.size x
  resizeTo out s
  let x_row_tmp ← newVec
  resizeTo x_row_tmp ⟨s.x, 1, 1⟩
  forN s.y fun i => do
    Mat.row_get_into_mlpp_vector x (i : Int) (some x_row_tmp.id)
    let mean_i ← Stat.meanv (some x_row_tmp.id)
    forN s.x fun j => do
      let v ← Mat.element_get x (i : Int) (j : Int)
      Mat.element_set out.id (i : Int) (j : Int) (v - mean_i)
  pure (some out)

/-- `mean_normalization(p_X)`, data.cpp:1011-1033. -/
def mean_normalization (X : Ref) : M ℝ Ref := do
  let c ← mean_centering X
  let x ← derefM c
  let s ← Mat.size x
  let x_row_tmp ← newVec
  resizeTo x_row_tmp ⟨s.x, 1, 1⟩
  forN s.y fun i => do
    Mat.row_get_into_mlpp_vector x (i : Int) (some x_row_tmp.id)
    let sd ← Stat.standard_deviationv (some x_row_tmp.id)
    Vec.scalar_multiply x_row_tmp.id (1 / sd)
    Mat.row_set_mlpp_vector x (i : Int) (some x_row_tmp.id)
  pure c

/-! ## Sets -/

/-- `vec_to_setnv(input_set)`, data.h:225-247. -/
def vec_to_setnv (input_set : Ref) : M ℝ Ref := do
  let x ← derefV input_set
  let n ← Vec.size x
  let set ← foldN n ([] : List ℝ) fun i set => do
    let v ← Vec.element_get x (i : Int)
    pure (if set.foldl (fun new_element y => if y = v then false else new_element) true then set ++ [v] else set)
  let ret ← newVec
  Vec.set_from_vector ret.id set
  pure (some ret)

/-! ## Loading

`num` is `String::to_double`; `text` is the contents of the file, which exists. `ll[i]` outside the length of the line stops the program
(`CRASH_BAD_INDEX`). -/

/-- `for (int i = 0; i < k; ++i) row.push_back(ll[i].to_double())`, data.cpp:285-287. -/
def fieldsTo (num : Str → ℝ) (ll : List Str) (k : Nat) : M ℝ (List ℝ) :=
  foldN k [] fun i row => do
    let s ← field ll i
    pure (row ++ [num s])

/-- `set_data_supervised(k, file_name, input_set, output_set)`, data.cpp:264-298. -/
def set_data_supervised (num : Str → ℝ) (k : Nat) (text : Str) (input_set output_set : Option Nat) : M ℝ Unit :=
  match input_set, output_set with
  | some i, some o => do
    let r ← (Csv.lines text).foldlM (fun (st : List (List ℝ) × List ℝ) ll => do
      let row ← fieldsTo num ll k
      let s ← field ll k
      pure (st.1 ++ [row], st.2 ++ [num s])) ([], [])
    Vec.set_from_vector o r.2
    Mat.set_from_vectors i r.1
  | _, _ => pure ()

/-- `set_data_unsupervised(k, file_name, input_set)`, data.cpp:300-329. The transposed matrix is assigned to the parameter, a copy of the
caller's handle. -/
def set_data_unsupervised (num : Str → ℝ) (k : Nat) (text : Str) (input_set : Option Nat) : M ℝ Unit :=
  match input_set with
  | some i => do
    let cols ← (Csv.lines text).foldlM (fun (cols : List (List ℝ)) ll => do
      let row ← fieldsTo num ll k
      pure (List.zipWith (fun c x => c ++ [x]) cols row)) (List.replicate k [])
    Mat.set_from_vectors i cols
    let _ ← LinAlg.transposenm (some (.m i))
    pure ()
  | none => pure ()

/-- The loop over the pairs of a line, data.cpp:348-351, from index `i`. -/
def pairsGo (num : Str → ℝ) : List Str → M ℝ (List ℝ × List ℝ)
  | [] => pure ([], [])
  | [_] => crash
  | a :: b :: rest => do
    let r ← pairsGo num rest
    pure (num a :: r.1, num b :: r.2)

/-- `set_data_simple(file_name, input_set, output_set)`, data.cpp:331-359. -/
def set_data_simple (num : Str → ℝ) (text : Str) (input_set output_set : Option Nat) : M ℝ Unit :=
  match input_set, output_set with
  | some i, some o => do
    let r ← (Csv.lines text).foldlM (fun (st : List ℝ × List ℝ) ll => do
      let p ← pairsGo num ll
      pure (st.1 ++ p.1, st.2 ++ p.2)) ([], [])
    Vec.set_from_vector i r.1
    Vec.set_from_vector o r.2
  | _, _ => pure ()

/-- `load_breast_cancer`, `load_breast_cancer_svc` (`k = 30`), `load_california_housing` (`k = 13`), data.cpp:145-168, 238-248: the matrix and
the vector. -/
def load_simple (num : Str → ℝ) (k : Nat) (text : Str) : M ℝ (Ref × Ref) := do
  let i ← newMat
  let o ← newVec
  set_data_supervised num k text (some i.id) (some o.id)
  pure (some i, some o)

/-- `load_iris`, `load_wine` (`k = 4`, 3 classes), `load_mnist_train`, `load_mnist_test` (`k = 784`, 10 classes), data.cpp:170-236: the two
matrices. -/
def load_complex (num : Str → ℝ) (k n_class : Nat) (text : Str) : M ℝ (Ref × Ref) := do
  let temp_output_set ← newVec
  let i ← newMat
  let _ ← newMat (R := ℝ)
  set_data_supervised num k text (some i.id) (some temp_output_set.id)
  let o ← one_hot_rep (some temp_output_set.id) n_class
  pure (some i, o)

end

end Verif.Data
