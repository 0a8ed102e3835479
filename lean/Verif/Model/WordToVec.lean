import Verif.Model.SoftmaxNet
import Verif.Model.Text

/-! # Word embeddings: `word_to_vec` (core/data.cpp) -/

namespace Verif.Data
open Text

/-- The body of the innermost loop, data.cpp:830-840: the word at `j` of a sentence is paired with those `k` places before and after it. The two lists
are `inputStrings` and `outputStrings`. (Sums of indices are natural numbers here: they do not overflow.) -/
def pairAt (s : List Str) (j k : Nat) (st : List Str × List Str) : List Str × List Str :=
  let st := if k ≤ j then (st.1 ++ [s.getD j []], st.2 ++ [s.getD (j - k) []]) else st
  if j + k + 1 ≤ s.length then (st.1 ++ [s.getD j []], st.2 ++ [s.getD (j + k) []]) else st

/-- The three loops, data.cpp:827-843; `k` runs from `windowSize` down to 1. -/
def wordPairs (windowSize : Nat) (segmented_sentences : List (List Str)) : List Str × List Str :=
  segmented_sentences.foldl (fun st s =>
    (List.range s.length).foldl (fun st j =>
      (List.range windowSize).foldl (fun st t => pairAt s j (windowSize - t) st) st) st) ([], [])

/-- The loops of data.cpp:864-867 (`offset` 0) and 872-875 (`offset` `input_size`): rows of `bow` are copied to the first `n` rows of `input_set`. -/
def copyWordRows (bow input_set row_tmp : Ref) (offset n : Nat) : M ℝ Unit :=
  forN n fun i => do
    Hd.row_get_into bow (i + offset : Nat) row_tmp
    Hd.row_set_mlpp_vector input_set (i : Nat) row_tmp

/-- data.cpp:869-875: both the loop for the inputs and that for the outputs write to `input_set`. -/
def outputSet (bow input_set output_set row_tmp : Ref) (cols rows input_size : Nat) : M ℝ Unit := do
  Hd.resizem output_set ⟨cols, rows - input_size, 1⟩
  let s ← Hd.sizem output_set
  copyWordRows bow input_set row_tmp input_size s.y

/-- The result of the first part: the words, and the two sets the network is trained with. -/
structure Prepared where
  word_list : List Str
  input_set : Ref
  output_set : Ref

/-- `word_to_vec`, data.cpp:812-875: everything before the network. A `windowSize` that is negative gives no pairs, as 0 does. -/
noncomputable def prepare (low : Char → Char) (stop_words sentences : List Str) (windowSize : Int) : M ℝ Prepared :=
  match wordList low stop_words sentences with
  | none => crash
  | some words => do
    let p := wordPairs windowSize.toNat (sentences.map (remove_stop_words low stop_words))
    let bow ← bag_of_words low stop_words (p.1 ++ p.2) .binary
    let bow_size ← Hd.sizem bow
    let input_set ← newMat
    let output_set ← newMat
    resizeTo input_set ⟨bow_size.x, p.1.length, 1⟩
    let row_tmp ← newVec
    resizeTo row_tmp ⟨bow_size.x, 1, 1⟩
    copyWordRows bow (some input_set) (some row_tmp) 0 p.1.length
    outputSet bow (some input_set) (some output_set) (some row_tmp) bow_size.x bow_size.y p.1.length
    pure ⟨words, some input_set, some output_set⟩

/-- `WordToVecType`, data.h:168-171. -/
inductive WordToVecType where
  | cbow
  | skipgram
deriving DecidableEq

/-- `word_to_vec(sentences, type, windowSize, dimension, learning_rate, max_epoch)`, data.cpp:812-891. -/
noncomputable def word_to_vec (gw1 gw2 gb1 gb2 : Utilities.Source) (low : Char → Char) (stop_words sentences : List Str) (type : WordToVecType)
    (windowSize : Int) (dimension : Nat) (learning_rate : ℝ) (max_epoch : Int) : M ℝ (List Str × Ref) := do
  let p ← prepare low stop_words sentences windowSize
  let model ← SoftmaxNet.create gw1 gw2 gb1 gb2 (if type = .skipgram then p.output_set else p.input_set)
    (if type = .skipgram then p.input_set else p.output_set) dimension .none (1 / 2) (1 / 2)
  let model ← SoftmaxNet.train_gradient_descent model learning_rate max_epoch
  pure (p.word_list, SoftmaxNet.get_embeddings model)

end Verif.Data
