import Verif.Model.MatrixApi

/-!
# The text functions of `MLPPData` (core/data.cpp)

A `String` is a list of characters, a `Vector<String>` a list of these. `Vector::operator[]` stops the program for an index out of range
(`CRASH_BAD_INDEX`); the functions that can do this return an `Option`, `none` meaning that the program is stopped. `stemming` is in
Model/Stemming.lean, `lsa` in Model/Lsa.lean, `word_to_vec` in Model/WordToVec.lean. Not modelled: the image functions (they return empty vectors).
-/

namespace Verif.Text

/-- `String`. -/
abbrev Str := List Char

/-- `String::substr(p_from, p_chars)`, platform/sfw.cpp:3741-3761. -/
def substr (s : Str) (from_ chars : Int) : Str :=
  let chars := if chars = -1 then (s.length : Int) - from_ else chars
  if from_ < 0 ∨ (s.length : Int) ≤ from_ ∨ chars ≤ 0 then [] else (s.drop from_.toNat).take chars.toNat

/-- `String::substr_index(start_index, end_index)`, platform/sfw.cpp:3763-3779. -/
def substr_index (s : Str) (start_index end_index : Int) : Str :=
  if start_index < 0 ∨ (s.length : Int) ≤ start_index ∨ end_index < 0 then []
  else if end_index < start_index then []
  else if (s.length : Int) < end_index then substr s start_index ((s.length : Int) - 1 - start_index)
  else substr s start_index (end_index - start_index)

/-- The characters that `segment` makes words of, data.cpp:620. -/
def punct (c : Char) : Bool := c == ',' || c == '!' || c == '.' || c == '-'

/-- The loop of `segment`, data.cpp:616-630, from index `i`. -/
def segmentGo (text : Str) (i prev_delim : Nat) (segmented_data : List Str) : List Str :=
  if h : i < text.length then
    if text[i] = ' ' then
      segmentGo text (i + 1) (i + 1) (segmented_data ++ [substr text prev_delim ((i : Int) - prev_delim)])
    else if punct text[i] then
      segmentGo text (i + 2) (i + 2) (segmented_data ++ [substr text prev_delim ((i : Int) - prev_delim), [text[i]]])
    else if i = text.length - 1 then
      segmentGo text (i + 1) prev_delim (segmented_data ++ [substr text prev_delim ((text.length : Int) - prev_delim)])
    else segmentGo text (i + 1) prev_delim segmented_data
  else segmented_data
termination_by text.length - i

/-- `segment(text)`, data.cpp:612-633. -/
def segment (text : Str) : List Str := segmentGo text 0 0 []

/-- The inner loop of `tokenize`, data.cpp:643-648: the token of an earlier equal word. (The array of tokens is allocated beforehand;
only the part already written is read, so it is modelled by the list of the tokens written so far.) -/
def earlier (seg : List Str) (toks : List Nat) (i : Nat) : Option Nat :=
  (List.range i).reverse.foldl (fun r j => if seg[i]? = seg[j]? then toks[j]? else r) none

/-- `tokenize(text)`, data.cpp:635-658. -/
def tokenize (text : Str) : List Nat :=
  let seg := segment text
  ((List.range seg.length).foldl (fun (st : Nat × List Nat) i =>
    match earlier seg st.2 i with
    | some t => (st.1, st.2 ++ [t])
    | none => (st.1 + 1, st.2 ++ [st.1 + 1])) (0, [])).2

/-- `remove_spaces(data)`, data.cpp:595-600. -/
def remove_spaces (data : List Str) : List Str := data.map fun s => s.filter (· ≠ ' ')

/-- The loop of `remove_empty` from index `i`: after a removal the index is increased all the same. -/
def removeEmptyGo (data : List Str) (i : Nat) : List Str :=
  if h : i < data.length then
    if data[i] = [] then removeEmptyGo (data.eraseIdx i) (i + 1) else removeEmptyGo data (i + 1)
  else data
termination_by data.length - i
decreasing_by
  · rw [List.length_eraseIdx_of_lt h]; omega
  · omega

/-- `remove_empty(data)`, data.cpp:602-610. -/
def remove_empty (data : List Str) : List Str := removeEmptyGo data 0

/-- The inner loop of `remove_stop_words`, data.cpp:664-669, from index `j`. -/
def removeWordGo (w : Str) (data : List Str) (j : Nat) : List Str :=
  if h : j < data.length then
    if data[j] = w then removeWordGo w (data.eraseIdx j) j else removeWordGo w data (j + 1)
  else data
termination_by data.length - j
decreasing_by
  · rw [List.length_eraseIdx_of_lt h]; omega
  · omega

/-- `remove_stop_words(text)`, data.cpp:660-673. `low` is the conversion of characters of `to_lower`, platform/sfw.cpp:5396-5408. -/
def remove_stop_words (low : Char → Char) (stop_words : List Str) (text : Str) : List Str :=
  stop_words.foldl (fun data w => removeWordGo w data 0) (remove_spaces (segment (text.map low)))

/-- The inner loop of `remove_stop_words_vec`, data.cpp:677-682. -/
def removeAt (stop_words data : List Str) (i : Int) : Option (List Str × Int) :=
  stop_words.foldlM (fun (st : List Str × Int) w => do
    if idxOk st.2 st.1.length then
      let x ← st.1[st.2.toNat]?
      if x = w then pure (st.1.eraseIdx st.2.toNat, st.2 - 1) else pure st
    else none) (data, i)

/-- The loop of `remove_stop_words_vec`, at most `fuel` rounds. Every round decreases `data.length - i` by one, so `data.length` rounds are
enough. -/
def removeVecGo (stop_words : List Str) : Nat → List Str → Int → Option (List Str)
  | 0, data, _ => some data
  | fuel + 1, data, i =>
    if i < data.length then do
      let r ← removeAt stop_words data i
      removeVecGo stop_words fuel r.1 (r.2 + 1)
    else some data

/-- `remove_stop_words_vec(segmented_data)`, data.cpp:675-686. -/
def remove_stop_words_vec (stop_words data : List Str) : Option (List Str) := removeVecGo stop_words data.length data 0

/-- `vec_to_set(input_set)`, data.h:205-223; `vecToSet` (data.h:188-202) is the same for `std::vector`. -/
def vec_to_set {α : Type} [DecidableEq α] (input_set : List α) : List α :=
  input_set.foldl (fun set x => if set.foldl (fun new_element y => if y = x then false else new_element) true then set ++ [x] else set) []

/-- `create_word_list(sentences)`, data.cpp:920-932. -/
def create_word_list (low : Char → Char) (stop_words sentences : List Str) : List Str :=
  let combined_text := (List.range sentences.length).foldl (fun (t : Str) i =>
    (if i ≠ 0 then t ++ [' '] else t) ++ sentences.getD i []) []
  remove_spaces (vec_to_set (remove_stop_words low stop_words combined_text))

/-- The loop of `split_sentences`, data.cpp:577-586. -/
def splitGo (data : Str) (st : Nat × List Str) (i : Nat) : Nat × List Str :=
  if data[i]? = some '.' ∧ data[i + 1]? ≠ some '.' then st
  else if data[i]? = some '.' then (i + 1, st.2 ++ [substr_index data st.1 i])
  else st

/-- `split_sentences(data)`, data.cpp:572-593. -/
def split_sentences (data : Str) : List Str :=
  let r := (List.range (data.length - 1)).foldl (splitGo data) (0, [])
  if (r.1 : Int) ≠ (data.length : Int) - 1 then r.2 ++ [substr_index data r.1 ((data.length : Int) - 1)] else r.2

/-- `toLower(text)`, data.cpp:557-562, for a conversion `low` of characters; `split(text)`, 564-570, is the identity on the list of characters. -/
def toLower (low : Char → Char) (text : Str) : Str := text.map low

section
variable {R : Type} [Zero R] [One R] [Add R]

/-- `BagOfWordsType`, data.h:155-158. -/
inductive BagType where
  | default
  | binary
deriving DecidableEq

/-- The words used by `bag_of_words` and `tfidf`, data.cpp:715, 747. -/
def wordList (low : Char → Char) (stop_words sentences : List Str) : Option (List Str) := do
  let l ← remove_stop_words_vec stop_words (create_word_list low stop_words sentences)
  pure (remove_empty l)

/-- `bag_of_words(sentences, type)`, data.cpp:705-744. -/
def bag_of_words (low : Char → Char) (stop_words sentences : List Str) (type : BagType) : M R Ref :=
  match wordList low stop_words sentences with
  | none => crash
  | some words => do
    let segs := sentences.map (remove_stop_words low stop_words)
    let bow ← newMat
    resizeTo bow ⟨words.length, segs.length, 1⟩
    fillAll bow 0
    forN segs.length fun i => do
      let seg := segs.getD i []
      forN seg.length fun j => forN words.length fun k => do
        if seg[j]? = words[k]? then
          if type = .binary then Mat.element_set bow.id (i : Int) (k : Int) 1
          else do
            let x ← Mat.element_get bow.id (i : Int) (k : Int)
            Mat.element_set bow.id (i : Int) (k : Int) (x + 1)
        else pure ()
    pure (some bow)

end

end Verif.Text
