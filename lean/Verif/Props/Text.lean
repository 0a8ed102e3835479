import Verif.Lemmas.Text

/-! # C65-C69: cutting a text into words, tokens, stop words, sets of words -/

namespace Verif.Text
open Spec

/-! ## C65: `segment` -/

/-- C65: `segment` returns the words and punctuation marks of a text in which every mark is followed by a space (or ends the text). -/
theorem C65_segment_partial (ps : List Piece) (hok : ∀ p ∈ ps, p.Ok) (hlast : ∀ p ∈ ps.getLast?, p.word ≠ [] ∨ p.mark ≠ none) :
    segment (render ps) = tokens ps := by
  rw [segment_scan]
  induction ps with
  | nil => simp [render, tokens, scan]
  | cons p ps ih =>
    obtain ⟨hw, hm⟩ := hok p (by simp)
    have mark_scan : ∀ (c : Char) (rest : Str), p.mark = some c → scan [] (p.word ++ c :: rest) = p.word :: [c] :: scan [] (rest.drop 1) := by
      intro c rest e
      obtain ⟨h1, h2⟩ := hm c (by simp [e])
      have h3 := ((sep_iff c).mp h1).resolve_left h2
      rw [scan_word [] p.word _ hw (by simp), scan, if_neg h2, if_pos h3]; rfl
    cases ps with
    | nil =>
      cases e : p.mark with
      | none =>
        have hne := (hlast p (by simp)).resolve_right (by simp [e])
        simp only [render, tokens, e, Option.toList, List.append_nil, List.flatMap_cons, List.flatMap_nil, List.map_nil]
        rw [scan_last [] p.word hw hne]; rfl
      | some c =>
        have := mark_scan c [] e
        simp only [render, tokens, e, Option.toList, List.flatMap_cons, List.flatMap_nil, List.map_cons, List.map_nil, List.append_nil]
        rw [this]; simp [scan]
    | cons q ps =>
      have ih := ih (fun p' hp' => hok p' (List.mem_cons_of_mem _ hp')) (by simpa using hlast)
      cases e : p.mark with
      | none =>
        rw [render, e]
        simp only [Option.toList, List.append_nil]
        rw [scan_word [] p.word _ hw (by simp), scan, if_pos rfl, ih]
        simp [tokens, e]
      | some c =>
        rw [render, e]
        simp only [Option.toList, List.append_assoc, List.singleton_append]
        rw [mark_scan c _ e]
        simp only [List.drop_succ_cons, List.drop_zero]
        rw [ih]
        simp [tokens, e]

/-- C65: after a punctuation mark one character is skipped whatever it is: `"a,b"` loses its `b`. -/
theorem C65_segment_fails : segment "a,b".toList = ["a".toList, ",".toList] := by
  rw [segment_scan]; decide +kernel

/-- C65: a word never contains a space. -/
theorem C65_no_space (text : Str) : ∀ w ∈ segment text, ' ' ∉ w := segment_noSpace text

example : segment "hello, big world!".toList = ["hello".toList, ",".toList, "big".toList, "world".toList, "!".toList] := by
  have := C65_segment_partial [⟨"hello".toList, some ','⟩, ⟨"big".toList, none⟩, ⟨"world".toList, some '!'⟩]
    (by simp [Piece.Ok, separators]) (by simp)
  exact this

/-! ## C66: `tokenize` -/

theorem tokenize_go (seg : List Str) (i : Nat) (hi : i ≤ seg.length) :
    (List.range i).foldl (fun (st : Nat × List Nat) i =>
      match earlier seg st.2 i with
      | some t => (st.1, st.2 ++ [t])
      | none => (st.1 + 1, st.2 ++ [st.1 + 1])) (0, []) =
    ((firsts (seg.take i)).length, (seg.take i).map fun w => (firsts (seg.take i)).idxOf w + 1) := by
  induction i with
  | zero => simp [firsts]
  | succ i ih =>
    have hlt : i < seg.length := by omega
    rw [List.range_succ, List.foldl_append, ih (by omega), List.foldl_cons, List.foldl_nil]
    have htake : seg.take (i + 1) = seg.take i ++ [seg[i]] := by rw [List.take_add_one, List.getElem?_eq_getElem hlt]; rfl
    have hget : ∀ j (_ : j < i), ((seg.take i).map fun w => (firsts (seg.take i)).idxOf w + 1)[j]? =
        some ((firsts (seg.take i)).idxOf (seg[j]'(by omega)) + 1) := by
      intro j hj
      rw [List.getElem?_map, List.getElem?_take_of_lt hj, List.getElem?_eq_getElem (show j < seg.length by omega)]; rfl
    have hmem : seg[i] ∈ seg.take i ↔ ∃ j, ∃ (_ : j < i), seg[i]? = seg[j]? := by
      rw [List.mem_take_iff_getElem]
      constructor
      · rintro ⟨j, hj, e⟩
        have hj' : j < seg.length := by omega
        exact ⟨j, by omega, by rw [List.getElem?_eq_getElem hlt, List.getElem?_eq_getElem hj', e]⟩
      · rintro ⟨j, hj, e⟩
        refine ⟨j, by omega, ?_⟩
        rw [List.getElem?_eq_getElem hlt, List.getElem?_eq_getElem (show j < seg.length by omega)] at e
        exact (Option.some.inj e).symm
    dsimp only
    by_cases hm : seg[i] ∈ seg.take i
    · obtain ⟨j, hj, e⟩ := hmem.mp hm
      rw [earlier_some (t := (firsts (seg.take i)).idxOf seg[i] + 1) ?_ hj e]
      · rw [htake, firsts_snoc, if_pos hm, List.map_append]; rfl
      · intro j hj e
        rw [hget j hj]
        rw [List.getElem?_eq_getElem hlt, List.getElem?_eq_getElem (show j < seg.length by omega)] at e
        rw [Option.some.inj e]
    · rw [earlier_none (fun j hj e => hm (hmem.mpr ⟨j, hj, e⟩))]
      rw [htake, firsts_snoc, if_neg hm, List.map_append]
      dsimp only
      have hn : seg[i] ∉ firsts (seg.take i) := fun q => hm ((mem_firsts _ _).mp q)
      congr 1
      · simp
      congr 1
      · refine List.map_congr_left fun w hw => ?_
        rw [List.idxOf_append_of_mem ((mem_firsts _ _).mpr hw)]
      · rw [List.map_cons, List.map_nil, List.idxOf_append_of_notMem hn]; simp

/-- C66: the token of a word is the rank of its first occurrence among the different words of the text, counted from 1. -/
theorem C66_rank (text : Str) : tokenize text = (segment text).map fun w => (firsts (segment text)).idxOf w + 1 := by
  unfold tokenize
  dsimp only
  have := congrArg Prod.snd (tokenize_go (segment text) _ (Nat.le_refl _))
  rw [List.take_length] at this
  exact this

/-- C66: there is one token for each word, and two words have the same token exactly if they are equal. -/
theorem C66_tokens (text : Str) : (tokenize text).length = (segment text).length ∧
    ∀ i j, i < (segment text).length → j < (segment text).length →
      ((tokenize text)[i]? = (tokenize text)[j]? ↔ (segment text)[i]? = (segment text)[j]?) := by
  rw [C66_rank]
  refine ⟨by simp, fun i j hi hj => ?_⟩
  rw [List.getElem?_map, List.getElem?_map, List.getElem?_eq_getElem hi, List.getElem?_eq_getElem hj]
  simp only [Option.map_some, Option.some.injEq, Nat.add_right_cancel_iff]
  rw [List.idxOf_inj ((mem_firsts _ _).mpr (List.getElem_mem hi))]

example : tokenize "to be or not to be".toList = [1, 2, 3, 4, 1, 2] := by
  rw [C66_rank, segment_scan]; decide +kernel

/-! ## C67: `remove_spaces` and `remove_empty` -/

/-- C67: `remove_spaces` deletes the spaces of every string, and nothing else. -/
theorem C67_spaces (data : List Str) : (remove_spaces data).length = data.length ∧
    ∀ i (hi : i < data.length), (remove_spaces data)[i]? = some (data[i].filter (· ≠ ' ')) := by
  refine ⟨by simp [remove_spaces], fun i hi => ?_⟩
  simp [remove_spaces, List.getElem?_eq_getElem hi]

/-- C67: `remove_empty` keeps the non-empty strings, if no two empty ones are adjacent. -/
theorem C67_empty_partial (data : List Str) (hc : ∀ k (h : k + 1 < data.length), data[k] = [] → data[k + 1] ≠ []) :
    remove_empty data = data.filter (· ≠ []) := by
  unfold remove_empty
  rw [removeEmptyGo_eq data 0 fun k h _ => hc k h]; simp

/-- C67: of two adjacent empty strings one stays. -/
theorem C67_empty_fails : remove_empty ["a".toList, [], [], "b".toList] = ["a".toList, [], "b".toList] := by
  simp [remove_empty, removeEmptyGo]

example : remove_empty [[], "a".toList, [], "b".toList] = ["a".toList, "b".toList] := by
  rw [C67_empty_partial]
  · decide
  · intro k h
    have : k = 0 ∨ k = 1 ∨ k = 2 := by simp at h; omega
    rcases this with rfl | rfl | rfl <;> simp

/-! ## C68: stop words -/

/-- C68: `remove_stop_words` returns the words of the lower-case text that are not stop words, in order. -/
theorem C68_text (low : Char → Char) (stop_words : List Str) (text : Str) :
    remove_stop_words low stop_words text = (segment (text.map low)).filter (· ∉ stop_words) := by
  unfold remove_stop_words
  rw [removeWords_eq, remove_spaces_id _ (segment_noSpace _)]

/-- C68: `remove_stop_words_vec` returns the words that are not stop words, in order, if the first word is not one. -/
theorem C68_vec_partial (stop_words data : List Str) (hf : ∀ w ∈ data.head?, w ∉ stop_words) :
    remove_stop_words_vec stop_words data = some (data.filter (· ∉ stop_words)) := by
  unfold remove_stop_words_vec
  cases data with
  | nil => rfl
  | cons w ws =>
    have hw := hf w (by simp)
    have h0 : removeAt stop_words (w :: ws) 0 = some (w :: ws, 0) :=
      removeAt_skip stop_words (w :: ws) 0 (by simp) hw
    rw [List.length_cons, removeVecGo, if_pos (by simp), h0]
    have := removeVecGo_eq stop_words ws.length (w :: ws) 0 (by simp) (by
      intro k hk hk0
      obtain rfl : k = 0 := by omega
      exact hw)
    show removeVecGo stop_words ws.length (w :: ws) (0 + 1) = _
    rw [show (0 : Int) + 1 = ((0 + 1 : Nat) : Int) by rfl, this]
    simp [hw]

/-- C68: if the first word is a stop word other than the last one in the list of stop words, `remove_stop_words_vec` stops the program. -/
theorem C68_vec_fails (a b : List Str) (w : Str) (rest : List Str) (hw : w ∉ a) (hb : b ≠ []) :
    remove_stop_words_vec (a ++ w :: b) (w :: rest) = none := by
  unfold remove_stop_words_vec
  rw [List.length_cons, removeVecGo, if_pos (by simp)]
  have : removeAt (a ++ w :: b) (w :: rest) 0 = none := by
    have h1 := removeAt_skip a (w :: rest) 0 (by simp) (by simpa using hw)
    unfold removeAt at *
    rw [List.foldlM_append]
    have h1' : List.foldlM _ _ a = _ := h1
    rw [show ((0 : Nat) : Int) = 0 from rfl] at h1'
    rw [h1', Option.bind_eq_bind, Option.bind_some, List.foldlM_cons]
    obtain ⟨c, b, rfl⟩ := List.exists_cons_of_ne_nil hb
    simp [idxOk]
  rw [this]; rfl

example : remove_stop_words_vec ["the".toList, "a".toList] ["dog".toList, "a".toList, "the".toList, "cat".toList] =
    some ["dog".toList, "cat".toList] := by
  rw [C68_vec_partial]
  · decide
  · simp

/-! ## C69: sets -/

/-- C69: `vec_to_set` keeps the first occurrence of every element: the result has the same elements, each once, in the order of the
input. -/
theorem C69_set {α : Type} [DecidableEq α] (l : List α) : vec_to_set l = firsts l ∧ (vec_to_set l).Nodup ∧
    (∀ x, x ∈ vec_to_set l ↔ x ∈ l) ∧ (vec_to_set l).Sublist l := by
  rw [vec_to_set_eq]
  exact ⟨rfl, firsts_nodup l, mem_firsts l, firsts_sublist l⟩

/-- C69: `split_sentences` does not split at a single full stop, and loses the last character. -/
theorem C69_sentences_fails : split_sentences "ab. cd".toList = ["ab. c".toList] := by decide +kernel

example : vec_to_set [3, 1, 3, 2, 1] = [3, 1, 2] := by decide

end Verif.Text
