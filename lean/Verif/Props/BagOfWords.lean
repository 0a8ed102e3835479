import Verif.Props.Text
import Verif.Lemmas.New
import Verif.Lemmas.Collect
import Verif.Lemmas.Example
import Mathlib.Data.Nat.Cast.Defs

/-! # C70: bags of words -/

namespace Verif.Text
open Spec
variable {R : Type}

/-- The words of a sentence that are counted: not empty, no stop words, in lower case. -/
def countedWords (low : Char → Char) (stop_words : List Str) (sentence : Str) : List Str :=
  (segment (sentence.map low)).filter fun w => w ≠ [] ∧ w ∉ stop_words

/-- The different words of some sentences, in order of first occurrence. -/
def vocabulary (low : Char → Char) (stop_words sentences : List Str) : List Str :=
  firsts (sentences.flatMap (countedWords low stop_words))

theorem combined_go (low : Char → Char) (hlow : low ' ' = ' ') (sentences : List Str) (k : Nat) (hk : k ≤ sentences.length) :
    (segment (((List.range k).foldl (fun (t : Str) i =>
      (if i ≠ 0 then t ++ [' '] else t) ++ sentences.getD i []) []).map low)).filter (· ≠ []) =
    (sentences.take k).flatMap fun s => (segment (s.map low)).filter (· ≠ []) := by
  induction k with
  | zero => simp [segment_scan, scan]
  | succ k ih =>
    have hlt : k < sentences.length := by omega
    have htake : sentences.take (k + 1) = sentences.take k ++ [sentences[k]] := by
      rw [List.take_add_one, List.getElem?_eq_getElem hlt]; rfl
    have hget : sentences.getD k [] = sentences[k] := by simp [hlt]
    rw [List.range_succ, List.foldl_append, List.foldl_cons, List.foldl_nil, htake, List.flatMap_append, hget]
    by_cases h0 : k = 0
    · subst h0; simp
    · rw [if_pos h0, List.append_assoc, List.map_append, List.map_append, List.map_cons, List.map_nil, hlow, List.singleton_append,
        segment_join, ih (by omega)]
      simp

/-- C70: the columns of a bag of words are the different words of the sentences that are no stop words. -/
theorem C70_words (low : Char → Char) (hlow : low ' ' = ' ') (stop_words sentences : List Str) :
    wordList low stop_words sentences = some (vocabulary low stop_words sentences) := by
  have hc : create_word_list low stop_words sentences = firsts ((segment (((List.range sentences.length).foldl (fun (t : Str) i =>
      (if i ≠ 0 then t ++ [' '] else t) ++ sentences.getD i []) []).map low)).filter (· ∉ stop_words)) := by
    unfold create_word_list
    dsimp only
    rw [vec_to_set_eq, C68_text, remove_spaces_id]
    intro w hw
    rw [mem_firsts] at hw
    exact segment_noSpace _ _ (List.mem_of_mem_filter hw)
  unfold wordList
  rw [hc]
  generalize hX : (segment _).filter (· ∉ stop_words) = X
  have hstop : ∀ w ∈ firsts X, w ∉ stop_words := by
    intro w hw
    rw [mem_firsts, ← hX] at hw
    simpa using (List.mem_filter.mp hw).2
  rw [C68_vec_partial _ _ (fun w hw => hstop w (List.mem_of_mem_head? hw)), List.filter_eq_self.mpr (by simpa using hstop)]
  show some (remove_empty (firsts X)) = _
  rw [C67_empty_partial]
  · rw [firsts_filter, ← hX, List.filter_filter]
    unfold vocabulary
    congr 2
    have := combined_go low hlow sentences _ (Nat.le_refl _)
    rw [List.take_length] at this
    have h2 := congrArg (List.filter (· ∉ stop_words)) this
    rw [List.filter_filter] at h2
    rw [show (fun a : Str => decide (a ≠ []) && decide (a ∉ stop_words)) = (fun a => decide (a ∉ stop_words) && decide (a ≠ [])) from
      funext fun a => Bool.and_comm .., h2, List.filter_flatMap]
    congr 1
    funext s
    unfold countedWords
    rw [List.filter_filter]
    refine List.filter_congr fun w _ => ?_
    by_cases h1 : w = [] <;> by_cases h2 : w ∈ stop_words <;> simp [h1, h2]
  · intro k hk h1 h2
    have := (List.Nodup.getElem_inj_iff (firsts_nodup X)).mp (h1.trans h2.symm)
    omega

section
variable [AddMonoidWithOne R]

/-- The entry of a bag of words for the word `w`. -/
def bagEntry (R : Type) [AddMonoidWithOne R] (type : BagType) (l : List Str) (w : Str) : R :=
  if type = .binary then (if w ∈ l then 1 else 0) else (l.count w : R)

theorem bagEntry_snoc (type : BagType) (l : List Str) (w x : Str) : bagEntry R type (l ++ [x]) w =
    if x = w then (if type = .binary then 1 else bagEntry R type l w + 1) else bagEntry R type l w := by
  unfold bagEntry
  by_cases ht : type = .binary <;> by_cases e : x = w
  · simp [ht, e]
  · simp [ht, e, Ne.symm (Ne.intro e)]
  · subst e; simp [ht]
  · simp [ht, e, List.count_append]

/-- What `bag_of_words` computes. -/
theorem bag_of_words_run {h : Heap R} (w : h.WF) (low : Char → Char) (stop_words sentences words : List Str) (type : BagType)
    (hw : wordList low stop_words sentences = some words) :
    ReturnsMat (bag_of_words low stop_words sentences type) h fun (i : Fin sentences.length) (k : Fin words.length) =>
      bagEntry R type (remove_stop_words low stop_words sentences[i]) words[k] := by
  unfold bag_of_words
  rw [hw]
  dsimp only
  rw [List.length_map]
  refine Runs.newMat w rfl ?_
  intro h1 w1 k1 nl1 ll1 s1
  generalize h.next = o at *
  refine Runs.fill w1 s1 ?_
  have w2 := Gr_wf w1 (fun _ _ => (0 : R)) s1
  have c2 := Gr_cells h1 o _ _ (fun _ _ => (0 : R)) s1
  have k2 := (Gr_updated h1 _ (fun _ _ => (0 : R)) s1).keeps
  generalize Gr h1 _ _ _ _ = h2 at *
  refine Runs.bind ((Runs.forN sentences.length (fun i h' => h'.WF ∧ Keeps h2 h' (· = .m o) ∧
    Cells h' (.m o) words.length sentences.length fun a k =>
      if a < i then bagEntry R type (remove_stop_words low stop_words (sentences.getD a [])) (words.getD k []) else 0) _ _
    ⟨w2, Keeps.refl _ _, c2.congr fun _ _ _ _ => by simp⟩ ?_).mono ?_)
  · rintro i h3 hi ⟨w3, k3, c3⟩
    have hs : (List.map (remove_stop_words low stop_words) sentences).getD i [] = remove_stop_words low stop_words (sentences.getD i []) := by
      simp [hi]
    rw [hs]
    generalize hseg : remove_stop_words low stop_words (sentences.getD i []) = seg
    refine (Runs.forN seg.length (fun j h' => h'.WF ∧ Keeps h3 h' (· = .m o) ∧
      Cells h' (.m o) words.length sentences.length fun a k =>
        if a < i then bagEntry R type (remove_stop_words low stop_words (sentences.getD a [])) (words.getD k [])
        else if a = i then bagEntry R type (seg.take j) (words.getD k []) else 0) _ _
      ⟨w3, Keeps.refl _ _, c3.congr fun a k _ _ => ?_⟩ ?_).mono ?_
    · by_cases e : a = i
      · subst e; simp [bagEntry]
      · simp [e]
    · rintro j h4 hj ⟨w4, k4, c4⟩
      have htake : seg.take (j + 1) = seg.take j ++ [seg[j]] := by
        rw [List.take_add_one, List.getElem?_eq_getElem hj]; rfl
      refine (Runs.forN words.length (fun k' h' => h'.WF ∧ Keeps h4 h' (· = .m o) ∧
        Cells h' (.m o) words.length sentences.length fun a k =>
          if a < i then bagEntry R type (remove_stop_words low stop_words (sentences.getD a [])) (words.getD k [])
          else if a = i then bagEntry R type (seg.take (if k < k' then j + 1 else j)) (words.getD k []) else 0) _ _
        ⟨w4, Keeps.refl _ _, c4.congr fun a k _ _ => by simp⟩ ?_).mono ?_
      · rintro k h5 hk ⟨w5, k5, c5⟩
        have hwk : words.getD k [] = words[k] := by simp [hk]
        have cell : ∀ v : R, (seg[j] = words[k] → v = if type = .binary then 1 else bagEntry R type (seg.take j) words[k] + 1) →
            (seg[j] ≠ words[k] → v = bagEntry R type (seg.take j) words[k]) → v = bagEntry R type (seg.take (j + 1)) words[k] := by
          intro v hv hv'
          rw [htake, bagEntry_snoc]
          by_cases e : seg[j] = words[k]
          · rw [if_pos e, hv e]
          · rw [if_neg e, hv' e]
        have upd_ok : ∀ v, v = bagEntry R type (seg.take (j + 1)) words[k] →
            Runs (Mat.element_set o (i : Int) (k : Int) v) h5 fun _ h' => h'.WF ∧ Keeps h4 h' (· = .m o) ∧
              Cells h' (.m o) words.length sentences.length fun a k_1 =>
              if a < i then bagEntry R type (remove_stop_words low stop_words (sentences.getD a [])) (words.getD k_1 [])
              else if a = i then bagEntry R type (seg.take (if k_1 < k + 1 then j + 1 else j)) (words.getD k_1 []) else 0 := by
          intro v hv
          refine (Mat.set_cells w5 c5 hi hk v).mono ?_
          rintro _ h6 ⟨w6, k6, _, c6⟩
          refine ⟨w6, k5.trans k6, c6.congr fun a b _ _ => ?_⟩
          unfold upd2
          by_cases ea : a = i
          · subst ea
            by_cases eb : b = k
            · subst eb; simp [hv, hk]
            · have : (b < k + 1 ↔ b < k) := by omega
              simp [eb, this]
          · simp [ea]
        rw [List.getElem?_eq_getElem hj, List.getElem?_eq_getElem hk]
        by_cases e : seg[j] = words[k]
        · rw [if_pos (congrArg some e)]
          by_cases ht : type = .binary
          · rw [if_pos ht]
            exact upd_ok _ (cell _ (by simp [ht]) (fun q => absurd e q))
          · rw [if_neg ht]
            refine Runs.step (Mat.element_get_run c5 hi hk) ?_
            refine upd_ok _ (cell _ ?_ (fun q => absurd e q))
            intro _
            simp only [Nat.lt_irrefl, if_false, if_true, ht, hwk]
        · rw [if_neg (fun q => e (Option.some.inj q))]
          refine Runs.of_eq (a := ()) (h' := h5) rfl ⟨w5, k5, c5.congr fun a b _ _ => ?_⟩
          by_cases ea : a = i
          · subst ea
            by_cases eb : b = k
            · subst eb
              simp only [Nat.lt_irrefl, if_false, if_true, Nat.lt_succ_self, hwk]
              exact cell _ (fun q => absurd q e) (fun _ => rfl)
            · have : (b < k + 1 ↔ b < k) := by omega
              simp [this]
          · simp [ea]
      · rintro _ h5 ⟨w5, k5, c5⟩
        exact ⟨w5, k4.trans k5, c5.congr fun a k _ hk => by simp [hk]⟩
    · rintro _ h4 ⟨w4, k4, c4⟩
      refine ⟨w4, k3.trans k4, c4.congr fun a k _ _ => ?_⟩
      by_cases ea : a = i
      · subst ea; rw [List.take_length]; simp [← hseg]
      · have : (a < i + 1 ↔ a < i) := by omega
        simp [ea, this]
  · rintro _ h3 ⟨w3, k3, c3⟩
    refine Runs.of_eq (a := some (.m o)) (h' := h3) rfl ⟨o, rfl, nl1, k3.live (k2.live ll1), w3, ?_, c3.isMat fun i j => ?_⟩
    · have := k1.newer (k2.trans k3) (by rintro l rfl; exact nl1)
      exact this
    · simp [i.2, j.2]

/-- C70: a bag of words is a new matrix with a row for each sentence and a column for each different word; its entry is the number of
times the word occurs in the sentence, or, for the binary type, 1 if it occurs and 0 if not. -/
theorem C70_bag {h : Heap R} (w : h.WF) (low : Char → Char) (hlow : low ' ' = ' ') (stop_words sentences : List Str) (type : BagType) :
    ReturnsMat (bag_of_words low stop_words sentences type) h
      fun (i : Fin sentences.length) (k : Fin (vocabulary low stop_words sentences).length) =>
        if type = .binary then
          (if (vocabulary low stop_words sentences)[k] ∈ countedWords low stop_words sentences[i] then 1 else 0)
        else ((countedWords low stop_words sentences[i]).count (vocabulary low stop_words sentences)[k] : R) := by
  have := bag_of_words_run w low stop_words sentences _ type (C70_words low hlow stop_words sentences)
  have e : ∀ (s : Str) (k : Fin (vocabulary low stop_words sentences).length),
      bagEntry R type (remove_stop_words low stop_words s) (vocabulary low stop_words sentences)[k] =
      if type = .binary then
          (if (vocabulary low stop_words sentences)[k] ∈ countedWords low stop_words s then 1 else 0)
        else ((countedWords low stop_words s).count (vocabulary low stop_words sentences)[k] : R) := by
    intro s k
    have hne : (vocabulary low stop_words sentences)[k] ≠ [] := by
      have hm : (vocabulary low stop_words sentences)[k] ∈ vocabulary low stop_words sentences := List.getElem_mem _
      unfold vocabulary at hm
      rw [mem_firsts, List.mem_flatMap] at hm
      obtain ⟨t, _, hm⟩ := hm
      unfold countedWords at hm
      have := (List.mem_filter.mp hm).2
      simp only [decide_eq_true_eq] at this
      exact this.1
    have hf : countedWords low stop_words s = (remove_stop_words low stop_words s).filter (· ≠ []) := by
      rw [C68_text, List.filter_filter]
      unfold countedWords
      refine List.filter_congr fun w _ => ?_
      by_cases h1 : w = [] <;> by_cases h2 : w ∈ stop_words <;> simp [h1, h2]
    rw [hf]
    unfold bagEntry
    rw [List.count_filter (by simpa using hne)]
    have hne' : ¬ (vocabulary low stop_words sentences)[k.val] = [] := hne
    simp [List.mem_filter, hne']
  simp only [e] at this
  exact this

end

example : vocabulary id ["the".toList] ["the dog".toList, "dog bites dog".toList] = ["dog".toList, "bites".toList] := by
  unfold vocabulary countedWords
  simp only [segment_scan]
  decide +kernel

end Verif.Text
