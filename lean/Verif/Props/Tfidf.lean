import Verif.Props.BagOfWords
import Verif.Props.OneHot
import Verif.Lemmas.GramSchmidt
import Verif.Lemmas.NewJunk
import Verif.Lemmas.Unique
import Mathlib.Analysis.SpecialFunctions.Log.Basic

/-! # C71: term frequencies and inverse document frequencies -/

namespace Verif.Data
open Spec Text

theorem range_map_set {α : Type} (n k : Nat) (f : Nat → α) (v : α) :
    ((List.range n).map f).set k v = (List.range n).map fun x => if x = k then v else f x := by
  apply List.ext_getElem?
  intro i
  rw [List.getElem?_set]
  by_cases hi : i < n
  · by_cases e : k = i
    · subst e; simp [hi]
    · simp [hi, e, Ne.symm e]
  · by_cases e : k = i
    · subst e; simp [hi]
    · simp [hi, e]

theorem range_map_modify {α : Type} (n k : Nat) (f : Nat → α) (g : α → α) :
    ((List.range n).map f).modify k g = (List.range n).map fun x => if x = k then g (f x) else f x := by
  apply List.ext_getElem?
  intro i
  rw [List.getElem?_modify]
  by_cases hi : i < n
  · by_cases e : k = i
    · subst e; simp [hi]
    · simp [hi, e, Ne.symm e]
  · simp [hi]

/-- The loop over the words of sentence `i`: its counts are added to row `i` of `TF`, and the words present are counted. -/
theorem countSentence_run {h : Heap ℝ} (w : h.WF) {o S i : Nat} {F : Nat → Nat → ℝ} (words seg : List Str) (f : Nat → Nat)
    (c : Cells h (.m o) words.length S F) (hi : i < S) :
    Runs (countSentence o words seg i ((List.range words.length).map f)) h fun r h' => h'.WF ∧ Keeps h h' (· = .m o) ∧
      r.1 = ((List.range words.length).map fun k => f k + if words.getD k [] ∈ seg then 1 else 0) ∧
      Cells h' (.m o) words.length S fun a k => if a = i then F a k + (seg.count (words.getD k []) : ℝ) else F a k := by
  unfold countSentence
  refine (Runs.foldN seg.length (fun j st h' => h'.WF ∧ Keeps h h' (· = .m o) ∧
    st.1 = ((List.range words.length).map fun k => f k + if words.getD k [] ∈ seg.take j then 1 else 0) ∧
    st.2 = ((List.range words.length).map fun k => decide (words.getD k [] ∈ seg.take j)) ∧
    Cells h' (.m o) words.length S fun a k => if a = i then F a k + ((seg.take j).count (words.getD k []) : ℝ) else F a k) _ _ _
    ⟨w, Keeps.refl _ _, ?_, ?_, c.congr fun a k _ _ => by simp⟩ ?_).mono ?_
  · simp
  · apply List.ext_getElem?; intro x; by_cases hx : x < words.length <;> simp [hx]
  · rintro j ⟨fr, pr⟩ h1 hj ⟨w1, k1, rfl, rfl, c1⟩
    have htake : seg.take (j + 1) = seg.take j ++ [seg[j]] := by rw [List.take_add_one, List.getElem?_eq_getElem hj]; rfl
    refine (Runs.foldN words.length (fun k' st h' => h'.WF ∧ Keeps h h' (· = .m o) ∧
      st.1 = ((List.range words.length).map fun k => f k + if words.getD k [] ∈ seg.take (if k < k' then j + 1 else j) then 1 else 0) ∧
      st.2 = ((List.range words.length).map fun k => decide (words.getD k [] ∈ seg.take (if k < k' then j + 1 else j))) ∧
      Cells h' (.m o) words.length S fun a k =>
        if a = i then F a k + ((seg.take (if k < k' then j + 1 else j)).count (words.getD k []) : ℝ) else F a k) _ _ _
      ⟨w1, k1, by simp, by simp, c1.congr fun a k _ _ => by simp⟩ ?_).mono ?_
    · rintro k ⟨fr, pr⟩ h2 hk ⟨w2, k2, e1, e2, c2⟩
      dsimp only at e1 e2 ⊢
      rw [List.getElem?_eq_getElem hj, List.getElem?_eq_getElem hk]
      have hwk : words.getD k [] = words[k] := by simp [hk]
      by_cases e : seg[j] = words[k]
      · rw [if_pos (congrArg some e)]
        refine Runs.step (Mat.element_get_run c2 hi hk) ?_
        refine Runs.bind ((Mat.set_cells w2 c2 hi hk _).mono ?_)
        rintro _ h3 ⟨w3, k3, _, c3⟩
        have hc : Cells h3 (.m o) words.length S fun a x =>
            if a = i then F a x + ((seg.take (if x < k + 1 then j + 1 else j)).count (words.getD x []) : ℝ) else F a x := by
          refine c3.congr fun a b _ _ => ?_
          unfold upd2
          by_cases ea : a = i
          · subst ea
            by_cases eb : b = k
            · subst eb
              simp only [and_self, if_true, Nat.lt_irrefl, if_false, Nat.lt_succ_self, htake, List.count_append, hwk, ← e]
              simp
              ring
            · have : (b < k + 1 ↔ b < k) := by omega
              simp [eb, this]
          · simp [ea]
        have hpk : pr[k]? = some (decide (words[k] ∈ seg.take j)) := by rw [e2]; simp [hk]
        rw [hpk]
        by_cases hm : words[k] ∈ seg.take j
        · rw [if_neg (by simp [hm])]
          refine Runs.of_eq (a := (fr, pr)) (h' := h3) rfl ⟨w3, k2.trans k3, ?_, ?_, hc⟩
          · rw [e1]
            refine List.map_congr_left fun x _ => ?_
            by_cases eb : x = k
            · subst eb; simp only [Nat.lt_irrefl, if_false, Nat.lt_succ_self, if_true, htake, hwk, List.mem_append, List.mem_singleton]; simp [hm]
            · have : (x < k + 1 ↔ x < k) := by omega
              simp [this]
          · rw [e2]
            refine List.map_congr_left fun x _ => ?_
            by_cases eb : x = k
            · subst eb; simp only [Nat.lt_irrefl, if_false, Nat.lt_succ_self, if_true, htake, hwk, List.mem_append, List.mem_singleton]; simp [hm]
            · have : (x < k + 1 ↔ x < k) := by omega
              simp [this]
        · rw [if_pos (by simp [hm])]
          refine Runs.of_eq (a := (fr.modify k (· + 1), pr.set k true)) (h' := h3) rfl ⟨w3, k2.trans k3, ?_, ?_, hc⟩
          · dsimp only
            rw [e1, range_map_modify]
            refine List.map_congr_left fun x _ => ?_
            by_cases eb : x = k
            · subst eb; simp only [Nat.lt_irrefl, if_false, Nat.lt_succ_self, if_true, htake, hwk, List.mem_append, List.mem_singleton]; simp [hm, e]
            · have : (x < k + 1 ↔ x < k) := by omega
              simp [this, eb]
          · dsimp only
            rw [e2, range_map_set]
            refine List.map_congr_left fun x _ => ?_
            by_cases eb : x = k
            · subst eb; simp only [Nat.lt_irrefl, if_false, Nat.lt_succ_self, if_true, htake, hwk, List.mem_append, List.mem_singleton]; simp [e]
            · have : (x < k + 1 ↔ x < k) := by omega
              simp [this, eb]
      · rw [if_neg (fun q => e (Option.some.inj q))]
        have e' : ¬ words[k] = seg[j] := fun q => e q.symm
        refine Runs.of_eq (a := (fr, pr)) (h' := h2) rfl ⟨w2, k2, ?_, ?_, c2.congr fun a x _ _ => ?_⟩
        · rw [e1]
          refine List.map_congr_left fun x _ => ?_
          by_cases eb : x = k
          · subst eb; simp only [Nat.lt_irrefl, if_false, Nat.lt_succ_self, if_true, htake, hwk, List.mem_append, List.mem_singleton]; simp [e']
          · have : (x < k + 1 ↔ x < k) := by omega
            simp [this]
        · rw [e2]
          refine List.map_congr_left fun x _ => ?_
          by_cases eb : x = k
          · subst eb; simp only [Nat.lt_irrefl, if_false, Nat.lt_succ_self, if_true, htake, hwk, List.mem_append, List.mem_singleton]; simp [e']
          · have : (x < k + 1 ↔ x < k) := by omega
            simp [this]
        · by_cases eb : x = k
          · subst eb; simp only [Nat.lt_irrefl, if_false, Nat.lt_succ_self, if_true, htake, hwk, List.count_append]; simp [e]
          · have : (x < k + 1 ↔ x < k) := by omega
            simp [this]
    · rintro ⟨fr, pr⟩ h2 ⟨w2, k2, e1, e2, c2⟩
      refine ⟨w2, k2, e1.trans ?_, e2.trans ?_, c2.congr fun a k _ hk => by simp [hk]⟩
      · exact List.map_congr_left fun k hk => by simp [List.mem_range.mp hk]
      · exact List.map_congr_left fun k hk => by simp [List.mem_range.mp hk]
  · rintro ⟨fr, pr⟩ h1 ⟨w1, k1, e1, _, c1⟩
    rw [List.take_length] at e1
    exact ⟨w1, k1, e1, c1.congr fun a k _ _ => by rw [List.take_length]⟩

/-- What `tfidf` computes; the junk in the new matrix is part of it. -/
theorem tfidf_run {h : Heap ℝ} (w : h.WF) (low : Char → Char) (stop_words sentences words : List Str)
    (hw : wordList low stop_words sentences = some words) :
    ReturnsMat (tfidf low stop_words sentences) h fun (i : Fin sentences.length) (k : Fin words.length) =>
      (h.junk h.clock (i.val * words.length + k.val) + ((remove_stop_words low stop_words sentences[i]).count words[k] : ℝ)) *
        (1 / ((remove_stop_words low stop_words sentences[i]).length : ℝ)) *
        Real.log ((sentences.length : ℝ) / (sentences.countP fun s => words[k] ∈ remove_stop_words low stop_words s : ℝ)) := by
  unfold tfidf
  rw [hw]
  dsimp only
  rw [List.length_map]
  refine Runs.newJunk w ?_
  intro h1 w1 k1 nl1 ll1 c1
  refine Runs.newVec w1 ⟨rfl, rfl⟩ ?_
  intro h2 w2 k2 nl2 ll2 s2
  have hlt : h.next < h1.next := ll1
  have c2 := c1.keep k2 ll1 nofun
  have ll1' := k2.live ll1
  generalize hTF : h.next = TF at *
  generalize hrow : h1.next = row at *
  generalize hJ : (fun i j => h.junk h.clock (i * words.length + j)) = J at *
  let seg : Nat → List Str := fun i => remove_stop_words low stop_words (sentences.getD i [])
  refine Runs.bind ((Runs.foldN sentences.length (fun i fr h' => h'.WF ∧ Keeps h2 h' (fun l => l = .m TF ∨ l = .v row) ∧
    fr = ((List.range words.length).map fun k => (sentences.take i).countP fun s => words.getD k [] ∈ remove_stop_words low stop_words s) ∧
    Cells h' (.m TF) words.length sentences.length fun a k =>
      if a < i then (J a k + ((seg a).count (words.getD k []) : ℝ)) * (1 / ((seg a).length : ℝ)) else J a k) _ _ _
    ⟨w2, Keeps.refl _ _, ?_, c2.congr fun a k _ _ => by simp⟩ ?_).mono ?_)
  · apply List.ext_getElem?; intro x; by_cases hx : x < words.length <;> simp [hx]
  · rintro i fr h3 hi ⟨w3, k3, rfl, c3⟩
    have hs : (List.map (remove_stop_words low stop_words) sentences).getD i [] = seg i := by simp [hi, seg]
    rw [hs]
    refine Runs.bind ((countSentence_run w3 words (seg i) _ c3 hi).mono ?_)
    rintro st h4 ⟨w4, k4, e4, c4⟩
    obtain ⟨h5, e5, u5⟩ := Mat.rowGet_run (v := row) w4 c4 hi
    refine Runs.step e5 ?_
    obtain ⟨h6, e6, u6⟩ := Vec.scalar_multiply_set (u5.wf w4) u5.cells (1 / ((seg i).length : ℝ))
    refine Runs.step e6 ?_
    obtain ⟨h7, e7, u7⟩ := Mat.rowSet_run ((c4.upd u5 nofun).upd u6 nofun) u6.cells hi
    refine Runs.step e7 ?_
    refine Runs.of_eq (a := st.1) (h' := h7) rfl ⟨u7.wf (u6.wf (u5.wf w4)), ?_, ?_, u7.cells.congr fun a k _ _ => ?_⟩
    · exact (((k3.trans (k4.mono (by rintro l _ rfl; exact .inl rfl))).trans ((Updated.keeps u5).mono (by rintro l _ rfl; exact .inr rfl))).trans
        ((Updated.keeps u6).mono (by rintro l _ rfl; exact .inr rfl))).trans ((Updated.keeps u7).mono (by rintro l _ rfl; exact .inl rfl))
    · rw [e4]
      refine List.map_congr_left fun k _ => ?_
      rw [List.take_add_one, List.getElem?_eq_getElem hi, List.countP_append]
      simp [seg, hi, List.countP_cons]
    · by_cases ea : a = i
      · subst ea; simp
      · have : (a < i + 1 ↔ a < i) := by omega
        simp [ea, this]
  · rintro fr h3 ⟨w3, k3, rfl, c3⟩
    rw [List.take_length]
    have kn := (k1.trans k2).newer k3 (by
      rintro l (rfl | rfl) q <;> simp only [Heap.live, Loc.id] at q nl2 <;> omega)
    refine Runs.newMat w3 rfl ?_
    intro h4 w4 k4 nl4 ll4 s4
    have lTF : h3.live (.m TF) := k3.live ll1'
    have hTF3 : TF < h3.next := lTF
    have c4 := c3.keep k4 lTF nofun
    have lTF4 := k4.live lTF
    have kn4 := kn.trans k4
    have hfresh : ¬ h.live (.m h3.next) := by
      simp only [Heap.live, Loc.id]; omega
    generalize h3.next = o at *
    obtain ⟨G, cG⟩ := exists_Cells w4 s4
    refine Runs.bind ((Runs.cells2 sentences.length words.length (fun h' => h'.WF ∧ Keeps h4 h' (· = .m o)) (fun i j =>
      (J i j + ((seg i).count (words.getD j []) : ℝ)) * (1 / ((seg i).length : ℝ)) *
        Real.log ((sentences.length : ℝ) / (sentences.countP fun s => words.getD j [] ∈ remove_stop_words low stop_words s : ℝ))) _
      ⟨w4, Keeps.refl _ _⟩ cG ?_).mono ?_)
    · rintro i j h5 F hi hj ⟨w5, k5⟩ c5
      have c5' := c4.keep k5 lTF4 (by simp; omega)
      refine Runs.step (Mat.element_get_run c5' hi hj) ?_
      refine (Mat.set_cells w5 c5 hi hj _).mono ?_
      rintro _ h6 ⟨w6, k6, _, c6⟩
      refine ⟨⟨w6, k5.trans k6⟩, c6.congr fun a b _ _ => ?_⟩
      unfold upd2
      simp [hi, hj]
    · rintro _ h5 ⟨⟨w5, k5⟩, c5⟩
      refine Runs.of_eq (a := some (.m o)) (h' := h5) rfl ⟨o, rfl, hfresh, k5.live ll4, w5, kn4.newer k5 (by rintro l rfl; exact hfresh),
        c5.isMat fun i j => ?_⟩
      have : J i.val j.val = h.junk h.clock (i.val * words.length + j.val) := by rw [← hJ]
      simp [this, seg]

/-- The number of words of a sentence after removal of the stop words; the empty words between two separators count too. -/
def wordCount (low : Char → Char) (stop_words : List Str) (sentence : Str) : Nat :=
  ((segment (sentence.map low)).filter (· ∉ stop_words)).length

/-- The `tf * idf` matrix: the share of the word in the sentence times the logarithm of the inverse of the share of the sentences that
contain the word. -/
noncomputable def tfidfSpec (low : Char → Char) (stop_words sentences : List Str) :
    Matrix (Fin sentences.length) (Fin (vocabulary low stop_words sentences).length) ℝ := fun i k =>
  let word := (vocabulary low stop_words sentences)[k]
  ((countedWords low stop_words sentences[i]).count word : ℝ) / (wordCount low stop_words sentences[i] : ℝ) *
    Real.log ((sentences.length : ℝ) / (sentences.countP fun s => word ∈ countedWords low stop_words s : ℝ))

/-- C71: what `tfidf` returns, exactly: the number `junk` that the memory of the new matrix happened to contain is added to each count. -/
theorem C71_junk_partial {h : Heap ℝ} (w : h.WF) (low : Char → Char) (hlow : low ' ' = ' ') (stop_words sentences : List Str) :
    ReturnsMat (tfidf low stop_words sentences) h
      fun (i : Fin sentences.length) (k : Fin (vocabulary low stop_words sentences).length) =>
      (h.junk h.clock (i.val * (vocabulary low stop_words sentences).length + k.val) +
          ((countedWords low stop_words sentences[i]).count (vocabulary low stop_words sentences)[k] : ℝ)) /
        (wordCount low stop_words sentences[i] : ℝ) *
        Real.log ((sentences.length : ℝ) /
          (sentences.countP fun s => (vocabulary low stop_words sentences)[k] ∈ countedWords low stop_words s : ℝ)) := by
  have := tfidf_run w low stop_words sentences _ (C70_words low hlow stop_words sentences)
  refine cast (congrArg _ (funext fun i => funext fun k => ?_)) this
  have hne : (vocabulary low stop_words sentences)[k.val] ≠ [] := by
    have hm : (vocabulary low stop_words sentences)[k.val] ∈ vocabulary low stop_words sentences := List.getElem_mem _
    unfold vocabulary at hm
    rw [mem_firsts, List.mem_flatMap] at hm
    obtain ⟨t, _, hm⟩ := hm
    unfold countedWords at hm
    have := (List.mem_filter.mp hm).2
    simp only [decide_eq_true_eq] at this
    exact this.1
  have hf : ∀ s, countedWords low stop_words s = (remove_stop_words low stop_words s).filter (· ≠ []) := by
    intro s
    rw [C68_text, List.filter_filter]
    unfold countedWords
    refine List.filter_congr fun w _ => ?_
    by_cases h1 : w = [] <;> by_cases h2 : w ∈ stop_words <;> simp [h1, h2]
  have hlen : ∀ s, wordCount low stop_words s = (remove_stop_words low stop_words s).length := by
    intro s; unfold wordCount; rw [C68_text]
  show _ * (1 / _) * _ = _
  rw [hlen, hf, List.count_filter (by simpa using hne), mul_one_div]
  congr 4
  refine List.countP_congr fun s _ => ?_
  rw [hf]
  simp [hne]

/-- C71, as intended: if the memory of the new matrix happens to contain zeros, `tfidf` returns the matrix of the `tf * idf` numbers, one row for
each sentence and one column for each different word. What is missing: nothing makes the memory contain zeros. -/
theorem C71_tfidf_partial {h : Heap ℝ} (w : h.WF) (low : Char → Char) (hlow : low ' ' = ' ') (stop_words sentences : List Str)
    (hz : ∀ i, h.junk h.clock i = 0) :
    ReturnsMat (tfidf low stop_words sentences) h (tfidfSpec low stop_words sentences) := by
  have := C71_junk_partial w low hlow stop_words sentences
  simp only [hz, zero_add] at this
  exact this

/-- No quotient in `tfidfSpec` divides by zero: every word of the vocabulary occurs in a sentence. -/
theorem vocabulary_occurs (low : Char → Char) (stop_words sentences : List Str) (k : Fin (vocabulary low stop_words sentences).length) :
    0 < sentences.countP fun s => (vocabulary low stop_words sentences)[k] ∈ countedWords low stop_words s := by
  have hm : (vocabulary low stop_words sentences)[k.val] ∈ vocabulary low stop_words sentences := List.getElem_mem _
  generalize hx : (vocabulary low stop_words sentences)[k.val] = x at hm
  unfold vocabulary at hm
  rw [mem_firsts, List.mem_flatMap] at hm
  obtain ⟨t, ht, hm⟩ := hm
  refine List.countP_pos_iff.mpr ⟨t, ht, ?_⟩
  simpa [hx] using hm

/-- C71 fails: `tfidf` adds to the counts in a matrix it never cleared. For the sentences "dog" and "cat", if that memory contained ones, it
does not return the `tf * idf` numbers. -/
theorem C71_tfidf_fails : ∃ h : Heap ℝ, h.WF ∧ ¬ ReturnsMat (tfidf id [] ["dog".toList, "cat".toList]) h (tfidfSpec id [] ["dog".toList, "cat".toList]) := by
  refine ⟨Heap.init fun _ _ => 1, init_wf _, fun h2 => ?_⟩
  have h1 := C71_junk_partial (init_wf fun _ _ => (1 : ℝ)) id rfl [] ["dog".toList, "cat".toList]
  have hv : vocabulary id [] [['d', 'o', 'g'], ['c', 'a', 't']] = [['d', 'o', 'g'], ['c', 'a', 't']] := by
    unfold vocabulary countedWords
    simp only [segment_scan]
    decide +kernel
  have hlen : 0 < (vocabulary id [] [['d', 'o', 'g'], ['c', 'a', 't']]).length := by rw [hv]; simp
  have e := h1.unique h2
  have e00 := congrFun (congrFun e ⟨0, by simp⟩) ⟨0, hlen⟩
  have g0 : (vocabulary id [] [['d', 'o', 'g'], ['c', 'a', 't']])[0]'hlen = ['d', 'o', 'g'] := by simp [hv]
  have c0 : countedWords id [] ['d', 'o', 'g'] = [['d', 'o', 'g']] := by
    unfold countedWords
    simp only [segment_scan]
    decide +kernel
  have c1 : countedWords id [] ['c', 'a', 't'] = [['c', 'a', 't']] := by
    unfold countedWords
    simp only [segment_scan]
    decide +kernel
  have l0 : wordCount id [] ['d', 'o', 'g'] = 1 := by
    unfold wordCount
    simp only [segment_scan]
    decide +kernel
  unfold tfidfSpec at e00
  have hj : (Heap.init fun _ _ => (1 : ℝ)).junk (Heap.init fun _ _ => (1 : ℝ)).clock 0 = 1 := rfl
  simp [g0, c0, c1, l0, hj] at e00
  norm_num at e00

end Verif.Data
