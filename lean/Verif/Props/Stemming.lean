import Verif.Model.Stemming
import Verif.Spec.Text
import Mathlib.Data.List.Forall2
import Mathlib.Order.Defs.LinearOrder

/-! # C137: `stemming` -/

namespace Verif.Text
open Spec

/-- `v` is the word `w` without the longest of the suffixes it ends with, if there is one. -/
def IsStem (suffixes : List Str) (w v : Str) : Prop :=
  (v = w ∧ ∀ s ∈ suffixes, s <:+ w → s = []) ∨
    ∃ s ∈ suffixes, s ≠ [] ∧ w = v ++ s ∧ ∀ s' ∈ suffixes, s' <:+ w → s'.length ≤ s.length

/-- A text: words, each with the separator behind it. -/
def written (ps : List (Str × Char)) : Str := ps.flatMap fun p => p.1 ++ [p.2]

/-- The texts agree in their separators, and the words of the second are the stems of those of the first. -/
def Stems (suffixes : List Str) (ps qs : List (Str × Char)) : Prop := List.Forall₂ (fun p q => IsStem suffixes p.1 q.1 ∧ p.2 = q.2) ps qs

theorem wordEnd_iff (c : Char) : wordEnd c = true ↔ c ∈ separators := by
  simp only [wordEnd, separators, Bool.or_eq_true, beq_iff_eq, List.mem_cons, List.not_mem_nil, or_false]
  tauto

theorem substr_at (d r : Str) (n : Nat) (hr : r ≠ []) : substr (d ++ r) (d.length : Nat) (n : Int) = r.take n := by
  have : 0 < r.length := List.length_pos_iff.2 hr
  unfold substr
  have e : (if (n : Int) = -1 then ((d ++ r).length : Int) - (d.length : Nat) else (n : Int)) = n := if_neg (by omega)
  simp only [e]
  by_cases hn : n = 0
  · subst hn
    rw [if_pos (by omega), List.take_zero]
  · rw [if_neg (by rw [List.length_append]; push_cast; omega)]
    simp

theorem erase_at (d r : Str) (n : Nat) (hn : n < r.length) : erase (d ++ r) d.length n = d ++ r.drop n := by
  unfold erase substr
  have e : (((d ++ r).length : Int) - ((d.length + n : Nat) : Int)) = ((r.length - n : Nat) : Int) := by
    rw [List.length_append]; push_cast; omega
  simp only [e]
  rw [if_neg (by rw [List.length_append]; push_cast; omega)]
  simp only [Int.toNat_natCast, List.take_left', List.drop_append]
  rw [List.take_of_length_le (by simp), List.drop_eq_nil_of_le (by omega)]
  simp

/-- A suffix fits only if it is all that remains of the word. -/
theorem body_at (d w more s : Str) (t : Char) (hw : ∀ c ∈ w, c ∉ separators) (ht : t ∈ separators) (hs : ∀ c ∈ s, c ∉ separators) :
    stemBody d.length (d ++ (w ++ t :: more)) s = if s = w then d ++ t :: more else d ++ (w ++ t :: more) := by
  unfold stemBody
  have hne : w ++ t :: more ≠ [] := by simp
  rw [substr_at _ _ _ hne]
  have idx : (d ++ (w ++ t :: more))[d.length + s.length]? = (w ++ t :: more)[s.length]? := by
    rw [List.getElem?_append_right (by omega)]; congr 1; omega
  rw [idx]
  by_cases e : s = w
  · subst e
    rw [if_pos rfl, if_pos, erase_at _ _ _ (by simp)]
    · simp
    · refine ⟨by simp, ?_⟩
      rw [List.getElem?_append_right (Nat.le_refl _)]
      simpa using (wordEnd_iff t).2 ht
  · rw [if_neg e, if_neg]
    rintro ⟨a, b⟩
    rcases Nat.lt_trichotomy s.length w.length with l | l | l
    · rw [List.getElem?_append_left l, List.getElem?_eq_getElem l] at b
      exact hw _ (List.getElem_mem l) ((wordEnd_iff _).1 (by simpa using b))
    · rw [List.take_append_of_le_length (by omega), List.take_of_length_le (by omega)] at a
      exact e a.symm
    · have : t ∈ s := by
        rw [← a]
        rw [List.mem_take_iff_getElem]
        refine ⟨w.length, by simp; omega, ?_⟩
        rw [List.getElem_append_right (Nat.le_refl _)]
        simp
      exact hs t this ht

theorem at_word (sufs : List Str) (hs : ∀ s ∈ sufs, ∀ c ∈ s, c ∉ separators) (d w more : Str) (t : Char) (hw : ∀ c ∈ w, c ∉ separators) (ht : t ∈ separators) :
    stemAt sufs d.length (d ++ (w ++ t :: more)) = if w ∈ sufs then d ++ t :: more else d ++ (w ++ t :: more) := by
  unfold stemAt
  induction sufs generalizing w with
  | nil => simp
  | cons s sufs ih =>
    rw [List.foldl_cons, body_at d w more s t hw ht (hs s (by simp))]
    have hs' : ∀ s ∈ sufs, ∀ c ∈ s, c ∉ separators := fun s' h => hs s' (by simp [h])
    by_cases e : s = w
    · rw [if_pos e]
      have := ih hs' [] (by simp)
      rw [List.nil_append] at this
      rw [this, ite_self, if_pos]
      rw [e]; exact List.mem_cons_self
    · rw [if_neg e, ih hs' w hw]
      have : (w ∈ s :: sufs) ↔ w ∈ sufs := by simp [Ne.symm e]
      simp only [this]

/-- The word without the first of its ends that is a suffix. -/
def cut (sufs : List Str) : Str → Str
  | [] => []
  | c :: w => if c :: w ∈ sufs then [] else c :: cut sufs w

theorem cut_length (sufs : List Str) : ∀ w, (cut sufs w).length ≤ w.length
  | [] => Nat.le_refl _
  | c :: w => by
    unfold cut
    split
    · simp
    · simpa using cut_length sufs w

theorem cut_stem (sufs : List Str) : ∀ w, IsStem sufs w (cut sufs w)
  | [] => Or.inl ⟨rfl, fun s _ h => by simpa using h⟩
  | c :: w => by
    unfold cut
    by_cases e : c :: w ∈ sufs
    · rw [if_pos e]
      exact Or.inr ⟨c :: w, e, by simp, by simp, fun s' _ h => h.length_le⟩
    · rw [if_neg e]
      have key : ∀ s ∈ sufs, s <:+ c :: w → s <:+ w := fun s hs h => by
        rcases List.suffix_cons_iff.1 h with h | h
        · subst h; exact absurd hs e
        · exact h
      rcases cut_stem sufs w with ⟨a, b⟩ | ⟨s, hs, hne, a, b⟩
      · exact Or.inl ⟨by rw [a], fun s hs h => b s hs (key s hs h)⟩
      · exact Or.inr ⟨s, hs, hne, by rw [List.cons_append, ← a], fun s' hs' h => b s' hs' (key s' hs' h)⟩

/-- The loop, from the beginning of a word to the beginning of the next. -/
theorem go_word (sufs : List Str) (hs : ∀ s ∈ sufs, ∀ c ∈ s, c ∉ separators) (more : Str) (t : Char) (ht : t ∈ separators) : ∀ (w : Str) (d : Str) (n : Nat),
    (∀ c ∈ w, c ∉ separators) → w.length < n →
    ∃ n', n - (w.length + 1) ≤ n' ∧ stemGo sufs n d.length (d ++ (w ++ t :: more)) = stemGo sufs n' (d ++ cut sufs w ++ [t]).length (d ++ cut sufs w ++ [t] ++ more)
  | [], d, n, _, hn => by
    obtain ⟨n, rfl⟩ : ∃ m, n = m + 1 := ⟨n - 1, by simp at hn; omega⟩
    refine ⟨n, by simp, ?_⟩
    have e : ∀ i x, stemGo sufs (n + 1) i x = if i < x.length then stemGo sufs n (i + 1) (stemAt sufs i x) else x := fun _ _ => rfl
    rw [e, if_pos (by simp), at_word sufs hs d [] more t (by simp) ht]
    simp [cut]
  | c :: w, d, n, hw, hn => by
    obtain ⟨n, rfl⟩ : ∃ m, n = m + 1 := ⟨n - 1, by simp at hn; omega⟩
    have e : ∀ i x, stemGo sufs (n + 1) i x = if i < x.length then stemGo sufs n (i + 1) (stemAt sufs i x) else x := fun _ _ => rfl
    rw [e, if_pos (by simp), at_word sufs hs d (c :: w) more t hw ht]
    unfold cut
    by_cases m : c :: w ∈ sufs
    · rw [if_pos m, if_pos m]
      exact ⟨n, by simp, by simp⟩
    · rw [if_neg m, if_neg m]
      obtain ⟨n', hn', e'⟩ := go_word sufs hs more t ht w (d ++ [c]) n (fun c h => hw c (by simp [h])) (by simpa using hn)
      refine ⟨n', by simp; omega, ?_⟩
      rw [show d.length + 1 = (d ++ [c]).length by simp, show d ++ (c :: w ++ t :: more) = d ++ [c] ++ (w ++ t :: more) by simp, e']
      simp

theorem go_end (sufs : List Str) (d : Str) : ∀ n, stemGo sufs n d.length d = d
  | 0 => rfl
  | n + 1 => by
    have e : ∀ i x, stemGo sufs (n + 1) i x = if i < x.length then stemGo sufs n (i + 1) (stemAt sufs i x) else x := fun _ _ => rfl
    rw [e, if_neg (by simp)]

theorem go_words (sufs : List Str) (hs : ∀ s ∈ sufs, ∀ c ∈ s, c ∉ separators) : ∀ (ps : List (Str × Char)) (d : Str) (n : Nat),
    (∀ p ∈ ps, (∀ c ∈ p.1, c ∉ separators) ∧ p.2 ∈ separators) → (written ps).length ≤ n →
    stemGo sufs n d.length (d ++ written ps) = d ++ written (ps.map fun p => (cut sufs p.1, p.2))
  | [], d, n, _, _ => by simpa [written] using go_end sufs d n
  | p :: ps, d, n, hp, hn => by
    obtain ⟨w, t⟩ := p
    have ew : written ((w, t) :: ps) = w ++ t :: written ps := by simp [written]
    rw [ew] at hn ⊢
    obtain ⟨n', hn', e⟩ := go_word sufs hs (written ps) t (hp (w, t) (by simp)).2 w d n (hp (w, t) (by simp)).1 (by simp at hn; omega)
    rw [e, go_words sufs hs ps _ n' (fun p h => hp p (by simp [h])) (by simp at hn; omega)]
    simp [written]

/-- Every text is words, each with a separator behind it, and a last word. -/
theorem text_words : ∀ text : Str, ∃ (ps : List (Str × Char)) (last : Str), text = written ps ++ last ∧
    (∀ p ∈ ps, (∀ c ∈ p.1, c ∉ separators) ∧ p.2 ∈ separators) ∧ ∀ c ∈ last, c ∉ separators
  | [] => ⟨[], [], rfl, by simp, by simp⟩
  | c :: text => by
    obtain ⟨ps, last, e, hp, hl⟩ := text_words text
    by_cases hc : c ∈ separators
    · exact ⟨([], c) :: ps, last, by simp [written, e], by simpa [hc] using hp, hl⟩
    · cases ps with
      | nil => exact ⟨[], c :: last, by simp [written, e], by simp, by simpa [hc] using hl⟩
      | cons p ps =>
        obtain ⟨w, t⟩ := p
        refine ⟨(c :: w, t) :: ps, last, by simp [written, e], ?_, hl⟩
        intro p hm
        rcases List.mem_cons.1 hm with rfl | hm
        · have := hp (w, t) (by simp)
          simpa [hc] using this
        · exact hp p (by simp [hm])

/-- C137 (as far as it holds): for any list of suffixes without separators, `stemming` takes the longest suffix from every word, and leaves all else as it is; but it adds four spaces
at the end. -/
theorem C137_stemming_partial (suffixes : List Str) (hs : ∀ s ∈ suffixes, ∀ c ∈ s, c ∉ separators) (text : Str) :
    ∃ (ps qs : List (Str × Char)) (last stem : Str), text = written ps ++ last ∧ (∀ p ∈ ps, (∀ c ∈ p.1, c ∉ separators) ∧ p.2 ∈ separators) ∧
      (∀ c ∈ last, c ∉ separators) ∧ Stems suffixes ps qs ∧ IsStem suffixes last stem ∧
      stemming suffixes text = written qs ++ stem ++ [' ', ' ', ' ', ' '] := by
  obtain ⟨ps, last, rfl, hp, hl⟩ := text_words text
  refine ⟨ps, ps.map fun p => (cut suffixes p.1, p.2), last, cut suffixes last, rfl, hp, hl, ?_, cut_stem _ _, ?_⟩
  · unfold Stems
    exact List.forall₂_map_right_iff.2 (List.forall₂_same.2 fun p _ => ⟨cut_stem _ _, rfl⟩)
  · unfold stemming
    have e : written ps ++ last ++ List.replicate 4 ' ' = written (ps ++ [(last, ' '), ([], ' '), ([], ' '), ([], ' ')]) := by
      simp [written, List.replicate]
    dsimp only
    have sp : ' ' ∈ separators := by simp [separators]
    have := go_words suffixes hs (ps ++ [(last, ' '), ([], ' '), ([], ' '), ([], ' ')]) [] _ (by
      intro p hm
      simp only [List.mem_append, List.mem_cons, List.not_mem_nil, or_false] at hm
      rcases hm with hm | rfl | rfl | rfl | rfl
      · exact hp p hm
      · exact ⟨hl, sp⟩
      all_goals exact ⟨by simp, sp⟩) (Nat.le_refl _)
    rw [e]
    simp only [List.length_nil, List.nil_append] at this
    rw [this]
    simp [written, cut]

/-- C137: the longest suffix is the only answer: the result is determined by the text. -/
theorem C137_unique (suffixes : List Str) (w v v' : Str) (h : IsStem suffixes w v) (h' : IsStem suffixes w v') : v = v' := by
  rcases h with ⟨a, b⟩ | ⟨s, hs, hne, a, b⟩ <;> rcases h' with ⟨a', b'⟩ | ⟨s', hs', hne', a', b'⟩
  · rw [a, a']
  · exact absurd (b s' hs' ⟨v', a'.symm⟩) hne'
  · exact absurd (b' s hs ⟨v, a.symm⟩) hne
  · have l1 := b s' hs' ⟨v', a'.symm⟩
    have l2 := b' s hs ⟨v, a.symm⟩
    have : v.length = v'.length := by
      have := congrArg List.length (a.symm.trans a')
      simp at this
      omega
    exact (List.append_inj (a.symm.trans a') this).1

/-- C137 (false): the text is longer by four spaces, even if there is nothing to remove. -/
theorem C137_padding_fails (text : Str) : stemming [] text = text ++ [' ', ' ', ' ', ' '] := by
  unfold stemming
  dsimp only
  generalize et : text ++ List.replicate 4 ' ' = t'
  have : ∀ n i, stemGo [] n i t' = t' := by
    intro n
    induction n with
    | zero => intro i; rfl
    | succ n ih =>
      intro i
      have e : ∀ i x, stemGo [] (n + 1) i x = if i < x.length then stemGo [] n (i + 1) (stemAt [] i x) else x := fun _ _ => rfl
      rw [e]
      split
      · exact ih _
      · rfl
  rw [this, ← et]
  rfl

/-- The default suffixes have no separators. -/
example : ∀ s ∈ default_suffixes, ∀ c ∈ s, c ∉ separators := by decide

example : stemming default_suffixes "teaching kindly, nations".toList = "teach kind, nations    ".toList := by decide +kernel

end Verif.Text
