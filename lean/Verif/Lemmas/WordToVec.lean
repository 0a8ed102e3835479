import Verif.Model.WordToVec
import Verif.Props.BagOfWords
import Mathlib.Data.List.Nodup
import Mathlib.Data.List.ProdSigma

/-! # The pairs of words of `word_to_vec` -/

namespace Verif.Data
open Spec Text

/-- The places of the words paired with the word at `j`, in the order of the program. -/
def places (w n j : Nat) : List Nat :=
  (List.range w).flatMap fun t => (if w - t ≤ j then [j - (w - t)] else []) ++ (if j + (w - t) + 1 ≤ n then [j + (w - t)] else [])

theorem pairAt_eq (s : List Str) (j k : Nat) (st : List Str × List Str) :
    pairAt s j k st = (st.1 ++ ((if k ≤ j then [j - k] else []) ++ (if j + k + 1 ≤ s.length then [j + k] else [])).map (fun _ => s.getD j []),
      st.2 ++ ((if k ≤ j then [j - k] else []) ++ (if j + k + 1 ≤ s.length then [j + k] else [])).map (fun l => s.getD l [])) := by
  unfold pairAt
  by_cases h1 : k ≤ j <;> by_cases h2 : j + k + 1 ≤ s.length <;> simp [h1, h2]

theorem foldl_lists {α β : Type} (f : α → List Str × List Str → List Str × List Str) (g g' : α → List Str)
    (hf : ∀ a st, f a st = (st.1 ++ g a, st.2 ++ g' a)) (l : List α) (st : List Str × List Str) :
    l.foldl (fun st a => f a st) st = (st.1 ++ l.flatMap g, st.2 ++ l.flatMap g') := by
  induction l generalizing st with
  | nil => simp
  | cons a l ih => rw [List.foldl_cons, hf, ih]; simp

theorem wordPairs_eq (w : Nat) (segs : List (List Str)) :
    wordPairs w segs = (segs.flatMap fun s => (List.range s.length).flatMap fun j => (places w s.length j).map fun _ => s.getD j [],
      segs.flatMap fun s => (List.range s.length).flatMap fun j => (places w s.length j).map fun l => s.getD l []) := by
  unfold wordPairs
  rw [foldl_lists (β := Unit) (fun s st => (List.range s.length).foldl (fun st j => (List.range w).foldl (fun st t => pairAt s j (w - t) st) st) st)
    (fun s => (List.range s.length).flatMap fun j => (places w s.length j).map fun _ => s.getD j [])
    (fun s => (List.range s.length).flatMap fun j => (places w s.length j).map fun l => s.getD l [])]
  · simp
  · intro s st
    rw [foldl_lists (β := Unit) (fun j st => (List.range w).foldl (fun st t => pairAt s j (w - t) st) st)
      (fun j => (places w s.length j).map fun _ => s.getD j []) (fun j => (places w s.length j).map fun l => s.getD l [])]
    intro j st
    rw [foldl_lists (β := Unit) (fun t st => pairAt s j (w - t) st) _ _ (fun t st => pairAt_eq s j (w - t) st)]
    unfold places
    rw [List.map_flatMap, List.map_flatMap]

theorem places_mem (w n j l : Nat) (hj : j < n) : l ∈ places w n j ↔ l < n ∧ l ≠ j ∧ l ≤ j + w ∧ j ≤ l + w := by
  unfold places
  simp only [List.mem_flatMap, List.mem_range, List.mem_append]
  constructor
  · rintro ⟨t, ht, q | q⟩
    · split at q
      · simp at q; omega
      · simp at q
    · split at q
      · simp at q; omega
      · simp at q
  · rintro ⟨h1, h2, h3, h4⟩
    rcases Nat.lt_or_gt_of_ne h2 with q | q
    · refine ⟨w - (j - l), by omega, Or.inl ?_⟩
      rw [if_pos (by omega)]; simp; omega
    · refine ⟨w - (l - j), by omega, Or.inr ?_⟩
      rw [if_pos (by omega)]; simp; omega

theorem places_nodup (w n j : Nat) : (places w n j).Nodup := by
  unfold places
  rw [List.nodup_flatMap]
  constructor
  · intro t ht
    have := List.mem_range.1 ht
    split <;> split <;> simp
    omega
  · refine (List.pairwise_lt_range).imp_of_mem fun {a b} ha hb hab => ?_
    have ha := List.mem_range.1 ha
    have hb := List.mem_range.1 hb
    intro l h1 h2
    simp only [List.mem_append] at h1 h2
    rcases h1 with q | q <;> split at q <;> simp at q <;> rcases h2 with r | r <;> split at r <;> simp at r <;> omega

/-- All pairs of different places of a sentence of length `n` at most `w` apart. -/
def nearPlaces (w n : Nat) : List (Nat × Nat) :=
  ((List.range n) ×ˢ (List.range n)).filter fun p => p.1 ≠ p.2 ∧ p.1 ≤ p.2 + w ∧ p.2 ≤ p.1 + w

theorem near_perm (w n : Nat) : ((List.range n).flatMap fun j => (places w n j).map fun l => (j, l)).Perm (nearPlaces w n) := by
  refine (List.perm_ext_iff_of_nodup ?_ ?_).2 ?_
  · rw [List.nodup_flatMap]
    refine ⟨fun j _ => (places_nodup w n j).map (fun a b e => by simpa using e), ?_⟩
    refine (List.nodup_range).imp fun {a b} hab => ?_
    intro p h1 h2
    simp only [List.mem_map] at h1 h2
    obtain ⟨_, _, rfl⟩ := h1
    obtain ⟨_, _, e⟩ := h2
    exact hab (congrArg Prod.fst e).symm
  · exact (List.nodup_range.product List.nodup_range).filter _
  · rintro ⟨a, b⟩
    unfold nearPlaces
    simp only [List.mem_flatMap, List.mem_map, List.mem_range, List.mem_filter, List.mem_product, Prod.mk.injEq, decide_eq_true_eq]
    constructor
    · rintro ⟨j, hj, l, hl, rfl, rfl⟩
      have := (places_mem w n j l hj).1 hl
      omega
    · rintro ⟨⟨h1, h2⟩, h3, h4, h5⟩
      exact ⟨a, h1, b, (places_mem w n a b h1).2 ⟨h2, fun e => h3 e.symm, h5, h4⟩, rfl, rfl⟩

/-! ## The words -/

theorem scan_token (cur text : Str) (hc : ∀ c ∈ cur, c ∉ separators) :
    ∀ x ∈ scan cur text, (∀ c ∈ x, c ∈ cur ∨ c ∈ text) ∧ ((∀ c ∈ x, c ∉ separators) ∨ ∃ p, punct p = true ∧ x = [p]) := by
  induction h : text.length using Nat.strongRecOn generalizing cur text with
  | _ n ih =>
    cases text with
    | nil => simp [scan]
    | cons c rest =>
      rw [List.length_cons] at h
      rw [scan]
      by_cases h1 : c = ' '
      · rw [if_pos h1]
        intro x hx
        rcases List.mem_cons.mp hx with rfl | hx
        · exact ⟨fun c hc => Or.inl hc, Or.inl hc⟩
        · obtain ⟨a, b⟩ := ih _ (by omega) [] rest (by simp) rfl x hx
          exact ⟨fun c hc => Or.inr ((a c hc).elim (by simp) (List.mem_cons_of_mem _)), b⟩
      · rw [if_neg h1]
        by_cases h2 : punct c = true
        · rw [if_pos h2]
          intro x hx
          rcases List.mem_cons.mp hx with rfl | hx
          · exact ⟨fun c hc => Or.inl hc, Or.inl hc⟩
          · rcases List.mem_cons.mp hx with rfl | hx
            · exact ⟨fun d hd => Or.inr (by simp at hd; simp [hd]), Or.inr ⟨c, h2, rfl⟩⟩
            · obtain ⟨a, b⟩ := ih _ (by simp; omega) [] (rest.drop 1) (by simp) rfl x hx
              exact ⟨fun c hc => Or.inr ((a c hc).elim (by simp) fun q => List.mem_cons_of_mem _ (List.mem_of_mem_drop q)), b⟩
        · rw [if_neg h2]
          have hc' : ∀ d ∈ cur ++ [c], d ∉ separators := by
            intro d hd
            rcases List.mem_append.1 hd with q | q
            · exact hc d q
            · simp at q; subst q; rw [sep_iff]; tauto
          by_cases h3 : rest = []
          · rw [if_pos h3]
            intro x hx
            simp at hx
            subst hx
            exact ⟨fun d hd => by simp at hd ⊢; tauto, Or.inl hc'⟩
          · rw [if_neg h3]
            intro x hx
            obtain ⟨a, b⟩ := ih _ (by omega) _ rest hc' rfl x hx
            exact ⟨fun d hd => by have := a d hd; simp at this ⊢; tauto, b⟩

/-- A word found in a text in lower case, and no stop word, is found again if it is looked for in itself. -/
theorem countedWords_token (low : Char → Char) (hl : ∀ c, low (low c) = low c) (stop_words : List Str) (text x : Str)
    (hx : x ∈ remove_stop_words low stop_words text) : countedWords low stop_words x = if x = [] then [] else [x] := by
  rw [C68_text] at hx
  obtain ⟨h1, h2⟩ := List.mem_filter.1 hx
  rw [segment_scan] at h1
  obtain ⟨a, b⟩ := scan_token [] _ (by simp) x h1
  have hm : x.map low = x := by
    conv_rhs => rw [← List.map_id x]
    refine List.map_congr_left fun c hc => ?_
    rcases a c hc with q | q
    · simp at q
    · obtain ⟨d, -, rfl⟩ := List.mem_map.1 q
      exact hl d
  unfold countedWords
  rw [hm, segment_scan]
  have h2' : x ∉ stop_words := by simpa using h2
  by_cases e : x = []
  · subst e; simp [scan]
  · rw [if_neg e]
    rcases b with b | ⟨p, hp, rfl⟩
    · rw [scan_last [] x b e]
      simp [e, h2']
    · have hs : p ≠ ' ' := by rintro rfl; simp [punct] at hp
      rw [scan, if_neg hs, if_pos hp]
      simp [scan, h2']

theorem firsts_eq {α : Type} [DecidableEq α] (l : List α) (k : List α) (h : ∀ x ∈ k, x ∈ l) : firsts (l ++ k) = firsts l := by
  induction k using List.reverseRecOn with
  | nil => simp
  | append_singleton k x ih =>
    rw [← List.append_assoc, firsts_snoc, if_pos (by simp [h x (by simp)]), ih fun y hy => h y (by simp [hy])]

theorem firsts_congr_left {α : Type} [DecidableEq α] (a b c : List α) (h : firsts a = firsts b) : firsts (a ++ c) = firsts (b ++ c) := by
  have hm : ∀ x, x ∈ a ↔ x ∈ b := fun x => by rw [← mem_firsts a, ← mem_firsts b, h]
  induction c using List.reverseRecOn with
  | nil => simpa using h
  | append_singleton c x ih =>
    rw [← List.append_assoc, ← List.append_assoc, firsts_snoc, firsts_snoc, ih]
    simp only [List.mem_append, hm]

/-- Repeating every element some times changes nothing. -/
theorem firsts_repeat {α β : Type} [DecidableEq α] (l : List β) (f : β → List α) (g : β → α) (h : ∀ b ∈ l, f b ≠ [] ∧ ∀ x ∈ f b, x = g b) (pre : List α) :
    firsts (pre ++ l.flatMap f) = firsts (pre ++ l.map g) := by
  induction l generalizing pre with
  | nil => simp
  | cons b l ih =>
    rw [List.flatMap_cons, List.map_cons, ← List.append_assoc, ih (fun c hc => h c (by simp [hc])), show pre ++ g b :: l.map g = (pre ++ [g b]) ++ l.map g by simp]
    refine firsts_congr_left _ _ _ ?_
    obtain ⟨h1, h2⟩ := h b (by simp)
    obtain ⟨y, ys, e⟩ := List.exists_cons_of_ne_nil h1
    have : y = g b := h2 y (by rw [e]; simp)
    rw [e, show pre ++ y :: ys = (pre ++ [y]) ++ ys by simp, firsts_eq, this]
    intro z hz
    have : z = g b := h2 z (by rw [e]; simp [hz])
    simp_all

end Verif.Data
