import Verif.Model.Text
import Verif.Lemmas.Rows
import Verif.Spec.Text

/-! # The scanner behind `segment` -/

namespace Verif.Text
open Spec

/-- `segment` as a structural recursion: `cur` is the unfinished word. -/
def scan (cur : Str) : Str → List Str
  | [] => []
  | c :: rest =>
    if c = ' ' then cur :: scan [] rest
    else if punct c then cur :: [c] :: scan [] (rest.drop 1)
    else if rest = [] then [cur ++ [c]]
    else scan (cur ++ [c]) rest
termination_by s => s.length
decreasing_by all_goals simp only [List.length_drop, List.length_cons]; omega

theorem substr_eq (s : Str) (a b : Nat) (hb : a ≤ b) (hl : b ≤ s.length) : substr s a ((b : Int) - a) = (s.drop a).take (b - a) := by
  unfold substr
  dsimp only
  rw [if_neg (show ¬ ((b : Int) - (a : Int) = -1) by omega)]
  by_cases e : a = b
  · subst e; rw [if_pos (by omega)]; simp
  · rw [if_neg (by omega), Int.toNat_natCast, show ((b : Int) - (a : Int)).toNat = b - a by omega]

theorem segmentGo_scan (text : Str) (i prev : Nat) (acc : List Str) (hp : prev ≤ i) :
    segmentGo text i prev acc = acc ++ scan ((text.drop prev).take (i - prev)) (text.drop i) := by
  induction h : text.length - i using Nat.strongRecOn generalizing i prev acc with
  | _ n ih =>
    unfold segmentGo
    by_cases hi : i < text.length
    · rw [dif_pos hi]
      have hd : text.drop i = text[i] :: text.drop (i + 1) := (List.drop_eq_getElem_cons hi)
      have hsub := substr_eq text prev i hp (by omega)
      rw [hd]
      unfold scan
      by_cases h1 : text[i] = ' '
      · rw [if_pos h1, if_pos h1, ih _ (by omega) (i + 1) (i + 1) _ (Nat.le_refl _) rfl, hsub]; simp
      · rw [if_neg h1, if_neg h1]
        by_cases h2 : punct text[i] = true
        · rw [if_pos h2, if_pos h2, ih _ (by omega) (i + 2) (i + 2) _ (Nat.le_refl _) rfl, hsub]; simp
        · rw [if_neg h2, if_neg h2]
          have hcur : (text.drop prev).take (i - prev) ++ [text[i]] = (text.drop prev).take (i + 1 - prev) := by
            rw [show i + 1 - prev = (i - prev) + 1 by omega, List.take_add_one, List.getElem?_drop, show prev + (i - prev) = i by omega,
              List.getElem?_eq_getElem hi]; rfl
          by_cases h3 : i = text.length - 1
          · rw [if_pos h3, if_pos (List.drop_of_length_le (by omega)), ih _ (by omega) (i + 1) prev _ (by omega) rfl,
              List.drop_of_length_le (i := i + 1) (by omega), substr_eq text prev text.length (by omega) (Nat.le_refl _), hcur,
              show text.length - prev = i + 1 - prev by omega]
            simp [scan]
          · have hne : text.drop (i + 1) ≠ [] := by
              intro e; have := congrArg List.length e; simp at this; omega
            rw [if_neg h3, if_neg hne, ih _ (by omega) (i + 1) prev _ (by omega) rfl, hcur]
    · rw [dif_neg hi, List.drop_of_length_le (i := i) (by omega)]
      simp [scan]

theorem segment_scan (text : Str) : segment text = scan [] text := by
  unfold segment; rw [segmentGo_scan _ _ _ _ (Nat.le_refl _)]; simp

theorem sep_iff (c : Char) : c ∈ separators ↔ c = ' ' ∨ punct c = true := by
  simp [separators, punct, or_assoc]

/-- Reading a word without separators. -/
theorem scan_word (cur w rest : Str) (hw : ∀ c ∈ w, c ∉ separators) (hr : rest ≠ []) : scan cur (w ++ rest) = scan (cur ++ w) rest := by
  induction w generalizing cur with
  | nil => simp
  | cons c w ih =>
    have hc := hw c (by simp)
    rw [sep_iff] at hc
    rw [List.cons_append, scan, if_neg (fun e => hc (Or.inl e)), if_neg (fun e => hc (Or.inr e)), if_neg (by simp [hr]),
      ih _ fun c h => hw c (List.mem_cons_of_mem _ h)]
    simp

theorem scan_last (cur w : Str) (hw : ∀ c ∈ w, c ∉ separators) (hn : w ≠ []) : scan cur w = [cur ++ w] := by
  induction w generalizing cur with
  | nil => exact absurd rfl hn
  | cons c w ih =>
    have hc := hw c (by simp)
    rw [sep_iff] at hc
    rw [scan, if_neg (fun e => hc (Or.inl e)), if_neg (fun e => hc (Or.inr e))]
    by_cases e : w = []
    · rw [if_pos e, e]
    · rw [if_neg e, ih _ (fun c h => hw c (List.mem_cons_of_mem _ h)) e]; simp

/-- The words have no spaces in them. -/
theorem scan_noSpace (cur text : Str) (hc : ' ' ∉ cur) : ∀ w ∈ scan cur text, ' ' ∉ w := by
  induction h : text.length using Nat.strongRecOn generalizing cur text with
  | _ n ih =>
    cases text with
    | nil => simp [scan]
    | cons c rest =>
      rw [List.length_cons] at h
      rw [scan]
      by_cases h1 : c = ' '
      · rw [if_pos h1]
        intro w hw
        rcases List.mem_cons.mp hw with rfl | hw
        · exact hc
        · exact ih _ (by omega) [] rest (by simp) rfl w hw
      · rw [if_neg h1]
        by_cases h2 : punct c = true
        · rw [if_pos h2]
          intro w hw
          rcases List.mem_cons.mp hw with rfl | hw
          · exact hc
          · rcases List.mem_cons.mp hw with rfl | hw
            · simpa [eq_comm] using h1
            · exact ih _ (by simp; omega) [] (rest.drop 1) (by simp) rfl w hw
        · rw [if_neg h2]
          have hc' : ' ' ∉ cur ++ [c] := by simpa [hc, eq_comm] using h1
          by_cases h3 : rest = []
          · rw [if_pos h3]; simpa using hc'
          · rw [if_neg h3]; exact ih _ (by omega) _ rest hc' rfl

theorem segment_noSpace (text : Str) : ∀ w ∈ segment text, ' ' ∉ w := by
  rw [segment_scan]; exact scan_noSpace _ _ (by simp)

theorem remove_spaces_id (l : List Str) (h : ∀ w ∈ l, ' ' ∉ w) : remove_spaces l = l := by
  unfold remove_spaces
  conv_rhs => rw [← List.map_id l]
  refine List.map_congr_left fun w hw => ?_
  rw [List.filter_eq_self.mpr]; · rfl
  intro c hc
  have := h w hw
  exact decide_eq_true fun e => this (e ▸ hc)

/-- Up to empty words, the words of two texts joined by a space are the words of the first and the words of the second. -/
theorem scan_join (cur s t : Str) (hs : s ≠ [] ∨ cur = []) :
    (scan cur (s ++ ' ' :: t)).filter (· ≠ []) = (scan cur s).filter (· ≠ []) ++ (scan [] t).filter (· ≠ []) := by
  induction h : s.length using Nat.strongRecOn generalizing cur s with
  | _ n ih =>
    cases s with
    | nil =>
      have : cur = [] := hs.resolve_left (by simp)
      subst this
      rw [List.nil_append]; simp [scan]
    | cons c rest =>
      rw [List.length_cons] at h
      rw [List.cons_append, scan]
      conv_rhs => rw [scan]
      by_cases h1 : c = ' '
      · rw [if_pos h1, if_pos h1, List.filter_cons, List.filter_cons, ih _ (by omega) [] rest (Or.inr rfl) rfl]
        split <;> simp
      · rw [if_neg h1, if_neg h1]
        by_cases h2 : punct c = true
        · rw [if_pos h2, if_pos h2]
          have key : (scan [] ((rest ++ ' ' :: t).drop 1)).filter (· ≠ []) =
              (scan [] (rest.drop 1)).filter (· ≠ []) ++ (scan [] t).filter (· ≠ []) := by
            cases rest with
            | nil => simp [scan]
            | cons r rs =>
              rw [List.length_cons] at h
              simpa using ih rs.length (by omega) [] rs (Or.inr rfl) rfl
          rw [List.filter_cons, List.filter_cons, List.filter_cons (x := cur), List.filter_cons (x := [c]), key]
          split <;> simp
        · rw [if_neg h2, if_neg h2, if_neg (by simp)]
          by_cases h3 : rest = []
          · rw [if_pos h3, h3, List.nil_append, scan, if_pos rfl]; simp
          · rw [if_neg h3, ih _ (by omega) _ rest (Or.inl h3) rfl]

theorem segment_join (s t : Str) :
    (segment (s ++ ' ' :: t)).filter (· ≠ []) = (segment s).filter (· ≠ []) ++ (segment t).filter (· ≠ []) := by
  simp only [segment_scan]; exact scan_join [] s t (Or.inr rfl)

/-! ## Removing words -/

theorem filter_eraseIdx (l : List Str) (j : Nat) (hj : j < l.length) :
    (l.eraseIdx j).drop j = l.drop (j + 1) ∧ (l.eraseIdx j).take j = l.take j := by
  rw [List.eraseIdx_eq_take_drop_succ]
  constructor
  · rw [List.drop_append, List.drop_of_length_le (by simp), List.length_take, Nat.min_eq_left (by omega)]; simp
  · rw [List.take_append_of_le_length (by simp; omega), List.take_take, Nat.min_self]

theorem removeWordGo_eq (w : Str) (data : List Str) (j : Nat) :
    removeWordGo w data j = data.take j ++ (data.drop j).filter (· ≠ w) := by
  induction h : data.length - j using Nat.strongRecOn generalizing data j with
  | _ n ih =>
    unfold removeWordGo
    by_cases hj : j < data.length
    · rw [dif_pos hj, List.drop_eq_getElem_cons hj, List.filter_cons]
      by_cases e : data[j] = w
      · obtain ⟨e1, e2⟩ := filter_eraseIdx data j hj
        rw [if_pos e, ih _ (by rw [List.length_eraseIdx_of_lt hj]; omega) _ j rfl, e1, e2]
        simp [e]
      · rw [if_neg e, ih _ (by omega) _ (j + 1) rfl, List.take_add_one, List.getElem?_eq_getElem hj]
        rw [if_pos (by simp [e]), List.append_assoc]; rfl
    · rw [dif_neg hj, List.take_of_length_le (by omega), List.drop_of_length_le (by omega)]; simp

theorem removeWords_eq (ws data : List Str) :
    ws.foldl (fun data w => removeWordGo w data 0) data = data.filter (· ∉ ws) := by
  induction ws generalizing data with
  | nil => simp
  | cons w ws ih =>
    rw [List.foldl_cons, ih, removeWordGo_eq]
    simp only [List.take_zero, List.nil_append, List.drop_zero, List.filter_filter]
    refine List.filter_congr fun x _ => ?_
    simp [Bool.and_comm]

theorem removeEmptyGo_eq (data : List Str) (i : Nat)
    (hc : ∀ k (h : k + 1 < data.length), i ≤ k → data[k] = [] → data[k + 1] ≠ []) :
    removeEmptyGo data i = data.take i ++ (data.drop i).filter (· ≠ []) := by
  induction h : data.length - i using Nat.strongRecOn generalizing data i with
  | _ n ih =>
    unfold removeEmptyGo
    by_cases hi : i < data.length
    · rw [dif_pos hi, List.drop_eq_getElem_cons hi, List.filter_cons]
      by_cases e : data[i] = []
      · rw [if_pos e]
        have hlen := List.length_eraseIdx_of_lt hi
        obtain ⟨e1, e2⟩ := filter_eraseIdx data i hi
        rw [ih _ (by omega) _ (i + 1) ?_ rfl]
        · by_cases hl : i + 1 < data.length
          · have hne := hc i hl (Nat.le_refl _) e
            have hget : (data.eraseIdx i)[i]? = some data[i + 1] := by
              rw [List.getElem?_eraseIdx_of_ge (Nat.le_refl _), List.getElem?_eq_getElem hl]
            have e3 : (data.eraseIdx i).drop (i + 1) = data.drop (i + 1 + 1) := by
              rw [← List.drop_drop, e1, List.drop_drop]
            rw [List.take_add_one, hget, e2, e3, List.drop_eq_getElem_cons hl, List.filter_cons]
            simp [e, hne]
          · rw [List.take_of_length_le (by omega), List.drop_of_length_le (i := i + 1) (by omega),
              List.drop_of_length_le (i := i + 1) (by omega), List.eraseIdx_eq_take_drop_succ,
              List.drop_of_length_le (i := i + 1) (by omega)]
            simp [e]
        · intro k hk hik hk0
          have h1 : k ≥ i := by omega
          rw [List.getElem_eraseIdx_of_ge _ h1] at hk0
          rw [List.getElem_eraseIdx_of_ge _ (by omega)]
          exact hc (k + 1) (by omega) (by omega) hk0
      · rw [if_neg e, ih _ (by omega) _ (i + 1) (fun k hk hik => hc k hk (by omega)) rfl, List.take_add_one, List.getElem?_eq_getElem hi]
        rw [if_pos (by simp [e]), List.append_assoc]; rfl
    · rw [dif_neg hi, List.take_of_length_le (by omega), List.drop_of_length_le (by omega)]; simp

theorem removeAt_skip (ws data : List Str) (i : Nat) (hi : i < data.length) (hd : data[i] ∉ ws) :
    removeAt ws data (i : Int) = some (data, (i : Int)) := by
  induction ws with
  | nil => rfl
  | cons w ws ih =>
    rw [List.mem_cons, not_or] at hd
    unfold removeAt at *
    rw [List.foldlM_cons]
    simp only [idxOk_nat hi, Int.toNat_natCast, List.getElem?_eq_getElem hi, if_true, Option.bind_eq_bind, Option.bind_some, if_neg hd.1]
    exact ih hd.2

theorem removeAt_hit (ws data : List Str) (i : Nat) (hi : i + 1 < data.length) (hd : data[i + 1] ∈ ws) (hp : data[i] ∉ ws) :
    removeAt ws data ((i + 1 : Nat) : Int) = some (data.eraseIdx (i + 1), (i : Int)) := by
  induction ws with
  | nil => simp at hd
  | cons w ws ih =>
    rw [List.mem_cons, not_or] at hp
    have key : removeAt (w :: ws) data ((i + 1 : Nat) : Int) = if data[i + 1] = w then removeAt ws (data.eraseIdx (i + 1)) (i : Int)
        else removeAt ws data ((i + 1 : Nat) : Int) := by
      unfold removeAt
      rw [List.foldlM_cons]
      simp only [idxOk_nat hi, Int.toNat_natCast, List.getElem?_eq_getElem hi, if_true, Option.bind_eq_bind, Option.bind_some]
      by_cases e : data[i + 1] = w
      · rw [if_pos e, if_pos e]
        have : ((i + 1 : Nat) : Int) - 1 = (i : Int) := by omega
        rw [this]; rfl
      · rw [if_neg e, if_neg e]; rfl
    rw [key]
    by_cases e : data[i + 1] = w
    · rw [if_pos e]
      refine removeAt_skip ws _ i (by rw [List.length_eraseIdx_of_lt hi]; omega) ?_
      rw [List.getElem_eraseIdx_of_lt _ (by omega)]; exact hp.2
    · rw [if_neg e]
      exact ih ((List.mem_cons.mp hd).resolve_left e) hp.2

theorem removeVecGo_eq (ws : List Str) (fuel : Nat) (data : List Str) (i : Nat) (hf : fuel + (i + 1) = data.length)
    (hp : ∀ (k : Nat) (hk : k < data.length), k ≤ i → data[k] ∉ ws) :
    removeVecGo ws fuel data ((i + 1 : Nat) : Int) = some (data.take (i + 1) ++ (data.drop (i + 1)).filter (· ∉ ws)) := by
  induction fuel generalizing data i with
  | zero =>
    rw [removeVecGo, List.take_of_length_le (by omega), List.drop_of_length_le (by omega)]; simp
  | succ fuel ih =>
    have hi : i + 1 < data.length := by omega
    rw [removeVecGo, if_pos (by omega), List.drop_eq_getElem_cons hi, List.filter_cons]
    by_cases e : data[i + 1] ∈ ws
    · rw [removeAt_hit ws data i hi e (hp i (by omega) (Nat.le_refl _))]
      obtain ⟨e1, e2⟩ := filter_eraseIdx data (i + 1) hi
      have hl := List.length_eraseIdx_of_lt hi
      rw [if_neg (by simp [e])]
      show removeVecGo ws fuel (data.eraseIdx (i + 1)) ((i : Int) + 1) = _
      rw [show (i : Int) + 1 = ((i + 1 : Nat) : Int) by omega, ih _ i (by omega) ?_, e1, e2]
      intro k hk hki
      rw [List.getElem_eraseIdx_of_lt _ (by omega)]
      exact hp k (by omega) hki
    · rw [removeAt_skip ws data (i + 1) hi e]
      rw [if_pos (by simp [e])]
      show removeVecGo ws fuel data (((i + 1 : Nat) : Int) + 1) = _
      rw [show ((i + 1 : Nat) : Int) + 1 = ((i + 1 + 1 : Nat) : Int) by omega, ih data (i + 1) (by omega) ?_, List.take_add_one (i := i + 1),
        List.getElem?_eq_getElem hi, List.append_assoc]
      · rfl
      · intro k hk hki
        rcases Nat.lt_or_ge k (i + 1) with h1 | h1
        · exact hp k hk (by omega)
        · have : k = i + 1 := by omega
          subst this; exact e

/-! ## Sets of words -/

theorem foldl_new {α : Type} [DecidableEq α] (set : List α) (x : α) (b : Bool) :
    set.foldl (fun new_element y => if y = x then false else new_element) b = (b && decide (x ∉ set)) := by
  induction set generalizing b with
  | nil => simp
  | cons y ys ih =>
    rw [List.foldl_cons, ih]
    by_cases e : y = x
    · simp [e]
    · simp [e, Ne.symm e]

/-- One round of `vec_to_set`. -/
def vec_to_set_step {α : Type} [DecidableEq α] (set : List α) (x : α) : List α :=
  if set.foldl (fun new_element y => if y = x then false else new_element) true then set ++ [x] else set

theorem vec_to_set_go {α : Type} [DecidableEq α] (l set : List α) :
    l.foldl (fun set x => if set.foldl (fun new_element y => if y = x then false else new_element) true then set ++ [x] else set) set =
      set ++ (firsts l).filter (· ∉ set) := by
  induction l generalizing set with
  | nil => simp [firsts]
  | cons x xs ih =>
    rw [List.foldl_cons, foldl_new]
    by_cases e : x ∈ set
    · rw [if_neg (by simp [e]), ih, firsts, List.filter_cons, if_neg (by simp [e]), List.filter_filter]
      congr 1
      refine List.filter_congr fun y _ => ?_
      by_cases hy : y = x
      · simp [hy, e]
      · simp [hy]
    · rw [if_pos (by simp [e]), ih, firsts, List.filter_cons, if_pos (by simp [e]), List.filter_filter, List.append_assoc]
      congr 1
      rw [List.singleton_append]
      congr 1
      refine List.filter_congr fun y _ => ?_
      simp [not_or]

theorem vec_to_set_eq {α : Type} [DecidableEq α] (l : List α) : vec_to_set l = firsts l := by
  unfold vec_to_set; rw [vec_to_set_go]; simp

theorem firsts_filter {α : Type} [DecidableEq α] (l : List α) (p : α → Bool) : (firsts l).filter p = firsts (l.filter p) := by
  induction l with
  | nil => rfl
  | cons x xs ih =>
    rw [firsts, List.filter_cons, List.filter_cons]
    by_cases e : p x = true
    · rw [if_pos e, if_pos e, firsts, ← ih, List.filter_filter, List.filter_filter]
      congr 1
      exact List.filter_congr fun y _ => Bool.and_comm ..
    · rw [if_neg e, if_neg e, ← ih, List.filter_filter]
      refine List.filter_congr fun y _ => ?_
      by_cases hy : y = x
      · simp [hy, e]
      · simp [hy]

theorem mem_firsts {α : Type} [DecidableEq α] (l : List α) (x : α) : x ∈ firsts l ↔ x ∈ l := by
  induction l with
  | nil => simp [firsts]
  | cons y ys ih =>
    rw [firsts, List.mem_cons, List.mem_filter, ih, List.mem_cons]
    by_cases e : x = y <;> simp [e]

theorem firsts_nodup {α : Type} [DecidableEq α] (l : List α) : (firsts l).Nodup := by
  induction l with
  | nil => simp [firsts]
  | cons y ys ih =>
    rw [firsts, List.nodup_cons]
    exact ⟨by simp, ih.filter _⟩

theorem firsts_sublist {α : Type} [DecidableEq α] (l : List α) : (firsts l).Sublist l := by
  induction l with
  | nil => simp [firsts]
  | cons y ys ih =>
    rw [firsts]
    exact List.Sublist.cons_cons _ (List.filter_sublist.trans ih)

theorem firsts_snoc {α : Type} [DecidableEq α] (l : List α) (x : α) : firsts (l ++ [x]) = if x ∈ l then firsts l else firsts l ++ [x] := by
  have := vec_to_set_go [x] (firsts l)
  have e : vec_to_set (l ++ [x]) = vec_to_set_step (firsts l) x := by
    unfold vec_to_set vec_to_set_step
    rw [List.foldl_append, List.foldl_cons, List.foldl_nil]
    rw [vec_to_set_go l []]
    simp
  rw [← vec_to_set_eq, e]
  unfold vec_to_set_step
  rw [foldl_new]
  by_cases h : x ∈ l
  · rw [if_pos h, if_neg (by simp [mem_firsts, h])]
  · rw [if_neg h, if_pos (by simp [mem_firsts, h])]

/-! ## Tokens -/

theorem earlier_none {seg : List Str} {toks : List Nat} {i : Nat} (hn : ∀ j, j < i → seg[i]? ≠ seg[j]?) :
    earlier seg toks i = none := by
  unfold earlier
  have : ∀ l : List Nat, (∀ j ∈ l, j < i) → l.foldl (fun r j => if seg[i]? = seg[j]? then toks[j]? else r) none = none := by
    intro l hl
    induction l with
    | nil => rfl
    | cons a l ih =>
      rw [List.foldl_cons, if_neg (hn a (hl a (by simp)))]
      exact ih fun j hj => hl j (List.mem_cons_of_mem _ hj)
  exact this _ (by simp)

theorem earlier_some {seg : List Str} {toks : List Nat} {i : Nat} {t : Nat}
    (ht : ∀ j, j < i → seg[i]? = seg[j]? → toks[j]? = some t) {j : Nat} (hj : j < i) (e : seg[i]? = seg[j]?) :
    earlier seg toks i = some t := by
  unfold earlier
  have : ∀ (l : List Nat) (r : Option Nat), (∀ j ∈ l, j < i) → (r = some t ∨ ∃ j ∈ l, seg[i]? = seg[j]?) →
      l.foldl (fun r j => if seg[i]? = seg[j]? then toks[j]? else r) r = some t := by
    intro l
    induction l with
    | nil => intro r _ h; rcases h with h | ⟨j, hj, _⟩
             · exact h
             · simp at hj
    | cons a l ih =>
      intro r hl h
      rw [List.foldl_cons]
      refine ih _ (fun j hj => hl j (List.mem_cons_of_mem _ hj)) ?_
      by_cases ea : seg[i]? = seg[a]?
      · rw [if_pos ea]; exact Or.inl (ht a (hl a (by simp)) ea)
      · rw [if_neg ea]
        rcases h with h | ⟨j, hj, ej⟩
        · exact Or.inl h
        · rcases List.mem_cons.mp hj with rfl | hj
          · exact absurd ej ea
          · exact Or.inr ⟨j, hj, ej⟩
  exact this _ _ (by simp) (Or.inr ⟨j, by simpa using hj, e⟩)

end Verif.Text
