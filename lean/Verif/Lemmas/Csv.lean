import Verif.Model.Csv
import Verif.Lemmas.Text

/-! # Reading back what was written -/

namespace Verif.Csv
open Text

/-! ## The entries of a line -/

def esc (value : Str) : Str := value.flatMap fun c => if c = '"' then ['"', '"'] else [c]

theorem fieldsGo_cons (d : Char) (q : Bool) (cur : Str) (c : Char) (rest : Str) : fieldsGo d q cur (c :: rest) =
    if q = false ∧ c = d then cur :: fieldsGo d q [] rest
    else if c = '"' then
      if rest.head? = some '"' ∧ q = true then fieldsGo d q (cur ++ ['"']) rest.tail else fieldsGo d (!q) cur rest
    else fieldsGo d q (cur ++ [c]) rest := by
  rw [fieldsGo.eq_def]
  cases rest <;> simp

theorem fields_plain {d : Char} (v cur rest : Str) (h1 : '"' ∉ v) (h2 : d ∉ v) :
    fieldsGo d false cur (v ++ rest) = fieldsGo d false (cur ++ v) rest := by
  induction v generalizing cur with
  | nil => simp
  | cons c v ih =>
    simp only [List.mem_cons, not_or] at h1 h2
    rw [List.cons_append, fieldsGo_cons, if_neg (by simp [Ne.symm h2.1]), if_neg (Ne.symm h1.1), ih _ h1.2 h2.2]; simp

theorem fields_esc {d : Char} (v cur rest : Str) (hr : rest.head? ≠ some '"') :
    fieldsGo d true cur (esc v ++ '"' :: rest) = fieldsGo d false (cur ++ v) rest := by
  induction v generalizing cur with
  | nil =>
    unfold esc
    rw [List.flatMap_nil, List.nil_append, fieldsGo_cons, if_neg (by simp), if_pos rfl, if_neg (fun q => hr q.1)]
    simp
  | cons c v ih =>
    unfold esc at *
    rw [List.flatMap_cons, List.append_assoc]
    by_cases e : c = '"'
    · subst e
      rw [if_pos rfl, List.cons_append, List.cons_append, List.nil_append, fieldsGo_cons, if_neg (by simp), if_pos rfl, if_pos (by simp),
        List.tail_cons, ih]; simp
    · rw [if_neg e, List.cons_append, List.nil_append, fieldsGo_cons, if_neg (by simp), if_neg e, ih]; simp

theorem fields_quote {d : Char} (hd : d ≠ '"') (v cur rest : Str) (hr : rest.head? ≠ some '"') :
    fieldsGo d false cur (quote d v ++ rest) = fieldsGo d false (cur ++ v) rest := by
  unfold quote
  split
  · rw [List.append_assoc, List.cons_append, fieldsGo_cons, if_neg (by simp [Ne.symm hd]), if_pos rfl, if_neg (by simp)]
    exact fields_esc (d := d) v cur rest hr
  · rename_i h
    simp only [not_or] at h
    exact fields_plain v cur rest h.1 h.2.1

theorem fields_csvText {d : Char} (hd : d ≠ '"') (row : List Str) (hr : row ≠ []) : fieldsGo d false [] (csvText d row) = row := by
  induction row with
  | nil => exact absurd rfl hr
  | cons v vs ih =>
    cases vs with
    | nil =>
      have := fields_quote hd v [] [] (by simp)
      rw [List.append_nil] at this
      rw [csvText, this, fieldsGo]; rfl
    | cons w vs =>
      rw [csvText, fields_quote hd _ _ _ (by simp [hd]), fieldsGo_cons, if_pos (by simp), ih (by simp)]; rfl

/-! ## Quotation marks -/

/-- Reading `s` inside (`true`) or outside quotes: line breaks are inside; it ends as told. -/
def Bal : Bool → Str → Bool → Prop
  | b, [], e => b = e
  | b, c :: s, e => if c = '\n' then b = true ∧ Bal b s e else if c = '"' then Bal (!b) s e else Bal b s e

theorem Bal.append {b e f : Bool} {s t : Str} (h : Bal b s e) (h' : Bal e t f) : Bal b (s ++ t) f := by
  induction s generalizing b with
  | nil => rw [Bal] at h; subst h; exact h'
  | cons c s ih =>
    rw [List.cons_append, Bal]
    rw [Bal] at h
    split
    · rename_i e1; rw [if_pos e1] at h; exact ⟨h.1, ih h.2⟩
    · rename_i e1
      rw [if_neg e1] at h
      split
      · rename_i e2; rw [if_pos e2] at h; exact ih h
      · rename_i e2; rw [if_neg e2] at h; exact ih h

theorem Bal.esc (v : Str) : Bal true (esc v) true := by
  induction v with
  | nil => rfl
  | cons c v ih =>
    unfold Csv.esc at *
    rw [List.flatMap_cons]
    refine Bal.append (e := true) ?_ ih
    by_cases e : c = '"'
    · simp [e, Bal]
    · by_cases e' : c = '\n' <;> simp [e, e', Bal]

theorem Bal.plain (v : Str) (h1 : '"' ∉ v) (h2 : '\n' ∉ v) (b : Bool) : Bal b v b := by
  induction v with
  | nil => rfl
  | cons c v ih =>
    simp only [List.mem_cons, not_or] at h1 h2
    rw [Bal, if_neg (Ne.symm h2.1), if_neg (Ne.symm h1.1)]; exact ih h1.2 h2.2

theorem Bal.quote (d : Char) (v : Str) : Bal false (quote d v) false := by
  unfold Csv.quote
  split
  · rw [List.cons_append, Bal, if_neg (by decide), if_pos rfl]
    exact (Bal.esc v).append (by simp [Bal])
  · rename_i h
    simp only [not_or] at h
    exact Bal.plain v h.1 h.2.2 false

theorem Bal.csvText {d : Char} (hd : d ≠ '"') (hn : d ≠ '\n') (row : List Str) : Bal false (csvText d row) false := by
  induction row with
  | nil => rfl
  | cons v vs ih =>
    cases vs with
    | nil => rw [Csv.csvText]; exact Bal.quote d v
    | cons w vs =>
      rw [Csv.csvText]
      refine (Bal.quote d v).append ?_
      rw [Bal, if_neg hn, if_neg hd]; exact ih

/-- Whether the number of quotation marks is odd. -/
def odd (s : Str) : Bool := s.count '"' % 2 = 1

theorem odd_append (s t : Str) : odd (s ++ t) = (odd s != odd t) := by
  unfold odd
  rw [List.count_append]
  rcases Nat.mod_two_eq_zero_or_one (s.count '"') with h1 | h1 <;> rcases Nat.mod_two_eq_zero_or_one (t.count '"') with h2 | h2 <;>
    simp [Nat.add_mod, h1, h2]

theorem Bal.skip {b e : Bool} {s t : Str} (h : Bal b (s ++ t) e) : Bal (b != odd s) t e := by
  induction s generalizing b with
  | nil => simpa [odd] using h
  | cons c s ih =>
    have hc : odd (c :: s) = ((c == '"') != odd s) := by
      rw [show c :: s = [c] ++ s from rfl, odd_append]
      congr 1
      by_cases e : c = '"' <;> simp [odd, e]
    rw [List.cons_append, Bal] at h
    rw [hc]
    split at h
    · rename_i e1; have := ih h.2; subst e1; simpa using this
    · split at h
      · rename_i e2
        have := ih h
        have e3 : (c == '"') = true := by simp [e2]
        rw [e3]
        revert this
        cases b <;> cases odd s <;> exact id
      · rename_i e2
        have := ih h
        have e3 : (c == '"') = false := by simp [e2]
        rw [e3]
        revert this
        cases b <;> cases odd s <;> exact id

/-! ## Reading lines -/

/-- No carriage return or null character. -/
def Clean (s : Str) : Prop := '\r' ∉ s ∧ '\x00' ∉ s

theorem getLine_mid (s acc rest : Str) (hc : Clean s) (hn : '\n' ∉ s) : getLineGo acc (s ++ '\n' :: rest) = (acc ++ s, ⟨rest, false⟩) := by
  induction s generalizing acc with
  | nil => rw [List.nil_append, getLineGo, if_pos (Or.inl rfl)]; simp
  | cons c s ih =>
    obtain ⟨h1, h2⟩ := hc
    simp only [List.mem_cons, not_or] at h1 h2 hn
    rw [List.cons_append, getLineGo, if_neg (by rintro (q | q); exacts [hn.1 q.symm, h2.1 q.symm]), if_pos (Ne.symm h1.1),
      ih _ ⟨h1.2, h2.2⟩ hn.2]
    simp

theorem getLine_end (s acc : Str) (hc : Clean s) (hn : '\n' ∉ s) : getLineGo acc s = (acc ++ s, ⟨[], true⟩) := by
  induction s generalizing acc with
  | nil => rw [getLineGo]; simp
  | cons c s ih =>
    obtain ⟨h1, h2⟩ := hc
    simp only [List.mem_cons, not_or] at h1 h2 hn
    rw [getLineGo, if_neg (by rintro (q | q); exacts [hn.1 q.symm, h2.1 q.symm]), if_pos (Ne.symm h1.1),
      ih _ ⟨h1.2, h2.2⟩ hn.2]
    simp

/-- What follows a line: nothing, or a newline and the rest of the file. -/
def after : Option Str → Str
  | none => []
  | some rest => '\n' :: rest

def next : Option Str → File
  | none => ⟨[], true⟩
  | some rest => ⟨rest, false⟩

theorem join_eq (s : Str) (acc : Str) (tail : Option Str) (fuel : Nat) (hf : s.length < fuel) (hc : Clean s) (hb : Bal (odd acc) s false) :
    joinGo fuel acc ⟨s ++ after tail, false⟩ = (acc ++ s ++ ['\n'], next tail) := by
  induction h : s.length using Nat.strongRecOn generalizing s acc fuel with
  | _ n ih =>
    obtain ⟨fuel, rfl⟩ : ∃ k, fuel = k + 1 := ⟨fuel - 1, by omega⟩
    rw [joinGo]
    dsimp only
    rw [if_neg (by simp)]
    by_cases hn : '\n' ∈ s
    · obtain ⟨p, q, rfl, hp⟩ := List.eq_append_cons_of_mem hn
      have hcp : Clean p := ⟨fun h => hc.1 (by simp [h]), fun h => hc.2 (by simp [h])⟩
      have hcq : Clean q := ⟨fun h => hc.1 (by simp [h]), fun h => hc.2 (by simp [h])⟩
      have hl : get_line ⟨p ++ '\n' :: q ++ after tail, false⟩ = (p, ⟨q ++ after tail, false⟩) := by
        unfold get_line
        rw [List.append_assoc, List.cons_append, getLine_mid p [] _ hcp hp]; rfl
      rw [hl]
      have hb2 := hb.skip
      rw [Bal, if_pos rfl] at hb2
      have hodd : odd (acc ++ p ++ ['\n']) = true := by
        rw [odd_append, odd_append]; simpa [odd] using hb2.1
      rw [if_pos (by unfold odd at hodd; exact of_decide_eq_true hodd)]
      rw [List.length_append, List.length_cons] at h hf
      rw [ih q.length (by omega) q _ fuel (by omega) hcq (by rw [hodd, ← hb2.1]; exact hb2.2) rfl]
      simp
    · have hl : get_line ⟨s ++ after tail, false⟩ = (s, next tail) := by
        unfold get_line
        cases tail with
        | none => simp only [after, List.append_nil]; exact getLine_end s [] hc hn
        | some r => exact getLine_mid s [] r hc hn
      rw [hl]
      have hb2 := Bal.skip (s := s) (t := []) (by rw [List.append_nil]; exact hb)
      rw [Bal] at hb2
      have hodd : odd (acc ++ s ++ ['\n']) = false := by
        rw [odd_append, odd_append, hb2]; simp [odd]
      rw [if_neg (by unfold odd at hodd; exact of_decide_eq_false hodd)]

theorem Clean.quote {d : Char} {v : Str} (h : Clean v) : Clean (quote d v) := by
  have he : ∀ c : Char, c ≠ '"' → c ∉ v → c ∉ v.flatMap fun c => if c = '"' then ['"', '"'] else [c] := by
    intro c hc hv
    simp only [List.mem_flatMap, not_exists, not_and]
    intro x hx
    by_cases e : x = '"'
    · simp [e, hc]
    · simp only [if_neg e, List.mem_singleton]; rintro rfl; exact hv hx
  unfold Csv.quote
  split
  · refine ⟨?_, ?_⟩
    · have := he '\r' (by decide) h.1; simpa using this
    · have := he '\x00' (by decide) h.2; simpa using this
  · exact h

theorem Clean.csvText {d : Char} (hd : Clean [d]) {row : List Str} (h : ∀ v ∈ row, Clean v) : Clean (csvText d row) := by
  induction row with
  | nil => simp [Csv.csvText, Clean]
  | cons v vs ih =>
    have hv := (h v (by simp)).quote (d := d)
    cases vs with
    | nil => rw [Csv.csvText]; exact hv
    | cons w vs =>
      have ih := ih fun x hx => h x (List.mem_cons_of_mem _ hx)
      rw [Csv.csvText]
      unfold Clean at hv hd ih ⊢
      simp only [List.mem_append, List.mem_cons, not_or] at hd ⊢
      exact ⟨⟨hv.1, hd.1.1, ih.1⟩, hv.2, hd.2.1, ih.2⟩

theorem get_csv_line_eq {d : Char} (hd : d ≠ '"') (hn : d ≠ '\n') (hcd : Clean [d]) (row : List Str) (hr : row ≠ []) (hc : ∀ v ∈ row, Clean v)
    (tail : Option Str) : get_csv_line d ⟨csvText d row ++ after tail, false⟩ = (row, next tail) := by
  unfold get_csv_line
  dsimp only
  rw [join_eq (csvText d row) [] tail _ (by simp; omega) (Clean.csvText hcd hc) (Bal.csvText hd hn row)]
  dsimp only
  rw [List.nil_append]
  have : substr (csvText d row ++ ['\n']) 0 (((csvText d row ++ ['\n']).length : Int) - 1) = csvText d row := by
    have := substr_eq (csvText d row ++ ['\n']) 0 (csvText d row).length (by omega) (by simp)
    simp only [Int.natCast_zero, Int.sub_zero] at this
    rw [show (((csvText d row ++ ['\n']).length : Int) - 1) = ((csvText d row).length : Int) by simp]
    rw [this]; simp
  rw [this, fields_csvText hd row hr]

end Verif.Csv
