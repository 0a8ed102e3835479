import Verif.Lemmas.Csv

/-! # C75: comma-separated values -/

namespace Verif.Csv
open Text

/-- The characters that `get_line` drops or stops at do not occur. -/
def Plain (row : List Str) : Prop := row ≠ [] ∧ ∀ v ∈ row, '\r' ∉ v ∧ '\x00' ∉ v

/-- C75: `get_csv_line` reads back the line written by `store_csv_line`, whatever the entries contain (delimiters, quotation marks, line
breaks), and leaves the rest of the file. -/
theorem C75_line (delim : Char) (hd : delim ∉ ['"', '\n', '\r', '\x00']) (row : List Str) (hr : Plain row) (rest : Str) :
    get_csv_line delim ⟨store_csv_line delim row ++ rest, false⟩ = (row, ⟨rest, false⟩) := by
  simp only [List.mem_cons, not_or, List.not_mem_nil, not_false_eq_true, and_true] at hd
  have := get_csv_line_eq hd.1 hd.2.1 ⟨by simpa using Ne.symm hd.2.2.1, by simpa using Ne.symm hd.2.2.2⟩ row hr.1 hr.2 (some rest)
  unfold store_csv_line
  rw [List.append_assoc, List.singleton_append]
  exact this

theorem lines_go (rows : List (List Str)) (hne : rows ≠ []) (hr : ∀ r ∈ rows, Plain r) (fuel : Nat)
    (hf : (['\n'].intercalate (rows.map (csvText ','))).length < fuel) :
    linesGo fuel ⟨['\n'].intercalate (rows.map (csvText ',')), false⟩ = rows := by
  induction rows generalizing fuel with
  | nil => exact absurd rfl hne
  | cons r rs ih =>
    obtain ⟨fuel, rfl⟩ : ∃ k, fuel = k + 1 := ⟨fuel - 1, by omega⟩
    have hp := hr r (by simp)
    have line := fun tail => get_csv_line_eq (d := ',') (by decide) (by decide) (by simp [Clean]) r hp.1 hp.2 tail
    rw [linesGo]
    dsimp only
    rw [if_neg (by simp)]
    cases rs with
    | nil =>
      have := line none
      rw [after, List.append_nil] at this
      rw [show ['\n'].intercalate (List.map (csvText ',') [r]) = csvText ',' r by simp [List.intercalate], this]
      cases fuel <;> simp [linesGo, next]
    | cons q rs =>
      have e : ['\n'].intercalate (List.map (csvText ',') (r :: q :: rs)) =
          csvText ',' r ++ after (some (['\n'].intercalate (List.map (csvText ',') (q :: rs)))) := by
        simp [List.intercalate, after]
      rw [e] at hf ⊢
      rw [line]
      simp only [next]
      rw [ih (by simp) (fun x hx => hr x (List.mem_cons_of_mem _ hx)) fuel (by simp [after] at hf ⊢; omega)]

/-- C75: a file made of lines separated by line breaks is read as the list of these lines. -/
theorem C75_file (rows : List (List Str)) (hne : rows ≠ []) (hr : ∀ r ∈ rows, Plain r) :
    lines (['\n'].intercalate (rows.map (csvText ','))) = rows :=
  lines_go rows hne hr _ (Nat.lt_succ_self _)

/-- C75: if the last line ends with a line break, as `store_csv_line` writes it, one more line is read, with one empty entry. -/
theorem C75_stored (rows : List (List Str)) (hr : ∀ r ∈ rows, Plain r) : lines (rows.flatMap (store_csv_line ',')) = rows ++ [[[]]] := by
  have e : rows.flatMap (store_csv_line ',') = ['\n'].intercalate ((rows ++ [[[]]]).map (csvText ',')) := by
    induction rows with
    | nil => simp [List.intercalate, csvText, quote]
    | cons r rs ih =>
      rw [List.flatMap_cons, ih fun x hx => hr x (List.mem_cons_of_mem _ hx)]
      have : ∀ t, ['\n'].intercalate ((r :: rs ++ [t]).map (csvText ',')) =
          store_csv_line ',' r ++ ['\n'].intercalate ((rs ++ [t]).map (csvText ',')) := by
        intro t
        cases rs <;> simp [List.intercalate, store_csv_line]
      rw [this]
  rw [e]
  refine C75_file _ (by simp) fun r h => ?_
  rcases List.mem_append.mp h with h | h
  · exact hr r h
  · rw [List.mem_singleton] at h; subst h; simp [Plain]

example : lines "1,\"a\"\"b\nc\"\n2,d".toList = [["1".toList, "a\"b\nc".toList], ["2".toList, "d".toList]] := by
  have := C75_file [["1".toList, "a\"b\nc".toList], ["2".toList, "d".toList]] (by simp) (by simp [Plain])
  exact this

end Verif.Csv
