import Verif.Model.Text

/-!
# Reading and writing lines of comma-separated values (platform/sfw.cpp, `FileAccess`)

A file is the list of its characters. `String::utf8` is the identity: only characters of one byte are modelled.
-/

namespace Verif.Csv
open Text

/-- A file being read: the characters not yet read, and whether `eof_reached()`: a read past the last character was attempted. -/
structure File where
  rest : Str
  eof : Bool

/-- `FileAccess::get_line()`, sfw.cpp:15249-15266, from the characters `rest`, after having put the characters `line` into the line.
`get_8()` (sfw.cpp:14934-14942) past the end sets the flag and returns 0, which is not used. -/
def getLineGo (line : Str) : Str → Str × File
  | [] => (line, ⟨[], true⟩)
  | c :: rest =>
    if c = '\n' ∨ c = '\x00' then (line, ⟨rest, false⟩)
    else if c ≠ '\r' then getLineGo (line ++ [c]) rest
    else getLineGo line rest

def get_line (f : File) : Str × File := getLineGo [] f.rest

/-- The first loop of `get_csv_line`, sfw.cpp:15278-15289: lines are joined until the number of quotation marks is even. At most `fuel`
rounds: every round reads a character or the end of the file, so one more round than there are characters is enough. -/
def joinGo : Nat → Str → File → Str × File
  | 0, line, f => (line, f)
  | fuel + 1, line, f =>
    if f.eof then (line, f) else
      let r := get_line f
      let line := line ++ r.1 ++ ['\n']
      if line.count '"' % 2 = 1 then joinGo fuel line r.2 else (line, r.2)

/-- The second loop of `get_csv_line`, sfw.cpp:15298-15316. The character after the last one is 0. -/
def fieldsGo (delim : Char) (in_quote : Bool) (current : Str) : Str → List Str
  | [] => [current]
  | c :: rest =>
    if in_quote = false ∧ c = delim then current :: fieldsGo delim in_quote [] rest
    else if c = '"' then
      match rest with
      | d :: rest' =>
        if d = '"' ∧ in_quote = true then fieldsGo delim in_quote (current ++ ['"']) rest' else fieldsGo delim (!in_quote) current (d :: rest')
      | [] => fieldsGo delim (!in_quote) current []
    else fieldsGo delim in_quote (current ++ [c]) rest
termination_by s => s.length

/-- `FileAccess::get_csv_line(p_delim)`, sfw.cpp:15268-15319, for a delimiter that is not the quotation mark. -/
def get_csv_line (delim : Char) (f : File) : List Str × File :=
  let r := joinGo (f.rest.length + 1) [] f
  (fieldsGo delim false [] (substr r.1 0 ((r.1.length : Int) - 1)), r.2)

/-- `while (!file->eof_reached()) { ... file->get_csv_line() ... }`, data.cpp:280-291, 316-322, 345-352: the lines read by the loaders, with
the default delimiter. At most `fuel` rounds; every round reads a character or the end of the file. -/
def linesGo : Nat → File → List (List Str)
  | 0, _ => []
  | fuel + 1, f => if f.eof then [] else
      let r := get_csv_line ',' f
      r.1 :: linesGo fuel r.2

/-- The lines of a newly opened file. -/
def lines (text : Str) : List (List Str) := linesGo (text.length + 1) ⟨text, false⟩

/-- An entry written by `store_csv_line`, sfw.cpp:15478-15482. -/
def quote (delim : Char) (value : Str) : Str :=
  if '"' ∈ value ∨ delim ∈ value ∨ '\n' ∈ value then '"' :: value.flatMap (fun c => if c = '"' then ['"', '"'] else [c]) ++ ['"'] else value

/-- The text of the line written by `store_csv_line`, sfw.cpp:15472-15491, without the final newline. -/
def csvText (delim : Char) : List Str → Str
  | [] => []
  | [v] => quote delim v
  | v :: w :: vs => quote delim v ++ delim :: csvText delim (w :: vs)

/-- What `store_csv_line` appends to a file; `store_line`, sfw.cpp:15467-15470. -/
def store_csv_line (delim : Char) (values : List Str) : Str := csvText delim values ++ ['\n']

end Verif.Csv
