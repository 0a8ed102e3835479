import Verif.Model.Text

/-! # `stemming` of `MLPPData` (core/data.cpp) -/

namespace Verif.Text

/-- The characters after a suffix, data.cpp:696. -/
def wordEnd (c : Char) : Bool := c == ' ' || c == ',' || c == '-' || c == '.' || c == '!'

/-- `String::erase(p_pos, p_chars)`, platform/sfw.cpp:5673-5675. -/
def erase (s : Str) (pos chars : Nat) : Str := s.take pos ++ substr s ((pos + chars : Nat) : Int) ((s.length : Int) - ((pos + chars : Nat) : Int))

/-- The body of the inner loop, data.cpp:696-698: `suf` is `suffixes[j]`. Behind the last character of a `String` there is a zero. -/
def stemBody (i : Nat) (text suf : Str) : Str :=
  if substr text i suf.length = suf ∧ (text[i + suf.length]?.any wordEnd) = true then erase text i suf.length else text

/-- The inner loop, data.cpp:695-699. -/
def stemAt (suffixes : List Str) (i : Nat) (text : Str) : Str := suffixes.foldl (stemBody i) text

/-- The outer loop, data.cpp:694-700, from index `i`. The text never grows; `n` is an upper bound for the number of turns that remain. -/
def stemGo (suffixes : List Str) : Nat → Nat → Str → Str
  | 0, _, text => text
  | n + 1, i, text => if i < text.length then stemGo suffixes n (i + 1) (stemAt suffixes i text) else text

/-- `stemming(text)`, data.cpp:688-704. -/
def stemming (suffixes : List Str) (text : Str) : Str :=
  let text := text ++ List.replicate 4 ' '
  stemGo suffixes text.length 0 text

/-- `load_default_suffixes()`, data.cpp:1077-1080. -/
def default_suffixes : List Str :=
  ["eer", "er", "ion", "ity", "ment", "ness", "or", "sion", "ship", "th", "able", "ible", "al", "ant", "ary", "ful", "ic", "ious", "ous", "ive", "less", "y", "ed", "en",
    "ing", "ize", "ise", "ly", "ward", "wise"].map String.toList

end Verif.Text
