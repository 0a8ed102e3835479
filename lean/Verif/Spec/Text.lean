import Mathlib.Data.List.Basic

/-! # Specification vocabulary for the text functions -/

namespace Verif.Spec

/-- The characters between words. -/
def separators : List Char := [' ', ',', '!', '.', '-']

/-- A word (without separators) and the punctuation mark that follows it, if any. -/
structure Piece where
  word : List Char
  mark : Option Char

/-- The word has no separator in it and the mark is one of `, ! . -`. -/
def Piece.Ok (p : Piece) : Prop := (∀ c ∈ p.word, c ∉ separators) ∧ ∀ c ∈ p.mark, c ∈ separators ∧ c ≠ ' '

/-- The text made of some pieces, with one space between them. -/
def render : List Piece → List Char
  | [] => []
  | [p] => p.word ++ p.mark.toList
  | p :: q :: ps => p.word ++ p.mark.toList ++ ' ' :: render (q :: ps)

/-- The words and marks of some pieces. -/
def tokens (ps : List Piece) : List (List Char) := ps.flatMap fun p => p.word :: p.mark.toList.map ([·])

/-- A list without the repetitions: the first occurrence of every element is kept. -/
def firsts {α : Type} [DecidableEq α] : List α → List α
  | [] => []
  | x :: xs => x :: (firsts xs).filter (· ≠ x)

end Verif.Spec
