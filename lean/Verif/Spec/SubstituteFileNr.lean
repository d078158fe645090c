import Verif.Spec.PartialFormatter

/-! File names with a number in them, in the two styles of Python -/

namespace Verif

/-- A piece of a file name: text, or the number of the file in one of two styles -/
inductive NamePiece
  | text (t : List Char)
  | percent (mods : List Char) (conv : Char)
  | brace (spec : List Char)
  deriving DecidableEq

/-- A piece as it is written in the format string -/
def NamePiece.show : NamePiece → List Char
  | .text t => t
  | .percent mods conv => "%(file_nr)".toList ++ mods ++ [conv]
  | .brace spec => showField "file_nr".toList spec

/-- The format string -/
def showName (t : List NamePiece) : List Char := t.flatMap NamePiece.show

/-- A piece with the number, given what it looks like -/
def NamePiece.fill (p : List Char → Char → List Char) (b : List Char → List Char) : NamePiece → List Char
  | .text t => t
  | .percent mods conv => p mods conv
  | .brace spec => b spec

/-- Flags, width and precision, for instance `03` -/
def IsModifier (mods : List Char) : Prop :=
  ∃ flags width prec : List Char, mods = flags ++ width ++ prec ∧ (∀ c ∈ flags, c ∈ "#0- +".toList) ∧ (∀ c ∈ width, c.isDigit = true) ∧ width.head? ≠ some '0' ∧
    (prec = [] ∨ ∃ digits, prec = '.' :: digits ∧ ∀ c ∈ digits, c.isDigit = true)

/-- Text without percent signs and braces -/
def PlainText (t : List Char) : Prop := ∀ c ∈ t, c ≠ '%' ∧ c ≠ '{' ∧ c ≠ '}'

/-- Pieces whose meaning is clear -/
def NamePiece.Plain : NamePiece → Prop
  | .text t => PlainText t
  | .percent mods conv => IsModifier mods ∧ conv.isAlpha = true ∧ conv ∉ "hlL".toList
  | .brace spec => PlainText spec

end Verif
