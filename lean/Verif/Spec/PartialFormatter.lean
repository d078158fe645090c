import Verif.Lib.Np

/-!
What a partial formatter should do, on templates made of text and fields. Nothing here refers to the model.
-/

namespace Verif

variable {V : Type*}

/-- A piece of a template -/
inductive Seg
  | text (t : List Char)
  | field (name spec : List Char)
  deriving DecidableEq

/-- A field as it is written -/
def showField (name spec : List Char) : List Char := ['{'] ++ name ++ (if spec = [] then [] else [':'] ++ spec) ++ ['}']

/-- A piece as it is written in a format string -/
def Seg.show : Seg → List Char
  | .text t => t
  | .field name spec => showField name spec

/-- The format string -/
def showTemplate (t : List Seg) : List Char := t.flatMap Seg.show

def NoBraces (t : List Char) : Prop := ∀ c ∈ t, c ≠ '{' ∧ c ≠ '}'

/-- A plain name: no attribute or item access, not a number -/
def PlainName (n : List Char) : Prop := (∀ c ∈ n, c ≠ '{' ∧ c ≠ '}' ∧ c ≠ '[' ∧ c ≠ ':' ∧ c ≠ '!' ∧ c ≠ '.') ∧ ∃ c ∈ n, c.isDigit = false

/-- Pieces without escaped braces, conversions and nested fields -/
def Seg.Plain : Seg → Prop
  | .text t => NoBraces t
  | .field name spec => PlainName name ∧ NoBraces spec

/-- Replace the fields which have a value, keep the others. -/
def fillSeg (format : V → List Char → Except Err (List Char)) (val : List Char → Option V) : Seg → Except Err (List Char)
  | .text t => .ok t
  | .field name spec => match val name with
    | some v => format v spec
    | none => .ok (showField name spec)

/-- The whole template, failing with the first failure. -/
def fill (format : V → List Char → Except Err (List Char)) (val : List Char → Option V) (t : List Seg) : Except Err (List Char) :=
  match t.mapM (fillSeg format val) with
  | .error e => .error e
  | .ok parts => .ok parts.flatten

end Verif
