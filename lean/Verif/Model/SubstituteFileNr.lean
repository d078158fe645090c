import Verif.Model.PartialFormatter

/-!
`substitute_file_nr` (python/virgo/mpi/parallel_hdf5.py 14-30) with the two kinds of formatting of Python: the operator `%` with the dictionary `{"file_nr" : file_nr}`, and `str.format`, which
accepts the same strings as `string.Formatter`.
-/

namespace Verif

/-- What the next conversion without a key of the operator `%` formats: the dictionary, the number, or nothing is left -/
inductive PercentArg
  | dict
  | number
  | used
  deriving DecidableEq

/-- Formatting of one value, which does not depend on this code: of the number, or of the dictionary, given flags, width and precision as written, and the type of the conversion -/
structure PercentOps where
  number : List Char → Char → Except Err (List Char)
  dict : List Char → Char → Except Err (List Char)

/-- A key in parentheses, after the first parenthesis, and the rest (`unicode_format_arg_parse` of CPython). `depth` is the number of open parentheses. -/
def percentKey : Nat → List Char → List Char → Except Err (List Char × List Char)
  | _, _, [] => .error .valueError
  | depth, acc, c :: rest =>
    if c = ')' then (if depth ≤ 1 then .ok (acc, rest) else percentKey (depth - 1) (acc ++ [c]) rest)
    else if c = '(' then percentKey (depth + 1) (acc ++ [c]) rest
    else percentKey depth (acc ++ [c]) rest

def isFlag (c : Char) : Bool := c == '#' || c == '0' || c == '-' || c == ' ' || c == '+'

/-- Precision, if there is one, and the rest -/
def percentPrec (s : List Char) : Except Err (List Char × List Char) :=
  if s.head? = some '.' then
    if s.tail.head? = some '*' then .error .typeError else .ok ('.' :: s.tail.takeWhile Char.isDigit, s.tail.dropWhile Char.isDigit)
  else .ok ([], s)

/-- What follows a length modifier -/
def skipLength (s : List Char) : List Char := if s.head? = some 'h' ∨ s.head? = some 'l' ∨ s.head? = some 'L' then s.tail else s

/-- Flags, width, precision and length modifier: the text of the first three, the type of the conversion, and the rest. An asterisk always fails, since there is only one value. -/
def percentMods (s : List Char) : Except Err (List Char × Char × List Char) :=
  let flags := s.takeWhile isFlag
  let s := s.dropWhile isFlag
  if s.head? = some '*' then .error .typeError
  else
    match percentPrec (s.dropWhile Char.isDigit) with
    | .error e => .error e
    | .ok (prec, rest) =>
      match skipLength rest with
      | [] => .error .valueError
      | c :: rest => .ok (flags ++ s.takeWhile Char.isDigit ++ prec, c, rest)

/-- Formatting of what is left for conversions -/
def PercentOps.format (ops : PercentOps) : PercentArg → List Char → Char → Except Err (List Char)
  | .dict => ops.dict
  | .number => ops.number
  | .used => fun _ _ => .error .typeError

/-- `format_string % {"file_nr" : file_nr}`, from a position in the string. The first argument bounds the number of passes. -/
def percentLoop (ops : PercentOps) : Nat → PercentArg → List Char → Except Err (List Char)
  | 0, _, _ => .ok []
  | _ + 1, _, [] => .ok []
  | fuel + 1, arg, c :: rest =>
    if c ≠ '%' then
      match percentLoop ops fuel arg rest with
      | .error e => .error e
      | .ok out => .ok (c :: out)
    else
      let key : Except Err (PercentArg × List Char) :=
        if rest.head? = some '(' then
          match percentKey 1 [] rest.tail with
          | .error e => .error e
          | .ok (key, rest) => if key = "file_nr".toList then .ok (.number, rest) else .error .keyError
        else .ok (arg, rest)
      match key with
      | .error e => .error e
      | .ok (arg, rest) =>
        match percentMods rest with
        | .error e => .error e
        | .ok (mods, conv, rest) =>
          if conv = '%' then
            match percentLoop ops fuel arg rest with
            | .error e => .error e
            | .ok out => .ok ('%' :: out)
          else
            match ops.format arg mods conv with
            | .error e => .error e
            | .ok text =>
              match percentLoop ops fuel .used rest with
              | .error e => .error e
              | .ok out => .ok (text ++ out)

/-- `format_string % {"file_nr" : file_nr}` (20) -/
def percentFormat (ops : PercentOps) (format_string : List Char) : Except Err (List Char) := percentLoop ops (format_string.length + 1) .dict format_string

/-- `format_string.format(file_nr=file_nr)` (21) -/
def strFormat {V : Type*} (ops : FormatOps V) (file_nr : V) (format_string : List Char) : Except Err (List Char) :=
  vformat ops false (fun key => if key = "file_nr".toList then some (some file_nr) else none) 3 format_string

/-- `substitute_file_nr(format_string, file_nr)` (14-30); a `RuntimeError` is `.other`. -/
def substituteFileNr {V : Type*} (pops : PercentOps) (ops : FormatOps V) (file_nr : V) (format_string : List Char) : Except Err (List Char) :=
  match percentFormat pops format_string with
  | .error e => .error e
  | .ok str1 =>
    match strFormat ops file_nr format_string with
    | .error e => .error e
    | .ok str2 =>
      if str1 ≠ format_string ∧ str2 ≠ format_string then .error .other
      else if str1 ≠ format_string then .ok str1
      else if str2 ≠ format_string then .ok str2
      else if str1 = str2 then .ok str1 else .error .assertion

end Verif
