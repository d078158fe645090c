import Verif.Lib.Np

/-!
`PartialFormatter` (python/virgo/util/partial_formatter.py 9-55), together with what it inherits from `string.Formatter` of the Python standard library. Strings are lists of
characters. Only keyword arguments are passed.
-/

namespace Verif

variable {V : Type*}

/-- Operations on values which do not depend on this code: `format(value, spec)`, `str`/`repr`/`ascii` of a value or of a `FormatKey` with the given key, and attribute or item access
with the rest of a field name. -/
structure FormatOps (V : Type*) where
  format : V → List Char → Except Err (List Char)
  convert : Char → V → V
  convertKey : Char → List Char → V
  lookup : V → List Char → Except Err V

/-- Literal text up to the next field, the rest of the string, and whether a field follows (`MarkupIterator_next` of CPython). A doubled brace ends the literal text, which includes one of them. -/
def readLiteral : List Char → List Char → Except Err (List Char × List Char × Bool)
  | acc, [] => .ok (acc, [], false)
  | acc, c :: rest =>
    if c = '{' then
      match rest with
      | [] => .error .valueError
      | d :: rest' => if d = '{' then .ok (acc ++ ['{'], rest', false) else .ok (acc, rest, true)
    else if c = '}' then
      match rest with
      | [] => .error .valueError
      | d :: rest' => if d = '}' then .ok (acc ++ ['}'], rest', false) else .error .valueError
    else readLiteral (acc ++ [c]) rest

/-- Field name, the character which ends it, and the rest of the string (`parse_field` of CPython). `inBrackets` is true between `[` and `]`. -/
def readName : Bool → List Char → List Char → Except Err (List Char × Char × List Char)
  | _, _, [] => .error .valueError
  | inBrackets, acc, c :: rest =>
    if inBrackets then readName (c != ']') (acc ++ [c]) rest
    else if c = '{' then .error .valueError
    else if c = '}' ∨ c = ':' ∨ c = '!' then .ok (acc, c, rest)
    else readName (c = '[') (acc ++ [c]) rest

/-- Format specification up to the brace closing the field, and the rest. -/
def readSpec : Nat → List Char → List Char → Except Err (List Char × List Char)
  | _, _, [] => .error .valueError
  | count, acc, c :: rest =>
    if c = '{' then readSpec (count + 1) (acc ++ [c]) rest
    else if c = '}' then
      if count ≤ 1 then .ok (acc, rest) else readSpec (count - 1) (acc ++ [c]) rest
    else readSpec count (acc ++ [c]) rest

/-- A replacement field -/
structure Field where
  name : List Char
  conversion : Option Char
  spec : List Char
  deriving DecidableEq

/-- A field after its opening brace (`parse_field` of CPython). -/
def readField (s : List Char) : Except Err (Field × List Char) :=
  match readName false [] s with
  | .error e => .error e
  | .ok (name, c, rest) =>
    if c = '}' then .ok (⟨name, none, []⟩, rest)
    else if c = ':' then
      match readSpec 1 [] rest with
      | .error e => .error e
      | .ok (spec, rest) => .ok (⟨name, none, spec⟩, rest)
    else
      match rest with
      | [] => .error .valueError
      | [_] => .error .valueError
      | conv :: d :: rest =>
        if d = '}' then .ok (⟨name, some conv, []⟩, rest)
        else if d = ':' then
          match readSpec 1 [] rest with
          | .error e => .error e
          | .ok (spec, rest) => .ok (⟨name, some conv, spec⟩, rest)
        else .error .valueError

/-- A value, or the `FormatKey` (5-7) of a field which is to be kept -/
inductive FormatValue (V : Type*)
  | value (v : V)
  | key (k : List Char)

/-- `get_value(key, args, kwargs)` (34-46) with `args = ()`. `kwargs key` is `none` for a missing key and `some none` for one which is `None`. -/
def getValue (ignore_missing : Bool) (kwargs : List Char → Option (Option V)) (key : List Char) : Except Err (FormatValue V) :=
  if key.all Char.isDigit then .error .indexError
  else if (kwargs key).isNone ∧ ignore_missing then .ok (.key key)
  else match kwargs key with
    | some none => .ok (.key key)
    | some (some v) => .ok (.value v)
    | none => .error .keyError

/-- `string.Formatter.get_field`: the part of the name before the first `.` or `[` is the key -/
def getField (ops : FormatOps V) (ignore_missing : Bool) (kwargs : List Char → Option (Option V)) (name : List Char) : Except Err (FormatValue V) :=
  let first := name.takeWhile (fun c => c != '.' && c != '[')
  let rest := name.dropWhile (fun c => c != '.' && c != '[')
  match getValue ignore_missing kwargs first with
  | .error e => .error e
  | .ok v =>
    match rest with
    | [] => .ok v
    | c :: _ =>
      match v with
      | .value v => (match ops.lookup v rest with
        | .error e => .error e
        | .ok v => .ok (.value v))
      | .key _ => .error (if c = '.' then .attributeError else .typeError)

/-- `string.Formatter.convert_field` -/
def convertField (ops : FormatOps V) (conversion : Option Char) (v : FormatValue V) : Except Err (FormatValue V) :=
  match conversion with
  | none => .ok v
  | some c =>
    if c = 's' ∨ c = 'r' ∨ c = 'a' then
      match v with
      | .value v => .ok (.value (ops.convert c v))
      | .key k => .ok (.value (ops.convertKey c k))
    else .error .valueError

/-- `format_field(value, format_spec)` (48-55) -/
def formatField (ops : FormatOps V) (v : FormatValue V) (format_spec : List Char) : Except Err (List Char) :=
  match v with
  | .key k =>
    let format_spec := if format_spec.length > 0 then ':' :: format_spec else format_spec
    .ok ('{' :: k ++ format_spec ++ ['}'])
  | .value v => ops.format v format_spec

/-- The loop of `string.Formatter._vformat`; `formatSpec` formats the format specification. Each pass uses at least one character, so that `fuel` is at least the length of the string. -/
def vformatLoop (ops : FormatOps V) (ignore_missing : Bool) (kwargs : List Char → Option (Option V)) (formatSpec : List Char → Except Err (List Char)) :
    Nat → List Char → Except Err (List Char)
  | 0, _ => .ok []
  | fuel + 1, s =>
    match readLiteral [] s with
    | .error e => .error e
    | .ok (literal, rest, false) =>
      if rest = [] then .ok literal
      else match vformatLoop ops ignore_missing kwargs formatSpec fuel rest with
        | .error e => .error e
        | .ok out => .ok (literal ++ out)
    | .ok (literal, rest, true) =>
      match readField rest with
      | .error e => .error e
      | .ok (field, rest) =>
        match getField ops ignore_missing kwargs field.name with
        | .error e => .error e
        | .ok obj =>
          match convertField ops field.conversion obj with
          | .error e => .error e
          | .ok obj =>
            match formatSpec field.spec with
            | .error e => .error e
            | .ok spec =>
              match formatField ops obj spec with
              | .error e => .error e
              | .ok text =>
                match vformatLoop ops ignore_missing kwargs formatSpec fuel rest with
                | .error e => .error e
                | .ok out => .ok (literal ++ text ++ out)

/-- `string.Formatter._vformat` where `depth` is `recursion_depth + 1` -/
def vformat (ops : FormatOps V) (ignore_missing : Bool) (kwargs : List Char → Option (Option V)) : Nat → List Char → Except Err (List Char)
  | 0, _ => .error .valueError
  | depth + 1, s => vformatLoop ops ignore_missing kwargs (vformat ops ignore_missing kwargs depth) (s.length + 1) s

/-- `PartialFormatter(ignore_missing=ignore_missing).format(s, **kwargs)` -/
def partialFormat (ops : FormatOps V) (ignore_missing : Bool) (kwargs : List Char → Option (Option V)) (s : List Char) : Except Err (List Char) :=
  vformat ops ignore_missing kwargs 3 s

end Verif
