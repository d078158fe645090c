import Verif.Model.FortranReaders

/-!
Error messages of the Fortran wrapper (fortran/hdf5_wrapper/src/hdf5_wrapper.F90): `write_wrapped_text` and `hdf5_abort`. Characters with positive positions in a string are `1, 2, ...`. The blank which
`write(*,*)` puts at the beginning of a record is left out. Integers do not overflow.
-/

namespace Verif.WrappedText

open FortranReaders

/-- `trim(adjustl(s))` -/
def trimAdjust (s : Name) : Name := trimBlanks (s.dropWhile (· == ' '))

/-- `s(i:j)`, which is empty if `j < i` -/
def substring (s : Name) (i j : Int) : Name := if j < i then [] else (s.drop (i - 1).toNat).take (j - i + 1).toNat

/-- `scan(s, " ", back=.true.)`: position of the last blank, 0 if there is none -/
def scanBack (s : Name) : Nat := s.length - s.reverse.findIdx (· == ' ')

/-- `if(present(indent).and.i.gt.1)nspace = indent` (1047) -/
def lineIndent (indent : Option Nat) (i : Int) (nspace : Nat) : Nat := match indent with
  | some d => if i > 1 then d else nspace
  | none => nspace

/-- The loop of `write_wrapped_text` (1045-1062): the lines which are written from position `i` on. The first number limits the number of lines. -/
def wrapLoop (buf : Name) (n : Int) (indent : Option Nat) : Nat → Int → Nat → Except Err (List Name)
  | 0, _, _ => .error .diverges
  | fuel + 1, i, nspace =>
    if i ≤ ((trimBlanks buf).length : Int) then
      let nspace := lineIndent indent i nspace
      let j := min (i + n - 2 - nspace) buf.length
      let nchar : Int := scanBack (substring buf i j)
      let nchar := if nchar < 1 then min (n - 2 - nspace) ((buf.length : Int) - i) else nchar
      let line := List.replicate nspace ' ' ++ trimAdjust (substring buf i (i + nchar - 1))
      do
        let rest ← wrapLoop buf n indent fuel (i + nchar) nspace
        .ok (line :: rest)
    else .ok []

/-- `write_wrapped_text` (1027-1065). `fuel` is more than the largest number of lines considered. -/
def writeWrappedText (fuel : Nat) (str : Name) (n : Int) (indent : Option Nat) : Except Err (List Name) :=
  wrapLoop (assignChar ((trimBlanks str).length + 1) (trimAdjust str)) n indent fuel 1 0

/-- One of the optional lines of `hdf5_abort` (708-715) -/
def abortLine (fuel : Nat) (label : Name) : Option Name → Except Err (List Name)
  | some s => writeWrappedText fuel (label ++ trimBlanks s) 80 none
  | none => .ok []

/-- What `hdf5_abort` writes before it stops (695-718) -/
def hdf5Abort (fuel : Nat) (message : Name) (name fname : Option Name) : Except Err (List Name) := do
  let m ← writeWrappedText fuel ("***Abort HDF5 : ".toList ++ trimBlanks message) 80 (some 16)
  let a ← abortLine fuel "   identifier : ".toList name
  let b ← abortLine fuel "   file name  : ".toList fname
  .ok ([" ".toList] ++ m ++ [" ".toList] ++ a ++ b ++ [" ".toList])

end Verif.WrappedText
