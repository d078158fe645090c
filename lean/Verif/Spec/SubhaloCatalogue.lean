import Verif.Spec.FormatLayouts
import Verif.Spec.EagleFilename

/-! Tables of subhaloes of a snapshot on disk, and the lines which should be printed for them -/

namespace Verif.SubhaloCatalogue

/-- A file with the numbers of groups and subhaloes, the contents and the byte order of the file, and what follows at its end -/
structure SubFile where
  ng : Nat
  ns : Nat
  C : Content
  big : Bool
  rest : List Byte

/-- The contents are those of a file with these numbers. -/
structure SubFile.Good (t : SubFile) : Prop where
  groups : scalarInt t.C "Ngroups".toList = t.ng
  subs : scalarInt t.C "Nsubhalos".toList = t.ns
  files : 1 ≤ scalarInt t.C "NFiles".toList ∧ scalarInt t.C "NFiles".toList ≤ 65535
  fits : (Files.lgadget2SubTab 8 t.ng t.ns).Fits t.C

/-- The name of file `k` of snapshot `n` -/
def nameOf (n k : Nat) : Name := "/virgo/data/Millennium/postproc_".toList ++ threeDigits n ++ "/sub_tab_".toList ++ threeDigits n ++ ".".toList ++ digitsOf k

def SubFile.bytes (t : SubFile) : List Byte := (Files.lgadget2SubTab 8 t.ng t.ns).bytes t.big t.C ++ t.rest

/-- An integer as text -/
def intText (v : Int) : List Char := (toString v).toList

/-- The line for subhalo `j` of a file: the parent halo, the number of particles, the position and the velocity with commas between them -/
def SubFile.line (f14 : List Byte → Name) (t : SubFile) (j : Nat) : Name :=
  List.intercalate ", ".toList ([intText (int32Value ((t.C "SubParentHalo".toList).getD j [])), intText (int32Value ((t.C "SubLen".toList).getD j []))] ++
    ((((t.C "SubPos".toList).drop (3 * j)).take 3) ++ (((t.C "SubVel".toList).drop (3 * j)).take 3)).map f14)

/-- The lines for all subhaloes of a file -/
def SubFile.lines (f14 : List Byte → Name) (t : SubFile) : List Name := (List.range t.ns).map (t.line f14)

end Verif.SubhaloCatalogue
