import Verif.Spec.FormatLayouts
import Verif.Model.GroupCatalogue

/-! What a catalogue which is spread over several files contains. -/

namespace Verif

/-- A file of a catalogue: contents, byte order, bytes which follow, and numbers of groups and subhalos in this file -/
structure CatFile where
  content : Content
  big : Bool
  rest : List Byte
  ngroups : Nat
  nsubs : Nat

/-- Number of subhalos or groups -/
def CatFile.count (sub : Bool) (c : CatFile) : Nat := if sub then c.nsubs else c.ngroups

/-- `name` is an array with an entry of shape `dims` for each subhalo or each group, in files with layout `L ngroups nsubs`; seen from the layout of a file with one of them and none of the other. -/
def IsArray (L : Nat → Nat → Layout) (sub : Bool) (name : Name) (width : Nat) (dims : List Nat) : Prop :=
  ∃ sec ∈ L (if sub then 0 else 1) (if sub then 1 else 0), (⟨name, width, 1 :: dims, true, none⟩ : Row) ∈ sec.rows

/-- Name of a file: three digits at least for the snapshot -/
def catalogueFile (stem : String) (basedir : Name) (isnap i : Nat) : Name :=
  basedir ++ "/groups_".toList ++ decimal3 isnap ++ "/".toList ++ stem.toList ++ decimal3 isnap ++ ".".toList ++ decimal i

/-- The files of the catalogue have been stored. -/
def Stored (fs : ByteFS) (L : Nat → Nat → Layout) (stem : String) (basedir : Name) (isnap : Nat) (files : List CatFile) : Prop :=
  ∀ i c, files[i]? = some c → fs (catalogueFile stem basedir isnap i) = some ((L c.ngroups c.nsubs).bytes c.big c.content ++ c.rest)

/-- The array has an entry for each subhalo or each group of the files, one file after the other. -/
structure IsCatalogue (files : List CatFile) (sub : Bool) (name : Name) (width : Nat) (dims : List Nat) (a : TypedArray Nat (List (List Byte))) : Prop where
  dtype : a.dtype = width
  rowShape : a.dims = dims
  number : a.rows.length = (files.map (CatFile.count sub)).sum
  rowSize : ∀ r ∈ a.rows, r.length = dims.prod
  values : a.rows.flatten = files.flatMap (fun c => if c.count sub = 0 then [] else c.content name)

end Verif
