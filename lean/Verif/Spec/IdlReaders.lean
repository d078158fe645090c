import Verif.Spec.FortranReaders
import Verif.Spec.FormatsPlain
import Verif.Model.IdlReaders

/-!
Files which are read by the programs in IDL, and the variables which the programs should have. Only the types of the results are taken from the model.
-/

namespace Verif.IdlReaders

open Files FortranReaders

/-- No blanks or tabs -/
def Compact (s : Name) : Prop := ∀ c ∈ s, c ≠ ' ' ∧ c ≠ '\t'

/-- A file which begins with this layout -/
def Starts (fs : ByteFS) (name : Name) (big : Bool) (C : Content) (L : Layout) : Prop := ∃ rest, fs name = some (L.bytes big C ++ rest)

/-- The value of a scalar in the file -/
def intIn (C : Content) (name : String) : Int := int32Value ((C name.toList).headD [])

/-- The variables for a group_tab file and a sub_tab file -/
def subHalosOf (Cg C : Content) : SubHalos :=
  let v := fun name : String => C name.toList
  { groupLen := Cg "GroupLen".toList, ngroups := intIn C "Ngroups", nids := intIn C "Nids", totNgroups := intIn C "TotNgroups", nfiles := intIn C "NFiles", nsubs := intIn C "Nsubhalos",
    nsubPerHalo := v "NsubPerHalo", firstSubOfHalo := v "FirstSubOfHalo", subLen := v "SubLen", subOffset := v "SubOffset", subParentHalo := v "SubParentHalo",
    haloMMean200 := v "Halo_M_Mean200", haloRMean200 := v "Halo_R_Mean200", haloMCrit200 := v "Halo_M_Crit200", haloRCrit200 := v "Halo_R_Crit200",
    haloMTopHat200 := v "Halo_M_TopHat200", haloRTopHat200 := v "Halo_R_TopHat200", subPos := v "SubPos", subVel := v "SubVel", subVelDisp := v "SubVelDisp", subVmax := v "SubVmax",
    subSpin := v "SubSpin", subMostBoundID := v "SubMostBoundID", subHalfMass := v "SubHalfMass" }

/-- Tree file number `filenr` below the directory `base` -/
def treePath (stem : String) (base : Name) (isnap filenr : Nat) : Name := base ++ "/treedata/".toList ++ stem.toList ++ "_".toList ++ threeDigits isnap ++ ".".toList ++ digitsOf filenr

/-- The variables for a treeaux file -/
def treeAuxOf (C : Content) : TreeAux :=
  let v := fun name : String => C name.toList
  { totNhalos := intIn C "TotHalos", totUniqueIDs := intIn C "Totunique", totTrees := intIn C "Ntrees", totSnaps := intIn C "TotSnaps", countIDSnap := v "CountID_Snap", offsetIDSnap := v "OffsetID_Snap",
    countIDSnapTree := v "CountID_SnapTree", offsetIDSnapTree := v "OffsetID_SnapTree", countIDHalo := v "Nunique", offsetIDHalo := v "OffsetID_Halo", ids := v "IDs", pos := v "Pos" }

/-- The halos of tree number `t` of a file, where tree `u` has `n u` halos -/
def treeOf (C : Content) (n : Nat → Nat) (t : Nat) : List (List Byte) := ((C "HaloList".toList).drop ((List.range t).map n).sum).take (n t)

/-- Members of the structure in tree files, and their names in the program -/
def haloTag (name : String) : String := if name = "VMax" then "Vmax" else if name = "SubhalohalfMass" then "SubhalfMass" else name

/-- File with planes `first` to `first + slabs - 1` of the potential on a grid with `G` points in each dimension, the last index being the fastest one. The other numbers in the header can have any values. -/
structure PotFile where
  first : Nat
  slabs : Nat
  sizeof : List Byte
  boxsize : List Byte
  asmth : List Byte

def PotFile.bytes (big : Bool) (G : Nat) (phi : Nat → Nat → Nat → List Byte) (p : PotFile) : List Byte :=
  arrayBytes big [leBytes 4 G, p.sizeof, leBytes 4 p.slabs, leBytes 4 p.first, p.boxsize, p.asmth] ++
  (List.range p.slabs).flatMap (fun x => (List.range G).flatMap (fun y => (List.range G).flatMap (fun z => storeItem big true (phi (p.first + x) y z))))

/-- The files together have each plane of the potential once. -/
structure PotSet (G : Nat) (files : List PotFile) : Prop where
  fields : ∀ p ∈ files, p.sizeof.length = 4 ∧ p.boxsize.length = 8 ∧ p.asmth.length = 8
  inside : ∀ p ∈ files, p.first + p.slabs ≤ G
  cover : ∀ x < G, ∃ p ∈ files, p.first ≤ x ∧ x < p.first + p.slabs
  number : (files.map PotFile.slabs).sum = G

end Verif.IdlReaders
