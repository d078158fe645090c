import Verif.Model.FortranReaders
import Verif.Spec.EagleFilename
import Verif.Spec.ReadParticles

/-! Names and contents of the files read by the Fortran programs, described independently of them. -/

namespace Verif.FortranReaders

/-- A number from 0 to 99 with two digits -/
def twoDigits (n : Nat) : Name := if n < 10 then '0' :: digitsOf n else digitsOf n

/-- The four kinds of files of groups, and snapshots -/
inductive Kind
  | snapshot (basename : Name)
  | groupTab
  | groupIds
  | subTab
  | subIds

/-- The directory of a kind of files of one output of the simulation -/
def Kind.dir : Kind → String
  | .snapshot _ => "snapdir"
  | .groupTab => "snapdir"
  | .groupIds => "snapdir"
  | .subTab => "postproc"
  | .subIds => "postproc"

/-- Beginning of the names of the files -/
def Kind.stem : Kind → Name
  | .snapshot b => b
  | .groupTab => "group_tab".toList
  | .groupIds => "group_ids".toList
  | .subTab => "sub_tab".toList
  | .subIds => "sub_ids".toList

/-- The directory, and the beginning of the names of the files, in the data store in Durham -/
def Kind.store : Kind → Name × Name
  | .snapshot _ => ("snapshot".toList, "snap_millennium".toList)
  | .groupTab => ("group_tab".toList, "group_tab".toList)
  | .groupIds => ("group_ids".toList, "group_ids".toList)
  | .subTab => ("sub_tab".toList, "sub_tab".toList)
  | .subIds => ("sub_ids".toList, "sub_ids".toList)

/-- File `ifile` of output `isnap` below the directory `base` -/
def ownPath (k : Kind) (base : Name) (isnap ifile : Nat) : Name :=
  base ++ "/".toList ++ k.dir.toList ++ "_".toList ++ threeDigits isnap ++ "/".toList ++ k.stem ++ "_".toList ++ threeDigits isnap ++ ".".toList ++ digitsOf ifile

/-- File `ifile` of output `isnap` in the data store, where the files are spread over 14 disks -/
def storePath (k : Kind) (isnap ifile : Nat) : Name :=
  "/data/milli".toList ++ twoDigits ((ifile + 3 * (63 - isnap)) % 14) ++ "/d".toList ++ twoDigits isnap ++ "/".toList ++ k.store.1 ++ "/".toList ++ k.store.2 ++ "_".toList ++ threeDigits isnap ++ ".".toList ++ digitsOf ifile

/-- The last character is not a blank. -/
def NoBlank (s : Name) : Prop := s.getLast? ≠ some ' '

/-- The file which is meant by the arguments `basedir`, `isnap` and `ifile`, where `basedir` may be followed by blanks -/
inductive Located (k : Kind) (basedir : Name) (isnap ifile : Nat) : Name → Prop
  | own (base : Name) (blanks : Nat) (h : basedir = base ++ List.replicate blanks ' ') (hb : NoBlank base) (hm : base ≠ "MILLENNIUM".toList) (hs : isnap < 1000) (hf : ifile < 1000)
      (hl : (ownPath k base isnap ifile).length ≤ 256) : Located k basedir isnap ifile (ownPath k base isnap ifile)
  | store (blanks : Nat) (h : basedir = "MILLENNIUM".toList ++ List.replicate blanks ' ') (hs : isnap ≤ 63) (hf : ifile < 1000) : Located k basedir isnap ifile (storePath k isnap ifile)

/-- Bytes of an array in a file -/
def arrayBytes (big : Bool) (vals : List (List Byte)) : List Byte := vals.flatMap (storeItem big true)

/-- An array of `n` elements of `w` bytes -/
def IsArray (w n : Nat) (vals : List (List Byte)) : Prop := vals.length = n ∧ ∀ v ∈ vals, v.length = w

/-- A file begins with these arrays of `w` bytes each. -/
def BeginsWith (big : Bool) (file : List Byte) (arrays : List (List (List Byte))) : Prop := ∃ rest, file = arrays.flatMap (arrayBytes big) ++ rest

/-- The arrays in the second record of a sub_tab file -/
def haloArrays (H : List Halo) (S : List Subhalo) : List (List (List Byte)) :=
  [H.map Halo.nsubgroups, H.map Halo.firstsubgroup, S.map Subhalo.len, S.map Subhalo.offset, S.map Subhalo.parent, H.map Halo.mmean200, H.map Halo.rmean200, H.map Halo.mcrit200,
    H.map Halo.rcrit200, H.map Halo.mtophat200, H.map Halo.rtophat200, S.flatMap Subhalo.pos, S.flatMap Subhalo.vel, S.map Subhalo.veldisp, S.map Subhalo.vmax, S.flatMap Subhalo.spin,
    S.map Subhalo.mostboundid, S.map Subhalo.halfmass]

/-- Their sizes -/
def haloItems (ng ns : Nat) : List (Nat × Nat) := [(4, ng), (4, ng), (4, ns), (4, ns), (4, ns), (4, ng), (4, ng), (4, ng), (4, ng), (4, ng), (4, ng), (4, 3 * ns), (4, 3 * ns),
      (4, ns), (4, ns), (4, 3 * ns), (8, ns), (4, ns)]

/-- Halo number `i` of a sub_tab file -/
def haloAt (C : Content) (i : Nat) : Halo :=
  let e := fun name : String => (C name.toList).getD i []
  { mmean200 := e "Halo_M_Mean200", rmean200 := e "Halo_R_Mean200", mcrit200 := e "Halo_M_Crit200", rcrit200 := e "Halo_R_Crit200", mtophat200 := e "Halo_M_TopHat200",
    rtophat200 := e "Halo_R_TopHat200", nsubgroups := e "NsubPerHalo", firstsubgroup := e "FirstSubOfHalo" }

/-- Subhalo number `i` of a sub_tab file -/
def subhaloAt (C : Content) (i : Nat) : Subhalo :=
  let e := fun name : String => (C name.toList).getD i []
  let v := fun name : String => ((C name.toList).drop (3 * i)).take 3
  { pos := v "SubPos", vel := v "SubVel", spin := v "SubSpin", veldisp := e "SubVelDisp", vmax := e "SubVmax", mostboundid := e "SubMostBoundID", halfmass := e "SubHalfMass",
    len := e "SubLen", offset := e "SubOffset", parent := e "SubParentHalo" }

/-- The header of a snapshot -/
def headerOf (C : Content) : SnapHeader :=
  let v := fun name : String => C ("Header/".toList ++ name.toList)
  let s := fun name : String => (v name).headD []
  { npart := v "NumPart_ThisFile", mass := v "MassTable", time := s "Time", redshift := s "Redshift", flag_sfr := s "Flag_Sfr", flag_feedback := s "Flag_Feedback", nparttotal := v "NumPart_Total",
    flag_cooling := s "Flag_Cooling", numfiles := s "NumFilesPerSnapshot", boxsize := s "BoxSize", omega0 := s "Omega0", omegalambda := s "OmegaLambda", hubbleparam := s "HubbleParam",
    flag_stellarage := s "Flag_StellarAge", flag_metals := s "Flag_Metals", hashtabsize := s "HashTabSize" }

end Verif.FortranReaders
