import Verif.Spec.ReadRegion
import Verif.Model.GroupLib

/-! Group tables of the Millennium simulation, and what is known about their groups -/

namespace Verif.GroupLib

open ReadParticles ReadRegion

/-- Contents of `nfile` group tables: `ng f` groups are in file `f` and all files have histograms of `minlen` numbers. -/
structure GroupTabs (Cs : Nat → Content) (ng : Nat → Nat) (minlen nfile : Nat) : Prop where
  nonempty : 0 < nfile
  file : ∀ f < nfile, (Files.lgadget2GroupTab (ng f) minlen).Fits (Cs f)
  ngroups : ∀ f < nfile, scalarInt (Cs f) "Ngroups".toList = ng f
  total : ∀ f < nfile, scalarInt (Cs f) "TotNgroups".toList = pre ng nfile
  ntask : ∀ f < nfile, scalarInt (Cs f) "NTask".toList = nfile
  minlen : ∀ f < nfile, scalarInt (Cs f) "GroupMinLen".toList = minlen

/-- Name of a file: three digits at least for the snapshot -/
def groupFile (stem : Name) (dir : Name) (num f : Nat) : Name := dir ++ "/".toList ++ stem ++ "_".toList ++ decimal3 num ++ ".".toList ++ decimal f

/-- The tables are in the files, in the byte order of the machine. -/
def TabsStored (sys : Bool) (fs : ByteFS) (dir : Name) (num : Nat) (Cs : Nat → Content) (ng : Nat → Nat) (minlen nfile : Nat) : Prop :=
  ∀ f < nfile, (groupFile "group_tab".toList dir num f).length ≤ 999 ∧
    ∃ rest, fs (groupFile "group_tab".toList dir num f) = some ((Files.lgadget2GroupTab (ng f) minlen).bytes (!sys) (Cs f) ++ rest)

/-- All groups: number of particles, file and number in the file -/
def allGroups (Cs : Nat → Content) (ng : Nat → Nat) (nfile : Nat) : List CatData :=
  (List.range nfile).flatMap fun f => (List.range (ng f)).map fun i : Nat => ⟨int32Value ((Cs f "GroupLen".toList).getD i []), f, i⟩

/-- What `qsort` of C makes of an array -/
def QSorted {α : Type} (compare : α → α → Int) (before after : List α) : Prop := after.Perm before ∧ after.Pairwise (fun a b => compare a b ≤ 0)

/-- A snapshot whose headers give the numbers of files and cells; `Snapshot` says what its tables of cells contain. -/
structure HashedSnapshot (Cs : Nat → Content) (n cells : Nat → Nat) (start : Nat → Nat → Nat) (nfile : Nat) : Prop extends Snapshot Cs n cells start nfile where
  nonempty : 0 < nfile
  numFiles : ∀ f < nfile, scalarInt (Cs f) "Header/NumFilesPerSnapshot".toList = nfile
  hashTabSize : ∀ f < nfile, scalarInt (Cs f) "Header/HashTabSize".toList = pre cells nfile

/-- There are cells in file `f` or on both sides of it. -/
def CellsAround (cells : Nat → Nat) (nfile f : Nat) : Prop := 0 < pre cells (f + 1) ∧ pre cells f < pre cells nfile

/-- The snapshot is in the files, in the byte order of the machine. -/
def SnapStored (sys : Bool) (fs : ByteFS) (dir base : Name) (num : Nat) (Cs : Nat → Content) (n cells : Nat → Nat) (nfile : Nat) : Prop :=
  ∀ f < nfile, (groupFile base dir num f).length ≤ 999 ∧
    ∃ rest, fs (groupFile base dir num f) = some (snapshotBytes (Cs f) (n f) (cells f) (!sys) rest)

/-- The tables of all cells and of all files -/
def wholeTable (n cells : Nat → Nat) (start : Nat → Nat → Nat) (nfile : Nat) : HashTab where
  hashtable := (List.range nfile).flatMap fun f => (List.range (cells f)).map fun j => (start f j : Int)
  filetable := (List.range nfile).flatMap fun f => List.replicate (cells f) (f : Int)
  lastcell := (List.range nfile).map fun f => (pre cells f : Int) + cells f - 1
  ninfile := (List.range nfile).map fun f => (n f : Int)

/-- The particles of each cell of the snapshot -/
def allCells (Cs : Nat → Content) (n cells : Nat → Nat) (start : Nat → Nat → Nat) (nfile : Nat) : List (List Particle) :=
  (List.range nfile).flatMap fun f => (List.range (cells f)).map fun j => cellParticles Cs n cells start f j

end Verif.GroupLib
