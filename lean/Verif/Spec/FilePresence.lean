import Verif.Spec.EagleFilename
import Verif.Model.FilePresence

/-! When the files of an output are all there. -/

namespace Verif

/-- A type of output: heading in the summary, names of directory and files, attribute with the number of files -/
structure OutputType where
  key : String
  dir : String
  file : List Char
  attr : String

/-- The first file can be read and gives the number of files, and these are all in the directory. -/
def AllFiles (nfiles : Except Err Int) (listing : Option (List (List Char))) (file : Nat → List Char) : Prop :=
  ∃ n : Nat, nfiles = .ok n ∧ (n = 0 ∨ ∃ l, listing = some l ∧ ∀ i < n, file i ∈ l)

/-- Directory and files of P-Gadget3 -/
def pgadget3Dir (basedir : List Char) (o : OutputType) (isnap : Nat) : List Char := basedir ++ "/".toList ++ o.dir.toList ++ "_".toList ++ threeDigits isnap
def pgadget3File (o : OutputType) (isnap i : Nat) : List Char :=
  o.file ++ "_".toList ++ threeDigits isnap ++ ".".toList ++ digitsOf i ++ (if o.file = "500_dm".toList then ".hdf5".toList else [])

/-- All files of this type are there for this snapshot of a P-Gadget3 run. -/
def Pgadget3Complete (nfilesOf : List Char → List Char → Except Err Int) (listdir : ListDir) (basedir : List Char) (o : OutputType) (isnap : Nat) : Prop :=
  AllFiles (nfilesOf (pgadget3Dir basedir o isnap ++ "/".toList ++ pgadget3File o isnap 0) o.attr.toList) (listdir (pgadget3Dir basedir o isnap)) (pgadget3File o isnap)

/-- Types of files of a P-Gadget3 run -/
def pgadget3Outputs (snapbase : List Char) : List OutputType :=
  [⟨"snapshot", "snapdir", snapbase, "NumFilesPerSnapshot"⟩, ⟨"group_tab", "groups", "group_tab".toList, "NTask"⟩, ⟨"group_ids", "groups", "group_ids".toList, "NTask"⟩,
   ⟨"subhalo_tab", "groups", "subhalo_tab".toList, "NTask"⟩, ⟨"subhalo_ids", "groups", "subhalo_ids".toList, "NTask"⟩]

/-- There is one directory of this type for this snapshot, and all files with the same label are there. -/
def EagleComplete (nfilesOf : List Char → List Char → Except Err Int) (listdir : ListDir) (basedir : List Char) (o : OutputType) (isnap : Nat) : Prop :=
  ∃ dirs z, listdir basedir = some dirs ∧ LooksLikeLabel z ∧ eagleDirFor o.dir isnap z ∈ dirs ∧ (∀ z', LooksLikeLabel z' → eagleDirFor o.dir isnap z' ∈ dirs → z' = z) ∧
    AllFiles (nfilesOf (basedir ++ "/".toList ++ eagleDirFor o.dir isnap z ++ "/".toList ++ eagleFileFor (String.ofList o.file) isnap 0 z) o.attr.toList)
      (listdir (basedir ++ "/".toList ++ eagleDirFor o.dir isnap z)) (fun i => eagleFileFor (String.ofList o.file) isnap i z)

/-- Types of files of an EAGLE run, with `true` for snipshots -/
def eagleOutputs : List (Bool × OutputType) :=
  [(false, ⟨"snap", "snapshot", "snap".toList, "NumFilesPerSnapshot"⟩), (false, ⟨"group_tab", "groups", "group_tab".toList, "NTask"⟩),
   (false, ⟨"eagle_subfind_particles", "particledata", "eagle_subfind_particles".toList, "NumFilesPerSnapshot"⟩), (false, ⟨"eagle_subfind_tab", "groups", "eagle_subfind_tab".toList, "NTask"⟩),
   (true, ⟨"snip", "snipshot", "snip".toList, "NumFilesPerSnapshot"⟩), (true, ⟨"group_snip_tab", "groups_snip", "group_snip_tab".toList, "NTask"⟩),
   (true, ⟨"eagle_subfind_snip_particles", "particledata_snip", "eagle_subfind_snip_particles".toList, "NumFilesPerSnapshot"⟩), (true, ⟨"eagle_subfind_snip_tab", "groups_snip", "eagle_subfind_snip_tab".toList, "NTask"⟩)]

/-- The summary has a line for each type of output for which some snapshots are not complete, with the number of these and the number of all snapshots checked, and no other lines and no
line twice. -/
def IsSummary {ω : Type*} (types : List ω) (key : ω → String) (isnaps : ω → List Nat) (complete : ω → Nat → Prop) (lines : List (List Char × Nat × Nat)) : Prop :=
  (∀ o ∈ types, ∀ m t, ((key o).toList, m, t) ∈ lines ↔ ∃ bad : List Nat, bad.Sublist (isnaps o) ∧ (∀ k ∈ isnaps o, k ∈ bad ↔ ¬complete o k) ∧ m = bad.length ∧ 0 < m ∧ t = (isnaps o).length) ∧
  (∀ line ∈ lines, ∃ o ∈ types, line.1 = (key o).toList) ∧ (lines.map Prod.fst).Nodup

end Verif
