import Verif.Lib.Dist
import Verif.Lib.Np
import Verif.Model.Ranges
import Verif.Model.ReadBinary

/-!
Reading groups from snapshots in group order (python/virgo/formats/subfind_pgadget3.py `GroupOrderedSnapshot` 415-568, subfind_gadget4.py `GroupOrderedSnapshot` 154-343).

A snapshot file which has been opened is given by the numbers of particles in its header and by its datasets. Offsets are integers without overflow (the code has `int32` for `SubOffset`).
-/

namespace Verif

/-- A snapshot file: `NumPart_ThisFile` and the rows of `PartType<i>/<name>` -/
structure SnapData (α : Type*) where
  npart : List Int
  data : Nat → Name → Option (List α)

/-- `dict` from names of datasets to the arrays read so far -/
abbrev Chunks (α : Type*) := List (Name × List (List α))

/-- `snap["PartType%d/%s" % (itype, dataset)][first:last+1,...]` for `first` not negative -/
def SnapData.rows {α : Type*} (snap : SnapData α) (itype : Nat) (name : Name) (first last : Int) : Except Err (List α) :=
  match snap.data itype name with
  | none => .error .keyError
  | some l => .ok (slice l first.toNat (last + 1 - first).toNat)

/-- Particles to read from a file with `n` particles (subfind_pgadget3.py 512-523, subfind_gadget4.py 286-297), if there are any -/
def rowsToRead (n first_in_snap last_in_snap first_particle last_particle : Int) : Option (Int × Int) :=
  if last_in_snap ≥ first_in_snap then
    let first_to_read := first_particle - first_in_snap
    let last_to_read := last_particle - first_in_snap
    let first_to_read := if first_to_read < 0 then 0 else first_to_read
    let last_to_read := if last_to_read ≥ n then n - 1 else last_to_read
    if last_to_read ≥ first_to_read ∧ n > 0 then some (first_to_read, last_to_read) else none
  else none

/-- The final `np.concatenate` for each dataset: without arrays it raises `ValueError`. -/
def concatChunks {α : Type*} : Chunks α → Except Err (List (Name × List α))
  | [] => .ok []
  | (name, chunks) :: rest =>
    if chunks = [] then .error .valueError
    else match concatChunks rest with
      | .error e => .error e
      | .ok out => .ok ((name, chunks.flatten) :: out)

/-! ### P-Gadget3 -/

/-- `self.npart_file` of a new object (460) -/
def npartFresh (num : Nat) : List Int := List.replicate num (-1)

/-- The loop over datasets (subfind_pgadget3.py 530-531) -/
def appendRows {α : Type*} (snap : SnapData α) (first last : Int) : List Name → Chunks α → Except Err (Chunks α)
  | [], result => .ok result
  | name :: rest, result =>
    match snap.rows 1 name first last with
    | .error e => .error e
    | .ok chunk => match dget result name with
      | none => .error .keyError
      | some l => appendRows snap first last rest (dset result name (l ++ [chunk]))

/-- `self.npart_file[ifile]` after (504-506) -/
def cacheNpart {α : Type*} (files : Nat → SnapData α) (cache : List Int) (ifile : Nat) : List Int :=
  if cache.getD ifile 0 = -1 then cache.set ifile ((files ifile).npart.getD 1 0) else cache

/-- Reading from one file (512-531) -/
def rangeRead {α : Type*} (snap : SnapData α) (datasets : List Name) (n first_in_snap last_in_snap first_particle last_particle : Int) (result : Chunks α) : Except Err (Chunks α) :=
  match rowsToRead n first_in_snap last_in_snap first_particle last_particle with
  | none => .ok result
  | some (first_to_read, last_to_read) => appendRows snap first_to_read last_to_read datasets result

/-- The loop over files (499-538): the new `npart_file`, which is kept if an exception is raised, and the arrays -/
def rangeLoop {α : Type*} (files : Nat → SnapData α) (datasets : List Name) (first_particle last_particle : Int) : List Nat → List Int → Int → Chunks α → List Int × Except Err (Chunks α)
  | [], cache, _, result => (cache, .ok result)
  | ifile :: rest, cache, first_in_snap, result =>
    let cache := cacheNpart files cache ifile
    let n := cache.getD ifile 0
    let last_in_snap := first_in_snap + n - 1
    match rangeRead (files ifile) datasets n first_in_snap last_in_snap first_particle last_particle result with
    | .error e => (cache, .error e)
    | .ok result =>
      if last_in_snap ≥ last_particle then (cache, .ok result)
      else rangeLoop files datasets first_particle last_particle rest cache (first_in_snap + n) result

/-- `read_particle_range(offset, count, datasets)` (485-544); `num` is `num_snap_files` -/
def readParticleRange {α : Type*} (files : Nat → SnapData α) (num : Nat) (cache : List Int) (offset count : Int) (datasets : List Name) : List Int × Except Err (List (Name × List α)) :=
  -- (491)
  let result : Chunks α := datasets.foldl (fun d name => dset d name []) []
  match rangeLoop files datasets offset (offset + count - 1) (List.range num) cache 0 result with
  | (cache, .error e) => (cache, .error e)
  | (cache, .ok result) => (cache, concatChunks result)

/-- `read_fof_group(grnr, datasets)` (546-556) and `read_subfind_group` (558-568), for the arrays of offsets and lengths of the catalogue -/
def readGroup {α : Type*} (files : Nat → SnapData α) (num : Nat) (cache : List Int) (groupOffset groupLen : List Int) (grnr : Int) (datasets : List Name) : List Int × Except Err (List (Name × List α)) :=
  match pyGet? groupOffset grnr with
  | none => (cache, .error .indexError)
  | some offset => match pyGet? groupLen grnr with
    | none => (cache, .error .indexError)
    | some count => readParticleRange files num cache offset count datasets

/-! ### Gadget-4 -/

/-- A `fof_subhalo_tab` file: number of files, lengths by type of its groups, first and number of subhalos of its groups, lengths by type of its subhalos -/
structure SubTabData where
  nfiles : Int
  foflentype : List (List Int)
  nsubs : List Int
  firstsub : List Int
  sublentype : List (List Int)

/-- What the constructor keeps -/
structure GroupTable where
  foflentype : List (List Int)
  nsubs : List Int
  firstsub : List Int
  sublentype : List (List Int)
  nfof_file : List Int
  deriving DecidableEq

/-- `np.concatenate` of arrays read from files; a file is left out if it has none (subfind_gadget4.py 191-196, 207-210) -/
def concatFiles {β : Type*} (parts : List (List β)) : Except Err (List β) :=
  if parts.all List.isEmpty then .error .valueError else .ok parts.flatten

/-- The loop over files and the arrays made (174-210, 221), if there is at least one file -/
def openGroupTable (files : Nat → SubTabData) : Except Err GroupTable :=
  let l := (List.range (files 0).nfiles.toNat).map files
  match concatFiles (l.map SubTabData.foflentype) with
  | .error e => .error e
  | .ok foflentype => match concatFiles (l.map SubTabData.nsubs) with
    | .error e => .error e
    | .ok nsubs => match concatFiles (l.map SubTabData.firstsub) with
      | .error e => .error e
      | .ok firstsub => match concatFiles (l.map SubTabData.sublentype) with
        | .error e => .error e
        | .ok sublentype => .ok ⟨foflentype, nsubs, firstsub, sublentype, l.map (fun f => (f.foflentype.length : Int))⟩

/-- Row `i` of `np.cumsum(x, axis=0) - x`, for one column -/
def columnOffset (x : List (List Int)) (itype : Nat) (i : Nat) : Int := ((x.take (i + 1)).map (fun r => r.getD itype 0)).sum - (x.getD i []).getD itype 0

/-- `first_fof_in_file` (221) -/
def firstFofInFile (nfof_file : List Int) (i : Nat) : Int := (nfof_file.take (i + 1)).sum - nfof_file.getD i 0

/-- Names of the arrays (280) -/
def fofDatasets : List Name := ["Coordinates".toList, "Velocities".toList, "ParticleIDs".toList]

/-- One array of one type (283-306) -/
def fofAppend {α : Type*} (snap : SnapData α) (n first_in_snap last_in_snap first_in_fof last_in_fof : Nat → Int) (dataset : Name) (itype : Nat) (result : Nat → Chunks α) : Except Err (Nat → Chunks α) :=
  match rowsToRead (n itype) (first_in_snap itype) (last_in_snap itype) (first_in_fof itype) (last_in_fof itype) with
  | none => .ok result
  | some (first_to_read, last_to_read) =>
    match snap.rows itype dataset first_to_read last_to_read with
    | .error e => .error e
    | .ok chunk => .ok (fun t => if t = itype then dset (result t) dataset ((dget (result t) dataset).getD [] ++ [chunk]) else result t)

/-- The loops over datasets and types (280-306) -/
def fofAppendAll {α : Type*} (snap : SnapData α) (n first_in_snap last_in_snap first_in_fof last_in_fof : Nat → Int) : List (Name × Nat) → (Nat → Chunks α) → Except Err (Nat → Chunks α)
  | [], result => .ok result
  | (dataset, itype) :: rest, result =>
    match fofAppend snap n first_in_snap last_in_snap first_in_fof last_in_fof dataset itype result with
    | .error e => .error e
    | .ok result => fofAppendAll snap n first_in_snap last_in_snap first_in_fof last_in_fof rest result

/-- Arrays and types in the order of the loops -/
def fofPairs : List (Name × Nat) := fofDatasets.flatMap (fun d => (List.range 6).map (fun t => (d, t)))

/-- `self.npart_file` of a new object (218) -/
def npartTypesFresh (num : Nat) : List (List Int) := List.replicate num (List.replicate 6 (-1))

/-- `self.npart_file[ifile,:]` after (272-274) -/
def cacheNpartTypes {α : Type*} (files : Nat → SnapData α) (cache : List (List Int)) (ifile : Nat) : List (List Int) :=
  if (cache.getD ifile []).getD 0 0 = -1 then cache.set ifile (files ifile).npart else cache

/-- The loop over files (267-313) -/
def fofLoop {α : Type*} (files : Nat → SnapData α) (first_in_fof last_in_fof : Nat → Int) : List Nat → List (List Int) → (Nat → Int) → (Nat → Chunks α) → List (List Int) × Except Err (Nat → Chunks α)
  | [], cache, _, result => (cache, .ok result)
  | ifile :: rest, cache, first_in_snap, result =>
    let cache := cacheNpartTypes files cache ifile
    let n := fun t => (cache.getD ifile []).getD t 0
    let last_in_snap := fun t => first_in_snap t + n t
    match fofAppendAll (files ifile) n first_in_snap last_in_snap first_in_fof last_in_fof fofPairs result with
    | .error e => (cache, .error e)
    | .ok result =>
      if (List.range 6).all (fun t => decide (last_in_snap t ≥ last_in_fof t)) then (cache, .ok result)
      else fofLoop files first_in_fof last_in_fof rest cache (fun t => first_in_snap t + n t) result

/-- `SubNr` for `n` particles (324-341) -/
def fofSubNr (table : GroupTable) (ifof itype n : Nat) : Except Err (List Int) :=
  let out := List.replicate n (-1 : Int)
  let nsubs := table.nsubs.getD ifof 0
  if nsubs > 0 then
    let first_sub := table.firstsub.getD ifof 0
    let last_sub := first_sub + nsubs - 1
    let a := sliceBound table.sublentype.length first_sub
    let b := sliceBound table.sublentype.length (last_sub + 1)
    let sublen := (slice table.sublentype a (b - a)).map (fun r => r.getD itype 0)
    match npRepeat (List.range sublen.length) sublen with
    | .error e => .error e
    | .ok subnr =>
      let subnr := subnr.map (fun (k : Nat) => (k : Int) + first_sub)
      if subnr.length ≤ n then .ok (overlay out 0 subnr) else .error .valueError
  else .ok out

/-- The arrays of one type and the subhalo of each particle, which is there if the IDs are -/
structure FofParticles (α : Type*) where
  data : List (Name × List α)
  subnr : Option (List Int)
  deriving DecidableEq

/-- The end, for one type (316-341) -/
def fofFinish {α : Type*} (table : GroupTable) (ifof itype : Nat) (chunks : Chunks α) : Except Err (FofParticles α) :=
  match concatChunks chunks with
  | .error e => .error e
  | .ok data => match dget data "ParticleIDs".toList with
    | none => .ok ⟨data, none⟩
    | some ids => match fofSubNr table ifof itype ids.length with
      | .error e => .error e
      | .ok subnr => .ok ⟨data, some subnr⟩

/-- The loop over types at the end. The code has two loops; the first one does not fail. -/
def fofFinishAll {α : Type*} (table : GroupTable) (ifof : Nat) (result : Nat → Chunks α) : List Nat → Except Err (List (FofParticles α))
  | [] => .ok []
  | t :: rest => match fofFinish table ifof t (result t) with
    | .error e => .error e
    | .ok r => match fofFinishAll table ifof result rest with
      | .error e => .error e
      | .ok out => .ok (r :: out)

/-- `read_fof_group(grnr)` (238-343) for the number of a group in the whole catalogue -/
def readFofGroup {α : Type*} (files : Nat → SnapData α) (num : Nat) (table : GroupTable) (cache : List (List Int)) (ifof : Nat) : List (List Int) × Except Err (List (FofParticles α)) :=
  -- (262)
  if table.foflentype.length ≤ ifof then (cache, .error .indexError)
  else
    let first_in_fof := fun t => columnOffset table.foflentype t ifof
    let last_in_fof := fun t => first_in_fof t + (table.foflentype.getD ifof []).getD t 0 - 1
    match fofLoop files first_in_fof last_in_fof (List.range num) cache (fun _ => 0) (fun _ => []) with
    | (cache, .error e) => (cache, .error e)
    | (cache, .ok result) => (cache, fofFinishAll table ifof result (List.range 6))

/-- `read_fof_group((filenum, fofnum))` (254-255) -/
def readFofGroupInFile {α : Type*} (files : Nat → SnapData α) (num : Nat) (table : GroupTable) (cache : List (List Int)) (filenum fofnum : Nat) : List (List Int) × Except Err (List (FofParticles α)) :=
  if table.nfof_file.length ≤ filenum then (cache, .error .indexError)
  else readFofGroup files num table cache (firstFofInFile table.nfof_file filenum + fofnum).toNat

end Verif
