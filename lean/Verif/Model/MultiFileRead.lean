import Verif.Model.MultiFile
import Verif.Model.ReadBinary

/-!
`MultiFile.read` (python/virgo/mpi/parallel_hdf5.py 383-627) with all of its arguments: several datasets, a group, attributes, file numbers of some of the datasets, and results in a list. A file is
represented by the datasets found under a name in the file or in one of its groups. The dicts of the code have the same keys in the same order on all ranks, so that a dict here has for each name the
values of all ranks.
-/

namespace Verif.MultiFileRead

variable {α β τ γ : Type*}

/-- A dataset in a file with its attributes -/
structure Dset (τ α β : Type*) where
  arr : TypedArray τ α
  attrs : List (Name × β)

/-- The datasets in a file and in its groups -/
structure H5 (τ α β : Type*) where
  root : List (Name × Dset τ α β)
  groups : List (Name × List (Name × Dset τ α β))

/-- A NumPy array, with attributes if it is an `AttributeArray` (83-95) -/
structure AArr (τ α β : Type*) where
  arr : TypedArray τ α
  attrs : Option (List (Name × β))
  deriving DecidableEq

/-- An argument which is one string or a sequence of strings -/
inductive NamesArg
  | one (s : Name)
  | many (l : List Name)

/-- What a loop over the argument sees: for a string these are its characters. -/
def NamesArg.iter : NamesArg → List Name
  | .one s => s.map (fun c => [c])
  | .many l => l

/-- `name in arg`: for a string, whether it has the name as a part -/
def NamesArg.contains : NamesArg → Name → Bool
  | .one s, name => decide (name <:+: s)
  | .many l, name => decide (name ∈ l)

/-- The group to read from (408-416, 500-508) -/
def locOf (f : H5 τ α β) (group : Option Name) : Option (List (Name × Dset τ α β)) :=
  match group with
  | none => some f.root
  | some g => dget f.groups g

/-- Data, and attributes if they are read (424-432, 521-529) -/
def readDset (read_attributes : Bool) (d : Dset τ α β) : AArr τ α β := ⟨d.arr, if read_attributes then some d.attrs else none⟩

/-- `{name : [] for name in names}` (398, 402) -/
def emptyDict (names : List Name) : List (Name × List γ) := names.foldl (fun d name => dset d name []) []

/-- `data` and `file_nr` of `_read_independent` before the parts are combined -/
structure Parts (τ α β : Type*) where
  data : List (Name × List (AArr τ α β))
  file_nr : Option (List (Name × List (List Nat)))

/-- One dataset of a file (421-437) -/
def addName (read_attributes : Bool) (file_index : Nat) (loc : List (Name × Dset τ α β)) (st : Parts τ α β) (name : Name) : Parts τ α β :=
  match dget loc name with
  | none => st
  | some d => {
      data := dset st.data name ((dget st.data name).getD [] ++ [readDset read_attributes d])
      file_nr := st.file_nr.map (fun nr => match dget nr name with
        | none => nr
        | some l => dset nr name (l ++ [List.replicate d.arr.rows.length file_index])) }

/-- The loop over files (396-437) -/
def readFiles (files : Nat → H5 τ α β) (all_file_indexes : Nat → Nat) (group : Option Name) (datasets : List Name) (return_file_nr : Option NamesArg) (read_attributes : Bool)
    (first num : Nat) : Parts τ α β :=
  (List.range' first num).foldl (fun st i => match locOf (files i) group with
    | none => st
    | some loc => (st.data.map Prod.fst).foldl (addName read_attributes (all_file_indexes i) loc) st) ⟨emptyDict datasets, return_file_nr.map (fun r => emptyDict r.iter)⟩

/-- The parts of one dataset (440-455): the array, and whether types differ -/
def combineName [DecidableEq τ] (parts : List (AArr τ α β)) : Except Err (Option (AArr τ α β) × Bool) :=
  match concatParts (parts.map AArr.arr) with
  | .error e => .error e
  | .ok a => .ok (a.map (fun a => ⟨a, parts.head?.bind AArr.attrs⟩), typesDiffer (parts.map AArr.arr))

/-- File numbers of one dataset (462-468) -/
def combineNr (l : Parts τ α β) (name : Name) : Option (List Nat) :=
  let parts := (l.file_nr.bind (fun nr => dget nr name)).getD []
  if parts.isEmpty then none else some parts.flatten

/-- A dict with the values of all ranks -/
abbrev RankDict (γ : Type*) := List (Name × List (Option γ))

/-- The datasets one after the other (439-458) -/
def combineAll [DecidableEq τ] (loc : List (Parts τ α β)) : List Name → Except Err (RankDict (AArr τ α β))
  | [] => .ok []
  | name :: names =>
    (loc.mapM (fun l => combineName ((dget l.data name).getD []))).andThen fun vals =>
    if vals.any (fun v => v.2) then .error .other
    else (combineAll loc names).andThen fun rest => .ok ((name, vals.map Prod.fst) :: rest)

/-- `_read_independent` (383-470) on all ranks -/
def readIndependentAll [DecidableEq τ] (P num_files : Nat) (files : Nat → H5 τ α β) (all_file_indexes : Nat → Nat) (group : Option Name) (datasets : List Name)
    (return_file_nr : Option NamesArg) (read_attributes : Bool) : Except Err (RankDict (AArr τ α β) × Option (RankDict (List Nat))) :=
  (allRanks P (fun p => match multiFileLayout num_files P p with
    | .error e => .error e
    | .ok (.independent first num) => .ok (readFiles files all_file_indexes group datasets return_file_nr read_attributes first num)
    | .ok (.collective _ _ _) => .error .attributeError)).andThen fun loc =>
  let rank0 := loc.headD ⟨[], none⟩
  (combineAll loc (rank0.data.map Prod.fst)).andThen fun data =>
  .ok (data, rank0.file_nr.map (fun nr => (nr.map Prod.fst).map (fun name => (name, loc.map (fun l => combineNr l name)))))

/-- One dataset in `_read_collective` (511-534) on one rank -/
def collectiveOne [Inhabited α] (P num_files : Nat) (files : Nat → H5 τ α β) (all_file_indexes : Nat → Nat) (group : Option Name) (read_attributes : Bool) (itemsize : τ → Nat)
    (buffer_size : Nat) (name : Name) (p : Nat) : Except Err (Option (AArr τ α β) × Option (List Nat)) :=
  let found := fun i => (locOf (files i) group).bind (fun loc => dget loc name)
  match multiFileLayout num_files P p with
  | .error e => .error e
  | .ok (.independent _ _) => .error .attributeError
  | .ok (.collective f k n) => match readCollective (fun i => (found i).map Dset.arr) all_file_indexes itemsize buffer_size f k n with
    | .error e => .error e
    | .ok (d, nr) => .ok (d.map (fun a => ⟨a, if read_attributes then (found f).map Dset.attrs else none⟩), nr)

/-- The loop over datasets of `_read_collective` (510-534) -/
def readCollectiveAll [Inhabited α] (P num_files : Nat) (files : Nat → H5 τ α β) (all_file_indexes : Nat → Nat) (group : Option Name) (return_file_nr : Option NamesArg)
    (read_attributes : Bool) (itemsize : τ → Nat) (buffer_size : Nat) :
    List Name → RankDict (AArr τ α β) → Option (RankDict (List Nat)) → Except Err (RankDict (AArr τ α β) × Option (RankDict (List Nat)))
  | [], data, file_nr => .ok (data, file_nr)
  | name :: names, data, file_nr =>
    (allRanks P (collectiveOne P num_files files all_file_indexes group read_attributes itemsize buffer_size name)).andThen fun vals =>
    readCollectiveAll P num_files files all_file_indexes group return_file_nr read_attributes itemsize buffer_size names (dset data name (vals.map Prod.fst))
      (file_nr.map (fun nr => if return_file_nr.any (fun r => r.contains name) then dset nr name (vals.map Prod.snd) else nr))

/-- `replace_none_with_zero_size` for one dataset (577-580): a new array has no attributes. -/
def replaceAll (P : Nat) (vals : List (Option (AArr τ α β))) : Except Err (List (Option (AArr τ α β))) :=
  (allRanks P (replaceNone P (fun p => (vals[p]?.bind id).map AArr.arr))).andThen fun arrs =>
  .ok ((arrs.zip vals).map (fun e => e.1.map (fun a => ⟨a, e.2.bind AArr.attrs⟩)))

/-- `replace_none_with_zero_size` for file numbers (581-583) -/
def replaceNr (P : Nat) (vals : List (Option (List Nat))) : Except Err (List (Option (TypedArray Unit Nat))) :=
  allRanks P (replaceNone P (fun p => (vals[p]?.bind id).map (fun l => ⟨(), [], l⟩)))

/-- Types on all ranks (585-595) -/
def typesOk [DecidableEq τ] (vals : List (Option (AArr τ α β))) : Bool :=
  let dtypes := vals.filterMap (fun a => a.map (fun a => a.arr.dtype))
  dtypes.all (fun t => decide (some t = dtypes.head?))

/-- Attributes for arrays which do not have them (597-610) -/
def shareAttrs (vals : List (Option (AArr τ α β))) : List (Option (AArr τ α β)) :=
  let all := vals.map (fun a => a.bind AArr.attrs)
  vals.map (fun a => a.map (fun a => match a.attrs with
    | some _ => a
    | none => { a with attrs := all.findSome? id }))

/-- A function applied to all values of a dict -/
def mapDict {δ : Type*} (f : List (Option γ) → Except Err (List (Option δ))) : RankDict γ → Except Err (RankDict δ)
  | [] => .ok []
  | (name, vals) :: rest => (f vals).andThen fun v => (mapDict f rest).andThen fun r => .ok ((name, v) :: r)

/-- What is returned on a rank: one array, a dict, or a list -/
inductive Out (γ : Type*)
  | single (v : Option γ)
  | dict (d : List (Name × Option γ))
  | list (l : List (Option γ))
  deriving DecidableEq

/-- `d[name]` -/
def lookup (d : List (Name × Option γ)) (name : Name) : Except Err (Option γ) :=
  match dget d name with
  | none => .error .keyError
  | some v => .ok v

/-- The form in which a dict is returned (612-622) -/
def pick (datasets : NamesArg) (unpack : Bool) (d : List (Name × Option γ)) : Except Err (Out γ) :=
  match datasets with
  | .one s => (lookup d s).andThen fun v => .ok (.single v)
  | .many l => if unpack then (l.mapM (lookup d)).andThen fun v => .ok (.list v) else .ok (.dict d)

/-- The dict of one rank -/
def onRank (d : RankDict γ) (p : Nat) : List (Name × Option γ) := d.map (fun e => (e.1, e.2[p]?.bind id))

/-- File numbers of all datasets (581-583) -/
def replaceNrs (P : Nat) : Option (RankDict (List Nat)) → Except Err (Option (RankDict (TypedArray Unit Nat)))
  | none => .ok none
  | some nr => (mapDict (replaceNr P) nr).andThen fun nr => .ok (some nr)

/-- What is returned on a rank (612-627) -/
def returned (datasets : NamesArg) (unpack : Bool) (data : RankDict (AArr τ α β)) (file_nr : Option (RankDict (TypedArray Unit Nat))) (p : Nat) :
    Except Err (Out (AArr τ α β) × Option (Out (TypedArray Unit Nat))) :=
  (pick datasets unpack (onRank data p)).andThen fun d =>
  match file_nr with
  | none => .ok (d, none)
  | some nr => (pick datasets unpack (onRank nr p)).andThen fun n => .ok (d, some n)

/-- The names of the datasets (558-563) -/
def NamesArg.names : NamesArg → List Name
  | .one s => [s]
  | .many l => l

/-- `dtype.newbyteorder("=")` (570-575) -/
def nativeDict (native : τ → τ) (d : RankDict (AArr τ α β)) : RankDict (AArr τ α β) :=
  d.map (fun e => (e.1, e.2.map (fun a => a.map (fun a => { a with arr := { a.arr with dtype := native a.arr.dtype } }))))

/-- `MultiFile.read(datasets, group, return_file_nr, read_attributes, unpack)` (541-627): what is returned on each rank, with the file numbers if they are wanted. -/
def multiRead [DecidableEq τ] [Inhabited α] (P num_files : Nat) (files : Nat → H5 τ α β) (all_file_indexes : Nat → Nat) (itemsize : τ → Nat) (native : τ → τ) (buffer_size : Nat)
    (datasets : NamesArg) (group : Option Name) (return_file_nr : Option NamesArg) (read_attributes unpack : Bool) :
    Except Err (List (Out (AArr τ α β) × Option (Out (TypedArray Unit Nat)))) :=
  -- (565-568)
  (if num_files ≥ P then readIndependentAll P num_files files all_file_indexes group datasets.names return_file_nr read_attributes
    else readCollectiveAll P num_files files all_file_indexes group return_file_nr read_attributes itemsize buffer_size datasets.names [] (return_file_nr.map (fun _ => []))).andThen fun r =>
  -- (577-583)
  (mapDict (replaceAll P) (nativeDict native r.1)).andThen fun data =>
  (replaceNrs P r.2).andThen fun file_nr =>
  -- (585-595)
  if data.any (fun e => !typesOk e.2) then .error .other
  else
    -- (597-610)
    let data := if read_attributes then data.map (fun e => (e.1, shareAttrs e.2)) else data
    -- (612-627)
    allRanks P (returned datasets unpack data file_nr)

end Verif.MultiFileRead
