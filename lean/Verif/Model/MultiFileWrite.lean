import Verif.Model.MultiFileRead

/-!
`MultiFile.write` (python/virgo/mpi/parallel_hdf5.py 685-790) with several datasets, a group, attributes and the mode in which files are opened, and `compress_dcpl` (34-81). Names of datasets and of the
group have no slashes. The dicts `data` and `attrs` have the same keys in the same order on all ranks, which collective writing needs.
-/

namespace Verif.MultiFileWrite

open Verif.MultiFileRead

variable {α β τ : Type*}

/-- Modes of `h5py.File` for writing: "w", "x" (or "w-"), "r+", and "a" -/
inductive Mode
  | w
  | x
  | rplus
  | a

/-- The output files -/
abbrev FS (τ α β : Type*) := Name → Option (H5 τ α β)

/-- `h5py.File(filename, mode)` -/
def openOut (mode : Mode) (old : Option (H5 τ α β)) : Except Err (H5 τ α β) :=
  match mode, old with
  | .w, _ => .ok ⟨[], []⟩
  | .x, none => .ok ⟨[], []⟩
  | .x, some _ => .error .ioError
  | .rplus, none => .error .ioError
  | .rplus, some h => .ok h
  | .a, none => .ok ⟨[], []⟩
  | .a, some h => .ok h

/-- `outfile.require_group(group)` (706-710, 742-746): `TypeError` if there is a dataset with this name. -/
def requireGroup (group : Option Name) (h : H5 τ α β) : Except Err (H5 τ α β) :=
  match group with
  | none => .ok h
  | some g =>
    if (dget h.groups g).isSome then .ok h
    else if (dget h.root g).isSome then .error .typeError
    else .ok { h with groups := dset h.groups g [] }

/-- `h5py.h5d.create` and writing of data and attributes (715-724, 752-757): `ValueError` if the name exists. -/
def putDataset (group : Option Name) (h : H5 τ α β) (name : Name) (d : Dset τ α β) : Except Err (H5 τ α β) :=
  match group with
  | none => if (dget h.root name).isSome || (dget h.groups name).isSome then .error .valueError else .ok { h with root := dset h.root name d }
  | some g => match dget h.groups g with
    | none => .error .keyError
    | some l => if (dget l name).isSome then .error .valueError else .ok { h with groups := dset h.groups g (dset l name d) }

def putAll (group : Option Name) : List (Name × Dset τ α β) → H5 τ α β → Except Err (H5 τ α β)
  | [], h => .ok h
  | (name, d) :: rest, h => (putDataset group h name d).andThen fun h => putAll group rest h

/-- `attrs[name]` if there is such a key (722-724, 755-757) -/
def attrsFor (attrs : Option (List (Name × List (Name × β)))) (name : Name) : List (Name × β) := (attrs.bind (fun a => dget a name)).getD []

/-- The parts of the arrays which belong into one file (714-724). Assigning a different number of rows than the dataset has raises `TypeError` (h5py would repeat a single row). -/
def fileParts (data : Name → TypedArray τ α) (attrs : Option (List (Name × List (Name × β)))) (offset length : Nat) : List Name → Except Err (List (Name × Dset τ α β))
  | [] => .ok []
  | name :: names =>
    let part := slice (data name).rows offset length
    if part.length ≠ length then .error .typeError
    else (fileParts data attrs offset length names).andThen fun rest => .ok ((name, ⟨{ data name with rows := part }, attrsFor attrs name⟩) :: rest)

/-- A file after it is closed -/
def setFile (fs : FS τ α β) (name : Name) (h : H5 τ α β) : FS τ α β := fun x => if x = name then some h else fs x

/-- `_write_independent` (685-726) on one rank -/
def writeRank (names : List Name) (data : Name → TypedArray τ α) (elements_per_file : List (Nat × Nat)) (all_file_indexes : Nat → Nat) (all_filenames : Nat → Name) (mode : Mode)
    (group : Option Name) (attrs : Option (List (Name × List (Name × β)))) : List Nat → Nat → FS τ α β → Except Err (FS τ α β)
  | [], _, fs => .ok fs
  | i :: rest, offset, fs =>
    (openOut mode (fs (all_filenames i))).andThen fun h =>
    (requireGroup group h).andThen fun h =>
    (dictGet elements_per_file (all_file_indexes i)).andThen fun length =>
    (fileParts data attrs offset length names).andThen fun parts =>
    (putAll group parts h).andThen fun h =>
    writeRank names data elements_per_file all_file_indexes all_filenames mode group attrs rest (offset + length) (setFile fs (all_filenames i) h)

/-- The ranks, which write different files -/
def writeRanks (P num_files : Nat) (names : List Name) (data : Name → Nat → TypedArray τ α) (elements_per_file : Nat → List (Nat × Nat)) (all_file_indexes : Nat → Nat) (all_filenames : Nat → Name)
    (mode : Mode) (group : Option Name) (attrs : Option (List (Name × List (Name × β)))) : List Nat → FS τ α β → Except Err (FS τ α β)
  | [], fs => .ok fs
  | p :: rest, fs =>
    match multiFileLayout num_files P p with
    | .error e => .error e
    | .ok (.collective _ _ _) => .error .attributeError
    | .ok (.independent first num) =>
      (writeRank names (fun n => data n p) (elements_per_file p) all_file_indexes all_filenames mode group attrs (List.range' first num) 0 fs).andThen fun fs =>
      writeRanks P num_files names data elements_per_file all_file_indexes all_filenames mode group attrs rest fs

/-- The datasets of one file written by its ranks together (748-757): `multiFileWrite` for each name -/
def collectiveParts [DecidableEq τ] [Inhabited α] (P num_files : Nat) (data : Name → Nat → TypedArray τ α) (elements_per_file : Nat → List (Nat × Nat)) (all_file_indexes : Nat → Nat)
    (itemsize : τ → Nat) (buffer_size fuel : Nat) (attrs : Option (List (Name × List (Name × β)))) (f : Nat) : List Name → Except Err (List (Name × Dset τ α β))
  | [] => .ok []
  | name :: names =>
    (multiFileWrite P num_files (data name) elements_per_file all_file_indexes itemsize buffer_size fuel f).andThen fun a => match a with
      | none => .error .other
      | some a => (collectiveParts P num_files data elements_per_file all_file_indexes itemsize buffer_size fuel attrs f names).andThen fun rest =>
        .ok ((name, ⟨a, attrsFor attrs name⟩) :: rest)

/-- `_write_collective` (728-760) on all ranks: the groups of ranks write different files. -/
def writeCollective [DecidableEq τ] [Inhabited α] (P num_files : Nat) (names : List Name) (data : Name → Nat → TypedArray τ α) (elements_per_file : Nat → List (Nat × Nat))
    (all_file_indexes : Nat → Nat) (all_filenames : Nat → Name) (mode : Mode) (group : Option Name) (attrs : Option (List (Name × List (Name × β)))) (itemsize : τ → Nat)
    (buffer_size fuel : Nat) : List Nat → FS τ α β → Except Err (FS τ α β)
  | [], fs => .ok fs
  | f :: rest, fs =>
    (openOut mode (fs (all_filenames f))).andThen fun h =>
    (requireGroup group h).andThen fun h =>
    (collectiveParts P num_files data elements_per_file all_file_indexes itemsize buffer_size fuel attrs f names).andThen fun parts =>
    (putAll group parts h).andThen fun h =>
    writeCollective P num_files names data elements_per_file all_file_indexes all_filenames mode group attrs itemsize buffer_size fuel rest (setFile fs (all_filenames f) h)

/-- Names of the output files (770-780). `substitute` is `substitute_file_nr`. -/
def outputNames (substitute : Name → Nat → Except Err Name) (num_files : Nat) (all_file_indexes : Nat → Nat) : NamesArg → Except Err (List Name)
  | .one fmt => (List.range num_files).mapM (fun i => substitute fmt (all_file_indexes i))
  | .many l => if l.length ≠ num_files then .error .valueError else .ok l

/-- `MultiFile.write(data, elements_per_file, filenames, mode, group, attrs)` (762-790): the output files afterwards -/
def multiWrite [DecidableEq τ] [Inhabited α] (P num_files : Nat) (substitute : Name → Nat → Except Err Name) (names : List Name) (data : Name → Nat → TypedArray τ α)
    (elements_per_file : Nat → List (Nat × Nat)) (all_file_indexes : Nat → Nat) (filenames : NamesArg) (mode : Mode) (group : Option Name)
    (attrs : Option (List (Name × List (Name × β)))) (itemsize : τ → Nat) (buffer_size fuel : Nat) (fs : FS τ α β) : Except Err (FS τ α β) :=
  (outputNames substitute num_files all_file_indexes filenames).andThen fun all_filenames =>
  if num_files ≥ P then
    writeRanks P num_files names data elements_per_file all_file_indexes (fun i => all_filenames.getD i []) mode group attrs (List.range P) fs
  else
    writeCollective P num_files names data elements_per_file all_file_indexes (fun i => all_filenames.getD i []) mode group attrs itemsize buffer_size fuel (List.range num_files) fs

/-! ### compress_dcpl -/

/-- A property list for the creation of datasets: dimensions of chunks if the layout is chunked, shuffle filter, compression level, and all other properties -/
structure Dcpl (ρ : Type*) where
  chunk : Option (List Nat)
  shuffle : Bool
  deflate : Option Nat
  other : ρ
  deriving DecidableEq

/-- `compress_dcpl(dcpl, shape, gzip, shuffle, chunk)` (34-81); `old` is whether the version of HDF5 is before 1.12.0. `None` (59) is `none`. Shapes have at least one dimension. -/
def compressDcpl {ρ : Type*} (old : Bool) (dcpl : Dcpl ρ) (shape : List Nat) (gzip : Option Nat) (shuffle : Bool) (chunk : Option Nat) : Except Err (Option (Dcpl ρ)) :=
  -- (47-48)
  if old then .ok (some dcpl)
  else
    -- (50-57)
    let nr_elements := shape.foldl (fun m n => m * n) 1
    if nr_elements = 0 then .ok none
    else
      -- (59-63)
      let chunk_size := match chunk with
        | none => 8 * 1024 * 1024
        | some c => c
      -- (65-72)
      let dcpl : Except Err (Dcpl ρ) :=
        if gzip.isSome || shuffle then
          match dcpl.chunk with
          | some _ => .ok dcpl
          | none => match shape with
            | [] => .error .indexError
            | n :: rest => .ok { dcpl with chunk := some ((if n > chunk_size then chunk_size else n) :: rest) }
        else .ok dcpl
      -- (74-78)
      dcpl.andThen fun dcpl =>
      let dcpl := if shuffle then { dcpl with shuffle := true } else dcpl
      match gzip with
      | none => .ok (some dcpl)
      | some level => .ok (some { dcpl with deflate := some level })

end Verif.MultiFileWrite
