import Verif.Model.CollectiveIO

/-!
`assign_files` and the class `MultiFile` (python/virgo/mpi/parallel_hdf5.py). A file is represented by what is found in it under a dataset name, after selecting the group:
`none` if there is no such group or dataset. One dataset name at a time; the code loops over the names.
-/

namespace Verif

variable {α τ : Type*}

/-- `assign_files(nr_files, nr_ranks)` (python/virgo/mpi/parallel_hdf5.py 282-294) -/
def assignFiles (nr_files nr_ranks : Nat) : Except Err (List Nat) :=
  if nr_ranks = 0 then .error .zeroDivision
  else
    let files_on_rank := List.replicate nr_ranks (nr_files / nr_ranks)
    let remainder := nr_files % nr_ranks
    let files_on_rank :=
      if remainder > 0 then
        let step := max (nr_files / (remainder + 1)) 1
        (List.range remainder).foldl (fun f i => f.modify ((i * step) % nr_ranks) (fun n => n + 1)) files_on_rank
      else files_on_rank
    if files_on_rank.sum = nr_files then .ok files_on_rank else .error .assertion

/-- Assignment of files to one rank by `MultiFile.__init__` (361-381). -/
inductive FileLayout
  | independent (first_file_on_rank num_files_on_rank : Nat)
  | collective (collective_file_nr rank_in_file num_ranks : Nat)
  deriving DecidableEq

/-- The search for the file of a rank (374-380): `files` are the pairs of first rank and number of ranks, `file_nr` is the number of the first of them. -/
def findFile (comm_rank : Nat) : List (Nat × Nat) → Nat → Option FileLayout
  | [], _ => none
  | (first_rank, num_ranks) :: rest, file_nr =>
    if comm_rank ≥ first_rank ∧ comm_rank < first_rank + num_ranks then some (.collective file_nr (comm_rank - first_rank) num_ranks)
    else findFile comm_rank rest (file_nr + 1)

/-- `np.cumsum(l) - l` -/
def offsetsOf (l : List Nat) : List Nat := (List.range l.length).map (fun i => (l.take i).sum)

/-- `MultiFile.__init__` (361-381) for rank `comm_rank` of `P` -/
def multiFileLayout (num_files P comm_rank : Nat) : Except Err FileLayout :=
  if num_files ≥ P then
    match assignFiles num_files P with
    | .error e => .error e
    | .ok num_files_on_rank =>
      match (offsetsOf num_files_on_rank)[comm_rank]?, num_files_on_rank[comm_rank]? with
      | some first, some num => .ok (.independent first num)
      | _, _ => .error .indexError
  else
    match assignFiles P num_files with
    | .error e => .error e
    | .ok num_ranks_on_file =>
      match findFile comm_rank ((offsetsOf num_ranks_on_file).zip num_ranks_on_file) 0 with
      | some l => .ok l
      | none => .error .assertion

/-- `np.concatenate(parts)` of at least one array: all but the first dimension must agree. -/
def concatParts (parts : List (TypedArray τ α)) : Except Err (Option (TypedArray τ α)) :=
  match parts with
  | [] => .ok none
  | a :: rest => if rest.all (fun b => decide (b.dims = a.dims)) then .ok (some ⟨a.dtype, a.dims, parts.flatMap TypedArray.rows⟩) else .error .valueError

/-- Some array has not the type of the first one (444-448). -/
def typesDiffer [DecidableEq τ] (parts : List (TypedArray τ α)) : Bool :=
  match parts with
  | [] => false
  | a :: rest => rest.any (fun b => decide (b.dtype ≠ a.dtype))

/-- Files of a rank with at least one file (383-470): what it reads, whether the types differ, and the file number of each element. -/
def readIndependent [DecidableEq τ] (files : Nat → Option (TypedArray τ α)) (all_file_indexes : Nat → Nat) (first num : Nat) :
    Except Err (Option (TypedArray τ α) × Bool × Option (List Nat)) :=
  let parts := (List.range' first num).filterMap files
  let file_nr := (List.range' first num).filterMap (fun i => (files i).map (fun a => List.replicate a.rows.length (all_file_indexes i)))
  match concatParts parts with
  | .error e => .error e
  | .ok data =>
    .ok (data, typesDiffer parts, if file_nr.isEmpty then none else some file_nr.flatten)

/-- Part of a file read by one of the ranks sharing it (472-539). -/
def readCollective [Inhabited α] (files : Nat → Option (TypedArray τ α)) (all_file_indexes : Nat → Nat) (itemsize : τ → Nat) (buffer_size : Nat)
    (collective_file_nr rank_in_file num_ranks : Nat) : Except Err (Option (TypedArray τ α) × Option (List Nat)) :=
  match files collective_file_nr with
  | none => .ok (none, none)
  | some a =>
    match collectiveRead num_ranks a.rows (itemsize a.dtype) a.dims buffer_size with
    | .error e => .error e
    | .ok out => .ok (some ⟨a.dtype, a.dims, (out rank_in_file).1⟩, some (List.replicate (out rank_in_file).1.length (all_file_indexes collective_file_nr)))

/-- What one rank has read before the arrays are compared: data, types differ, file numbers. -/
def readLocal [DecidableEq τ] [Inhabited α] (P num_files : Nat) (files : Nat → Option (TypedArray τ α)) (all_file_indexes : Nat → Nat) (itemsize : τ → Nat)
    (buffer_size p : Nat) : Except Err (Option (TypedArray τ α) × Bool × Option (List Nat)) :=
  match multiFileLayout num_files P p with
  | .error e => .error e
  | .ok (.independent first num) => readIndependent files all_file_indexes first num
  | .ok (.collective f k n) => match readCollective files all_file_indexes itemsize buffer_size f k n with
    | .error e => .error e
    | .ok (d, nr) => .ok (d, false, nr)

/-- Carry on with the result unless there was an error. -/
def _root_.Except.andThen {β : Type*} {γ : Type*} (x : Except Err β) (f : β → Except Err γ) : Except Err γ :=
  match x with
  | .error e => .error e
  | .ok b => f b

/-- Results of all ranks, or the error of the first rank with one. -/
def allRanks {β : Type*} (P : Nat) (f : Nat → Except Err β) : Except Err (List β) := (List.range P).mapM f

/-- `MultiFile.read(name, return_file_nr=(name,))` (541-627) for one dataset: data and file numbers on each rank. `native` is `dtype.newbyteorder("=")`. Inconsistent types raise
`RuntimeError` (`Err.other`) on all ranks. Attributes are left out. -/
def multiFileRead [DecidableEq τ] [Inhabited α] (P num_files : Nat) (files : Nat → Option (TypedArray τ α)) (all_file_indexes : Nat → Nat) (itemsize : τ → Nat)
    (native : τ → τ) (buffer_size : Nat) : Except Err (List (Option (TypedArray τ α) × Option (TypedArray Unit Nat))) :=
  (allRanks P (readLocal P num_files files all_file_indexes itemsize buffer_size)).andThen fun loc =>
  -- (456-458)
  if loc.any (fun e => e.2.1) then .error .other
  else
    -- (570-575)
    let data := fun p => (loc[p]?.bind (fun e => e.1)).map (fun a => { a with dtype := native a.dtype })
    let file_nr := fun p => (loc[p]?.bind (fun e => e.2.2)).map (fun l => (⟨(), [], l⟩ : TypedArray Unit Nat))
    -- (577-583)
    (allRanks P (replaceNone P data)).andThen fun data =>
    (allRanks P (replaceNone P file_nr)).andThen fun file_nr =>
    -- (585-595)
    let dtypes : List τ := data.filterMap (fun a => a.map TypedArray.dtype)
    if dtypes.any (fun t => decide (some t ≠ dtypes.head?)) then .error .other
    else .ok (data.zip file_nr)

/-- `MultiFile.get_elements_per_file(name)` (629-683) on one rank: pairs of file number and number of elements, in the order they are stored in the dict. -/
def elementsPerFile (P num_files : Nat) (files : Nat → Option (TypedArray τ α)) (all_file_indexes : Nat → Nat) (p : Nat) : Except Err (List (Nat × Nat)) :=
  match multiFileLayout num_files P p with
  | .error e => .error e
  | .ok (.independent first num) => .ok ((List.range' first num).map (fun i => (all_file_indexes i, (files i).elim 0 (fun a => a.rows.length))))
  | .ok (.collective f k n) => .ok [(all_file_indexes f, (files f).elim 0 (fun a => numOnTask a.rows.length n k))]

/-- `d[key]` for a dict built by assigning the pairs in order. -/
def dictGet (d : List (Nat × Nat)) (key : Nat) : Except Err Nat :=
  match (d.reverse.find? (fun e => e.1 == key)) with
  | some e => .ok e.2
  | none => .error .keyError

/-- The loop over files of `_write_independent` (701-726): files written with their contents. Assigning a different number of rows than the dataset has raises `TypeError`
(h5py would repeat a single row). -/
def writeIndependent (data : TypedArray τ α) (elements_per_file : List (Nat × Nat)) (all_file_indexes : Nat → Nat) :
    List Nat → Nat → Except Err (List (Nat × TypedArray τ α))
  | [], _ => .ok []
  | i :: rest, offset =>
    match dictGet elements_per_file (all_file_indexes i) with
    | .error e => .error e
    | .ok length =>
      let part := slice data.rows offset length
      if part.length ≠ length then .error .typeError
      else match writeIndependent data elements_per_file all_file_indexes rest (offset + length) with
        | .error e => .error e
        | .ok out => .ok ((i, { data with rows := part }) :: out)

/-- `MultiFile.write({name: data}, elements_per_file, filenames, mode)` (762-790): contents of output file `f`, as a function of the arrays and dicts of all ranks. In collective mode
the ranks of file `f` write together; the length is checked on each of them (750-751). -/
def multiFileWrite [DecidableEq τ] [Inhabited α] (P num_files : Nat) (data : Nat → TypedArray τ α) (elements_per_file : Nat → List (Nat × Nat))
    (all_file_indexes : Nat → Nat) (itemsize : τ → Nat) (buffer_size fuel : Nat) (f : Nat) : Except Err (Option (TypedArray τ α)) :=
  if num_files ≥ P then
    -- (701-726), on each rank
    (allRanks P (fun p => match multiFileLayout num_files P p with
      | .error e => .error e
      | .ok (.independent first num) => writeIndependent (data p) (elements_per_file p) all_file_indexes (List.range' first num) 0
      | .ok (.collective _ _ _) => .error .attributeError)).andThen fun written =>
    .ok ((written.flatten.find? (fun e => e.1 == f)).map Prod.snd)
  else
    -- (728-760), on the ranks of this file: rank `first + k` of `comm` is rank `k` of the new communicator
    (assignFiles P num_files).andThen fun ranks =>
    let n := ranks.getD f 0
    let first := (ranks.take f).sum
    (allRanks n (fun k => dictGet (elements_per_file (first + k)) (all_file_indexes f))).andThen fun lengths =>
    if (List.range n).any (fun k => decide (lengths[k]? ≠ some (data (first + k)).rows.length)) then .error .assertion
    else match collectiveWrite n (fun k => data (first + k)) itemsize buffer_size fuel (emptyArray (pre (fun k => (data (first + k)).rows.length) n)) with
      | .error e => .error e
      | .ok (_, rows) => .ok (some { data first with rows := rows })

end Verif
