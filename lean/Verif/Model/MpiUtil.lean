import Verif.Lib.NdArray

namespace Verif

variable {α τ ν : Type*}

/-! ### gather_array.py -/

/-- `comm.Gatherv(data, (outdata, (counts, displ)))` as seen by a rank which receives: what rank `s` sends is stored at `displ s`, at most `counts s` elements. -/
def gatherv (P : Nat) (data : Nat → List α) (counts displ : Nat → Nat) (outdata : List α) : List α :=
  (List.range P).foldl (fun buf s => overlay buf (displ s) ((data s).take (counts s))) outdata

/-- `gather_array(data, root, comm, axis)` (python/virgo/mpi/gather_array.py 15-80). `root = none` is `root=None` (line 12). Types are the same on all ranks,
`axis` is a natural number; an axis counted from the end differs only in the names `swapaxes` gives it. -/
def gatherArray [Inhabited α] (P : Nat) (root : Option Nat) (axis : Nat) (data : Nat → NdArray α) : Nat → Option (NdArray α) := fun comm_rank =>
  -- (37-42)
  let data := fun p => if axis ≠ 0 then (data p).swapaxes axis else data p
  let contiguous := fun p => (data p).ravel
  let n0 := fun p => (data p).shape.headD 0
  -- (44-63)
  let ntot := pre n0 P
  let nelements := (data comm_rank).shape.tail.prod
  let out_shape := (data comm_rank).shape.set 0 ntot
  let counts := fun s => n0 s * nelements
  let displ := fun s => pre n0 s * nelements
  -- (65-75)
  let outdata : Option (NdArray α) :=
    if root = some comm_rank ∨ root = none then
      some (NdArray.ofBuffer out_shape (gatherv P contiguous counts displ (emptyArray out_shape.prod)))
    else none
  -- (77-80)
  if axis ≠ 0 then outdata.map (fun a => a.swapaxes axis) else outdata

/-- `allgather_array(data, comm, axis)` (python/virgo/mpi/gather_array.py 6-12) -/
def allgatherArray [Inhabited α] (P : Nat) (axis : Nat) (data : Nat → NdArray α) : Nat → Option (NdArray α) := gatherArray P none axis data

/-! ### util.py -/

/-- An array with type, dimensions after the first, and elements along the first. -/
structure TypedArray (τ α : Type*) where
  dtype : τ
  dims : List Nat
  rows : List α
  deriving DecidableEq

/-- `for a in gathered: if a is not None and value is None: value = a` (python/virgo/mpi/util.py 64-72) -/
def firstNotNone (gathered : List (Option ν)) (value : Option ν) : Option ν :=
  gathered.foldl (fun value a => if a.isSome ∧ value.isNone then a else value) value

/-- `broadcast_dtype_and_dims(arr, comm)` (python/virgo/mpi/util.py 43-74) -/
def broadcastDtypeAndDims (P : Nat) (arr : Nat → Option (TypedArray τ α)) : Nat → Option τ × Option (List Nat) := fun p =>
  let arr_dtype := fun p => (arr p).map TypedArray.dtype
  let arr_shape := fun p => (arr p).map TypedArray.dims
  (firstNotNone ((List.range P).map arr_dtype) (arr_dtype p), firstNotNone ((List.range P).map arr_shape) (arr_shape p))

/-- `replace_none_with_zero_size(arr, comm)` (python/virgo/mpi/util.py 77-104). `list(None)` raises `TypeError`. -/
def replaceNone (P : Nat) (arr : Nat → Option (TypedArray τ α)) : Nat → Except Err (Option (TypedArray τ α)) := fun p =>
  match broadcastDtypeAndDims P arr p with
  | (none, _) => .ok none
  | (some dtype, dims) =>
    match arr p with
    | none => match dims with
      | some dims => .ok (some ⟨dtype, dims, []⟩)
      | none => .error .typeError
    | some a => .ok (some a)

/-- What `ArgumentParser.parse_args` of the standard library does on one rank: it returns the arguments, calls `error`, or leaves by another exception (for
example `SystemExit` for `--help`). -/
inductive ParseOutcome (ν : Type*)
  | parsed (args : ν)
  | callsError
  | raises
  deriving DecidableEq

/-- What a call of `MPIArgumentParser.parse_args` does: it returns arguments, exits the process after `MPI.Finalize`, passes on the exception, or waits for ever. -/
inductive ParserResult (ν : Type*)
  | returns (args : ν)
  | exits
  | raises
  | hangs
  deriving DecidableEq

/-- `MPIArgumentParser.parse_args` (python/virgo/mpi/util.py 26-40). Rank 0 does not wait in `comm.bcast`; the others wait until rank 0 calls it. -/
def mpiParseArgs (outcome : Nat → ParseOutcome ν) : Nat → ParserResult ν := fun p =>
  -- (31-34)
  let result := fun p => match outcome p with
    | .parsed args => some args
    | _ => none
  match outcome p with
  | .raises => .raises
  | _ =>
    -- (35)
    match outcome 0 with
    | .raises => .hangs
    | _ =>
      -- (36-40)
      match result 0 with
      | none => .exits
      | some args => .returns args

end Verif
