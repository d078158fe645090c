import Verif.Model.MultiFile
import Verif.Model.SortTests

/-!
Checks of python/virgo/mpi/test_parallel_hdf5.py. The contents of arrays and files, which are random numbers there, are arguments, and so are the results of the functions under test: for the
functions of the module these are the models `collectiveRead`, `collectiveWrite`, `multiFileRead`, `elementsPerFile` and `multiFileWrite`. A dataset is the list of its rows. Exceptions end a test.
-/

namespace Verif.ParallelHdf5Tests

open Verif.SortTests

variable {α τ : Type}

/-- `all_equal = np.all(arr==arr_coll)` on rank 0, then `assert all_equal` on all ranks -/
def assertAllEqual [DecidableEq α] (a b : List α) : Except Err Unit := do
  let all_equal ← allEqual a b
  assertRankZero all_equal

/-- The end of `do_collective_read` (test_parallel_hdf5.py 52-60): `arr` is what was written, `arr_coll` what the ranks have read. -/
def checkCollectiveRead [DecidableEq α] (P : Nat) (arr : List α) (arr_coll : Nat → List α) : Except Err Unit := assertAllEqual arr (gcat P arr_coll)

/-- `do_collective_read` (16-60) with `collective_read` -/
def doCollectiveRead [DecidableEq α] [Inhabited α] (P : Nat) (arr : List α) (itemsize : Nat) (dims : List Nat) (buffer_size : Nat) : Except Err Unit := do
  let out ← collectiveRead P arr itemsize dims buffer_size
  checkCollectiveRead P arr (fun p => (out p).1)

/-- The end of `do_collective_write` (145-157): `arr_check` is the dataset in the file. -/
def checkCollectiveWrite [DecidableEq α] (P : Nat) (arr_local : Nat → List α) (arr_check : List α) : Except Err Unit := assertAllEqual (gcat P arr_local) arr_check

/-- `do_collective_write` (105-157) with `collective_write`; `old` is what is in the new dataset before. -/
def doCollectiveWrite [DecidableEq α] [DecidableEq τ] (P : Nat) (arr_local : Nat → TypedArray τ α) (itemsize : τ → Nat) (buffer_size fuel : Nat) (old : List α) : Except Err Unit := do
  let out ← collectiveWrite P arr_local itemsize buffer_size fuel old
  checkCollectiveWrite P (fun p => (arr_local p).rows) out.2

/-- What `create_multi_file_output` (199-278) writes: `have_data` are the files with a dataset, `inconsistent` those which are float32 (`single`) instead of float64 (`double`). The lengths of the
arrays and their values are random numbers. -/
def createMultiFile (double single : τ) (have_data inconsistent : Nat → Bool) (arr : Nat → List α) (file_nr : Nat) : Option (TypedArray τ α) :=
  if have_data file_nr then some ⟨if inconsistent file_nr then single else double, [], arr file_nr⟩ else none

/-- `np.concatenate`: no arrays, or `None` on some rank, are errors. -/
def concatenate (l : List (Option (List α))) : Except Err (List α) :=
  if l.isEmpty || l.any (fun a => a.isNone) then .error .valueError else .ok ((l.filterMap id).flatten)

/-- The end of `read_multi_file_output` (311-344): `arr` is what the ranks have read, and the serial reading skips files without the dataset. -/
def checkMultiFile [DecidableEq α] (F : Nat) (files : Nat → Option (TypedArray τ α)) (arr : List (Option (List α))) : Except Err Unit := do
  let arr ← concatenate arr
  let arr_check ← concatenate (((List.range F).filterMap files).map (fun a => some a.rows))
  assertAllEqual arr arr_check

/-- `read_multi_file_output` (280-344) without attributes -/
def readMultiFileOutput [DecidableEq α] [DecidableEq τ] [Inhabited α] (P F : Nat) (files : Nat → Option (TypedArray τ α)) (itemsize : τ → Nat) (native : τ → τ) (buffer_size : Nat) : Except Err Unit := do
  let out ← multiFileRead P F files id itemsize native buffer_size
  checkMultiFile F files (out.map (fun e => e.1.map TypedArray.rows))

/-- `pytest.raises(RuntimeError)` -/
def raisesRuntimeError (r : Except Err Unit) : Bool :=
  match r with
  | .error .other => true
  | _ => false

/-- One file in the loop of `multi_file_round_trip` (559-585): the datasets in the input and output files, if there are any. `()` is an empty array. -/
def sameFile [DecidableEq α] (arr1 arr2 : Option (List α)) : Except Err Bool := do
  let eq ← allEqual (arr1.getD []) (arr2.getD [])
  .ok (decide ((arr1.getD []).length = (arr2.getD []).length) && eq)

/-- `equal = equal & ...` for all files (557-585) -/
def sameFiles [DecidableEq α] (old new : Nat → Option (List α)) : List Nat → Except Err Bool
  | [] => .ok true
  | f :: fs => do
    let eq ← sameFile (old f) (new f)
    let rest ← sameFiles old new fs
    .ok (eq && rest)

/-- The end of `multi_file_round_trip` (555-588) -/
def checkRoundTrip [DecidableEq α] (F : Nat) (old new : Nat → Option (List α)) : Except Err Unit := do
  let equal ← sameFiles old new (List.range F)
  assertRankZero equal

/-- The array of each rank; without one there is nothing to write. -/
def arraysOf (out : List (Option (TypedArray τ α))) : Except Err (Nat → Option (TypedArray τ α)) :=
  if out.any (fun a => a.isNone) then .error .attributeError else .ok (fun p => out[p]?.join)

/-- `multi_file_round_trip` (510-588). The names of the files are left out, and so are compression and groups. `empty` stands for the array of a rank which does not exist. -/
def multiFileRoundTrip [DecidableEq α] [DecidableEq τ] [Inhabited α] (P F : Nat) (files : Nat → Option (TypedArray τ α)) (itemsize : τ → Nat) (native : τ → τ) (buffer_size fuel : Nat)
    (empty : TypedArray τ α) : Except Err Unit := do
  let out ← multiFileRead P F files id itemsize native buffer_size
  let data ← arraysOf (out.map Prod.fst)
  let elements_per_file ← allRanks P (elementsPerFile P F files id)
  let written ← allRanks F (multiFileWrite P F (fun p => (data p).getD empty) (fun p => elements_per_file.getD p []) id itemsize buffer_size fuel)
  checkRoundTrip F (fun f => (files f).map TypedArray.rows) (fun f => written[f]?.join.map TypedArray.rows)

end Verif.ParallelHdf5Tests
