import Verif.Model.MpiUtil

/-!
`collective_read` and `collective_write` (python/virgo/mpi/parallel_hdf5.py). A dataset is the list of its rows (elements along the first axis).
-/

namespace Verif

variable {α τ : Type*}

/-- `a // b` where `a` is a numpy integer: 0, with a warning, if `b` is zero. -/
def npDiv (a b : Nat) : Nat := if b = 0 then 0 else a / b

/-- `a % b` where `a` is a numpy integer: 0, with a warning, if `b` is zero. -/
def npMod (a b : Nat) : Nat := if b = 0 then 0 else a % b

/-- `num_on_task[:] = ntot // comm_size; num_on_task[0:ntot % comm_size] += 1` (python/virgo/mpi/parallel_hdf5.py 115-119, 652-655) -/
def numOnTask (ntot comm_size : Nat) (i : Nat) : Nat := ntot / comm_size + if i < ntot % comm_size then 1 else 0

/-- `dataset.dtype.itemsize` times the dimensions after the first (136-138, 226-228) -/
def elementSize (itemsize : Nat) (dims : List Nat) : Nat := dims.foldl (fun e s => e * s) itemsize

/-- The loop over collective reads (155-162). Returns the parts of the file which were requested and the array. -/
def crLoop (dataset : List α) (buffer_size_elements : Nat) : Nat → Nat → Nat → Nat → List α → List (Nat × Nat) × List α
  | 0, _, _, _, data => ([], data)
  | n + 1, offset_in_mem, offset_in_file, nr_left, data =>
    let length := min nr_left buffer_size_elements
    let data := overlay data offset_in_mem (slice dataset offset_in_file length)
    let rest := crLoop dataset buffer_size_elements n (offset_in_mem + length) (offset_in_file + length) (nr_left - length) data
    ((offset_in_file, length) :: rest.1, rest.2)

/-- `collective_read(dataset, comm, buffer_size)` (97-164) on a communicator of `P` ranks: for each rank the result and the requests (offset and length) of its
collective read calls. -/
def collectiveRead [Inhabited α] (P : Nat) (dataset : List α) (itemsize : Nat) (dims : List Nat) (buffer_size : Nat) :
    Except Err (Nat → List α × List (Nat × Nat)) :=
  -- (114-122)
  let ntot := dataset.length
  let num_on_task := numOnTask ntot P
  let offset_on_task := pre num_on_task
  if ntot < 10 * P then
    -- (124-131)
    .ok (fun r => (slice dataset (offset_on_task r) (num_on_task r), []))
  else
    -- (136-140); these are Python integers
    let element_size := elementSize itemsize dims
    if element_size = 0 then .error .zeroDivision
    else
      -- (141-144)
      let buffer_size_elements := buffer_size / element_size
      let local_nr_iterations := fun r => npDiv (num_on_task r) buffer_size_elements +
        if npMod (num_on_task r) buffer_size_elements > 0 then 1 else 0
      -- (146)
      let global_nr_iterations := ((List.range P).map local_nr_iterations).foldl max 0
      -- (147-164)
      .ok (fun r => let res := crLoop dataset buffer_size_elements global_nr_iterations 0 (offset_on_task r) (num_on_task r) (emptyArray (num_on_task r))
        (res.2, res.1))

/-- One rank's part in one collective write. -/
structure WriteCall where
  file_offset : Nat
  memory_offset : Nat
  nr_to_write : Nat
  deriving DecidableEq

/-- The loop of `collective_write` (243-277), all ranks together: `comm.allreduce` gives the same answer everywhere. Gives `Err.diverges` if it still runs after `fuel` passes. -/
def cwLoop (P max_elements : Nat) (data : Nat → List α) : Nat → (Nat → Nat) → (Nat → Nat) → (Nat → Nat) → List α → Except Err (List (Nat → WriteCall) × List α)
  | 0, _, _, nr_left, dataset => if pre nr_left P > 0 then .error .diverges else .ok ([], dataset)
  | fuel + 1, file_offset, memory_offset, nr_left, dataset =>
    if pre nr_left P > 0 then
      let nr_to_write := fun r => min (nr_left r) max_elements
      let dataset := (List.range P).foldl (fun d r => overlay d (file_offset r) (slice (data r) (memory_offset r) (nr_to_write r))) dataset
      match cwLoop P max_elements data fuel (fun r => file_offset r + nr_to_write r) (fun r => memory_offset r + nr_to_write r)
          (fun r => nr_left r - nr_to_write r) dataset with
      | .error e => .error e
      | .ok (calls, dataset) => .ok ((fun r => ⟨file_offset r, memory_offset r, nr_to_write r⟩) :: calls, dataset)
    else .ok ([], dataset)

/-- `collective_write(group, name, data, comm, buffer_size)` (167-279). `dataset` is the contents before writing: unspecified for a newly created dataset, which has
as many rows as all ranks together. Chunking and compression (`compress_dcpl`) do not affect the contents and are left out. -/
def collectiveWrite [DecidableEq τ] (P : Nat) (data : Nat → TypedArray τ α) (itemsize : τ → Nat) (buffer_size fuel : Nat) (dataset : List α) :
    Except Err (List (Nat → WriteCall) × List α) :=
  -- (195-200)
  let num_on_task := fun r => (data r).rows.length
  let offset_on_task := pre num_on_task
  -- (202-212)
  if (List.range P).any (fun r => decide ((data r).dims ≠ (data 0).dims)) then .error .valueError
  else if (List.range P).any (fun r => decide ((data r).dtype ≠ (data 0).dtype)) then .error .valueError
  else
    -- (232-235)
    let element_size := elementSize (itemsize (data 0).dtype) (data 0).dims
    if element_size = 0 then .error .zeroDivision
    -- selection outside the dataset
    else if dataset.length < pre num_on_task P then .error .ioError
    else cwLoop P (buffer_size / element_size) (fun r => (data r).rows) fuel offset_on_task (fun _ => 0) num_on_task dataset

end Verif
