import Verif.Model.Hdf5Lib

/-!
Reading and writing of datasets by the Fortran wrapper of HDF5 (fortran/hdf5_wrapper/src/read_dataset.inc and write_dataset.inc), for one dataset which is open. The preprocessor makes a
subroutine from these files for each type and rank; here both are arguments. `hdf5_abort` is `.abort`. Ranks of more than seven, for which there is no room, and memory outside of the array
are `.other`.
-/

namespace Verif.Hdf5

/-- An array of Fortran: its shape and its elements, the first index fastest. A scalar has no dimensions. -/
structure FArray where
  dims : List Nat
  elems : List (List Byte)
  deriving DecidableEq

/-- An HDF5 call which ends the program if it fails -/
def orAbort {α : Type} : Option α → Except Err α
  | none => .error .abort
  | some x => .ok x

/-- The loops which leave out dimensions of size one (read_dataset.inc 134-143, 154-163; write_dataset.inc 311-329): sizes and indexes of the other ones -/
def effective (dims : List Int) : List (Int × Nat) := dims.zipIdx.filter (fun d => decide (d.1 > 1))

/-- `memspace_dims` (read_dataset.inc 190-194) and `pad_dims` (write_dataset.inc 346-349), up to the rank -/
def padDims (rank : Nat) (idx : List Nat) (sizes : List Int) : List Nat := (idx.zip sizes).foldl (fun m p => m.set p.1 p.2.toNat) (List.replicate rank 1)

/-- The checks of rank and size (read_dataset.inc 168-181; write_dataset.inc 332-343) -/
def fits (array selected : List (Int × Nat)) : Bool :=
  decide (array.length = selected.length) && (array.zip selected).all (fun p => decide (p.2.1 ≤ p.1.1))

/-- `read_data` after the dataset was opened (read_dataset.inc 91-247). `region` is `start` and `count`, which are both there or not. -/
def readData (ds : Dset) (memtype : DType) (region : Option (List Int × List Int)) (arr : FArray) : Except Err FArray := do
  let rank := ds.dims.length
  if 7 < rank then .error .other
  else if ¬ ds.dtype.cls.sameClass memtype.cls then .error .abort
  else if (if memtype.cls = .string then memtype.size < ds.dtype.size else ds.dtype.size ≠ memtype.size) then .error .abort
  else if (match region with | some (start, count) => decide (start.length < rank ∨ count.length < rank) | none => false) then .error .abort
  else
    let read_dims : List Int := match region with
      | some (_, count) => count.take rank
      | none => ds.dims.map Int.ofNat
    let eff_read := effective read_dims
    let eff_array := effective (arr.dims.map Int.ofNat)
    if fits eff_array eff_read = false then .error .abort
    else
      let memspace := padDims rank (eff_read.map (·.2)) (eff_array.map (·.1))
      let memsel : Sel := if 0 < eff_array.length then .slab (List.replicate rank 0) read_dims else .all
      let filesel : Sel := match region with
        | some (start, count) => .slab ((start.take rank).map (· - 1)) (count.take rank)
        | none => .all
      let r ← orAbort (h5dread ds memtype memspace memsel filesel arr.elems)
      let elems ← r
      .ok ⟨arr.dims, elems⟩

/-- Options of `write_data` for a new dataset. `gzip` and `szip` are zero and false if not present. -/
structure CreateOptions where
  gzip : Int := 0
  szip : Bool := false
  extensible : Option Bool := none
  initial_size : Option (List Int) := none
  chunk_size : List Int := []

/-- `extensible_on` (write_dataset.inc 77-78): only whether the argument is present -/
def CreateOptions.extensible_on (o : CreateOptions) : Bool := o.extensible.isSome

/-- The chunks (write_dataset.inc 95-101, 199-201): `chunk_size`, as far as it is given, or 8192 -/
def chunkDims (o : CreateOptions) (file_dims : List Nat) : List Int := file_dims.zipIdx.map (fun d => min (d.1 : Int) (o.chunk_size.getD d.2 8192))

/-- `file_dims` of a new dataset (write_dataset.inc 171-190) -/
def newDims (initial_size : Option (List Int)) (region : Option (List Int × List Int)) (dims : List Nat) : Except Err (List Int) :=
  match initial_size with
  | some size => if size.length < dims.length then .error .abort else .ok (size.take dims.length)
  | none =>
    match region with
    | some (start, count) =>
      if count.length < dims.length ∨ start.length < dims.length then .error .abort else .ok (List.zipWith (fun s c => s + c - 1) (start.take dims.length) (count.take dims.length))
    | none => .ok (dims.map Int.ofNat)

/-- A new dataset (write_dataset.inc 167-244). Sizes of chunks which are not positive, or too large, are refused, without stopping; but then a dataset which is compressed or extensible cannot be
created. A level of compression of more than nine is refused, but then there is the shuffle filter. The wrapper was compiled without szip. What happens to scalars with filters depends on the version of the library (`.other`), and so do negative sizes. -/
def createDset (o : CreateOptions) (memtype : DType) (region : Option (List Int × List Int)) (dims : List Nat) : Except Err Dset := do
  let rank := dims.length
  let file_dims ← newDims o.initial_size region dims
  if 7 < rank ∨ 7 < o.chunk_size.length ∨ file_dims.any (· < 0) then .error .other
  else
    let file_dims := file_dims.map Int.toNat
    let level := if o.gzip > 9 then o.gzip - 10 else o.gzip
    let chunking := decide (0 < level) || o.szip || o.extensible_on
    let chunk := chunkDims o file_dims
    let chunked := chunking && decide (0 < rank) && chunk.all (fun c => decide (0 < c)) && decide (chunk.prod < 2 ^ 32)
    let filters := decide (0 < level)
    if filters && decide (rank = 0) then .error .other
    else if filters && !chunked then .error .abort
    else if o.extensible_on && decide (0 < rank) && !chunked then .error .abort
    else if chunked && decide (2 ^ 32 ≤ chunk.prod * memtype.size) then .error .abort
    else .ok ⟨memtype, file_dims, file_dims.map (fun d => if o.extensible_on then none else some d), List.replicate file_dims.prod (List.replicate memtype.size 0)⟩

/-- All indexes of an array, the first one fastest -/
def colIndexes : List Nat → List (List Nat)
  | [] => [[]]
  | d :: ds => (colIndexes ds).flatMap (fun is => (List.range d).map (fun i => i :: is))

/-- Position of an element -/
def colIndex : List Nat → List Nat → Nat
  | d :: ds, i :: is => i + d * colIndex ds is
  | _, _ => 0

/-- `idx` is an index of the array. -/
def inside : List Nat → List Nat → Bool
  | [], [] => true
  | d :: ds, i :: is => decide (i < d) && inside ds is
  | _, _ => false

/-- `h5dextend_f`: fails if there is not enough room. New elements are zero. -/
def extend (ds : Dset) (dims : List Nat) : Option Dset :=
  if (dims.zip ds.maxdims).all (fun p => match p.2 with | none => true | some m => decide (p.1 ≤ m)) then
    some { ds with dims := dims, data := (colIndexes dims).map (fun idx => if inside ds.dims idx then ds.data.getD (colIndex ds.dims idx) [] else List.replicate ds.dtype.size 0) }
  else none

/-- The checks for a dataset which exists, and its extension (write_dataset.inc 246-295) -/
def prepareOld (ds : Dset) (memtype : DType) (region : Option (List Int × List Int)) : Except Err Dset := do
  let rank := ds.dims.length
  if 7 < rank then .error .other
  else if ¬ memtype.cls.sameClass ds.dtype.cls then .error .abort
  else if (if memtype.cls = .string then ds.dtype.size < memtype.size else memtype.size ≠ ds.dtype.size) then .error .abort
  else
    match region with
    | none => .error .abort
    | some (start, count) =>
      if start.length < rank ∨ count.length < rank then .error .abort
      else
        let hs := List.zipWith (fun (d : Nat) (e : Int) => max (d : Int) e) ds.dims (List.zipWith (fun s c => s + c - 1) (start.take rank) (count.take rank))
        if (ds.dims.zip hs).any (fun p => decide ((p.1 : Int) < p.2)) then orAbort (extend ds (hs.map Int.toNat)) else .ok ds

/-- The rest of `write_data` (write_dataset.inc 298-417): the dataset afterwards -/
def putData (ds : Dset) (memtype : DType) (region : Option (List Int × List Int)) (arr : FArray) : Except Err Dset := do
  let rank := ds.dims.length
  if (match region with | some (start, count) => decide (start.length < rank ∨ count.length < rank) | none => false) then .error .other
  else
  let select_dims : List Int := match region with
    | some (_, count) => count.take rank
    | none => ds.dims.map Int.ofNat
  let eff_select := effective select_dims
  let eff_array := effective (arr.dims.map Int.ofNat)
  if fits eff_array eff_select = false then .error .abort
  else
    let memspace := padDims rank (eff_select.map (·.2)) (eff_array.map (·.1))
    let memsel : Sel := if 0 < rank then .slab (List.replicate rank 0) select_dims else .all
    let filesel : Sel := if 0 < rank then
        match region with
        | some (start, count) => .slab ((start.take rank).map (· - 1)) (count.take rank)
        | none => .slab (List.replicate rank 0) select_dims
      else .all
    let r ← orAbort (h5dwrite ds memtype memspace memsel filesel arr.elems)
    r

/-- `write_data` for a dataset which does not exist yet -/
def writeNew (o : CreateOptions) (memtype : DType) (region : Option (List Int × List Int)) (arr : FArray) : Except Err Dset := do
  let ds ← createDset o memtype region arr.dims
  putData ds memtype region arr

/-- `write_data` for a dataset which exists -/
def writeOld (ds : Dset) (memtype : DType) (region : Option (List Int × List Int)) (arr : FArray) : Except Err Dset := do
  let ds ← prepareOld ds memtype region
  putData ds memtype region arr

end Verif.Hdf5
