import Verif.Model.SnapshotPrograms

/-!
Scripts which read a snapshot file of the Millennium-WMAP7 simulation: examples/millennium-wmap7/python/read_mr7_snapshot_file.py and examples/millennium-wmap7/idl/read_mr7_snapshot_file.pro.
Files are those of `Model/Hdf5Files.lean`, with dimensions in the order of Fortran. Numbers keep the type they have in the file.
-/

namespace Verif.SnapshotPrograms

open Hdf5

/-- An array in Python, with the last index running fastest -/
structure PyArray where
  shape : List Nat
  dtype : Hdf5.DType
  elems : List (List Byte)
  deriving DecidableEq

/-- An array in IDL, with the first index running fastest -/
structure IdlArray where
  dims : List Nat
  dtype : Hdf5.DType
  elems : List (List Byte)
  deriving DecidableEq

/-- Position of an element if the first index runs fastest; none if there is no such element -/
def offsetOf : List Nat → List Nat → Option Nat
  | [], [] => some 0
  | d :: ds, i :: is => if i < d then (offsetOf ds is).map (fun r => i + d * r) else none
  | _, _ => none

def IdlArray.get (a : IdlArray) (ix : List Nat) : Except Err (List Byte) :=
  match (offsetOf a.dims ix).bind (fun p => a.elems[p]?) with
  | none => .error .indexError
  | some v => .ok v

def PyArray.get (a : PyArray) (ix : List Nat) : Except Err (List Byte) :=
  match (offsetOf a.shape.reverse ix.reverse).bind (fun p => a.elems[p]?) with
  | none => .error .indexError
  | some v => .ok v

/-- Value of an integer with its type -/
def intOfType (t : Hdf5.DType) (v : List Byte) : Except Err Int :=
  match t.cls with
  | .integer true => .ok (if 256 ^ v.length ≤ 2 * leNat v then (leNat v : Int) - 256 ^ v.length else leNat v)
  | .integer false => .ok (leNat v)
  | _ => .error .typeError

/-- An attribute of an object in an open file -/
def h5Attr (f : H5File) (obj attr : Name) : Except Err Attr :=
  match f.find obj with
  | none => .error .keyError
  | some l =>
    match assoc ((match l with | .dset a => Owner.dset a | .group => Owner.group (h5Components obj)), attr) f.attrs with
    | none => .error .keyError
    | some a => .ok a

/-- A dataset in an open file -/
def h5Dataset (f : H5File) (name : Name) : Except Err Dset :=
  match (h5dopen f name).bind (fun a => f.heap[a]?) with
  | none => .error .keyError
  | some d => .ok d

/-- What the scripts print and leave in variables -/
structure Mr7Vars (A : Type) where
  boxsize : List (List Byte)
  count : Int
  pos : A
  vel : A
  ids : A

/-- `f[name][...]` (read_mr7_snapshot_file.py 25-27) -/
def pyRead (f : H5File) (name : Name) : Except Err PyArray := do
  let d ← h5Dataset f name
  .ok ⟨d.dims.reverse, d.dtype, d.data⟩

/-- read_mr7_snapshot_file.py 14-30; `fname` is the name of the file (11). -/
def mr7Python (disk : Name → Option H5File) (fname : Name) : Except Err (Mr7Vars PyArray) := do
  match disk fname with
  | none => .error .ioError
  | some f =>
    let boxsize ← h5Attr f "Header".toList "BoxSize".toList
    let npart ← h5Attr f "Header".toList "NumPart_ThisFile".toList
    let v ← PyArray.get ⟨npart.dims.reverse, npart.dtype, npart.data⟩ [1]
    let count ← intOfType npart.dtype v
    let pos ← pyRead f "PartType1/Coordinates".toList
    let vel ← pyRead f "PartType1/Velocities".toList
    let ids ← pyRead f "PartType1/ParticleIDs".toList
    .ok ⟨boxsize.data, count, pos, vel, ids⟩

/-- `read_dataset` (read_mr7_snapshot_file.pro 1-10). There are no arrays without elements in IDL. -/
def idlRead (f : H5File) (name : Name) : Except Err IdlArray := do
  let d ← h5Dataset f name
  if d.data = [] then .error .other else .ok ⟨d.dims, d.dtype, d.data⟩

/-- read_mr7_snapshot_file.pro 36-57, with `read_group_attribute` (13-25) -/
def mr7Idl (disk : Name → Option H5File) (fname : Name) : Except Err (Mr7Vars IdlArray) := do
  match disk fname with
  | none => .error .ioError
  | some f =>
    let boxsize ← h5Attr f "Header".toList "BoxSize".toList
    let npart ← h5Attr f "Header".toList "NumPart_ThisFile".toList
    let v ← IdlArray.get ⟨npart.dims, npart.dtype, npart.data⟩ [1]
    let count ← intOfType npart.dtype v
    let pos ← idlRead f "PartType1/Coordinates".toList
    let vel ← idlRead f "PartType1/Velocities".toList
    let ids ← idlRead f "PartType1/ParticleIDs".toList
    .ok ⟨boxsize.data, count, pos, vel, ids⟩

end Verif.SnapshotPrograms
