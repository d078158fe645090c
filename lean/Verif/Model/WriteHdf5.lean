import Verif.Model.ReadBinary

/-!
`BinaryGroup.write_hdf5` (python/virgo/util/read_binary.py 191-250). What h5py does is taken from its documentation: `create_dataset` and `create_group` raise ValueError if the name is in use or empty, `create_dataset`
raises ValueError for `gzip` levels above 9, for chunks with a dimension of zero, and for chunks of 4 GiB or more. The limit on the size of attributes (64 kB) is left out, and so is the creation of the file itself.
-/

namespace Verif.WriteHdf5

/-- An array in a HDF5 file -/
structure HData where
  dtype : DType
  shape : List Nat
  values : List (List Byte)
  deriving DecidableEq

/-- A group of a HDF5 file: attributes, datasets with their attributes, groups -/
inductive HGroup
  | mk (attrs : List (Name × HData)) (datasets : List (Name × HData × List (Name × HData))) (groups : List (Name × HGroup))

def HGroup.attrs : HGroup → List (Name × HData)
  | .mk a _ _ => a
def HGroup.datasets : HGroup → List (Name × HData × List (Name × HData))
  | .mk _ d _ => d
def HGroup.groups : HGroup → List (Name × HGroup)
  | .mk _ _ g => g

def HGroup.empty : HGroup := .mk [] [] []

/-- The name can not be given to a new object. -/
def HGroup.taken (h : HGroup) (name : Name) : Bool := name == [] || (dget h.datasets name).isSome || (dget h.groups name).isSome

/-- `chunks` (219) -/
def hdf5Chunks (shape : List Nat) : List Nat := shape.map (fun s => if s < 8192 * 10 then s else 8192 * 10)

/-- The chunks are accepted. -/
def chunksOk (itemsize : Nat) (chunks : List Nat) : Bool := chunks.all (fun c => 0 < c) && itemsize * chunks.foldl (fun n c => n * c) 1 < 4294967296

/-- `block[...]`, `block[()]` -/
def blockData (sysLittle : Bool) (file : List Byte) (blocks : List Block) (id : Nat) : Except Err HData :=
  match blocks[id]? with
  | none => .error .other
  | some b => match b.readAll sysLittle file with
    | .error e => .error e
    | .ok values => .ok ⟨b.dtype, b.shape, values⟩

section
variable (data : Nat → Except Err HData) (gzip : Int)

/-- The loops over attributes (236-237, 242-243) -/
def writeAttrs : List (Name × Nat) → List (Name × HData) → Except Err (List (Name × HData))
  | [], out => .ok out
  | (name, id) :: rest, out =>
    match data id with
    | .error e => .error e
    | .ok v => if name = [] then .error .valueError else writeAttrs rest (dset out name v)

/-- Creating a dataset (217-233) -/
def createDataset (h : HGroup) (name : Name) (v : HData) : Except Err Unit :=
  if h.taken name then .error .valueError
  else if v.shape ≠ [] ∧ gzip > 0 ∧ (gzip > 9 ∨ !chunksOk v.dtype.itemsize (hdf5Chunks v.shape)) then .error .valueError
  else .ok ()

/-- The loop over datasets (212-237) -/
def writeDatasets : List (Name × Nat × List (Name × Nat)) → HGroup → Except Err HGroup
  | [], h => .ok h
  | (name, id, attrs) :: rest, h =>
    match data id with
    | .error e => .error e
    | .ok v =>
      match createDataset gzip h name v with
      | .error e => .error e
      | .ok _ =>
        match writeAttrs data attrs [] with
        | .error e => .error e
        | .ok a => writeDatasets rest (.mk h.attrs (dset h.datasets name (v, a)) h.groups)

mutual
/-- `write_hdf5(h5group=h, gzip=gzip)` (191-250) -/
def writeHdf5 : BGroup → HGroup → Except Err HGroup
  | .mk _ datasets groups, h =>
    match writeDatasets data gzip datasets h with
    | .error e => .error e
    | .ok h => writeGroups groups h
/-- The loop over groups (240-245) -/
def writeGroups : List (Name × BGroup) → HGroup → Except Err HGroup
  | [], h => .ok h
  | (name, g) :: rest, h =>
    if h.taken name then .error .valueError
    else match writeAttrs data g.attrs [] with
      | .error e => .error e
      | .ok a =>
        match writeHdf5 g (.mk a [] []) with
        | .error e => .error e
        | .ok new => writeGroups rest (.mk h.attrs h.datasets (dset h.groups name new))
end
end

/-- `f.write_hdf5(filename, gzip=gzip)`: the contents of the new file -/
def fileHdf5 (sysLittle : Bool) (file : List Byte) (f : BFile) (gzip : Int) : Except Err HGroup :=
  writeHdf5 (blockData sysLittle file f.blocks) gzip f.root .empty

end Verif.WriteHdf5
