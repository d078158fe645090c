import Verif.Lib.Scatter
import Verif.Model.ReadBinary

/-!
The part of the HDF5 library which the Fortran wrapper needs: data types, dataspaces with selections, and transfer between memory and datasets. Dimensions are in Fortran order,
as the Fortran interface of the library gives them, and elements are in the order in which Fortran stores them (the first index runs fastest). Negative error codes are `none`.

Elements are their bytes in little endian order, whatever the byte order in the file is. Strings are those of Fortran, padded with blanks.
-/

namespace Verif.Hdf5

/-- Classes of data types; integers have a sign or not. -/
inductive TypeClass
  | integer (signed : Bool)
  | float
  | string
  | other
  deriving DecidableEq

structure DType where
  cls : TypeClass
  size : Nat
  deriving DecidableEq

/-- What `h5tget_class_f` tells: the sign is not part of it. -/
def TypeClass.sameClass : TypeClass → TypeClass → Bool
  | .integer _, .integer _ => true
  | .float, .float => true
  | .string, .string => true
  | .other, .other => true
  | _, _ => false

/-- Largest number of a signed integer of `n` bytes -/
def maxSigned (n : Nat) : List Byte := List.replicate (n - 1) 255 ++ [127]

/-- Conversion of one element between types of the same class; integers and floating point numbers have the same size. Integers which do not exist in the other type become the nearest one. -/
def convert (src dst : DType) (v : List Byte) : List Byte :=
  match src.cls, dst.cls with
  | .integer false, .integer true => if 256 ^ dst.size / 2 ≤ leNat v then maxSigned dst.size else v
  | .integer true, .integer false => if 256 ^ src.size / 2 ≤ leNat v then List.replicate dst.size 0 else v
  | .string, .string => v ++ List.replicate (dst.size - v.length) 32
  | _, _ => v

/-- A dataset: without a limit of a dimension it is `none`. -/
structure Dset where
  dtype : DType
  dims : List Nat
  maxdims : List (Option Nat)
  data : List (List Byte)
  deriving DecidableEq

/-- Selections: everything, or a hyperslab -/
inductive Sel
  | all
  | slab (start count : List Int)

/-- Positions of the elements of a hyperslab, the first index fastest -/
def slabPoints : List Nat → List Nat → List Nat → List Nat
  | d :: ds, s :: ss, c :: cs => (slabPoints ds ss cs).flatMap (fun o => (List.range c).map (fun i => s + i + d * o))
  | _, _, _ => [0]

/-- A hyperslab is inside of the extent. -/
def slabInside : List Nat → List Int → List Int → Bool
  | d :: ds, s :: ss, c :: cs => decide (0 ≤ s) && decide (0 ≤ c) && decide (s + c ≤ d) && slabInside ds ss cs
  | _, _, _ => true

/-- Positions of the selected elements of a dataspace, in their order. A hyperslab with a count of zero selects nothing, wherever it is. There are no hyperslabs of scalars. -/
def Sel.points (dims : List Nat) : Sel → Option (List Nat)
  | .all => some (List.range dims.prod)
  | .slab start count =>
    if dims = [] then none
    else if (count.take dims.length).any (· == 0) then some []
    else if slabInside dims start count then some (slabPoints dims (start.map Int.toNat) (count.map Int.toNat))
    else none

/-- `H5Dread`: what is in the memory afterwards. Memory outside of `buf` is `.other`. -/
def h5dread (ds : Dset) (memtype : DType) (memdims : List Nat) (memsel filesel : Sel) (buf : List (List Byte)) : Option (Except Err (List (List Byte))) :=
  match filesel.points ds.dims, memsel.points memdims with
  | some f, some m =>
    if f.length ≠ m.length then none
    else if m.all (fun i => decide (i < buf.length)) then some (.ok (scatter buf m (f.map (fun o => convert ds.dtype memtype (ds.data.getD o [])))))
    else some (.error .other)
  | _, _ => none

/-- `H5Dwrite`: the dataset afterwards -/
def h5dwrite (ds : Dset) (memtype : DType) (memdims : List Nat) (memsel filesel : Sel) (buf : List (List Byte)) : Option (Except Err Dset) :=
  match filesel.points ds.dims, memsel.points memdims with
  | some f, some m =>
    if f.length ≠ m.length then none
    else if m.all (fun i => decide (i < buf.length)) then some (.ok { ds with data := scatter ds.data f (m.map (fun o => convert memtype ds.dtype (buf.getD o []))) })
    else some (.error .other)
  | _, _ => none

end Verif.Hdf5
