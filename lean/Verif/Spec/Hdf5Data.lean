import Verif.Lib.NdArray
import Verif.Model.Hdf5Data

/-!
What reading and writing of parts of HDF5 datasets means, in terms of the indexes of elements.
-/

namespace Verif.Hdf5

/-- Position of the element with an index in the memory of Fortran: each index counts the elements of all dimensions before it. -/
def offset (dims idx : List Nat) : Nat := ((List.range idx.length).map (fun k => idx.getD k 0 * (dims.take k).prod)).sum

/-- The element with an index -/
def FArray.at (a : FArray) (idx : List Nat) : Option (List Byte) := a.elems[offset a.dims idx]?

def Dset.at (d : Dset) (idx : List Nat) : Option (List Byte) := d.data[offset d.dims idx]?

/-- There is one element for each index. -/
def FArray.WF (a : FArray) : Prop := a.elems.length = a.dims.prod

structure Dset.WF (d : Dset) : Prop where
  data : d.data.length = d.dims.prod
  maxdims : d.maxdims.length = d.dims.length
  within : ∀ i < d.dims.length, ∀ m, d.maxdims[i]? = some (some m) → d.dims.getD i 0 ≤ m
  size : 0 < d.dtype.size
  elems : ∀ v ∈ d.data, v.length = d.dtype.size

/-- The entries of `xs` for the dimensions with more than one element -/
def squeezed (dims xs : List Nat) : List Nat := ((dims.zip xs).filter (fun p => decide (1 < p.1))).map (·.2)

/-- Value of an integer -/
def intOf (signed : Bool) (v : List Byte) : Int := if signed ∧ 256 ^ v.length / 2 ≤ leNat v then (leNat v : Int) - 256 ^ v.length else leNat v

/-- Smallest and largest integer of a type -/
def intMin (signed : Bool) (size : Nat) : Int := if signed then -(256 ^ size / 2) else 0
def intMax (signed : Bool) (size : Nat) : Int := if signed then 256 ^ size / 2 - 1 else 256 ^ size - 1

/-- `w` is `v` in another type: integers as near as possible, strings with blanks at the end, and everything else unchanged -/
def Converted (src dst : DType) (v w : List Byte) : Prop :=
  match src.cls, dst.cls with
  | .integer s, .integer t => w.length = dst.size ∧ intOf t w = max (intMin t dst.size) (min (intMax t dst.size) (intOf s v))
  | .string, .string => ∃ n, w = v ++ List.replicate n 32 ∧ w.length = dst.size
  | _, _ => w = v

/-- Types between which the wrapper reads: the same kind, and the same size or a string with enough room -/
def Compatible (src dst : DType) : Prop :=
  match src.cls, dst.cls with
  | .integer _, .integer _ => src.size = dst.size
  | .float, .float => src.size = dst.size
  | .string, .string => src.size ≤ dst.size
  | .other, .other => src.size = dst.size
  | _, _ => False

/-- The part of a dataset which is asked for: everything, or `start` (from one) and `count` for at least as many dimensions as there are -/
inductive IsRegion (dims : List Nat) : Option (List Int × List Int) → List Nat → List Nat → Prop
  | whole : IsRegion dims none (List.replicate dims.length 0) dims
  | part (s c : List Int) (start count : List Nat) (hs : start.length = dims.length) (hc : count.length = dims.length)
    (h : ∀ i < dims.length, s[i]? = some ((start.getD i 0 : Int) + 1) ∧ c[i]? = some (count.getD i 0 : Int)) : IsRegion dims (some (s, c)) start count

/-- The part is inside of the dataset. -/
def Inside (dims start count : List Nat) : Prop := ∀ i < dims.length, start.getD i 0 + count.getD i 0 ≤ dims.getD i 0

/-- Apart from dimensions with one element, the array has as many dimensions as the part, and is at least as large. -/
def Holds (adims count : List Nat) : Prop := List.Forall₂ (fun n c => c ≤ n) (squeezed adims adims) (squeezed count count)

/-- Index `idx` of a part is kept at index `j` of an array. -/
def SamePlace (count idx adims j : List Nat) : Prop := squeezed count idx = squeezed adims j

/-- The array after reading -/
structure ReadResult (ds : Dset) (memtype : DType) (start count : List Nat) (a a' : FArray) : Prop where
  dims : a'.dims = a.dims
  wf : a'.WF
  values : ∀ idx j : List Nat, InShape count idx → InShape a.dims j → SamePlace count idx a.dims j → ∃ v w, ds.at (List.zipWith (· + ·) start idx) = some v ∧ a'.at j = some w ∧ Converted ds.dtype memtype v w
  others : ∀ j : List Nat, InShape a.dims j → (∀ idx, InShape count idx → ¬ SamePlace count idx a.dims j) → a'.at j = a.at j

/-- Elements of an array have the size of their type. -/
structure FArray.HasType (a : FArray) (t : DType) : Prop where
  size : 0 < t.size
  elems : ∀ v ∈ a.elems, v.length = t.size

/-- Index `k` is one of those of the part. -/
def InPart (start count k : List Nat) : Prop := ∃ idx, InShape count idx ∧ k = List.zipWith (· + ·) start idx

/-- The dataset after writing a part -/
structure WriteResult (ds : Dset) (memtype : DType) (start count : List Nat) (a : FArray) (ds' : Dset) : Prop where
  dtype : ds'.dtype = ds.dtype
  maxdims : ds'.maxdims = ds.maxdims
  rank : ds'.dims.length = ds.dims.length
  dims : ∀ i < ds.dims.length, ds'.dims.getD i 0 = max (ds.dims.getD i 0) (start.getD i 0 + count.getD i 0)
  wf : ds'.WF
  values : ∀ idx j : List Nat, InShape count idx → InShape a.dims j → SamePlace count idx a.dims j → ∃ v w, a.at j = some v ∧ ds'.at (List.zipWith (· + ·) start idx) = some w ∧ Converted memtype ds.dtype v w
  others : ∀ k : List Nat, InShape ds.dims k → ¬ InPart start count k → ds'.at k = ds.at k
  zeros : ∀ k : List Nat, InShape ds'.dims k → ¬ InShape ds.dims k → ¬ InPart start count k → ds'.at k = some (List.replicate ds.dtype.size 0)

/-- There is room for the part, or the dataset can be extended. -/
def Room (ds : Dset) (start count : List Nat) : Prop := ∀ i < ds.dims.length, ∀ m, ds.maxdims[i]? = some (some m) → start.getD i 0 + count.getD i 0 ≤ m

/-- A dataset of zeros -/
def blank (t : DType) (dims : List Nat) (extensible : Bool) : Dset := ⟨t, dims, dims.map (fun d => if extensible then none else some d), List.replicate dims.prod (List.replicate t.size 0)⟩

/-- The size of a new dataset: as asked for, or large enough for the part, or that of the array -/
inductive NewSize (adims : List Nat) : Option (List Int) → Option (List Int × List Int) → List Nat → Prop
  | initial (size : List Int) (region : Option (List Int × List Int)) (dims : List Nat) (hl : dims.length = adims.length) (h : ∀ i < adims.length, size[i]? = some (dims.getD i 0 : Int)) : NewSize adims (some size) region dims
  | part (s c : List Int) (start count : List Nat) (h : IsRegion adims (some (s, c)) start count) : NewSize adims none (some (s, c)) (List.zipWith (· + ·) start count)
  | whole : NewSize adims none none adims

/-- The data is compressed: a level of ten or more is that of gzip plus ten. -/
def Compressed (o : CreateOptions) : Prop := (0 < o.gzip ∧ o.gzip ≤ 9) ∨ 10 < o.gzip

/-- Number of elements in a chunk: at most 8192 in each dimension, or as asked for -/
def chunkElems (o : CreateOptions) (dims : List Nat) : Nat := ((List.range dims.length).map (fun i => min (dims.getD i 0) (o.chunk_size.getD i 8192).toNat)).prod

/-- What can be kept in a file: everything if it is in one piece, and otherwise arrays with elements, in chunks of at least one element and less than four gigabytes -/
def Storable (o : CreateOptions) (t : DType) (dims : List Nat) : Prop :=
  (¬ Compressed o ∧ o.szip = false ∧ o.extensible = none) ∨ (dims ≠ [] ∧ 0 < chunkElems o dims ∧ chunkElems o dims * t.size < 2 ^ 32)

end Verif.Hdf5
