import Verif.Model.Hdf5Files

/-!
The subroutines which the preprocessor makes for each type and rank (fortran/hdf5_wrapper/src/write_dataset_preprocessor.inc, read_dataset_preprocessor.inc, write_attribute_preprocessor.inc and
read_attribute_preprocessor.inc), behind the generic names `hdf5_write_data`, `hdf5_read_data`, `hdf5_write_attribute` and `hdf5_read_attribute` (hdf5_wrapper.F90 68-240). The compiler chooses the one
for the type and the rank of the array. How many dimensions are looked at is another macro, `NDIMS`; the memory which is read or written begins with the first element in any case.
-/

namespace Verif.Hdf5

/-- Types of arrays: `INTEGER*4`, `INTEGER*8`, `REAL*4`, `REAL*8` and `CHARACTER(LEN=*)` -/
inductive ElemType
  | integer4
  | integer8
  | real
  | double
  | string
  deriving DecidableEq

/-- `NATIVE_TYPE` (write_dataset_preprocessor.inc 4, 80, 157, 232, 308, and the same in the other files). Strings have the length of the elements of the array (write_dataset.inc 109-110). -/
def ElemType.memtype (len : Nat) : ElemType → DType
  | .integer4 => ⟨.integer true, 4⟩
  | .integer8 => ⟨.integer true, 8⟩
  | .real => ⟨.float, 4⟩
  | .double => ⟨.float, 8⟩
  | .string => ⟨.string, len⟩

/-- Type, number of colons in `ARRAY_DIM` (none for scalars) and `NDIMS` of the subroutines of write_dataset_preprocessor.inc, in their order -/
def writeTable : List (ElemType × Nat × Nat) := [
    (.integer4, 1, 1), (.integer4, 2, 2), (.integer4, 3, 3), (.integer4, 4, 4), (.integer4, 5, 5), (.integer4, 6, 6), (.integer4, 7, 2), (.integer4, 0, 0),
    (.integer8, 1, 1), (.integer8, 2, 2), (.integer8, 3, 3), (.integer8, 4, 4), (.integer8, 5, 5), (.integer8, 6, 6), (.integer8, 7, 2), (.integer8, 0, 0),
    (.real, 1, 1), (.real, 2, 2), (.real, 3, 3), (.real, 4, 4), (.real, 5, 5), (.real, 6, 6), (.real, 7, 7), (.real, 0, 0),
    (.double, 1, 1), (.double, 2, 2), (.double, 3, 3), (.double, 4, 4), (.double, 5, 5), (.double, 6, 6), (.double, 7, 7), (.double, 0, 0),
    (.string, 1, 1), (.string, 2, 2), (.string, 3, 3), (.string, 4, 4), (.string, 5, 5), (.string, 6, 6), (.string, 7, 7), (.string, 0, 0)]

/-- read_dataset_preprocessor.inc -/
def readTable : List (ElemType × Nat × Nat) := [
    (.real, 0, 0), (.real, 1, 1), (.real, 2, 2), (.real, 3, 3), (.real, 4, 4), (.real, 5, 5), (.real, 6, 6), (.real, 7, 7),
    (.double, 0, 0), (.double, 1, 1), (.double, 2, 2), (.double, 3, 3), (.double, 4, 4), (.double, 5, 5), (.double, 6, 6), (.double, 7, 7),
    (.integer4, 0, 0), (.integer4, 1, 1), (.integer4, 2, 2), (.integer4, 3, 3), (.integer4, 4, 4), (.integer4, 5, 5), (.integer4, 6, 6), (.integer4, 7, 7),
    (.integer8, 0, 0), (.integer8, 1, 1), (.integer8, 2, 2), (.integer8, 3, 3), (.integer8, 4, 4), (.integer8, 5, 5), (.integer8, 6, 6), (.integer8, 7, 7),
    (.string, 0, 0), (.string, 1, 1), (.string, 2, 2), (.string, 3, 3), (.string, 4, 4), (.string, 5, 5), (.string, 6, 6), (.string, 7, 7)]

/-- write_attribute_preprocessor.inc -/
def writeAttrTable : List (ElemType × Nat × Nat) := [
    (.integer4, 1, 1), (.integer4, 2, 2), (.integer4, 3, 3), (.integer4, 4, 4), (.integer4, 5, 5), (.integer4, 6, 6), (.integer4, 7, 7), (.integer4, 0, 0),
    (.integer8, 1, 1), (.integer8, 2, 2), (.integer8, 3, 3), (.integer8, 4, 4), (.integer8, 5, 5), (.integer8, 6, 6), (.integer8, 7, 7), (.integer8, 0, 0),
    (.real, 1, 1), (.real, 2, 2), (.real, 3, 3), (.real, 4, 4), (.real, 5, 5), (.real, 6, 6), (.real, 7, 7), (.real, 0, 0),
    (.double, 1, 1), (.double, 2, 2), (.double, 3, 3), (.double, 4, 4), (.double, 5, 5), (.double, 6, 6), (.double, 7, 7), (.double, 0, 0),
    (.string, 1, 1), (.string, 2, 2), (.string, 3, 3), (.string, 4, 4), (.string, 5, 5), (.string, 6, 6), (.string, 7, 7), (.string, 0, 0)]

/-- read_attribute_preprocessor.inc -/
def readAttrTable : List (ElemType × Nat × Nat) := [
    (.integer4, 1, 1), (.integer4, 2, 2), (.integer4, 3, 3), (.integer4, 4, 4), (.integer4, 5, 5), (.integer4, 6, 6), (.integer4, 7, 7), (.integer4, 0, 0),
    (.integer8, 1, 1), (.integer8, 2, 2), (.integer8, 3, 3), (.integer8, 4, 4), (.integer8, 5, 5), (.integer8, 6, 6), (.integer8, 7, 7), (.integer8, 0, 0),
    (.real, 1, 1), (.real, 2, 2), (.real, 3, 3), (.real, 4, 4), (.real, 5, 5), (.real, 6, 6), (.real, 7, 7), (.real, 0, 0),
    (.double, 1, 1), (.double, 2, 2), (.double, 3, 3), (.double, 4, 4), (.double, 5, 5), (.double, 6, 6), (.double, 7, 7), (.double, 0, 0),
    (.string, 1, 1), (.string, 2, 2), (.string, 3, 3), (.string, 4, 4), (.string, 5, 5), (.string, 6, 6), (.string, 7, 7), (.string, 0, 0)]

/-- `NDIMS` of the subroutine for a type and a rank -/
def instNdims (table : List (ElemType × Nat × Nat)) (ty : ElemType) (rank : Nat) : Option Nat := (table.find? (fun e => decide (e.1 = ty ∧ e.2.1 = rank))).map (·.2.2)

/-- The array as the subroutine sees it: `size(arr, i)` for the first `NDIMS` dimensions, and the memory from its first element -/
def asSeen (ndims : Nat) (a : FArray) : FArray := ⟨a.dims.take ndims, a.elems⟩

/-- `hdf5_write_data`. The type of the array is `ty`, and `a.memtype` is not used. An array for which there is no subroutine does not compile (`.other`). -/
def hdf5WriteData (w : World) (ifile : Int) (name : Name) (ty : ElemType) (len : Nat) (a : WriteArgs) : Except Err World :=
  match instNdims writeTable ty a.arr.dims.length with
  | none => .error .other
  | some n => writeDset w ifile name { a with memtype := ty.memtype len, arr := asSeen n a.arr }

/-- The array after reading has the shape it had. -/
def withDims (a : FArray) (r : Except Err (FArray × World)) : Except Err (FArray × World) := r.map (fun x => (⟨a.dims, x.1.elems⟩, x.2))

/-- `hdf5_read_data` -/
def hdf5ReadData (w : World) (ifile : Int) (name : Name) (ty : ElemType) (len : Nat) (r : ReadArgs) : Except Err (FArray × World) :=
  match instNdims readTable ty r.arr.dims.length with
  | none => .error .other
  | some n => withDims r.arr (readDset w ifile name { r with memtype := ty.memtype len, arr := asSeen n r.arr })

/-- `hdf5_write_attribute` -/
def hdf5WriteAttribute (w : World) (ifile : Int) (name : Name) (overwrite : Bool) (ty : ElemType) (len : Nat) (a : FArray) : Except Err World :=
  match instNdims writeAttrTable ty a.dims.length with
  | none => .error .other
  | some n => writeAttr w ifile name overwrite (ty.memtype len) (asSeen n a)

/-- `hdf5_read_attribute` -/
def hdf5ReadAttribute (w : World) (ifile : Int) (name : Name) (ty : ElemType) (len : Nat) (a : FArray) : Except Err FArray :=
  match instNdims readAttrTable ty a.dims.length with
  | none => .error .other
  | some n => (readAttr w ifile name (ty.memtype len) (asSeen n a)).map (fun x => ⟨a.dims, x.elems⟩)

end Verif.Hdf5
