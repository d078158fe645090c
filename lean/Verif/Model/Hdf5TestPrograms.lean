import Verif.Model.Hdf5Instances
import Verif.Model.Hdf5Lists

/-!
The test programs of the Fortran wrapper of HDF5 (fortran/hdf5_wrapper/test/test_write.f90 and test_read.f90). The numbers and strings which are written, and what is in variables before something is read, are arguments. The programs
have the names "./test.hdf5" and "test.hdf5" for the file, which is one name here. Messages are left out; what is printed is what was read.
-/

namespace Verif.Hdf5

open FortranReaders

/-- The variables of test_write.f90 (lines 7-68). Arrays have the shapes in `TestData.Shapes`. `twenty` is the number 20, `sixteen` is `r4arr*0.0+16.0`, and `str` is `str(1:2,1:2)`. -/
structure TestData where
  rscalar : FArray
  dozen : FArray
  iarr : FArray
  i8arr : FArray
  r8arr : FArray
  r4arr : FArray
  str : FArray
  i4attr : FArray
  i8attr : FArray
  r4attr : FArray
  r8attr : FArray
  i4scalarattr : FArray
  twenty : FArray
  sixteen : FArray

/-- A call of `hdf5_write_data` without `start`, `count` and options -/
def putArray (w : World) (ifile : Int) (name : String) (ty : ElemType) (len : Nat) (a : FArray) (overwrite : Bool := false) : Except Err World :=
  hdf5WriteData w ifile name.toList ty len { overwrite := overwrite, memtype := ty.memtype len, arr := a }

/-- test_write.f90 (lines 67-95) -/
def testWrite (fname : Name) (d : TestData) (w : World) : Except Err World := do
  let (ifile, w) ← createFile w fname
  let w ← putArray w ifile "Pi" .real 0 d.rscalar
  let w ← putArray w ifile "Dozen" .integer4 0 d.dozen
  let w ← putArray w ifile "/Arrays/I4_Array" .integer4 0 d.iarr
  let w ← putArray w ifile "/Arrays/I8_Array" .integer8 0 d.i8arr true
  let w ← putArray w ifile "/Arrays/Real/R8_Array" .double 0 d.r8arr
  let w ← putArray w ifile "/Arrays/Real/R4_Array" .real 0 d.r4arr
  let w ← putArray w ifile "/Arrays/Test-String" .string 20 d.str
  let w ← hdf5WriteAttribute w ifile "/Arrays/I4_Attribute".toList true .integer4 0 d.i4attr
  let w ← hdf5WriteAttribute w ifile "/Arrays/I8_Attribute".toList false .integer8 0 d.i8attr
  let w ← hdf5WriteAttribute w ifile "/Arrays/R4_Attribute".toList false .real 0 d.r4attr
  let w ← hdf5WriteAttribute w ifile "/Arrays/R8_Attribute".toList false .double 0 d.r8attr
  let w ← hdf5WriteAttribute w ifile "/Arrays/I4_Scalar".toList false .integer4 0 d.i4scalarattr
  let w ← makeGroup w ifile "Group1/Group2".toList
  let w ← makeGroup w ifile "Group1/Group2/GroupA".toList
  let w ← makeGroup w ifile "Group1/Group2/GroupB".toList
  let w ← closeFile w ifile
  let (ifile, w) ← openFile w fname false
  let w ← hdf5WriteAttribute w ifile "/Arrays/I4_Scalar".toList true .integer4 0 d.twenty
  let w ← putArray w ifile "/Arrays/Real/R4_Array" .real 0 d.sixteen true
  closeFile w ifile

/-- What is in the variables of test_read.f90 before something is read into them: `Dozen`, `r8arr(1:1,:)`, `i4attr`, `intattr`, `r4attr`, `str`, `i4arr`, `i4arr*0` (line 59), `i` and the sections of `i4arr*0` (lines 81 and 92) -/
structure TestMemory where
  dozen : FArray
  r8arr : FArray
  i4attr : FArray
  intattr : FArray
  r4attr : FArray
  str : FArray
  i4arr : FArray
  zero : FArray
  i : FArray
  row : FArray
  column : FArray

/-- What test_read.f90 prints: the variables, types and sizes, and lists of names -/
structure TestOutput where
  dozen : FArray
  r8arr : FArray
  i4attr : FArray
  intattr : FArray
  r4attr : FArray
  str : FArray
  i4arr : FArray
  part : FArray
  i : FArray
  row : FArray
  column : FArray
  typeDozen : DType
  typeR8 : DType
  rootDatasets : List Name
  arrayDatasets : List Name
  rootGroups : List Name
  attributes : List Name

/-- `set_name` (line 18) -/
def setName : NameArray := ⟨100, 200⟩

/-- The names which are printed: `trim(set_name(i))` for each `i` up to `nsets` -/
def printNames (r : Nat × List Name) : List Name := (r.2.take r.1).map trimBlanks

/-- test_read.f90 (lines 20-131). `start` and `count` have seven elements, of which the first two are set; the other ones are `srest` and `crest`. -/
def testRead (order : List Name → List Name) (srest crest : List Int) (fname : Name) (m : TestMemory) (w : World) : Except Err (TestOutput × World) := do
  let (ifile, w) ← openFile w fname true
  let get (w : World) (name : String) (ty : ElemType) (len : Nat) (a : FArray) (region : Option (List Int × List Int)) : Except Err (FArray × World) :=
    hdf5ReadData w ifile name.toList ty len { memtype := ty.memtype len, region := region, arr := a }
  let region (s1 s2 c1 c2 : Int) : Option (List Int × List Int) := some (s1 :: s2 :: srest, c1 :: c2 :: crest)
  let (dozen, w) ← get w "Dozen" .integer4 0 m.dozen none
  let (r8arr, w) ← get w "/Arrays/Real/R8_Array" .double 0 m.r8arr none
  let i4attr ← hdf5ReadAttribute w ifile "Arrays/I4_Attribute".toList .integer4 0 m.i4attr
  let intattr ← hdf5ReadAttribute w ifile "Arrays/I4_Scalar".toList .integer4 0 m.intattr
  let r4attr ← hdf5ReadAttribute w ifile "Arrays/R4_Attribute".toList .real 0 m.r4attr
  let (str, w) ← get w "Arrays/Test-String" .string 20 m.str none
  let (i4arr, w) ← get w "/Arrays/I4_Array" .integer4 0 m.i4arr none
  let (part, w) ← get w "/Arrays/I4_Array" .integer4 0 m.zero (region 3 2 3 2)
  let (i, w) ← get w "/Arrays/I4_Array" .integer4 0 m.i (region 4 2 1 1)
  let (row, w) ← get w "/Arrays/I4_Array" .integer4 0 m.row (region 2 2 3 1)
  let (column, w) ← get w "/Arrays/I4_Array" .integer4 0 m.column (region 2 1 1 3)
  let typeDozen ← getInfo w ifile "Dozen".toList
  let typeR8 ← getInfo w ifile "/Arrays/Real/R8_Array".toList
  let rootDatasets ← listDatasets order w ifile "/".toList (some setName)
  let arrayDatasets ← listDatasets order w ifile "/Arrays".toList (some setName)
  let rootGroups ← listGroups order w ifile "/".toList (some setName)
  let attributes ← listAttributes order w ifile "/Arrays".toList (some setName)
  let w ← closeFile w ifile
  .ok (⟨dozen, r8arr, i4attr, intattr, r4attr, str, i4arr, part, i, row, column, typeDozen.1, typeR8.1, printNames rootDatasets, printNames arrayDatasets, printNames rootGroups, printNames attributes⟩, w)

end Verif.Hdf5
