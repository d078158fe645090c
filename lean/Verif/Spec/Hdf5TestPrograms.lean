import Verif.Spec.Hdf5Files
import Verif.Model.Hdf5TestPrograms

/-!
What the test programs of the Fortran wrapper of HDF5 should print
-/

namespace Verif.Hdf5

/-- An array with a shape, elements of a size, and one element for each index -/
structure Shaped (a : FArray) (dims : List Nat) (size : Nat) : Prop where
  dims : a.dims = dims
  wf : a.WF
  size : ∀ v ∈ a.elems, v.length = size

/-- Declarations of test_write.f90, with `n` in place of 100000 -/
structure TestData.Shapes (d : TestData) (n : Nat) : Prop where
  rscalar : Shaped d.rscalar [] 4
  dozen : Shaped d.dozen [] 4
  iarr : Shaped d.iarr [5, 3] 4
  i8arr : Shaped d.i8arr [2, 6] 8
  r8arr : Shaped d.r8arr [n] 8
  r4arr : Shaped d.r4arr [2, 2, 2] 4
  str : Shaped d.str [2, 2] 20
  i4attr : Shaped d.i4attr [5, 3] 4
  i8attr : Shaped d.i8attr [3, 3, 3] 8
  r4attr : Shaped d.r4attr [5, 3] 4
  r8attr : Shaped d.r8attr [5, 3] 8
  i4scalarattr : Shaped d.i4scalarattr [] 4
  twenty : Shaped d.twenty [] 4
  sixteen : Shaped d.sixteen [2, 2, 2] 4

/-- Declarations of test_read.f90 -/
structure TestMemory.Shapes (m : TestMemory) (n : Nat) : Prop where
  dozen : Shaped m.dozen [] 4
  r8arr : Shaped m.r8arr [1, n] 8
  i4attr : Shaped m.i4attr [5, 3] 4
  intattr : Shaped m.intattr [] 4
  r4attr : Shaped m.r4attr [5, 3] 4
  str : Shaped m.str [5, 5] 20
  i4arr : Shaped m.i4arr [10, 20] 4
  zero : Shaped m.zero [10, 20] 4
  i : Shaped m.i [] 4
  row : Shaped m.row [3] 4
  column : Shaped m.column [3] 4

/-- `a` has the elements of the `p` by `q` array `b`, from the indexes `s` and `t` (from zero) on, and those of `old` elsewhere. -/
def Part2 (b : FArray) (s t p q : Nat) (old a : FArray) : Prop :=
  a.dims = old.dims ∧ (∀ i < p, ∀ j < q, a.at [i, j] = b.at [s + i, t + j]) ∧
    ∀ i j, i < old.dims.getD 0 0 → j < old.dims.getD 1 0 → ¬ (i < p ∧ j < q) → a.at [i, j] = old.at [i, j]

/-- Output of test_read.f90 after test_write.f90 -/
structure TestOutput.Right (d : TestData) (m : TestMemory) (o : TestOutput) : Prop where
  dozen : o.dozen = d.dozen
  r8arr : o.r8arr = ⟨m.r8arr.dims, d.r8arr.elems⟩
  i4attr : o.i4attr = d.i4attr
  intattr : o.intattr = d.twenty
  r4attr : o.r4attr = d.r4attr
  str : Part2 d.str 0 0 2 2 m.str o.str
  i4arr : Part2 d.iarr 0 0 5 3 m.i4arr o.i4arr
  part : Part2 d.iarr 2 1 3 2 m.zero o.part
  i : o.i.at [] = d.iarr.at [3, 1]
  row : o.row.dims = [3] ∧ ∀ i < 3, o.row.at [i] = d.iarr.at [1 + i, 1]
  column : o.column.dims = [3] ∧ ∀ i < 3, o.column.at [i] = d.iarr.at [1, i]
  typeDozen : o.typeDozen = ⟨.integer true, 4⟩
  typeR8 : o.typeR8 = ⟨.float, 8⟩
  rootDatasets : o.rootDatasets.Perm ["Pi".toList, "Dozen".toList]
  arrayDatasets : o.arrayDatasets.Perm ["I4_Array".toList, "I8_Array".toList, "Test-String".toList]
  rootGroups : o.rootGroups.Perm ["Arrays".toList, "Group1".toList]
  attributes : o.attributes.Perm ["I4_Attribute".toList, "I8_Attribute".toList, "R4_Attribute".toList, "R8_Attribute".toList, "I4_Scalar".toList]

end Verif.Hdf5
