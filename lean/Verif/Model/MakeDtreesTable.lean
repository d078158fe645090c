import Verif.Model.DtreesTable
import Verif.Model.TreeMass
import Verif.Spec.Formats

/-!
`add_depth_first_index` and `make_dtrees_table` (python/virgo/database/make_dtrees_table.py 89-103, 163-173).

Integers are signed and stored by a little endian machine. Masses are exact: `massValue` is the number stored in the bytes of an element, and `massBytes` are the bytes a number is stored with. The
functions which sort, and the contents of new memory, are parameters. Other types of the arrays which are used here are outside the model (`.other`).
-/

namespace Verif

/-- Functions of numpy -/
structure TreeOps (M : Type*) where
  massValue : List Byte → M
  massBytes : M → List Byte
  argsort : List Int → List Nat
  argsortM : List M → List Nat
  lexsort : List (Int ×ₗ Int) → List Nat
  empty : Nat → List M

/-- Value of a signed integer -/
def intValue (v : List Byte) : Int := if 2 * leNat v ≥ 256 ^ v.length then (leNat v : Int) - 256 ^ v.length else leNat v

/-- Bytes of a signed integer of `size` bytes -/
def intBytes (size : Nat) (x : Int) : List Byte := leBytes size (x % 256 ^ size).toNat

/-- Elements of an array with one dimension -/
def Arr.elements (a : Arr) : List (List Byte) := a.rows.map (fun row => row.getD 0 [])

def Arr.isInts (a : Arr) : Prop := a.rowShape = [] ∧ a.dtype.kind = 'i' ∧ a.dtype.native = true
def Arr.isFloats (a : Arr) : Prop := a.rowShape = [] ∧ a.dtype.kind = 'f' ∧ a.dtype.native = true

instance (a : Arr) : Decidable a.isInts := by unfold Arr.isInts; infer_instance
instance (a : Arr) : Decidable a.isFloats := by unfold Arr.isFloats; infer_instance

/-- A new array with one dimension -/
def newArray (dtype : SqlDType) (elements : List (List Byte)) : Arr := ⟨dtype, [], elements.map (fun x => [x])⟩

/-- `add_depth_first_index(data)` (89-103). `depthFirst` has the type of `descendantIndex`, `mBranch` that of `nodeMass`. -/
def addDepthFirstIndex {M : Type*} [AddCommMonoid M] [LinearOrder M] (ops : TreeOps M) (fuel : Nat) (data : List (Name × Arr)) : Except Err (List (Name × Arr)) :=
  -- (95-98)
  match dget data "nodeIndex".toList, dget data "descendantIndex".toList, dget data "snapshotNumber".toList, dget data "nodeMass".toList with
  | some aN, some aD, some aS, some aM =>
    if ¬ (aN.isInts ∧ aD.isInts ∧ aS.isInts ∧ aM.isFloats) then .error .other
    else
      let nodeIndex := aN.elements.map intValue
      let descendantIndex := aD.elements.map intValue
      let snapnum := aS.elements.map intValue
      let mass := aM.elements.map ops.massValue
      let idx := ops.lexsort (lexKeys nodeIndex snapnum)
      match branchMass nodeIndex descendantIndex mass idx (ops.argsort (fancy nodeIndex idx)) (ops.empty mass.length) with
      | .error e => .error e
      | .ok mBranch =>
        let data := dset data "mBranch".toList (newArray aM.dtype (mBranch.map ops.massBytes))
        -- (100-102)
        match depthFirstIndex nodeIndex descendantIndex (ops.argsort nodeIndex) (ops.argsortM mBranch) ops.argsort fuel with
        | .error e => .error e
        | .ok (depthFirst, endMainBranch, lastProgenitor) =>
          let data := dset data "depthFirst".toList (newArray aD.dtype (depthFirst.map (intBytes aD.dtype.itemsize)))
          let data := dset data "endMainBranch".toList (newArray aD.dtype (endMainBranch.map (intBytes aD.dtype.itemsize)))
          .ok (dset data "lastProgenitor".toList (newArray aD.dtype (lastProgenitor.map (intBytes aD.dtype.itemsize))))
  | _, _, _, _ => .error .keyError

/-- `make_dtrees_table(tablename, input_basename, output_basename)` (163-173) -/
def makeDtreesTable {M : Type*} [AddCommMonoid M] [LinearOrder M] (ops : TreeOps M) (memory : Nat → Nat → List Byte) (tablename : Name) (files : Nat → Option TreeFile) (fuel : Nat) : TableOut :=
  match readDhaloTrees files with
  | .error e => ⟨none, .error e⟩
  | .ok data =>
    match addDepthFirstIndex ops fuel data with
    | .error e => ⟨none, .error e⟩
    | .ok data => writeTable memory tablename data

end Verif
