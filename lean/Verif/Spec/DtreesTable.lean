import Verif.Model.DtreesTable
import Verif.Spec.EagleFilename

/-!
What the database tables should contain. Only the types of data are taken from the model.
-/

namespace Verif

/-- Types of a table column with the number of bytes of a value -/
inductive SqlSize : List Char → Nat → Prop
  | integer : SqlSize "integer".toList 4
  | bigint : SqlSize "bigint".toList 8
  | real : SqlSize "real".toList 4
  | float : SqlSize "float".toList 8
  | char (n : Nat) : SqlSize ("char(".toList ++ digitsOf n ++ ")".toList) n

/-- Types which can be stored: integers and floating point numbers of 4 and 8 bytes in the byte order of the machine, and strings -/
def SqlSupported (t : SqlDType) : Prop :=
  (t.kind = 'i' ∧ t.itemsize = 4 ∧ t.native = true) ∨ (t.kind = 'i' ∧ t.itemsize = 8 ∧ t.native = true) ∨
  (t.kind = 'f' ∧ t.itemsize = 4 ∧ t.native = true) ∨ (t.kind = 'f' ∧ t.itemsize = 8 ∧ t.native = true) ∨ t.kind = 'S'

/-- A column of the table: name, type and values -/
structure OutColumn where
  name : List Char
  dtype : SqlDType
  values : List (List Byte)

/-- Component `j` of an array -/
def Arr.component (a : Arr) (j : Nat) : List (List Byte) := a.rows.map (fun row => row.getD j [])

/-- Columns made from an array: one, or three for a vector -/
def columnsOf (name : List Char) (a : Arr) : List OutColumn :=
  if a.rowShape = [3] then
    [⟨name ++ "_x".toList, a.dtype, a.component 0⟩, ⟨name ++ "_y".toList, a.dtype, a.component 1⟩, ⟨name ++ "_z".toList, a.dtype, a.component 2⟩]
  else [⟨name, a.dtype, a.component 0⟩]

/-- Columns of the table -/
def outColumns (data : List (List Char × Arr)) : List OutColumn := data.flatMap (fun c => columnsOf c.1 c.2)

/-- An array with `n` elements or `n` vectors of which each component has as many bytes as its type says -/
def TableArray (n : Nat) (a : Arr) : Prop :=
  a.rows.length = n ∧ (a.rowShape = [] ∨ a.rowShape = [3]) ∧ ∀ row ∈ a.rows, row.length = a.rowShape.prod ∧ ∀ x ∈ row, x.length = a.dtype.itemsize

/-- Bytes in a row before column `j` -/
def bytesBefore (cols : List OutColumn) (j : Nat) : Nat := ((cols.take j).map (fun c => c.dtype.itemsize)).sum

/-- `text` is the definition of a column: its name and a type with the size of the values -/
def DefinesColumn (c : OutColumn) (text : List Char) : Prop :=
  ∃ t, SqlSize t c.dtype.itemsize ∧ text = "  ".toList ++ c.name ++ " ".toList ++ t ++ " NOT NULL,\n".toList

/-- The array with a name in a file, if there is one -/
def TreeFile.array (f : TreeFile) (name : List Char) : Option Arr := (f.haloTrees.find? (fun e => e.1 = name)).map Prod.snd

/-- Values with a name in file `i` -/
def valuesIn (files : Nat → Option TreeFile) (name : List Char) (i : Nat) : List (List (List Byte)) :=
  match files i with
  | none => []
  | some f => match f.array name with
    | none => []
    | some a => a.rows

end Verif
