import Verif.Lib.Np
import Verif.Model.ReadBinary
import Verif.Model.EagleFilename

/-!
Database tables made from merger trees (python/virgo/database/make_dtrees_table.py), except for the calls to `index_trees`.

The elements of an array are represented by their bytes. Arrays have at least one dimension. Arrays with different types are not concatenated here, although numpy promotes them to a common
type. Names of columns are not empty.
-/

namespace Verif

/-- A numpy type: `kind`, `itemsize`, and whether it has the byte order of the machine or none -/
structure SqlDType where
  kind : Char
  itemsize : Nat
  native : Bool
  deriving DecidableEq

/-- `np.int32`, `np.int64`, `np.float32`, `np.float64` -/
def npInt32 : SqlDType := ⟨'i', 4, true⟩
def npInt64 : SqlDType := ⟨'i', 8, true⟩
def npFloat32 : SqlDType := ⟨'f', 4, true⟩
def npFloat64 : SqlDType := ⟨'f', 8, true⟩

/-- `sql_type(dtype)` (python/virgo/database/make_dtrees_table.py 15-35) -/
def sqlType (dtype : SqlDType) : Except Err Name :=
  if dtype.kind = 'i' ∨ dtype.kind = 'u' ∨ dtype.kind = 'f' then
    if dtype = npInt32 then .ok "integer".toList
    else if dtype = npInt64 then .ok "bigint".toList
    else if dtype = npFloat32 then .ok "real".toList
    else if dtype = npFloat64 then .ok "float".toList
    else .error .valueError
  else if dtype.kind = 'S' then .ok ("char(".toList ++ decimal dtype.itemsize ++ ")".toList)
  else .error .valueError

/-- Characters removed by `strip()` -/
def pySpace (c : Char) : Bool :=
  let n := c.toNat
  (9 ≤ n && n ≤ 13) || (28 ≤ n && n ≤ 32) || n == 0x85 || n == 0xa0 || n == 0x1680 || (0x2000 ≤ n && n ≤ 0x200a) || n == 0x2028 || n == 0x2029 || n == 0x202f || n == 0x205f || n == 0x3000

/-- `s.strip()` -/
def pyStrip (s : Name) : Name := ((s.dropWhile pySpace).reverse.dropWhile pySpace).reverse

/-- `re.match("char\(([0-9]+)\)", s)` (40): the group -/
def reChar (s : Name) : Option Name :=
  if s.take 5 = "char(".toList then
    let digits := (s.drop 5).takeWhile reDigit
    if digits ≠ [] ∧ ((s.drop 5).dropWhile reDigit).head? = some ')' then some digits else none
  else none

/-- `numpy_type(sqltype)` (38-55). The module does not import `re`: `reImported` says whether it has the name. -/
def numpyType (reImported : Bool) (sqltype : Name) : Except Err SqlDType :=
  -- (40)
  if !reImported then .error .nameError
  else match reChar (pyStrip sqltype) with
    | some digits => .ok ⟨'S', Nat.ofDigitChars 10 digits 0, true⟩
    | none =>
      if sqltype = "integer".toList ∨ sqltype = "int".toList then .ok npInt32
      else if sqltype = "bigint".toList then .ok npInt64
      else if sqltype = "real".toList then .ok npFloat32
      else if sqltype = "float".toList then .ok npFloat64
      else .error .valueError

/-- An array: type, lengths of all dimensions but the first, and for each index in the first dimension the elements -/
structure Arr where
  dtype : SqlDType
  rowShape : List Nat
  rows : List (List (List Byte))
  deriving DecidableEq

/-- A tree file: attribute `numberOfFiles` and the datasets in group `haloTrees` -/
structure TreeFile where
  numberOfFiles : Nat
  haloTrees : List (Name × Arr)
  deriving DecidableEq

/-- Loop over the datasets of a file (75-79) -/
def readDatasets (ifile : Nat) : List (Name × Arr) → List (Name × List Arr) → Except Err (List (Name × List Arr))
  | [], data => .ok data
  | (name, a) :: rest, data =>
    let data := if ifile = 0 then dset data name [] else data
    match dget data name with
    | none => .error .keyError
    | some l => readDatasets ifile rest (dset data name (l ++ [a]))

/-- Loop over the files (71-81) after the first one; `n` files remain. -/
def readFiles (files : Nat → Option TreeFile) : Nat → Nat → List (Name × List Arr) → Except Err (List (Name × List Arr))
  | _, 0, data => .ok data
  | ifile, n + 1, data =>
    match files ifile with
    | none => .error .ioError
    | some f =>
      match readDatasets ifile f.haloTrees data with
      | .error e => .error e
      | .ok data => readFiles files (ifile + 1) n data

/-- `np.concatenate(arrays, axis=0)` -/
def concatArrays : List Arr → Except Err Arr
  | [] => .error .valueError
  | a :: rest =>
    if rest.any (fun b => b.rowShape != a.rowShape) then .error .valueError
    else if rest.any (fun b => decide (b.dtype ≠ a.dtype)) then .error .other
    else .ok { a with rows := (a :: rest).flatMap Arr.rows }

/-- Lines 84-85 -/
def concatAll : List (Name × List Arr) → Except Err (List (Name × Arr))
  | [] => .ok []
  | (name, l) :: rest =>
    match concatArrays l with
    | .error e => .error e
    | .ok a =>
      match concatAll rest with
      | .error e => .error e
      | .ok r => .ok ((name, a) :: r)

/-- `read_dhalo_trees(basename)` (58-86). `files i` is the file with number `i`, if it exists. The first file is read whatever the number of files in it. -/
def readDhaloTrees (files : Nat → Option TreeFile) : Except Err (List (Name × Arr)) :=
  match files 0 with
  | none => .error .ioError
  | some f =>
    match readDatasets 0 f.haloTrees [] with
    | .error e => .error e
    | .ok data =>
      match readFiles files 1 (f.numberOfFiles - 1) data with
      | .error e => .error e
      | .ok data => concatAll data

/-- `("x","y","z")` -/
def xyz : List Char := ['x', 'y', 'z']

/-- `name+"_"+suffix` -/
def withSuffix (name : Name) (suffix : Char) : Name := name ++ ['_', suffix]

/-- `type_list` (122-134) -/
def typeList (n : Nat) : List (Name × Arr) → Except Err (List (Name × SqlDType))
  | [] => .ok []
  | (name, a) :: rest =>
    if a.rows.length ≠ n then .error .valueError
    else if a.rowShape = [] then
      match typeList n rest with
      | .error e => .error e
      | .ok l => .ok ((name, a.dtype) :: l)
    else if a.rowShape = [3] then
      match typeList n rest with
      | .error e => .error e
      | .ok l => .ok (xyz.map (fun s => (withSuffix name s, a.dtype)) ++ l)
    else .error .valueError

/-- `table[name][:] = values` -/
def setField (names : List Name) (table : List (List (List Byte))) (name : Name) (values : List (List Byte)) : List (List (List Byte)) :=
  (table.zip values).map (fun p => p.1.set (names.idxOf name) p.2)

/-- Lines 140-145 for one array -/
def fillColumn (names : List Name) (table : List (List (List Byte))) (col : Name × Arr) : List (List (List Byte)) :=
  if col.2.rowShape = [] then setField names table col.1 (col.2.rows.map (fun row => row.getD 0 []))
  else [(0, 'x'), (1, 'y'), (2, 'z')].foldl (fun t p => setField names t (withSuffix col.1 p.2) (col.2.rows.map (fun row => row.getD p.1 []))) table

/-- Lines of the script (155-157) -/
def scriptLines : List (Name × SqlDType) → Except Err Name
  | [] => .ok []
  | (name, t) :: rest =>
    match sqlType t with
    | .error e => .error e
    | .ok s =>
      match scriptLines rest with
      | .error e => .error e
      | .ok r => .ok ("  ".toList ++ name ++ ' ' :: s ++ " NOT NULL,\n".toList ++ r)

/-- What is left after `write_sql_server_native_file`: the data file if it is written, and the script or the exception -/
structure TableOut where
  dataFile : Option (List Byte)
  script : Except Err Name
  deriving DecidableEq

/-- `write_sql_server_native_file(tablename, data, data_file, script_file)` (106-159). The memory of the new array (139) holds any bytes: `memory` gives the fields of its rows. -/
def writeTable (memory : Nat → Nat → List Byte) (tablename : Name) (data : List (Name × Arr)) : TableOut :=
  match data with
  -- (117)
  | [] => ⟨none, .error .indexError⟩
  | first :: _ =>
    let n := first.2.rows.length
    match typeList n data with
    | .error e => ⟨none, .error e⟩
    | .ok types =>
      -- (135): names which occur more than once
      let names := types.map Prod.fst
      if ¬ names.Nodup then ⟨none, .error .valueError⟩
      else
        -- (139-145)
        let table := (List.range n).map (fun r => (List.range names.length).map (memory r))
        let table := data.foldl (fillColumn names) table
        -- (148-159)
        ⟨some (table.flatMap List.flatten),
         match scriptLines types with
         | .error e => .error e
         | .ok lines => .ok ("create table ".toList ++ tablename ++ " (\n".toList ++ lines ++ ")\n".toList)⟩

end Verif
