import Verif.Model.IdlReaders

/-!
The programs in IDL which look up a subhalo or a group in a table of all of them (examples/millennium/idl/read_sub_tree.pro and read_group_m200.pro).

The procedures `readsubhalos`, `readgroups`, `snap_header` and `readonetree` are not in the repository, and neither are the programs which made the tables; the procedures are arguments, which give the arrays that are used.
The variables `Base` and `bmilli`, which are not defined before they are passed to the procedures, are left to them. Values are bytes as in `Model/IdlReaders.lean`, except for numbers which are
multiplied. An index which is negative or too large stops the program (`.indexError`).
-/

namespace Verif.IdlTables

open FortranReaders SnapshotPrograms IdlReaders

/-- An element of an array with a scalar index -/
def elem {α : Type} (a : List α) (i : Int) : Except Err α := if i < 0 then .error .indexError else match a[i.toNat]? with | some x => .ok x | none => .error .indexError

/-- Name of a table (read_sub_tree.pro 8-13, read_group_m200.pro 6-11) -/
def tableName (stem : String) (num : Nat) : Name := removeBlanks (stem.toList ++ exts num ++ ".all".toList)

/-- A table of arrays with four bytes for each element, after the number of elements (read_sub_tree.pro 14-31, read_group_m200.pro 12-25) -/
def readTable (big : Bool) (fs : ByteFS) (name : Name) (columns : Nat) : Except Err (List (List (List Byte))) := do
  let f ← openr fs name
  let h ← readu big [(4, 1)] f
  let n ← idlSize (long h.1 0)
  let a ← readu big (List.replicate columns (4, n)) h.2
  .ok a.1

/-- Element `i` of column `c` -/
def column (t : List (List (List Byte))) (c : Nat) (i : Int) : Except Err Int := do
  let v ← elem (t.getD c []) i
  .ok (int32Value v)

/-- read_sub_tree.pro: the numbers which are printed in lines 63 and 68. `mostBound` gives `SubMostBoundID` of a file of subhalos, and `treeIDs` gives `MostBoundID` of the halos of a tree in a tree file. -/
def readSubTree (big : Bool) (fs : ByteFS) (num : Nat) (mostBound : Int → Except Err (List Nat)) (treeIDs : Int → Int → Except Err (List Nat)) (isub : Nat) : Except Err (Nat × Nat) := do
  let t ← readTable big fs (tableName "subid_trees_" num) 6
  -- (35-61)
  let subfile ← column t 0 isub
  let ids ← mostBound subfile
  -- (63)
  let first ← elem ids isub
  -- (65)
  let treefnr ← column t 3 isub
  let treeid ← column t 4 isub
  let tree ← treeIDs treefnr treeid
  -- (66-68)
  let node ← column t 5 isub
  let second ← elem tree node
  .ok (first, second)

/-- The arrays of a file of groups and subhalos which read_group_m200.pro uses -/
structure SubFile where
  mCrit : List (List Byte)
  firstSub : List Int
  parent : List Int
  deriving DecidableEq

/-- What read_group_m200.pro prints: `m200[igrp]` (45), the numbers of line 54, `Halo_M_Crit200` (83) and line 84. The products of line 83 with 1e10 and of line 54 with the mass of a particle are left out. -/
structure Printed where
  m200 : List Byte
  groupLen : Int
  mCrit : List Byte
  first : Int
  parent : Int
  group : Int
  deriving DecidableEq

/-- read_group_m200.pro. `firstsubofhalo` of the table is replaced by that of the file of subhalos (65). -/
def readGroupM200 (big : Bool) (fs : ByteFS) (num : Nat) (groupLen : Int → Except Err (List Int)) (subhalos : Int → Except Err SubFile) (igrp : Nat) : Except Err Printed := do
  let t ← readTable big fs (tableName "group_m200_" num) 4
  -- (29-38)
  let subfile ← column t 1 igrp
  let len ← groupLen subfile
  -- (45)
  let m200 ← elem (t.getD 0 []) igrp
  -- (54)
  let id ← column t 2 igrp
  let n ← elem len id
  -- (57-81)
  let s ← subhalos subfile
  -- (83)
  let mc ← elem s.mCrit id
  -- (84)
  let first ← elem s.firstSub id
  let parent ← elem s.parent first
  .ok ⟨m200, n, mc, first, parent, id⟩

end Verif.IdlTables
