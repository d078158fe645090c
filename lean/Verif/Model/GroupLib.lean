import Verif.Model.ReadRegion
import Verif.Model.GroupCatalogue
import Verif.Model.EagleFilename

/-!
Library of C functions which read friends-of-friends groups and the hash table of Millennium snapshots for IDL
(examples/millennium/idl/IdlGroupLib/groupstuff.c). Files have the byte order of the machine. A function which prints a message and returns -1 ends
with `.ioError` (no file) or `.sanityCheck` ("bummer"); what C leaves undefined, such as variables which `fread` does not set, wrong indexes and names which are
too long for `buf`, is `.other`. Sums kept in a `double` are exact integers.
-/

namespace Verif.GroupLib

open CPeano ReadParticles

/-- A file which is open -/
structure CFile where
  bytes : List Byte
  pos : Nat

/-- `fread(p, size, count, fd)`: the items, which all have to be there -/
def CFile.read (fd : CFile) (size count : Nat) : Except Err (List (List Byte) × CFile) :=
  match fread fd.bytes fd.pos size count with
  | .ok v => .ok (v, { fd with pos := fd.pos + size * count })
  | .error _ => .error .other

/-- `fseek(fd, offset, SEEK_CUR)`; it fails before the beginning of the file. -/
def CFile.seek (fd : CFile) (offset : Int) : CFile := if (fd.pos : Int) + offset < 0 then fd else { fd with pos := ((fd.pos : Int) + offset).toNat }

/-- `fread(&x, sizeof(int), 1, fd)` -/
def CFile.int (sys : Bool) (fd : CFile) : Except Err (Int × CFile) := do
  let r ← fd.read 4 1
  .ok (int32Value (value4 sys false (r.1.headD [])), r.2)

/-- `count` numbers of type `int`; a negative number of items is huge as a `size_t`. -/
def CFile.ints (sys : Bool) (fd : CFile) (count : Int) : Except Err (List Int × CFile) :=
  if count < 0 then .error .other
  else do
    let r ← fd.read 4 count.toNat
    .ok (r.1.map (fun v => int32Value (value4 sys false v)), r.2)

/-- `sprintf(buf, ...)` with 1000 characters for `buf`, and `fopen(buf, "r")` -/
def openBuf (fs : ByteFS) (name : Name) : Except Err CFile :=
  if 999 < name.length then .error .other
  else match fs name with
    | some bytes => .ok ⟨bytes, 0⟩
    | none => .error .ioError

/-- `sprintf(buf, "%s/group_tab_%03d.%d", OutputDir, Num, filenr)` -/
def groupTabName (dir : Name) (num filenr : Nat) : Name := dir ++ "/group_tab_".toList ++ decimal3 num ++ ".".toList ++ decimal filenr

/-- `sprintf(buf, "%s/%s_%03d.%d", OutputDir, Snapbase, Num, filenr)` -/
def snapName (dir base : Name) (num filenr : Nat) : Name := dir ++ "/".toList ++ base ++ "_".toList ++ decimal3 num ++ ".".toList ++ decimal filenr

/-- The numbers at the beginning of group files -/
structure TabHead where
  ngroups : Int
  nids : Int
  totngroups : Int
  ntask : Int

/-- Lines like 89-92 -/
def tabHead (sys : Bool) (fd : CFile) : Except Err (TabHead × CFile) := do
  let a ← fd.int sys
  let b ← a.2.int sys
  let c ← b.2.int sys
  let d ← c.2.int sys
  .ok (⟨a.1, b.1, c.1, d.1⟩, d.2)

/-- `get_total_number_of_groups` (70-96) -/
def getTotalNumberOfGroups (sys : Bool) (fs : ByteFS) (dir : Name) (num : Nat) : Except Err Int := do
  let fd ← openBuf fs (groupTabName dir num 0)
  let h ← tabHead sys fd
  .ok h.1.totngroups

/-- The header and `GroupMinLen`, with the groups left out (118-124, 159-165, 185-191). `sizeof(int) * Ngroups` is unsigned; for a negative number it is
the same as skipping backwards. -/
def tabMinLen (sys : Bool) (fd : CFile) : Except Err (TabHead × Int × CFile) := do
  let h ← tabHead sys fd
  let fd := (h.2.seek (4 * h.1.ngroups)).seek (4 * h.1.ngroups)
  let m ← fd.int sys
  .ok (h.1, m.1, m.2)

/-- `get_minimum_group_len` (99-128) -/
def getMinimumGroupLen (sys : Bool) (fs : ByteFS) (dir : Name) (num : Nat) : Except Err Int := do
  let fd ← openBuf fs (groupTabName dir num 0)
  let m ← tabMinLen sys fd
  .ok m.2.1

/-- What the loop (176-201) changes, apart from `filenr` -/
structure BelowState where
  ntask : Int
  minlen : Int
  sums : List Int
  totIds : Int

/-- One pass of the loop (176-201). `count` has room for `room` numbers. -/
def belowStep (sys : Bool) (fs : ByteFS) (dir : Name) (num room filenr : Nat) (s : BelowState) : Except Err BelowState := do
  let fd ← openBuf fs (groupTabName dir num filenr)
  let m ← tabMinLen sys fd
  let count ← m.2.2.ints sys m.2.1
  if room < count.1.length ∨ s.sums.length < count.1.length then .error .other
  else .ok ⟨m.1.ntask, m.2.1, (List.range s.sums.length).map (fun i => s.sums.getD i 0 + count.1.getD i 0), s.totIds + m.1.nids⟩

/-- The loop (176-201). The first argument bounds the number of passes. -/
def belowLoop (sys : Bool) (fs : ByteFS) (dir : Name) (num room : Nat) : Nat → Nat → BelowState → Except Err BelowState
  | 0, _, _ => .error .diverges
  | fuel + 1, filenr, s =>
    if (filenr : Int) < s.ntask then do
      let s ← belowStep sys fs dir num room filenr s
      belowLoop sys fs dir num room fuel (filenr + 1) s
    else .ok s

/-- `get_groupcount_below_minimum_len` (132-207): what it returns, `CountBelowMinLen` (an array with the contents `below` before) and `countIDs` -/
def getGroupcountBelowMinimumLen (sys : Bool) (fs : ByteFS) (dir : Name) (num fuel : Nat) (below : List Int) : Except Err (Int × List Int × Int) := do
  let fd ← openBuf fs (groupTabName dir num 0)
  let m ← tabMinLen sys fd
  if m.2.1 < 0 ∨ below.length < m.2.1.toNat then .error .other
  else
    let sums := List.replicate m.2.1.toNat 0 ++ below.drop m.2.1.toNat
    let s ← belowLoop sys fs dir num m.2.1.toNat fuel 0 ⟨m.1.ntask, m.2.1, sums, 0⟩
    .ok (s.minlen, s.sums, s.totIds)

/-- `cat_data` (51-57), and one element of the arrays `GroupLen`, `GroupFileNr` and `GroupNr` -/
structure CatData where
  len : Int
  file : Int
  offset : Int
  deriving DecidableEq

/-- `id_sort_groups` (297-306) -/
def idSortGroups (a b : CatData) : Int := if a.len > b.len then -1 else if a.len < b.len then 1 else 0

/-- What the loop (247-272) changes, apart from `filenr` -/
structure CatState where
  ntask : Int
  totngroups : Int
  count : Nat
  out : List CatData

/-- One pass of the loop (247-272) -/
def catStep (sys : Bool) (fs : ByteFS) (dir : Name) (num filenr : Nat) (s : CatState) : Except Err CatState := do
  let fd ← openBuf fs (groupTabName dir num filenr)
  let h ← tabHead sys fd
  let lens ← h.2.ints sys h.1.ngroups
  if s.out.length < s.count + lens.1.length then .error .other
  else .ok ⟨h.1.ntask, h.1.totngroups, s.count + lens.1.length,
    overlay s.out s.count ((List.range lens.1.length).map (fun i : Nat => ⟨lens.1.getD i 0, filenr, i⟩))⟩

/-- The loop (247-272). The first argument bounds the number of passes. -/
def catLoop (sys : Bool) (fs : ByteFS) (dir : Name) (num : Nat) : Nat → Nat → CatState → Except Err CatState
  | 0, _, _ => .error .diverges
  | fuel + 1, filenr, s =>
    if (filenr : Int) < s.ntask then do
      let s ← catStep sys fs dir num filenr s
      catLoop sys fs dir num fuel (filenr + 1) s
    else .ok s

/-- `get_group_catalogue` (215-295): what it returns and the elements of the three arrays, which contain `out` before. `qsort` is any sorting of C with
`id_sort_groups`. -/
def getGroupCatalogue (sys : Bool) (fs : ByteFS) (dir : Name) (num fuel : Nat) (qsort : List CatData → List CatData) (out : List CatData) : Except Err (Int × List CatData) := do
  let fd ← openBuf fs (groupTabName dir num 0)
  let h ← tabHead sys fd
  let s ← catLoop sys fs dir num fuel 0 ⟨h.1.ntask, h.1.totngroups, 0, out⟩
  if s.totngroups < 0 ∨ (s.out.length : Int) < s.totngroups then .error .other
  else
    let temp := qsort (s.out.take s.totngroups.toNat)
    .ok (s.totngroups, overlay s.out 0 temp)

/-- The members of `io_header` (27-47) which are used -/
structure IoHeader where
  npart1 : Int
  numFiles : Int
  boxSize : List Byte
  hashtabsize : Int

/-- The record of the header (384-386 and others) -/
def ioHeader (sys : Bool) (fd : CFile) : Except Err (IoHeader × CFile) := do
  let a ← fd.int sys
  let h ← a.2.read 256 1
  let b ← h.2.int sys
  let field := fun o w => ((h.1.headD []).drop o).take w
  .ok (⟨int32Value (value4 sys false (field 4 4)), int32Value (value4 sys false (field 124 4)), value8 sys false (field 128 8), int32Value (value4 sys false (field 168 4))⟩, b.2)

/-- `get_hash_table_size` (309-346): what it returns and `NFiles` -/
def getHashTableSize (sys : Bool) (fs : ByteFS) (dir base : Name) (num : Nat) : Except Err (Int × Int) := do
  let fd ← openBuf fs (snapName dir base num 0)
  let h ← ioHeader sys fd
  .ok (h.1.hashtabsize, h.1.numFiles)

/-- A record is left out (390-392 and others). -/
def skipRecord (sys : Bool) (fd : CFile) : Except Err CFile := do
  let a ← fd.int sys
  let b ← (a.2.seek a.1).int sys
  .ok b.2

/-- The arrays of `get_hash_table` -/
structure HashTab where
  hashtable : List Int
  filetable : List Int
  lastcell : List Int
  ninfile : List Int
  deriving DecidableEq

/-- One pass of the loop (375-426): the arrays and `NTask` -/
def hashStep (sys : Bool) (fs : ByteFS) (dir base : Name) (num filenr : Nat) (t : HashTab) : Except Err (HashTab × Int) := do
  let fd ← openBuf fs (snapName dir base num filenr)
  let h ← ioHeader sys fd
  let fd ← skipRecord sys h.2
  let fd ← skipRecord sys fd
  let fd ← skipRecord sys fd
  let a ← fd.int sys
  let first ← a.2.int sys
  let last ← first.2.int sys
  let b ← last.2.int sys
  if t.lastcell.length ≤ filenr ∨ t.ninfile.length ≤ filenr then .error .other
  else if first.1 < 0 ∨ h.1.hashtabsize ≤ first.1 ∨ last.1 < 0 ∨ h.1.hashtabsize ≤ last.1 then .error .sanityCheck
  else
    let c ← b.2.int sys
    let table ← c.2.ints sys (last.1 - first.1 + 1)
    let _ ← table.2.int sys
    if (t.hashtable.length : Int) < first.1 + table.1.length ∨ (t.filetable.length : Int) < first.1 + table.1.length then .error .other
    else
      .ok (⟨overlay t.hashtable first.1.toNat table.1, overlay t.filetable first.1.toNat (List.replicate table.1.length (filenr : Int)),
        t.lastcell.set filenr last.1, t.ninfile.set filenr h.1.npart1⟩, h.1.numFiles)

/-- The loop (375-426). The first argument bounds the number of passes. -/
def hashLoop (sys : Bool) (fs : ByteFS) (dir base : Name) (num : Nat) : Nat → Nat → Int → HashTab → Except Err HashTab
  | 0, _, _, _ => .error .diverges
  | fuel + 1, filenr, ntask, t =>
    if (filenr : Int) < ntask then do
      let r ← hashStep sys fs dir base num filenr t
      hashLoop sys fs dir base num fuel (filenr + 1) r.2 r.1
    else .ok t

/-- `get_hash_table` (349-429): the arrays afterwards -/
def getHashTable (sys : Bool) (fs : ByteFS) (dir base : Name) (num fuel : Nat) (t : HashTab) : Except Err HashTab :=
  hashLoop sys fs dir base num fuel 0 1 t

/-- Number of particles in the cell `key` of file `f` (469-472 and others) -/
def cellLenIn (t : HashTab) (f key : Int) : Except Err Int := do
  let last ← cGet t.lastcell f
  let h ← cGet t.hashtable key
  if key ≠ last then
    let next ← cGet t.hashtable (key + 1)
    cInt (next - h)
  else
    let n ← cGet t.ninfile f
    cInt (n - h)

/-- Number of particles in a cell -/
def cellLen (t : HashTab) (key : Int) : Except Err Int := do
  let f ← cGet t.filetable key
  cellLenIn t f key

/-- The loop (467-475) -/
def cubeSum (t : HashTab) (first last : Nat) : Except Err Int :=
  (List.range' first (last - first)).foldlM (fun (countsum : Int) (key : Nat) => do
    let count ← cellLen t key
    cInt (countsum + count)) 0

/-- `get_particles_in_cubes` (437-481): `TabCount` afterwards -/
def getParticlesInCubes (t : HashTab) (hashtabsize nfiles : Nat) (tabcount : List Int) : Except Err (List Int) :=
  (List.range nfiles).foldlM (fun tab proc => do
    let s ← cubeSum t (proc * (hashtabsize / nfiles)) ((proc + 1) * (hashtabsize / nfiles))
    if tab.length ≤ proc then .error .other else .ok (tab.set proc s)) tabcount

end Verif.GroupLib
