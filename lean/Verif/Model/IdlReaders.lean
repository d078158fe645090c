import Verif.Model.SnapshotPrograms
import Verif.Model.FormatsPlain

/-!
Programs in IDL which read files of the Millennium simulation (examples/millennium/idl/*.pro). The values which are set at the beginning of a program, such as `Base` and `Num`, are arguments here.

Values are their bytes in little endian order and files have the byte order `big` of the machine. Arrays are lists of their elements in memory, where the first index is the fastest one. Errors which stop a program
are `.ioError` (a file does not exist or ends too early), `.valueError` (size of an array which is not positive), `.indexError` (index out of range) and `.nameError` (variable which is not defined);
overflow of a 16 bit integer is `.other`. What is printed or plotted is left out.
-/

namespace Verif.IdlReaders

open FortranReaders SnapshotPrograms

/-! ### Names -/

/-- `string(n)` of a 16 bit integer: at least eight characters -/
def idlString (n : Nat) : Name := List.replicate (8 - (decimal n).length) ' ' ++ decimal n

/-- `strcompress(s, /remove_all)`: without blanks and tabs -/
def removeBlanks (s : Name) : Name := s.filter (fun c => !(c == ' ' || c == '\t'))

/-- The number of the snapshot, as `exts='000'`, `exts=exts+strcompress(string(num),/remove_all)`, `exts=strmid(exts,strlen(exts)-3,3)` (ReadSubHalos.pro 8-10 and in all other programs) -/
def exts (num : Nat) : Name :=
  let s := "000".toList ++ removeBlanks (idlString num)
  (s.drop (s.length - 3)).take 3

/-- Names of the files (ReadSubHalos.pro 12-16, ReadGroups.pro 13-14, ReadPotential.pro 16-17) -/
def catName (dir stem : String) (base : Name) (num subfile : Nat) : Name :=
  removeBlanks (base ++ dir.toList ++ exts num ++ stem.toList ++ exts num ++ ".".toList ++ idlString subfile)

/-- Names of snapshot files (ReadSingle.pro 16-17, ReadMulti_xyz.pro 40-41) -/
def snapName (base snapbase : Name) (num subfile : Nat) : Name :=
  removeBlanks (base ++ "/snapdir_".toList ++ exts num ++ "/".toList ++ snapbase ++ "_".toList ++ exts num ++ ".".toList ++ idlString subfile)

/-- Name of the first snapshot file (ReadMulti_xyz.pro 12-13) -/
def snapName0 (base snapbase : Name) (num : Nat) : Name :=
  removeBlanks (base ++ "/snapdir_".toList ++ exts num ++ "/".toList ++ snapbase ++ "_".toList ++ exts num ++ ".0".toList)

/-- Names of tree files (ReadTree.pro 38-39, Read_TreeAux.pro 14-15) -/
def treeName (stem : String) (base : Name) (num filenr : Nat) : Name :=
  removeBlanks (base ++ "/treedata/".toList ++ stem.toList ++ exts num ++ ". ".toList ++ idlString filenr)

/-! ### Input -/

/-- `openr` -/
def openr (fs : ByteFS) (name : Name) : Except Err (List Byte) := match fs name with | some file => .ok file | none => .error .ioError

/-- `readu` of some variables, with the bytes per element and the number of elements: the values, and the rest of the file -/
def readu (big : Bool) : List (Nat × Nat) → List Byte → Except Err (List (List (List Byte)) × List Byte)
  | [], bytes => .ok ([], bytes)
  | (w, n) :: items, bytes => do
    let a ← readItem big w n bytes
    let rest ← readu big items a.2
    .ok (a.1 :: rest.1, rest.2)

/-- Value of the scalar variable number `k` -/
def long (vals : List (List (List Byte))) (k : Nat) : Int := int32Value ((vals.getD k []).headD [])

/-! ### Groups and subhalos -/

/-- The variables after ReadSubHalos.pro -/
structure SubHalos where
  groupLen : List (List Byte)
  ngroups : Int
  nids : Int
  totNgroups : Int
  nfiles : Int
  nsubs : Int
  nsubPerHalo : List (List Byte)
  firstSubOfHalo : List (List Byte)
  subLen : List (List Byte)
  subOffset : List (List Byte)
  subParentHalo : List (List Byte)
  haloMMean200 : List (List Byte)
  haloRMean200 : List (List Byte)
  haloMCrit200 : List (List Byte)
  haloRCrit200 : List (List Byte)
  haloMTopHat200 : List (List Byte)
  haloRTopHat200 : List (List Byte)
  subPos : List (List Byte)
  subVel : List (List Byte)
  subVelDisp : List (List Byte)
  subVmax : List (List Byte)
  subSpin : List (List Byte)
  subMostBoundID : List (List Byte)
  subHalfMass : List (List Byte)
  deriving DecidableEq

/-- ReadSubHalos.pro -/
def readSubHalos (big : Bool) (fs : ByteFS) (base : Name) (num subfile : Nat) : Except Err SubHalos := do
  -- (12-16)
  let fsubgrp := catName "/postproc_" "/sub_tab_" base num subfile
  let fgrp := catName "/snapdir_" "/group_tab_" base num subfile
  -- (19-32)
  let f ← openr fs fgrp
  let g ← readu big [(4, 1), (4, 1), (4, 1), (4, 1)] f
  let n ← idlSize (long g.1 0)
  let len ← readu big [(4, n)] g.2
  -- (35-49)
  let f ← openr fs fsubgrp
  let h ← readu big [(4, 1), (4, 1), (4, 1), (4, 1), (4, 1)] f
  -- (51-57)
  let ng ← idlSize (long h.1 0)
  let ns ← idlSize (long h.1 4)
  let a ← readu big [(4, ng), (4, ng), (4, ns), (4, ns), (4, ns)] h.2
  -- (60-69)
  let m ← readu big [(4, ng), (4, ng)] a.2
  let c ← readu big [(4, ng), (4, ng)] m.2
  let t ← readu big [(4, ng), (4, ng)] c.2
  -- (71-79)
  let s ← readu big [(4, 3 * ns), (4, 3 * ns), (4, ns), (4, ns), (4, 3 * ns), (8, ns), (4, ns)] t.2
  .ok { groupLen := len.1.getD 0 [], ngroups := long h.1 0, nids := long h.1 1, totNgroups := long h.1 2, nfiles := long h.1 3, nsubs := long h.1 4,
        nsubPerHalo := a.1.getD 0 [], firstSubOfHalo := a.1.getD 1 [], subLen := a.1.getD 2 [], subOffset := a.1.getD 3 [], subParentHalo := a.1.getD 4 [],
        haloMMean200 := m.1.getD 0 [], haloRMean200 := m.1.getD 1 [], haloMCrit200 := c.1.getD 0 [], haloRCrit200 := c.1.getD 1 [], haloMTopHat200 := t.1.getD 0 [], haloRTopHat200 := t.1.getD 1 [],
        subPos := s.1.getD 0 [], subVel := s.1.getD 1 [], subVelDisp := s.1.getD 2 [], subVmax := s.1.getD 3 [], subSpin := s.1.getD 4 [], subMostBoundID := s.1.getD 5 [],
        subHalfMass := s.1.getD 6 [] }

/-- ReadGroups.pro: the variable `NumLocal` is not defined (25). -/
def readGroups (big : Bool) (fs : ByteFS) (base : Name) (num subfile : Nat) : Except Err Unit := do
  -- (13-23)
  let f ← openr fs (catName "/snapdir_" "/group_tab_" base num subfile)
  let _ ← readu big [(4, 1), (4, 1), (4, 1), (4, 1)] f
  -- (25)
  .error .nameError

/-! ### Snapshots -/

/-- Variables of the header (ReadSingle.pro 19-28) -/
def snapHeader : List (Nat × Nat) := [(4, 6), (8, 6), (8, 1), (8, 1), (4, 1), (4, 1), (4, 6), (4, 1), (4, 1), (8, 1)]

/-- ReadSingle.pro; the results are `pos`, `vel` and `id`. -/
def readSingle (big : Bool) (fs : ByteFS) (base snapbase : Name) (num subfile : Nat) : Except Err (List (List Byte) × List (List Byte) × List (List Byte)) := do
  -- (30-33)
  let f ← openr fs (snapName base snapbase num subfile)
  let h ← recordRead big snapHeader f
  let n ← idlSize (int32Value ((h.1.getD 0 []).getD 1 []))
  -- (34-40)
  let pos ← recordRead big [(4, 3 * n)] h.2
  let vel ← recordRead big [(4, 3 * n)] pos.2
  let ids ← recordRead big [(8, n)] vel.2
  .ok (pos.1.headD [], vel.1.headD [], ids.1.headD [])

/-- A number as a 32 bit integer -/
def toLong (x : Int) : Int := (x + 2147483648) % 4294967296 - 2147483648

/-- Variables of the loop of ReadMulti_xyz.pro: `Pos`, which is not defined at first, the number of vectors it has room for, and `count` -/
structure MultiState where
  pos : Option (Nat × List (List Byte))
  count : Int

/-- `Pos` is defined for the first file (52-54); `total` is `npartall(1)`. -/
def multiPos (subfile : Nat) (total : Int) (pos : Option (Nat × List (List Byte))) : Except Err (Option (Nat × List (List Byte))) :=
  if subfile = 0 then
    match idlSize total with
    | .error e => .error e
    | .ok room => .ok (some (room, List.replicate (3 * room) (List.replicate 4 0)))
  else .ok pos

/-- One file (40-57) -/
def multiStep (big : Bool) (fs : ByteFS) (base snapbase : Name) (num subfile : Nat) (s : MultiState) : Except Err MultiState := do
  -- (40-50)
  let f ← openr fs (snapName base snapbase num subfile)
  let h ← recordRead big (snapHeader.take 7) f
  let n ← idlSize (int32Value ((h.1.getD 0 []).getD 1 []))
  let pos1 ← recordRead big [(4, 3 * n)] h.2
  -- (52-54)
  let pos ← multiPos subfile (int32Value ((h.1.getD 6 []).getD 1 [])) s.pos
  -- (56-57)
  match pos with
  | none => .error .nameError
  | some (room, p) =>
    let last := toLong (toLong (s.count + n) - 1)
    if s.count < 0 ∨ last < s.count ∨ (room : Int) ≤ last then .error .indexError
    else .ok ⟨some (room, overlay p (3 * s.count.toNat) (pos1.1.headD [])), toLong (s.count + n)⟩

/-- The loop over `left` files from `subfile` on (38-58) -/
def multiLoop (big : Bool) (fs : ByteFS) (base snapbase : Name) (num : Nat) : Nat → Nat → MultiState → Except Err MultiState
  | 0, _, s => .ok s
  | left + 1, subfile, s => do
    let s ← multiStep big fs base snapbase num subfile s
    multiLoop big fs base snapbase num left (subfile + 1) s

/-- ReadMulti_xyz.pro; the results are `Pos` and `BoxSize`. The type of `subfile` is a 16 bit integer. -/
def readMulti (big : Bool) (fs : ByteFS) (base snapbase : Name) (num : Nat) : Except Err (List (List Byte) × List Byte) := do
  -- (12-29)
  let f ← openr fs (snapName0 base snapbase num)
  let h ← recordRead big snapHeader f
  let nfiles := int32Value ((h.1.getD 8 []).headD [])
  -- (37-58)
  if 32767 < nfiles then .error .other
  else
    let s ← multiLoop big fs base snapbase num nfiles.toNat 0 ⟨none, 0⟩
    -- (60)
    match s.pos with
    | none => .error .nameError
    | some (_, p) => .ok (p, (h.1.getD 9 []).headD [])

/-! ### The potential -/

/-- Variables of the loop of ReadPotential.pro: `potential`, with the size of its dimensions, which is not defined at first, and `slabscount` -/
structure PotState where
  potential : Option (Nat × List (List Byte))
  slabscount : Int

/-- `potential(0:Grid-1, 0:Grid-1, firstslab:firstslab+slabspertask-1) = pot(*,*,*)` (36), where `potential` has the dimensions `G`, `G` and `G` -/
def setSlabs (G grid first slabs : Nat) (potential pot : List (List Byte)) : List (List Byte) :=
  (List.range (G * G * G)).map (fun e =>
    let i := e % G
    let j := e / G % G
    let k := e / G / G
    if i < grid ∧ j < grid ∧ first ≤ k ∧ k < first + slabs then pot.getD (i + grid * (j + grid * (k - first))) [] else potential.getD e [])

/-- One file (16-38), and the value of `GRID` -/
def potStep (big : Bool) (fs : ByteFS) (base : Name) (num subfile : Nat) (s : PotState) : Except Err (PotState × Int) := do
  -- (16-30)
  let f ← openr fs (catName "/snapdir_" "/potential_" base num subfile)
  let h ← readu big [(4, 1), (4, 1), (4, 1), (4, 1), (8, 1), (8, 1)] f
  let grid ← idlSize (long h.1 0)
  let slabs ← idlSize (long h.1 2)
  let pot ← readu big [(4, grid * grid * slabs)] h.2
  -- (32-34)
  let potential := if subfile = 0 then some (grid, List.replicate (grid * grid * grid) (List.replicate 4 0)) else s.potential
  -- (36-38)
  match potential with
  | none => .error .nameError
  | some (G, p) =>
    let first := long h.1 3
    let last := toLong (toLong (first + slabs) - 1)
    if G < grid ∨ first < 0 ∨ last < first ∨ (G : Int) ≤ last then .error .indexError
    else .ok (⟨some (G, setSlabs G grid first.toNat slabs p (pot.1.headD [])), toLong (s.slabscount + slabs)⟩, grid)

/-- `repeat ... until slabscount ge GRID` (14-40), for at most `fuel` files. The type of `subfile` is a 16 bit integer. -/
def potLoop (big : Bool) (fs : ByteFS) (base : Name) (num : Nat) : Nat → Nat → PotState → Except Err PotState
  | 0, _, _ => .error .diverges
  | fuel + 1, subfile, s => do
    let r ← potStep big fs base num subfile s
    if 32767 < subfile + 1 then .error .other
    else if r.2 ≤ r.1.slabscount then .ok r.1
    else potLoop big fs base num fuel (subfile + 1) r.1

/-- `transpose` of an array with three dimensions `G`, which reverses the order of the indexes -/
def transpose3 (G : Nat) (a : List (List Byte)) : List (List Byte) :=
  (List.range (G * G * G)).map (fun e => a.getD (e / G / G + G * (e / G % G + G * (e % G))) [])

/-- ReadPotential.pro; the result is `potential` with its dimension. -/
def readPotential (big : Bool) (fs : ByteFS) (base : Name) (num fuel : Nat) : Except Err (Nat × List (List Byte)) := do
  let s ← potLoop big fs base num fuel 0 ⟨none, 0⟩
  match s.potential with
  | none => .error .nameError
  | some (G, p) => .ok (G, transpose3 G p)

/-! ### Trees -/

/-- `HaloStruct` (ReadTree.pro 5-25). Each number is at a multiple of its size, so that there are no gaps. -/
def haloStruct : List SField :=
  [⟨"Descendant", 4, 1⟩, ⟨"FirstProgenitor", 4, 1⟩, ⟨"NextProgenitor", 4, 1⟩, ⟨"FirstHaloInFOFgroup", 4, 1⟩, ⟨"NextHaloInFOFgroup", 4, 1⟩, ⟨"Len", 4, 1⟩, ⟨"M_Mean200", 4, 1⟩, ⟨"M_Crit200", 4, 1⟩,
    ⟨"M_TopHat", 4, 1⟩, ⟨"Pos", 4, 3⟩, ⟨"Vel", 4, 3⟩, ⟨"VelDisp", 4, 1⟩, ⟨"Vmax", 4, 1⟩, ⟨"Spin", 4, 3⟩, ⟨"MostBoundID", 8, 1⟩, ⟨"SnapNum", 4, 1⟩, ⟨"FileNr", 4, 1⟩, ⟨"SubhaloIndex", 4, 1⟩,
    ⟨"SubhalfMass", 4, 1⟩]

/-- The loop over the trees of a file (ReadTree.pro 50-55): the values of `Tree`. The bytes of a structure are in the order of the machine. -/
def treeLoop : List Int → List Byte → Except Err (List (List (List Byte)))
  | [], _ => .ok []
  | n :: ns, bytes => do
    let n ← idlSize n
    let t ← readItem false (dtypeSize false haloStruct) n bytes
    let rest ← treeLoop ns t.2
    .ok (t.1 :: rest)

/-- One file (33-56): `Ntrees`, `TotNhalos` and the trees -/
def readTreeFile (big : Bool) (fs : ByteFS) (base : Name) (num filenr : Nat) : Except Err (Int × Int × List (List (List Byte))) := do
  let f ← openr fs (treeName "trees_" base num filenr)
  let h ← readu big [(4, 1), (4, 1)] f
  let n ← idlSize (long h.1 0)
  let len ← readu big [(4, n)] h.2
  let trees ← treeLoop ((len.1.headD []).map int32Value) len.2
  .ok (long h.1 0, long h.1 1, trees)

/-- ReadTree.pro, where `nfiles` is 512 (29-58) -/
def readTrees (big : Bool) (fs : ByteFS) (base : Name) (num nfiles : Nat) : Except Err (List (Int × Int × List (List (List Byte)))) :=
  (List.range nfiles).mapM (readTreeFile big fs base num)

/-- The variables after Read_TreeAux.pro -/
structure TreeAux where
  totNhalos : Int
  totUniqueIDs : Int
  totTrees : Int
  totSnaps : Int
  countIDSnap : List (List Byte)
  offsetIDSnap : List (List Byte)
  countIDSnapTree : List (List Byte)
  offsetIDSnapTree : List (List Byte)
  countIDHalo : List (List Byte)
  offsetIDHalo : List (List Byte)
  ids : List (List Byte)
  pos : List (List Byte)
  deriving DecidableEq

/-- Read_TreeAux.pro -/
def readTreeAux (big : Bool) (fs : ByteFS) (base : Name) (num filenr : Nat) : Except Err TreeAux := do
  -- (14-25)
  let f ← openr fs (treeName "treeaux_" base num filenr)
  let h ← readu big [(4, 1), (4, 1), (4, 1), (4, 1)] f
  -- (34-41)
  let snaps ← idlSize (long h.1 3)
  let trees ← idlSize (long h.1 2)
  let halos ← idlSize (long h.1 0)
  -- (43-47)
  let a ← readu big [(4, snaps), (4, snaps)] h.2
  let b ← readu big [(4, trees * snaps), (4, trees * snaps)] a.2
  let c ← readu big [(4, halos), (4, halos)] b.2
  -- (50-54)
  let ids ← idlSize (long h.1 1)
  let d ← readu big [(8, ids)] c.2
  let e ← readu big [(4, 3 * ids)] d.2
  .ok { totNhalos := long h.1 0, totUniqueIDs := long h.1 1, totTrees := long h.1 2, totSnaps := long h.1 3, countIDSnap := a.1.getD 0 [], offsetIDSnap := a.1.getD 1 [],
        countIDSnapTree := b.1.getD 0 [], offsetIDSnapTree := b.1.getD 1 [], countIDHalo := c.1.getD 0 [], offsetIDHalo := c.1.getD 1 [], ids := d.1.getD 0 [], pos := e.1.getD 0 [] }

end Verif.IdlReaders
