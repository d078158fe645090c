import Verif.Model.GroupLib

/-!
`get_group_coordinates` (examples/millennium/idl/IdlGroupLib/groupstuff.c, 486-776): the positions of the particles of a group. Positions are exact numbers
(`val4` and `val8` give the values of a `float` and of a `double`), so rounding is left out; `Pos` is a list of vectors. Errors are as in `Model/GroupLib.lean`. The
function changes the array `Filetable` while it works, so that the array is part of the result even if the function fails.
-/

namespace Verif.GroupLib

open CPeano ReadParticles

abbrev Vec := Rat × Rat × Rat

/-- The same for each coordinate -/
def Vec.map2 (f : Rat → Rat → Rat) (a b : Vec) : Vec := (f a.1 b.1, f a.2.1 b.2.1, f a.2.2 b.2.2)

/-- `fof_periodic` (755-764) -/
def fofPeriodic (box x : Rat) : Rat :=
  let x := if x ≥ box / 2 then x - box else x
  if x < -(box / 2) then x + box else x

/-- The first loop of `fof_periodic_wrap` (745-746). The first argument bounds the number of passes. -/
def wrapDown (box : Rat) : Nat → Rat → Except Err Rat
  | 0, _ => .error .diverges
  | fuel + 1, x => if x ≥ box then wrapDown box fuel (x - box) else .ok x

/-- The second loop (748-749) -/
def wrapUp (box : Rat) : Nat → Rat → Except Err Rat
  | 0, _ => .error .diverges
  | fuel + 1, x => if x < 0 then wrapUp box fuel (x + box) else .ok x

/-- `fof_periodic_wrap` (743-752) -/
def fofPeriodicWrap (box : Rat) (fuel : Nat) (x : Rat) : Except Err Rat := do
  let x ← wrapDown box fuel x
  wrapUp box fuel x

/-- The bits of a `long long` as a number with a sign -/
def signed64 (v : Nat) : Int := if v < 2 ^ 63 then v else (v : Int) - 2 ^ 64

/-- `id_sort_compare_key` (767-776) -/
def idSortCompareKey (a b : Nat) : Int := if signed64 a < signed64 b then -1 else if signed64 a > signed64 b then 1 else 0

/-- `sprintf(buf, "%s/group_ids_%03d.%d", OutputDir, Num, FileNr)` -/
def groupIdsName (dir : Name) (num filenr : Nat) : Name := dir ++ "/group_ids_".toList ++ decimal3 num ++ ".".toList ++ decimal filenr

/-- The IDs of the group (528-560) -/
def groupIds (sys : Bool) (fs : ByteFS) (dir : Name) (num fileNr groupNr groupLen : Nat) : Except Err (List Nat) := do
  let fd ← openBuf fs (groupTabName dir num fileNr)
  let h ← tabHead sys fd
  let offset ← ((h.2.seek (4 * h.1.ngroups)).seek (4 * groupNr)).int sys
  let fd ← openBuf fs (groupIdsName dir num fileNr)
  let h ← tabHead sys fd
  let r ← (h.2.seek (8 * offset.1)).read 8 groupLen
  .ok (r.1.map (fun v => leNat (value8 sys false v)))

/-- The loop (566-585): `count`, and `Filetable` whether or not there is an error -/
def markLoop (t : HashTab) (hashtabsize : Nat) : List Nat → List Int → Int → Except Err Int × List Int
  | [], ft, count => (.ok count, ft)
  | id :: ids, ft, count =>
    let key := id / 2 ^ 34
    if hashtabsize ≤ key then (.error .sanityCheck, ft)
    else match ft[key]? with
      | none => (.error .other, ft)
      | some v =>
        if v % 2 = 0 then
          match (do let m ← cellLenIn t (v / 2) key; cInt (count + m)) with
          | .error e => (.error e, ft.set key (v + 1))
          | .ok count => markLoop t hashtabsize ids (ft.set key (v + 1)) count
        else markLoop t hashtabsize ids ft count

/-- `sprintf` and `fopen` for a file of the snapshot; there is no name with a negative number. -/
def openSnap (fs : ByteFS) (dir base : Name) (num : Nat) (f : Int) : Except Err CFile :=
  if f < 0 then .error .other else openBuf fs (snapName dir base num f.toNat)

/-- The positions of the particles in a cell of file `f` (594-617), and the size of the box -/
def readPos (sys : Bool) (fs : ByteFS) (dir base : Name) (num : Nat) (t : HashTab) (f key : Int) : Except Err (List (List Byte) × List Byte) := do
  let fd ← openSnap fs dir base num f
  let h ← ioHeader sys fd
  let m ← h.2.int sys
  let first ← cGet t.hashtable key
  let off ← cInt (3 * first)
  let fd := m.2.seek (off * 4)
  let len ← cellLenIn t f key
  let k ← cInt (3 * len)
  if k < 0 then .error .other
  else
    let r ← fd.read 4 k.toNat
    .ok (r.1.map (value4 sys false), h.1.boxSize)

/-- The IDs of the particles in a cell of file `f` (626-657) -/
def readIds (sys : Bool) (fs : ByteFS) (dir base : Name) (num : Nat) (t : HashTab) (f key : Int) : Except Err (List Nat) := do
  let fd ← openSnap fs dir base num f
  let h ← ioHeader sys fd
  let fd ← skipRecord sys h.2
  let fd ← skipRecord sys fd
  let m ← fd.int sys
  let first ← cGet t.hashtable key
  let fd := m.2.seek (first * 8)
  let len ← cellLenIn t f key
  if len < 0 then .error .other
  else
    let r ← fd.read 8 len.toNat
    .ok (r.1.map (fun v => leNat (value8 sys false v)))

/-- A loop over all cells which adds what `read` gives for each cell with a flag (590-619, 622-659). There is room for `room` numbers. -/
def cellLoop {α : Type} (ft : List Int) (hashtabsize room : Nat) (read : Int → Int → Except Err (List α)) : Except Err (List α) :=
  (List.range hashtabsize).foldlM (fun s (i : Nat) => do
    let v ← cGet ft i
    if v % 2 = 1 then
      let r ← read (v / 2) i
      if room < s.length + r.length then .error .other else .ok (s ++ r)
    else .ok s) []

/-- `id_read[i] = ((id_read[i] & ((1 << 34) - 1)) << 29) + i` for all particles (664-665) -/
def markIds (ids : List Nat) : List Nat := (List.range ids.length).map (fun i => (ids.getD i 0 % 2 ^ 34 * 2 ^ 29 % 2 ^ 64 + i) % 2 ^ 64)

/-- The loop (680-684). At its beginning `id` is always `id_read[n] >> 29`, so that the loop goes on while there is an element and this is too small;
after the last element the code reads another one. -/
def advance (idRead : List Nat) (target : Nat) : Nat → Nat → Except Err Nat
  | 0, _ => .error .diverges
  | fuel + 1, n =>
    match idRead[n]? with
    | none => .error .other
    | some v => if v / 2 ^ 29 < target then advance idRead target fuel (n + 1) else .ok n

/-- `pos_read[ind * 3 + j]` (693-694) -/
def vector (posRead : List Rat) (ind : Nat) : Except Err Vec :=
  match posRead[ind * 3]?, posRead[ind * 3 + 1]?, posRead[ind * 3 + 2]? with
  | some x, some y, some z => .ok (x, y, z)
  | _, _, _ => .error .other

/-- The loop (676-695) -/
def matchLoop (idRead : List Nat) (posRead : List Rat) : List Nat → Nat → Nat → List Vec → Except Err (List Vec)
  | [], _, _, pos => .ok pos
  | id :: ids, n, i, pos =>
    if idRead.length ≤ n then .ok pos
    else do
      let n ← advance idRead id (idRead.length + 1) n
      let p ← vector posRead (idRead.getD n 0 % 2 ^ 29)
      if pos.length ≤ i then .error .other
      else matchLoop idRead posRead ids n (i + 1) (pos.set i p)

/-- Lines 697-725 and 735-737: the positions relative to the centre, and the centre. For a group without particles there is a division 0 / 0. -/
def recentre (box : Rat) (fuel groupLen : Nat) (pos : List Vec) : Except Err (List Vec × Vec) :=
  match pos with
  | [] => .error .other
  | ref :: _ =>
    if groupLen = 0 ∨ pos.length < groupLen then .error .other
    else do
      let d := (pos.take groupLen).map (fun p => Vec.map2 (fun a r => fofPeriodic box (a - r)) p ref)
      let s := d.foldl (Vec.map2 (· + ·)) (0, 0, 0)
      let s : Vec := (s.1 / groupLen, s.2.1 / groupLen, s.2.2 / groupLen)
      let x ← fofPeriodicWrap box fuel (s.1 + ref.1)
      let y ← fofPeriodicWrap box fuel (s.2.1 + ref.2.1)
      let z ← fofPeriodicWrap box fuel (s.2.2 + ref.2.2)
      .ok (d.map (fun p => Vec.map2 (· - ·) p s) ++ pos.drop groupLen, (x, y, z))

/-- What follows after the flags are set (587-725, 735-737). `boxSize` is the value of the static variable before. -/
def groupPositions (sys : Bool) (fs : ByteFS) (dir base : Name) (num : Nat) (val4 val8 : List Byte → Rat) (qsort : List Nat → List Nat) (fuel : Nat)
    (t : HashTab) (hashtabsize : Nat) (ft : List Int) (count : Int) (ids : List Nat) (boxSize : Rat) (pos : List Vec) : Except Err (List Vec × Vec) := do
  let room ← cInt (3 * count)
  let posRead ← cellLoop ft hashtabsize room.toNat (fun f key => do let r ← readPos sys fs dir base num t f key; .ok r.1)
  let boxes ← cellLoop ft hashtabsize hashtabsize (fun f key => do let r ← readPos sys fs dir base num t f key; .ok [r.2])
  let idRead ← cellLoop ft hashtabsize count.toNat (readIds sys fs dir base num t)
  let ids := qsort (ids.map (· % 2 ^ 34))
  let idRead := qsort (markIds idRead)
  let box := match boxes.getLast? with
    | some b => val8 b
    | none => boxSize
  let pos ← matchLoop idRead (posRead.map val4) ids 0 0 pos
  recentre box fuel ids.length pos

/-- Result of `get_group_coordinates`: `Pos` and the centre, and the array `Filetable` -/
structure CoordsResult where
  result : Except Err (List Vec × Vec)
  filetable : List Int

/-- `Filetable` becomes what it was (727-728), unless the function ended before. -/
def afterMark (hashtabsize : Nat) (ft : List Int) : Except Err (List Vec × Vec) → CoordsResult
  | .error e => ⟨.error e, ft⟩
  | .ok r => ⟨.ok r, (ft.take hashtabsize).map (· / 2) ++ ft.drop hashtabsize⟩

/-- `get_group_coordinates` (486-740). `GroupNr`, `FileNr`, `GroupLen` and `hashtabsize` are not negative. -/
def getGroupCoordinates (sys : Bool) (fs : ByteFS) (dir base : Name) (num : Nat) (val4 val8 : List Byte → Rat) (qsort : List Nat → List Nat) (fuel : Nat)
    (t : HashTab) (hashtabsize groupNr fileNr groupLen : Nat) (boxSize : Rat) (pos : List Vec) : CoordsResult :=
  match groupIds sys fs dir num fileNr groupNr groupLen with
  | .error e => ⟨.error e, t.filetable⟩
  | .ok ids =>
    if t.filetable.length < hashtabsize then ⟨.error .other, t.filetable⟩
    else match (t.filetable.take hashtabsize).mapM (cShl · 1) with
      | .error e => ⟨.error e, t.filetable⟩
      | .ok shifted =>
        let ft := shifted ++ t.filetable.drop hashtabsize
        let m := markLoop t hashtabsize ids ft 0
        match m.1 with
        | .error e => ⟨.error e, m.2⟩
        | .ok count => afterMark hashtabsize m.2 (groupPositions sys fs dir base num val4 val8 qsort fuel t hashtabsize m.2 count ids boxSize pos)

end Verif.GroupLib
