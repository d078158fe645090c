import Verif.Model.RoundedSphere
import Verif.Model.GroupCoords

/-!
`get_group_coordinates` (examples/millennium/idl/IdlGroupLib/groupstuff.c, 486-764) with rounded operations. `fl` is rounding to `double` and `fl4` is rounding to `float`. The exact version is
`GroupLib.getGroupCoordinates`.
-/

namespace Verif.FloatBits

/-- The first loop of `fof_periodic_wrap` (745-746). The first argument after the size bounds the number of passes. -/
def wrapDown (fl : Rat → Rat) (box : Rat) : Nat → Rat → Except Err Rat
  | 0, _ => .error .diverges
  | fuel + 1, x => if x ≥ box then wrapDown fl box fuel (fl (x - box)) else .ok x

/-- The second loop of `fof_periodic_wrap` (748-749) -/
def wrapUp (fl : Rat → Rat) (box : Rat) : Nat → Rat → Except Err Rat
  | 0, _ => .error .diverges
  | fuel + 1, x => if x < 0 then wrapUp fl box fuel (fl (x + box)) else .ok x

/-- `fof_periodic_wrap` (743-752) -/
def fofPeriodicWrap (fl : Rat → Rat) (box : Rat) (fuel : Nat) (x : Rat) : Except Err Rat := do
  let x ← wrapDown fl box fuel x
  wrapUp fl box fuel x

/-- `Pos[i * 3 + 0] = fof_periodic(Pos[i * 3 + 0] - refx)` (704): `refx` is a `double`, so that the difference is too. -/
def offsetFrom (fl4 fl : Rat → Rat) (box ref a : Rat) : Rat := fl4 (fofPeriodic fl box (fl (a - ref)))

/-- Lines 697-725 and 735-737 for one of the three coordinates, which are computed independently, of all particles of the group: the new contents of `Pos`, and `*Sx`, which is a `float`. For a group without particles there is a division 0 / 0. -/
def recentre (fl4 fl : Rat → Rat) (box : Rat) (fuel : Nat) (pos : List Rat) : Except Err (List Rat × Rat) :=
  match pos with
  | [] => .error .other
  | ref :: _ => do
    let d := pos.map (offsetFrom fl4 fl box ref)
    let s := d.foldl (fun a b => fl (a + b)) 0
    let s := fl (s / pos.length)
    let x ← fofPeriodicWrap fl box fuel (fl (s + ref))
    .ok (d.map (fun p => fl4 (fl (p - s))), fl4 x)

open GroupLib (Vec HashTab CoordsResult)

/-- Lines 697-725 and 735-737 for all three coordinates of the first `groupLen` elements of `Pos` -/
def recentreAll (fl4 fl : Rat → Rat) (box : Rat) (fuel groupLen : Nat) (pos : List Vec) : Except Err (List Vec × Vec) :=
  if groupLen = 0 ∨ pos.length < groupLen then .error .other
  else do
    let p := pos.take groupLen
    let x ← recentre fl4 fl box fuel (p.map (·.1))
    let y ← recentre fl4 fl box fuel (p.map (·.2.1))
    let z ← recentre fl4 fl box fuel (p.map (·.2.2))
    .ok (x.1.zip (y.1.zip z.1) ++ pos.drop groupLen, (x.2, y.2, z.2))

/-- What follows after the flags are set (587-725, 735-737), like `GroupLib.groupPositions` -/
def groupPositions (fl4 fl : Rat → Rat) (sys : Bool) (fs : ByteFS) (dir base : Name) (num : Nat) (val4 val8 : List Byte → Rat) (qsort : List Nat → List Nat) (fuel : Nat)
    (t : HashTab) (hashtabsize : Nat) (ft : List Int) (count : Int) (ids : List Nat) (boxSize : Rat) (pos : List Vec) : Except Err (List Vec × Vec) := do
  let room ← CPeano.cInt (3 * count)
  let posRead ← GroupLib.cellLoop ft hashtabsize room.toNat (fun f key => do let r ← GroupLib.readPos sys fs dir base num t f key; .ok r.1)
  let boxes ← GroupLib.cellLoop ft hashtabsize hashtabsize (fun f key => do let r ← GroupLib.readPos sys fs dir base num t f key; .ok [r.2])
  let idRead ← GroupLib.cellLoop ft hashtabsize count.toNat (GroupLib.readIds sys fs dir base num t)
  let ids := qsort (ids.map (· % 2 ^ 34))
  let idRead := qsort (GroupLib.markIds idRead)
  let box := match boxes.getLast? with
    | some b => val8 b
    | none => boxSize
  let pos ← GroupLib.matchLoop idRead (posRead.map val4) ids 0 0 pos
  recentreAll fl4 fl box fuel ids.length pos

/-- `get_group_coordinates` (486-740), like `GroupLib.getGroupCoordinates` -/
def getGroupCoordinates (fl4 fl : Rat → Rat) (sys : Bool) (fs : ByteFS) (dir base : Name) (num : Nat) (val4 val8 : List Byte → Rat) (qsort : List Nat → List Nat) (fuel : Nat)
    (t : HashTab) (hashtabsize groupNr fileNr groupLen : Nat) (boxSize : Rat) (pos : List Vec) : CoordsResult :=
  match GroupLib.groupIds sys fs dir num fileNr groupNr groupLen with
  | .error e => ⟨.error e, t.filetable⟩
  | .ok ids =>
    if t.filetable.length < hashtabsize then ⟨.error .other, t.filetable⟩
    else match (t.filetable.take hashtabsize).mapM (CPeano.cShl · 1) with
      | .error e => ⟨.error e, t.filetable⟩
      | .ok shifted =>
        let ft := shifted ++ t.filetable.drop hashtabsize
        let m := GroupLib.markLoop t hashtabsize ids ft 0
        match m.1 with
        | .error e => ⟨.error e, m.2⟩
        | .ok count => GroupLib.afterMark hashtabsize m.2 (groupPositions fl4 fl sys fs dir base num val4 val8 qsort fuel t hashtabsize m.2 count ids boxSize pos)

end Verif.FloatBits
