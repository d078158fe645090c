import Verif.Model.GroupCoords

/-!
`get_spherical_region_count` and `get_spherical_region_coordinates` (examples/millennium/idl/IdlGroupLib/groupstuff.c, 780-1015): the particles in the cells
around a sphere. Errors and numbers are as in `Model/GroupCoords.lean`. `peano_hilbert_key` (1095-1137) and its tables (1039-1084) are those of
`Model/CPeano.lean` with `int` instead of `char`, which changes nothing for the numbers in the tables; `cKey true` stands for it.
-/

namespace Verif.GroupLib

open CPeano ReadParticles

/-- `while(base * base * base < hashtabsize) base *= 2` (828-830, 936-938). The first argument bounds the number of passes. -/
def baseLoop (hashtabsize : Int) : Nat → Int → Except Err Int
  | 0, _ => .error .diverges
  | fuel + 1, base => do
    let q ← cInt (base * base)
    let q ← cInt (q * base)
    if q < hashtabsize then
      let base ← cInt (base * 2)
      baseLoop hashtabsize fuel base
    else .ok base

/-- `while((1 << hashbits) < base) hashbits++` (832-834, 940-942) -/
def bitsLoop (base : Int) : Nat → Int → Except Err Int
  | 0, _ => .error .diverges
  | fuel + 1, bits => do
    let q ← cShl 1 bits
    if q < base then bitsLoop base fuel (bits + 1) else .ok bits

/-- Conversion of a `double` to `int` -/
def truncInt (x : Rat) : Except Err Int := cInt (if 0 ≤ x then x.floor else -(-x).floor)

/-- `iix` for `ix` (854-857, 962-965) and so on -/
def wrapIndex (base i : Int) : Int :=
  let i := if i < 0 then i + base else i
  if i ≥ base then i - base else i

/-- Values of `ix` in a loop (846, 954): from `c - cells` to `c + cells` -/
def axis (c cells : Int) : Except Err (List Int) := do
  let lo ← cInt (c - cells)
  let hi ← cInt (c + cells)
  let stop ← cInt (hi + 1)
  .ok ((List.range (stop - lo).toNat).map (fun i : Nat => lo + i))

/-- The sphere of the caller -/
structure Sphere where
  x : Rat
  y : Rat
  z : Rat
  rad : Rat

/-- The cells of the three loops (828-869, 936-977): `hash_key` in each pass -/
def sphereKeys (hashtabsize : Int) (box : Rat) (s : Sphere) : Except Err (List (Except Err Int)) := do
  let base ← baseLoop hashtabsize 32 1
  let bits ← bitsLoop base 32 1
  let cellsize := box / base
  if cellsize = 0 then .error .other
  else
    let cells ← truncInt (s.rad / cellsize + 1)
    let cx ← truncInt (s.x / cellsize)
    let cy ← truncInt (s.y / cellsize)
    let cz ← truncInt (s.z / cellsize)
    let xs ← axis cx cells
    let ys ← axis cy cells
    let zs ← axis cz cells
    .ok (xs.flatMap fun ix => ys.flatMap fun iy => zs.map fun iz => cKey true (wrapIndex base ix) (wrapIndex base iy) (wrapIndex base iz) bits)

/-- The size of the box in the first file (814-825, 921-932) -/
def firstBox (sys : Bool) (fs : ByteFS) (dir base : Name) (num : Nat) (val8 : List Byte → Rat) : Except Err Rat := do
  let fd ← openBuf fs (snapName dir base num 0)
  let h ← ioHeader sys fd
  .ok (val8 h.1.boxSize)

/-- `get_spherical_region_count` (780-878): what it returns -/
def getSphericalRegionCount (sys : Bool) (fs : ByteFS) (dir base : Name) (num : Nat) (val8 : List Byte → Rat) (t : HashTab) (hashtabsize : Int) (s : Sphere) : Except Err Int := do
  let box ← firstBox sys fs dir base num val8
  let keys ← sphereKeys hashtabsize box s
  keys.foldlM (fun (count : Int) key => do
    let key ← key
    let len ← cellLen t key
    cInt (count + len)) 0

/-- What the loops change (951-1003): the numbers in `Pos` and `BoxSize` -/
structure SphereState where
  pos : List (List Byte)
  box : Rat

/-- One pass (977-1004). `Pos` has room for `room` numbers; the number of those which are there is `3 * count`. -/
def sphereStep (sys : Bool) (fs : ByteFS) (dir base : Name) (num : Nat) (val8 : List Byte → Rat) (t : HashTab) (room : Nat) (s : SphereState) (key : Except Err Int) : Except Err SphereState := do
  let key ← key
  let _ ← cInt s.pos.length
  let f ← cGet t.filetable key
  let r ← readPos sys fs dir base num t f key
  if room < s.pos.length + r.1.length then .error .other else .ok ⟨s.pos ++ r.1, val8 r.2⟩

/-- `get_spherical_region_coordinates` (880-1015): `Pos`, which has the contents `pos` before -/
def getSphericalRegionCoordinates (sys : Bool) (fs : ByteFS) (dir base : Name) (num : Nat) (val4 val8 : List Byte → Rat) (t : HashTab) (hashtabsize : Int) (s : Sphere) (pos : List Vec) :
    Except Err (List Vec) := do
  let box ← firstBox sys fs dir base num val8
  let keys ← sphereKeys hashtabsize box s
  let r ← keys.foldlM (sphereStep sys fs dir base num val8 t (3 * pos.length)) ⟨[], box⟩
  let _ ← cInt r.pos.length
  let ps ← (List.range (r.pos.length / 3)).mapM (vector (r.pos.map val4))
  .ok (overlay pos 0 (ps.map (fun p => Vec.map2 (fun a c => fofPeriodic r.box (a - c)) p (s.x, s.y, s.z))))

end Verif.GroupLib
