import Verif.Model.SphericalRegion

/-!
The particles in the cells around a sphere (examples/millennium/idl/IdlGroupLib/groupstuff.c, 780-1015), as in `Model/SphericalRegion.lean`, with rounded operations: `fl` is rounding to `double` and `fl4` is rounding
to `float`.
-/

namespace Verif.FloatBits

open GroupLib ReadParticles CPeano

/-- `hash_key` in each pass of the loops (828-869, 936-977). `Sx`, `Sy`, `Sz` and `Rad` are `float` and are converted to `double`, which is exact. -/
def sphereKeys (fl : Rat → Rat) (hashtabsize : Int) (box : Rat) (s : Sphere) : Except Err (List (Except Err Int)) := do
  let base ← baseLoop hashtabsize 32 1
  let bits ← bitsLoop base 32 1
  let cellsize := fl (box / base)
  if cellsize = 0 then .error .other
  else
    let cells ← truncInt (fl (fl (s.rad / cellsize) + 1))
    let cx ← truncInt (fl (s.x / cellsize))
    let cy ← truncInt (fl (s.y / cellsize))
    let cz ← truncInt (fl (s.z / cellsize))
    let xs ← axis cx cells
    let ys ← axis cy cells
    let zs ← axis cz cells
    .ok (xs.flatMap fun ix => ys.flatMap fun iy => zs.map fun iz => cKey true (wrapIndex base ix) (wrapIndex base iy) (wrapIndex base iz) bits)

/-- `get_spherical_region_count` (780-878): what it returns -/
def getSphericalRegionCount (fl : Rat → Rat) (sys : Bool) (fs : ByteFS) (dir base : Name) (num : Nat) (val8 : List Byte → Rat) (t : HashTab) (hashtabsize : Int) (s : Sphere) : Except Err Int := do
  let box ← firstBox sys fs dir base num val8
  let keys ← sphereKeys fl hashtabsize box s
  keys.foldlM (fun (count : Int) key => do
    let key ← key
    let len ← cellLen t key
    cInt (count + len)) 0

/-- `fof_periodic` (755-764): halves of numbers are exact. -/
def fofPeriodic (fl : Rat → Rat) (box x : Rat) : Rat :=
  let x := if x ≥ box / 2 then fl (x - box) else x
  if x < -(box / 2) then fl (x + box) else x

/-- `Pos[i * 3 + 0] = fof_periodic(Pos[i * 3 + 0] - Sx)` (1009): the difference of two `float` and the result are `float`. -/
def relative (fl4 fl : Rat → Rat) (box a c : Rat) : Rat := fl4 (fofPeriodic fl box (fl4 (a - c)))

/-- `get_spherical_region_coordinates` (880-1015): `Pos`, which has the contents `pos` before -/
def getSphericalRegionCoordinates (fl4 fl : Rat → Rat) (sys : Bool) (fs : ByteFS) (dir base : Name) (num : Nat) (val4 val8 : List Byte → Rat) (t : HashTab) (hashtabsize : Int) (s : Sphere) (pos : List Vec) :
    Except Err (List Vec) := do
  let box ← firstBox sys fs dir base num val8
  let keys ← sphereKeys fl hashtabsize box s
  let r ← keys.foldlM (sphereStep sys fs dir base num val8 t (3 * pos.length)) ⟨[], box⟩
  let _ ← cInt r.pos.length
  let ps ← (List.range (r.pos.length / 3)).mapM (vector (r.pos.map val4))
  .ok (overlay pos 0 (ps.map (fun p => Vec.map2 (relative fl4 fl r.box) p (s.x, s.y, s.z))))

end Verif.FloatBits
