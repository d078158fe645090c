import Verif.Model.Peano
import Verif.Model.ParallelUnique
import Mathlib.Data.Rat.Defs
import Mathlib.Algebra.Order.Ring.Unbundled.Rat
import Mathlib.Algebra.Order.Ring.Rat
import Mathlib.Algebra.Order.Group.Abs

/-!
The methods `sanity_check` of the readers of group catalogues and snapshots
(python/virgo/formats/subfind_lgadget2.py, subfind_lgadget3.py, subfind_pgadget3.py).

Arrays are lists of the values read from the file. Sums of two `int32` arrays are `int32` in numpy: they are taken modulo 2^32
(`wrap32`). `SanityCheckFailedException` is the error `sanityCheck`, a plain `Exception` is the error `other`.
-/

namespace Verif

/-- `if bad: raise e` -/
def raiseIf (bad : Bool) (e : Err) : Except Err Unit := if bad then .error e else .ok ()

/-- `a + b` for arrays of type `int32` -/
def add32 (a b : List Int) : List Int := List.zipWith (fun x y => wrap32 (x + y)) a b

/-- `a + b` for an array of type `uint32` and one of type `int32`, which has type `int64` -/
def addWide (a b : List Int) : List Int := List.zipWith (fun x y => x + y) a b

/-- `np.any(a != b)` -/
def anyNe (a b : List Int) : Bool := (List.zipWith (fun x y => decide (x ≠ y)) a b).any id

/-- `a[mask]` -/
def maskedBy (mask : List Bool) (a : List Int) : List Int := ((mask.zip a).filter Prod.fst).map Prod.snd

/-- A floating point number: exact, infinite (negative or not), or not a number -/
inductive Flt
  | fin (q : ℚ)
  | inf (neg : Bool)
  | nan
  deriving DecidableEq

/-- `np.isfinite` -/
def Flt.isFinite : Flt → Bool
  | .fin _ => true
  | _ => false

/-- `x >= 0.0` -/
def Flt.nonneg : Flt → Bool
  | .fin q => decide (0 ≤ q)
  | .inf neg => !neg
  | .nan => false

/-! ### L-Gadget2 (subfind_lgadget2.py) -/

/-- Python's `sum` of an array of type `int32`: the result has type `int32` in NumPy 2 and `int64` before. -/
def pySum32 (numpy2 : Bool) (l : List Int) : Int := l.foldl (fun s x => if numpy2 then wrap32 (s + x) else s + x) 0

/-- What `GroupTabFile.sanity_check` looks at -/
structure GroupTab2 where
  ngroups : Int
  nids : Int
  len : List Int
  off : List Int
  deriving DecidableEq

/-- `GroupTabFile.sanity_check` (subfind_lgadget2.py 53-70) -/
def GroupTab2.check (numpy2 : Bool) (t : GroupTab2) : Except Err Unit := do
  raiseIf (decide (pySum32 numpy2 t.len ≠ t.nids)) .sanityCheck
  raiseIf (t.off.any (fun o => decide (o < 0)) || t.off.any (fun o => decide (o ≥ t.nids))) .sanityCheck
  if t.ngroups > 1 then
    raiseIf (anyNe (t.off.drop 1) (add32 t.off.dropLast t.len.dropLast)) .sanityCheck

/-- `GroupIDsFile.sanity_check` and `SubIDsFile.sanity_check` (subfind_lgadget2.py 105-124, 259-278). The IDs are unsigned. A shift of
`uint32` by 34 bits gives zero, as it does for the number itself. -/
def idsCheck2 (ids : List Nat) : Except Err Unit := do
  raiseIf (ids.any (fun i => decide ((i : Int) < 0))) .sanityCheck
  let key := ids.map (fun i => i >>> 34)
  let ids := List.zipWith (fun i k => i - (k <<< 34)) ids key
  raiseIf (key.any (fun k => decide ((k : Int) < 0)) || key.any (fun k => decide (k ≥ 256 ^ 3))) .sanityCheck
  raiseIf (ids.any (fun i => decide ((i : Int) < 0)) || ids.any (fun i => decide (i > 2160 ^ 3))) .sanityCheck
  raiseIf (decide ((ids.filter (fun i => decide (i = 0))).length > 1)) .sanityCheck

/-- What `SubTabFile.sanity_check` looks at. `finite` has the datasets which should be finite. -/
structure SubTab2 where
  ngroups : Int
  nids : Int
  nsub : Int
  nsubperhalo : List Int
  firstsub : List Int
  sublen : List Int
  suboffset : List Int
  subparent : List Int
  finite : List (List Flt)
  deriving DecidableEq

/-- `np.repeat(np.arange(n), counts)`; negative counts raise `ValueError` -/
def npRepeatRange (counts : List Int) : Except Err (List Int) :=
  if counts.any (fun c => decide (c < 0)) then .error .valueError
  else .ok ((counts.zipIdx).flatMap (fun ci => List.replicate ci.1.toNat (ci.2 : Int)))

/-- `SubTabFile.sanity_check` (subfind_lgadget2.py 186-224). `np.sum` of an array of type `int32` has type `int64`. -/
def SubTab2.check (t : SubTab2) : Except Err Unit := do
  raiseIf (decide (t.nsubperhalo.sum ≠ t.nsub)) .sanityCheck
  let ind := t.nsubperhalo.map (fun n => decide (n > 0))
  raiseIf ((maskedBy ind t.firstsub).any (fun f => decide (f < 0)) || (maskedBy ind t.firstsub).any (fun f => decide (f ≥ t.nsub)))
    .sanityCheck
  raiseIf (t.suboffset.any (fun o => decide (o < 0)) || (add32 t.suboffset t.sublen).any (fun e => decide (e > t.nids))) .sanityCheck
  let parent ← npRepeatRange t.nsubperhalo
  raiseIf (anyNe t.subparent parent) .sanityCheck
  raiseIf (t.finite.any (fun data => data.any (fun x => !x.isFinite))) .sanityCheck

/-! ### L-Gadget3 and P-Gadget3 -/

/-- What `SubTabFile.sanity_check` looks at. `prop` has the datasets with floating point numbers, in any order of the elements. -/
structure SubTab3 where
  all_used : Bool
  totnids : Int
  totngroups : Int
  totnsubgroups : Int
  grouplen : List Int
  groupoffset : List Int
  nsubs : List Int
  firstsub : List Int
  sublen : List Int
  suboffset : List Int
  subgrnr : List Int
  prop : String → List Flt

/-- The loops over properties (subfind_lgadget3.py 134-139, 152-157, subfind_pgadget3.py 271-279, 291-297): all have to be finite, those in `positive` not negative. -/
def propsCheck (prop : String → List Flt) (positive : List String) : List String → Except Err Unit
  | [] => .ok ()
  | name :: rest => do
    raiseIf (!(prop name).all Flt.isFinite) .other
    raiseIf (!(prop name).all Flt.nonneg && positive.contains name) .other
    propsCheck prop positive rest

/-- `SubTabFile.sanity_check` of L-Gadget3 (subfind_lgadget3.py 101-165) and P-Gadget3 (subfind_pgadget3.py 238-306), which differ
in the type of `GroupOffset` (`int32` or `uint32`: `groupEnd`) and in the properties of groups and subhalos which are tested. Where one
`if` is inside another the conditions are joined. -/
def SubTab3.checkWith (groupEnd : List Int → List Int → List Int) (groupProps subProps : List String) (t : SubTab3) : Except Err Unit := do
  raiseIf (!t.all_used) .sanityCheck
  raiseIf (decide (t.totnids < 0) || decide (t.totngroups < 0) || decide (t.totnsubgroups < 0)) .sanityCheck
  raiseIf (t.grouplen.any (fun n => decide (n < 0))) .sanityCheck
  raiseIf (decide (t.totnids < 2 ^ 31) &&
    (t.groupoffset.any (fun o => decide (o < 0)) || (groupEnd t.groupoffset t.grouplen).any (fun e => decide (e > t.totnids)))) .sanityCheck
  raiseIf (t.nsubs.any (fun n => decide (n < 0))) .sanityCheck
  let ind := t.nsubs.map (fun n => decide (n > 0))
  raiseIf ((maskedBy ind t.firstsub).any (fun f => decide (f < 0)) ||
    (add32 (maskedBy ind t.firstsub) (maskedBy ind t.nsubs)).any (fun e => decide (e > t.totnsubgroups))) .sanityCheck
  propsCheck t.prop groupProps groupProps
  raiseIf (t.sublen.any (fun n => decide (n < 0))) .sanityCheck
  raiseIf (decide (t.totnids < 2 ^ 31) &&
    (t.suboffset.any (fun o => decide (o < 0)) || (add32 t.suboffset t.sublen).any (fun e => decide (e > t.totnids)))) .sanityCheck
  propsCheck t.prop ["SubMass", "SubVelDisp", "SubVmax", "SubRVmax", "SubHalfMass"] subProps
  raiseIf (t.subgrnr.any (fun g => decide (g < 0)) || t.subgrnr.any (fun g => decide (g ≥ t.totngroups))) .sanityCheck
  if t.subgrnr.length > 1 then
    raiseIf ((List.zipWith (fun a b => decide (a < b)) (t.subgrnr.drop 1) t.subgrnr.dropLast).any id) .sanityCheck

/-- subfind_lgadget3.py 101-165 -/
def SubTab3.checkL (t : SubTab3) : Except Err Unit :=
  t.checkWith add32 ["Halo_M_Mean200", "Halo_M_Crit200", "Halo_M_TopHat200", "GroupVelDisp"]
    ["SubPos", "SubVel", "SubCofM", "SubSpin", "SubVelDisp", "SubVmax", "SubRVmax", "SubHalfMass"]

/-- subfind_pgadget3.py 238-306 -/
def SubTab3.checkP (t : SubTab3) : Except Err Unit :=
  t.checkWith addWide ["GroupMass", "Halo_M_Mean200", "Halo_R_Mean200", "Halo_M_Crit200", "Halo_R_Crit200", "Halo_M_TopHat200", "Halo_R_TopHat200"]
    ["SubMass", "SubPos", "SubVel", "SubCofM", "SubSpin", "SubVelDisp", "SubVmax", "SubRVmax", "SubHalfMass"]

/-- `sanity_check` of the files with particle IDs (subfind_lgadget3.py 207-217, subfind_pgadget3.py 53-63, 342-352) -/
def idsCheck3 (all_used : Bool) (ids : List Nat) : Except Err Unit := do
  raiseIf (!all_used) .sanityCheck
  raiseIf ((npUnique ids).any (fun e => decide (e.2 ≠ 1))) .sanityCheck

/-- Arithmetic with infinities -/
def Flt.add : Flt → Flt → Flt
  | .fin a, .fin b => .fin (a + b)
  | .nan, _ => .nan
  | _, .nan => .nan
  | .inf a, .inf b => if a = b then .inf a else .nan
  | .inf a, .fin _ => .inf a
  | .fin _, .inf b => .inf b

def Flt.neg : Flt → Flt
  | .fin a => .fin (-a)
  | .inf a => .inf !a
  | .nan => .nan

def Flt.abs : Flt → Flt
  | .fin a => .fin |a|
  | .inf _ => .inf false
  | .nan => .nan

/-- Division; the sign of zero is taken to be positive. -/
def Flt.div : Flt → Flt → Flt
  | .fin a, .fin b => if b = 0 then (if a = 0 then .nan else .inf (decide (a < 0))) else .fin (a / b)
  | .fin _, .inf _ => .fin 0
  | .inf a, .fin b => .inf (a != decide (b < 0))
  | _, _ => .nan

/-- `x > c` -/
def Flt.gt : Flt → ℚ → Bool
  | .fin a, c => decide (c < a)
  | .inf neg, _ => !neg
  | .nan, _ => false

/-- What `GroupTabFile.sanity_check` of P-Gadget3 looks at -/
structure GroupTab3 where
  all_used : Bool
  nids : Int
  len : List Int
  lenType : List (List Int)
  off : List Int
  mass : List Flt
  massType : List (List Flt)

/-- `np.abs(mass_sum - groupmass)/groupmass > 1.0e-5` for one group -/
def massDiffers (types : List Flt) (m : Flt) : Bool :=
  ((((types.foldl Flt.add (.fin 0)).add m.neg).abs).div m).gt (1 / 100000)

/-- `GroupTabFile.sanity_check` (subfind_pgadget3.py 112-135). `GroupOffset` has type `uint32`. -/
def GroupTab3.check (t : GroupTab3) : Except Err Unit := do
  raiseIf (!t.all_used) .sanityCheck
  raiseIf (anyNe (t.lenType.map List.sum) t.len) .sanityCheck
  raiseIf (decide (t.nids > 1) && anyNe (t.off.drop 1) (addWide t.off.dropLast t.len.dropLast)) .sanityCheck
  raiseIf ((List.zipWith massDiffers t.massType t.mass).any id) .sanityCheck

/-! ### Snapshots of the Millennium simulation (subfind_lgadget2.py 341-409) -/

/-- What `SnapshotFile.sanity_check` looks at -/
structure SnapCheck where
  boxsize : ℚ
  /-- `Header/NumPart_Total` -/
  total : List Nat
  hashtabsize : Nat
  pos : List (Flt × Flt × Flt)
  vel : List (Flt × Flt × Flt)
  ids : List Nat
  first : Int
  last : Int
  blockid : List Int

/-- Version of Python and numpy: `/` of integers is not rounded in Python 3; `uint32` numbers shifted to the left stay `uint32` in NumPy 2. -/
structure Versions where
  python3 : Bool
  numpy2 : Bool

/-- The loop which counts the bits (350-354), with integer division. The first argument bounds the number of passes. -/
def hashBitsLoop : Nat → Nat → Nat → Nat
  | 0, _, bits => bits
  | fuel + 1, size, bits => if size > 2 then hashBitsLoop fuel (size / 2) (bits + 1) else bits

def flat3 {α : Type*} (l : List (α × α × α)) : List α := l.flatMap (fun p => [p.1, p.2.1, p.2.2])

/-- `x < 0.0` -/
def Flt.isNeg : Flt → Bool
  | .fin q => decide (q < 0)
  | .inf neg => neg
  | .nan => false

/-- `key[a:b] = v` for the slice `a:b` of an array of length `n`, where `b` may be left out -/
def cellFill (key : List Int) (a : Int) (b : Option Int) (v : Int) : List Int :=
  let norm := fun (x : Int) => if x < 0 then max 0 (x + key.length) else min x key.length
  let i := (norm a).toNat
  let j := match b with
    | none => key.length
    | some b => (norm b).toNat
  (key.zipIdx).map (fun ki => if i ≤ ki.2 ∧ ki.2 < j then v else ki.1)

/-- One pass of the loop over cells (386-387) -/
def cellKeysStep (first : Int) (blockid : List Int) (key : List Int) (i : Nat) : Except Err (List Int) :=
  match blockid[i]?, blockid[i + 1]? with
  | some a, some b => .ok (cellFill key a (some b) (i + first))
  | _, _ => .error .indexError

/-- The hash key of each particle (385-388) -/
def cellKeys (n : Nat) (first last : Int) (blockid : List Int) : Except Err (List Int) :=
  match (List.range (last - first).toNat).foldlM (cellKeysStep first blockid) (List.replicate n (-1)), blockid.getLast? with
  | .error e, _ => .error e
  | .ok _, none => .error .indexError
  | .ok key, some b => .ok (cellFill key b none last)

/-- `dx > 1.001*0.5*cellsize` for one coordinate, with the distance taken around the box (394-405) -/
def outsideCell (boxsize cellsize x : ℚ) (i : Int) : Bool :=
  let dx := |x - ((i : ℚ) * cellsize + 1 / 2 * cellsize)|
  let dx := if dx > 1 / 2 * boxsize then boxsize - dx else dx
  decide (dx > 1001 / 1000 * (1 / 2) * cellsize)

def Flt.val : Flt → ℚ
  | .fin q => q
  | _ => 0

/-- `peano_hilbert_key_inverses(key, hashbits)` (391). In Python 3 the number of bits is not an integer type, and the shifts in
`peano_hilbert_key_inverses_block` raise `TypeError`; if there are no particles it is not called. -/
def cellsOf (v : Versions) (blocksize : Nat) (key : List Int) (hashbits : Nat) : Except Err (List (Int × Int × Int)) :=
  if v.python3 then (if key.length = 0 then .ok [] else .error .typeError) else phInverses blocksize key hashbits

/-- `SnapshotFile.sanity_check` (subfind_lgadget2.py 341-409). The hash keys have type `int32`. -/
def SnapCheck.check (v : Versions) (blocksize : Nat) (t : SnapCheck) : Except Err Unit := do
  let nptot := t.total.getD 1 0 + (if v.numpy2 then 0 else t.total.getD 2 0 * 2 ^ 32)
  let hashbits := hashBitsLoop t.hashtabsize t.hashtabsize 1 / 3
  raiseIf (!(flat3 t.pos).all Flt.isFinite) .sanityCheck
  raiseIf ((flat3 t.pos).any Flt.isNeg || (flat3 t.pos).any (fun x => x.gt t.boxsize)) .sanityCheck
  raiseIf (!(flat3 t.vel).all Flt.isFinite) .sanityCheck
  raiseIf ((flat3 t.vel).any (fun x => x.abs.gt 1000000)) .sanityCheck
  raiseIf (t.ids.any (fun i => decide ((i : Int) < 0)) || t.ids.any (fun i => decide (i > nptot))) .sanityCheck
  let key ← cellKeys t.pos.length t.first t.last t.blockid
  let grid ← cellsOf v blocksize key hashbits
  let cellsize := t.boxsize / 2 ^ hashbits
  raiseIf ((List.zipWith (fun p g => outsideCell t.boxsize cellsize p.1.val g.1) t.pos grid).any id) .sanityCheck
  raiseIf ((List.zipWith (fun p g => outsideCell t.boxsize cellsize p.2.1.val g.2.1) t.pos grid).any id) .sanityCheck
  raiseIf ((List.zipWith (fun p g => outsideCell t.boxsize cellsize p.2.2.val g.2.2) t.pos grid).any id) .sanityCheck

end Verif
