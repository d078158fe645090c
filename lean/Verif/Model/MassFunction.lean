import Verif.Model.GroupLib
import Verif.Model.IdlReaders

/-!
The programs in IDL which use the C library for group catalogues to plot the number of groups above a given size (examples/millennium/idl/IdlGroupLib/show_massfunc.pro and get_groupcount_below_minlength.pro).

`BaseDir` and `Num` are arguments. Numbers in double precision are integers here (they are exact below 2^53). Where a function of the library returns -1 the model stops; in IDL the result is used as the size of an
array, which fails.
-/

namespace Verif.MassFunction

open GroupLib IdlReaders SnapshotPrograms

/-- `Outputdir` (get_groupcount_below_minlength.pro 11-15, show_massfunc.pro 11-15) -/
def outputDir (base : Name) (num : Nat) : Name := base ++ "/snapdir_".toList ++ exts num ++ "/".toList

/-- What is plotted: `GroupLen` and `Count` -/
structure Points where
  groupLen : List Int
  count : List Int
  deriving DecidableEq

/-- `GroupLen` and `Count` for a catalogue (get_groupcount_below_minlength.pro 56-71, show_massfunc.pro 31-46) -/
def loadCatalogue (sys : Bool) (fs : ByteFS) (dir : Name) (num fuel : Nat) (qsort : List CatData → List CatData) (ngroups : Int) : Except Err Points := do
  let k ← idlSize ngroups
  let cat ← getGroupCatalogue sys fs dir num fuel qsort (List.replicate k ⟨0, 0, 0⟩)
  let n ← idlSize cat.1
  .ok ⟨cat.2.map (·.len), (List.range n).map (fun i : Nat => (i : Int) + 1)⟩

/-- show_massfunc.pro -/
def showMassfunc (sys : Bool) (fs : ByteFS) (base : Name) (num fuel : Nat) (qsort : List CatData → List CatData) : Except Err Points := do
  -- (21-24)
  let ngroups ← getTotalNumberOfGroups sys fs (outputDir base num) num
  -- (31-46)
  loadCatalogue sys fs (outputDir base num) num fuel qsort ngroups

/-- An element of an array, with a scalar index -/
def elem (a : List Int) (i : Nat) : Except Err Int := match a[i]? with | some x => .ok x | none => .error .indexError

/-- `repeat begin ... endrep until i eq 0` (get_groupcount_below_minlength.pro 80-83). `i` is an unsigned integer of 32 bits. -/
def cumLoop (below : List Int) : Nat → Nat → List Int → Except Err (List Int)
  | 0, _, _ => .error .diverges
  | fuel + 1, i, cum => do
    let a ← elem cum ((i + 1) % 4294967296)
    let b ← elem below i
    let _ ← elem cum i
    if (i + 4294967295) % 4294967296 = 0 then .ok (cum.set i (a + b)) else cumLoop below fuel ((i + 4294967295) % 4294967296) (cum.set i (a + b))

/-- `CumulativeBelow` (get_groupcount_below_minlength.pro 75-83) -/
def cumulativeBelow (fuel n : Nat) (below : List Int) (ngroups : Int) : Except Err (List Int) := do
  let b ← elem below (n - 1)
  cumLoop below fuel ((n + 4294967294) % 4294967296) ((List.replicate n 0).set (n - 1) (b + ngroups))

/-- What get_groupcount_below_minlength.pro plots and prints -/
structure Result where
  points : Points
  sizeBelow : List Int
  cumBelow : List Int
  countIds : Int
  total : Int
  deriving DecidableEq

/-- get_groupcount_below_minlength.pro -/
def groupCount (sys : Bool) (fs : ByteFS) (base : Name) (num fuel : Nat) (qsort : List CatData → List CatData) : Except Err Result := do
  -- (21-24)
  let minlen ← getMinimumGroupLen sys fs (outputDir base num) num
  -- (31-40)
  let n ← idlSize minlen
  let below ← getGroupcountBelowMinimumLen sys fs (outputDir base num) num fuel (List.replicate n 0)
  -- (45-48)
  let ngroups ← getTotalNumberOfGroups sys fs (outputDir base num) num
  -- (56-71)
  let points ← loadCatalogue sys fs (outputDir base num) num fuel qsort ngroups
  -- (75-83)
  let n ← idlSize below.1
  let cum ← cumulativeBelow fuel n below.2.1 ngroups
  -- (86-90)
  let sizes := (List.range n).map (fun i : Nat => (i : Int))
  .ok ⟨points, sizes.drop 1, cum.drop 1, below.2.2, points.groupLen.sum + (List.zipWith (· * ·) below.2.1 sizes).sum⟩

end Verif.MassFunction
