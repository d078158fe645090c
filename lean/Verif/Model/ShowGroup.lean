import Verif.Model.MassFunction
import Verif.Model.GroupCoords

/-!
The programs in IDL which plot the particles of groups and the numbers of particles in parts of the box (examples/millennium/idl/IdlGroupLib/show_group.pro and getcubes.pro), with the C library.

`BaseDir`, `SnapBase` and `Num` are arguments. Where a function of the library fails the model stops; in IDL the results are not looked at, so that the program goes on with arrays of zeros.
-/

namespace Verif.ShowGroup

open GroupLib IdlReaders SnapshotPrograms MassFunction

/-- The tables of cells, their size and the number of files (show_group.pro 47-71, getcubes.pro 22-49) -/
def loadTable (sys : Bool) (fs : ByteFS) (dir snapbase : Name) (num fuel : Nat) : Except Err (HashTab × Nat × Nat) := do
  let s ← getHashTableSize sys fs dir snapbase num
  let k ← idlSize s.1
  let nf ← idlSize s.2
  let t ← getHashTable sys fs dir snapbase num fuel ⟨List.replicate k 0, List.replicate k 0, List.replicate nf 0, List.replicate nf 0⟩
  .ok (t, k, nf)

/-- What is plotted and printed for a group: `N`, `Len`, `Pos` and the centre of mass -/
structure Shown where
  n : Nat
  len : Int
  pos : List Vec
  centre : Vec
  deriving DecidableEq

/-- What does not change in the loop -/
structure Setup where
  sys : Bool
  fs : ByteFS
  base : Name
  snapbase : Name
  num : Nat
  val4 : List Byte → Rat
  val8 : List Byte → Rat
  qsort : List Nat → List Nat
  fuel : Nat

/-- `Outputdir` (show_group.pro 12-16) -/
def Setup.dir (u : Setup) : Name := outputDir u.base u.num

/-- The element of the three arrays with index `n` -/
def entry (cat : List CatData) (n : Nat) : Except Err CatData := match cat[n]? with | some x => .ok x | none => .error .indexError

/-- The result of the function, and the table with `Filetable` as the function leaves it -/
def coordsOf (t : HashTab) (r : CoordsResult) : Except Err (List Vec × Vec × HashTab) := match r.result with
  | .error e => .error e
  | .ok p => .ok (p.1, p.2, { t with filetable := r.filetable })

/-- One pass of the loop (show_group.pro 84-115). `box` is the static variable `BoxSize` of the library before the call. -/
def showOne (u : Setup) (cat : List CatData) (t : HashTab) (k n : Nat) (box : Rat) : Except Err (Shown × HashTab) := do
  let g ← entry cat n
  let len ← idlSize g.len
  let r ← coordsOf t (getGroupCoordinates u.sys u.fs u.dir u.snapbase u.num u.val4 u.val8 u.qsort u.fuel t k g.offset.toNat g.file.toNat len box (List.replicate len (0, 0, 0)))
  .ok (⟨n, g.len, r.1, r.2.1⟩, r.2.2)

/-- The loop (show_group.pro 81-117) for some groups -/
def showLoop (u : Setup) (cat : List CatData) (k : Nat) (box : Nat → Rat) : List Nat → HashTab → Except Err (List Shown)
  | [], _ => .ok []
  | n :: ns, t => do
    let s ← showOne u cat t k n (box n)
    let rest ← showLoop u cat k box ns s.2
    .ok (s.1 :: rest)

/-- show_group.pro, 22-42: the catalogue -/
def loadGroups (u : Setup) (qsort : List CatData → List CatData) : Except Err (List CatData) := do
  let ngroups ← getTotalNumberOfGroups u.sys u.fs u.dir u.num
  let m ← idlSize ngroups
  let cat ← getGroupCatalogue u.sys u.fs u.dir u.num u.fuel qsort (List.replicate m ⟨0, 0, 0⟩)
  .ok cat.2

/-- show_group.pro: groups `2+rep` for `rep` from 0 to 3 -/
def showGroup (u : Setup) (qsort : List CatData → List CatData) (box : Nat → Rat) : Except Err (List Shown) := do
  let cat ← loadGroups u qsort
  let t ← loadTable u.sys u.fs u.dir u.snapbase u.num u.fuel
  showLoop u cat t.2.1 box ((List.range 4).map (2 + ·)) t.1

/-- getcubes.pro: `tablen`, which is plotted; `Outputdir` as in show_group.pro (12-16) -/
def getCubes (sys : Bool) (fs : ByteFS) (base snapbase : Name) (num fuel : Nat) : Except Err (List Int) := do
  let t ← loadTable sys fs (outputDir base num) snapbase num fuel
  getParticlesInCubes t.1 t.2.1 t.2.2 (List.replicate 512 0)

end Verif.ShowGroup
