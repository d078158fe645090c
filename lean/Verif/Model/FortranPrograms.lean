import Verif.Model.FortranReaders
import Verif.Model.FortranSort
import Verif.Model.ReadRegion
import Mathlib.Algebra.Order.Ring.Int

/-!
The Fortran programs for Millennium data (examples/millennium/fortran/readfofgroupsexample.f90, readgroupsexample.f90, readregionexample.f90, readsubhalosexample.f90 and
readfileexample.f90). What a program writes is the list of its rows; how numbers are printed is left out, and so are the questions which it asks. `big` is the byte order which the Fortran
subroutines expect, `sys` and `swap` are those of the C functions (ReadParticles.lean). Wrong indexes and overflow are `.other`, `STOP` is `.abort`. Pointers are not associated at the start.
Arrays which are not set hold `junk`, `blank` or zero.
-/

namespace Verif.FortranPrograms

open CPeano ReadRegion FortranReaders

/-- `a(i)`, where indexes start at one -/
def at1 {α : Type*} (a : List α) (i : Int) : Except Err α :=
  if i < 1 then .error .other else match a[(i - 1).toNat]? with
    | some v => .ok v
    | none => .error .other

/-- The three coordinates of a particle -/
structure Coord where
  x : List Byte
  y : List Byte
  z : List Byte
  deriving DecidableEq

/-- `x(p)`, `y(p)` and `z(p)` -/
def coordsOf (p : Particle) : Coord := ⟨p.x, p.y, p.z⟩

/-- The snapshot files which `readregion` opens (readregion.f90, 59-75, 161-180); it builds their names as `readfile` does. A file which is missing has no bytes. -/
def snapFiles (fs : ByteFS) (basedir basename : Name) (isnap : Int) (ifile : Nat) : List Byte :=
  match chooseFile 0 "snapdir".toList (trimBlanks basename) basedir isnap ifile with
  | .error _ => []
  | .ok filename => (fs (trimBlanks filename)).getD []

/-! ### Particles of groups -/

/-- `ISHFT(v,-34)` of an `INTEGER*8` (readfofgroupsexample.f90, 85; readgroupsexample.f90, 81) -/
def hashKey (v : List Byte) : Nat := leNat v / 2 ^ 34

/-- `ISHFT(ISHFT(v,30),-30)` (96; 92). Both shifts are logical. -/
def stripKey (v : List Byte) : Int := ((leNat v * 2 ^ 30 % 2 ^ 64) / 2 ^ 30 : Nat)

/-- Cells which contain particles of the groups (83-87; 79-83) -/
def flagCells (nhash : Nat) (groupids : List (List Byte)) : Except Err (List Bool) :=
  groupids.foldlM (fun hashmap v => if hashKey v < nhash then .ok (hashmap.set (hashKey v) true) else .error .other) (List.replicate nhash false)

/-- `DO WHILE(ids(pidx(j)).LT.id.AND.j.LT.npart)` (109-111; 105-107). The first argument bounds the number of passes. -/
def advance (ids : List Int) (pidx : List Nat) (id : Int) : Nat → Nat → Except Err Nat
  | 0, _ => .error .diverges
  | fuel + 1, j => do
    let k ← at1 pidx j
    let v ← at1 ids k
    if v < id ∧ j < ids.length then advance ids pidx id fuel (j + 1) else .ok j

/-- Variables of the loop over the IDs of groups: `j`, `nmatched`, and the arrays `xgroup`, `ygroup` and `zgroup` -/
structure MatchState where
  j : Nat
  nmatched : Nat
  group : List Coord

/-- One pass of this loop (106-116; 102-112), where `g` is `gidx(i)` -/
def matchStep (parts : List Particle) (ids : List Int) (pidx : List Nat) (groupids : List Int) (s : MatchState) (g : Nat) : Except Err MatchState := do
  let id ← at1 groupids g
  let j ← advance ids pidx id (ids.length + 1) s.j
  let k ← at1 pidx j
  let v ← at1 ids k
  let p ← at1 parts k
  .ok ⟨j, if id = v then s.nmatched + 1 else s.nmatched, s.group.set (g - 1) (coordsOf p)⟩

/-- Coordinates of the particles of the groups (94-118; 90-114) -/
def groupCoords (parts : List Particle) (groupids : List (List Byte)) (blank : Particle) : Except Err (List Coord) := do
  let groupids := groupids.map stripKey
  let ids := parts.map (fun p => int64Value p.id)
  let gidx ← FSort.sortIndex groupids (List.replicate groupids.length 0)
  let pidx ← FSort.sortIndex ids (List.replicate ids.length 0)
  let s ← gidx.foldlM (matchStep parts ids pidx groupids) ⟨1, 0, List.replicate groupids.length (coordsOf blank)⟩
  if s.nmatched < groupids.length then .error .abort else .ok s.group

/-- `DO i=offset(g)+1,offset(g)+len(g),1` (124-128; 120-124): the coordinates written for group `g` -/
def memberRows (group : List Coord) (offset len : Int) : Except Err (List Coord) := do
  let a ← cInt (offset + 1)
  let b ← cInt (offset + len)
  (List.range (b - a + 1).toNat).mapM (fun k : Nat => at1 group (a + k))

/-- The program `readfofgroups` (readfofgroupsexample.f90, 67-130): numbers of groups, and coordinates -/
def readfofgroups (sys swap big : Bool) (fs : ByteFS) (basedir basename : Name) (isnap ifile : Int) (junk : Int) (blank : Particle) : Except Err (List (Int × Coord)) := do
  let header ← readheader big fs basedir basename isnap ifile
  let nhash := int32Value header.hashtabsize
  let tab ← readgrouptab big fs false basedir isnap ifile
  let ids ← readsubids big fs false basedir isnap ifile
  let hashmap ← flagCells nhash.toNat ids.groupids
  let parts ← readregion sys swap (snapFiles fs basedir basename isnap) ids.nfiles.toNat nhash.toNat hashmap junk blank
  let group ← groupCoords parts ids.groupids blank
  -- `nfoffile` is the one of the last file read
  let rows ← (List.range ids.nfoffile.toNat).mapM (fun g : Nat => do
    let offset ← at1 tab.foffset (g + 1)
    let len ← at1 tab.foflen (g + 1)
    let m ← memberRows group (int32Value offset) (int32Value len)
    .ok (m.map (fun c => ((g : Int), c))))
  .ok rows.flatten

/-- The program `readgroupsexample` (readgroupsexample.f90, 69-126): numbers of subgroups, `subpar`, and coordinates. `nhash` is read from the terminal; `nfile` is replaced by what is in the file. -/
def readgroupsexample (sys swap big : Bool) (fs : ByteFS) (basedir basename : Name) (isnap ifile nhash : Int) (junk : Int) (blank : Particle) : Except Err (List (Int × Int × Coord)) := do
  let tab ← readsubtab big fs false basedir isnap ifile
  let ids ← readsubids big fs false basedir isnap ifile
  let hashmap ← flagCells nhash.toNat ids.groupids
  let parts ← readregion sys swap (snapFiles fs basedir basename isnap) ids.nfiles.toNat nhash.toNat hashmap junk blank
  let group ← groupCoords parts ids.groupids blank
  let rows ← (List.range tab.counts.nsubfile.toNat).mapM (fun g : Nat => do
    let offset ← at1 tab.suboffset (g + 1)
    let len ← at1 tab.sublen (g + 1)
    let par ← at1 tab.subpar (g + 1)
    let m ← memberRows group (int32Value offset) (int32Value len)
    .ok (m.map (fun c => ((g : Int), int32Value par, c))))
  .ok rows.flatten

/-! ### Particles of a box -/

/-- `DO WHILE(ncellbox*ncellbox*ncellbox.LT.nhash)` (readregionexample.f90, 52-58): `ncellbox` and `hashbits`. The first argument bounds the number of passes. -/
def cellBits (nhash : Int) : Nat → Int → Int → Except Err (Int × Int)
  | 0, _, _ => .error .diverges
  | fuel + 1, ncellbox, hashbits => do
    let a ← cInt (ncellbox * ncellbox)
    let b ← cInt (a * ncellbox)
    if b < nhash then do
      let ncellbox ← cInt (ncellbox * 2)
      cellBits nhash fuel ncellbox (hashbits + 1)
    else .ok (ncellbox, hashbits)

/-- `DO i=imin,imax` and so on (73-80); `a` and `b` are the first and the last cell in each direction. -/
def boxCells (a b : Int × Int × Int) : List (Int × Int × Int) :=
  let span := fun lo hi : Int => (List.range (hi - lo + 1).toNat).map (fun k : Nat => lo + k)
  (span a.1 b.1).flatMap fun i => (span a.2.1 b.2.1).flatMap fun j => (span a.2.2 b.2.2).map fun k => (i, j, k)

/-- The cells are flagged (76-77). -/
def flagBox (signed : Bool) (nhash : Nat) (hashbits : Int) (box : List (Int × Int × Int)) : Except Err (List Bool) :=
  box.foldlM (fun hashmap c => do
    let ihash ← cKey signed c.1 c.2.1 c.2.2 hashbits
    if ihash < 0 ∨ (nhash : Int) ≤ ihash then .error .other else .ok (hashmap.set ihash.toNat true)) (List.replicate nhash false)

/-- The loop over particles (90-103), which moves those of the volume to the beginning of the arrays: `j` and the arrays -/
def keepStep (inside : Particle → Bool) (s : Nat × List Particle) (i : Nat) : Except Err (Nat × List Particle) := do
  let p ← at1 s.2 (i + 1)
  .ok (if inside p then (s.1 + 1, s.2.set s.1 p) else s)

/-- The program `readregionexample` (50-111): coordinates of the particles. `val` gives the value of a `REAL`, and `cell x n` is `INT((x/lbox)*float(n))`. -/
def readregionexample {ρ : Type*} [LinearOrder ρ] (val : List Byte → ρ) (cell : ρ → Int → Int) (signed sys swap : Bool) (fs : ByteFS) (basedir basename : Name)
    (isnap : Int) (nhash nfile : Nat) (lo hi : ρ × ρ × ρ) (junk : Int) (blank : Particle) : Except Err (List Coord) := do
  let nb ← cellBits nhash 32 1 0
  let a := (max (cell lo.1 nb.1) 0, max (cell lo.2.1 nb.1) 0, max (cell lo.2.2 nb.1) 0)
  let b := (min (cell hi.1 nb.1) (nb.1 - 1), min (cell hi.2.1 nb.1) (nb.1 - 1), min (cell hi.2.2 nb.1) (nb.1 - 1))
  let hashmap ← flagBox signed nhash nb.2 (boxCells a b)
  let parts ← readregion sys swap (snapFiles fs basedir basename isnap) nfile nhash hashmap junk blank
  let inside := fun p : Particle => decide (lo.1 ≤ val p.x ∧ val p.x ≤ hi.1 ∧ lo.2.1 ≤ val p.y ∧ val p.y ≤ hi.2.1 ∧ lo.2.2 ≤ val p.z ∧ val p.z ≤ hi.2.2)
  let s ← (List.range parts.length).foldlM (keepStep inside) (0, parts)
  .ok ((s.2.take s.1).map coordsOf)

/-! ### Subhalos and single files -/

/-- A row of the table of halos; `mmean200*1.0e10` is `mass` of the value. -/
structure HaloRow where
  mass : List Byte
  rmean200 : List Byte
  pos : List (List Byte)
  deriving DecidableEq

/-- A row of the table of subhalos -/
structure SubhaloRow where
  len : List Byte
  halfmass : List Byte
  pos : List (List Byte)
  deriving DecidableEq

/-- The program `readsubhalosexample` (readsubhalosexample.f90, 43-75): the tables of halos and of subhalos. `times` multiplies by 1.0e10. -/
def readsubhalosexample (times : List Byte → List Byte) (big : Bool) (fs : ByteFS) (basedir : Name) (isnap ifile : Int) : Except Err (List HaloRow × List SubhaloRow) := do
  let r ← readsubhalos big fs false basedir isnap ifile
  let subs ← (List.range r.1.nsubfile.toNat).mapM (fun i : Nat => do
    let s ← at1 r.2.2 (i + 1)
    .ok (SubhaloRow.mk s.len s.halfmass s.pos))
  let halos ← (List.range r.1.nfoffile.toNat).mapM (fun i : Nat => do
    let h ← at1 r.2.1 (i + 1)
    if int32Value h.nsubgroups > 0 then do
      let k ← cInt (int32Value h.firstsubgroup + 1)
      let s ← at1 r.2.2 k
      .ok [HaloRow.mk (times h.mmean200) h.rmean200 s.pos]
    else .ok [])
  .ok (halos.flatten, subs)

/-- The program `readfileexample` (readfileexample.f90, 30-46): IDs and coordinates of every tenth particle -/
def readfileexample (big : Bool) (fs : ByteFS) (basedir basename : Name) (isnap ifile : Int) : Except Err (List (List Byte × Coord)) := do
  let _ ← readheader big fs basedir basename isnap ifile
  let d ← readfile big fs basedir basename isnap ifile
  let n := (int32Value (d.header.npart.getD 1 [])).toNat
  (List.range ((n + 9) / 10)).mapM (fun k : Nat => do
    let i := 10 * k
    let id ← at1 d.id (i + 1)
    let x ← at1 d.pos (3 * i + 1)
    let y ← at1 d.pos (3 * i + 2)
    let z ← at1 d.pos (3 * i + 3)
    .ok (id, ⟨x, y, z⟩))

end Verif.FortranPrograms
