import Verif.Model.ReadParticles
import Verif.Lib.Np

/-!
`readregion` (examples/millennium/fortran/readregion.f90): the particles in some cells of a snapshot. `files i` are the bytes of file number `i`; the names of the
files are left out. Wrong indexes, overflow and closing a file which is not open are `.other`.
-/

namespace Verif.ReadRegion

open CPeano ReadParticles

/-- One element of the arrays `x`, `y`, `z`, `vx`, `vy`, `vz` and `ids` -/
structure Particle where
  x : List Byte
  y : List Byte
  z : List Byte
  vx : List Byte
  vy : List Byte
  vz : List Byte
  id : List Byte
  deriving DecidableEq

/-- Hash table of all files -/
structure Tables where
  hashtable : List Int
  filetable : List Int
  lastcell : List Int
  ninfile : List Int
  offset : Int
  deriving DecidableEq

/-- `filetable(first:last) = ifile` -/
def setRange (l : List Int) (first last : Int) (v : Int) : Except Err (List Int) :=
  if last < first then .ok l
  else if first < 0 ∨ (l.length : Int) ≤ last then .error .other
  else .ok ((List.range l.length).map (fun c : Nat => if first ≤ (c : Int) ∧ (c : Int) ≤ last then v else l.getD c 0))

/-- One pass of the loop over files (58-82) -/
def tableStep (sys swap : Bool) (files : Nat → List Byte) (t : Tables) (ifile : Nat) : Except Err Tables := do
  let h ← readhash sys swap (files ifile)
  if t.offset < 0 ∨ (t.hashtable.length : Int) < t.offset + h.htable.length then .error .other
  else
    let hashtable := overlay t.hashtable t.offset.toNat h.htable
    let offset ← cInt (h.lastcell + 1)
    let filetable ← setRange t.filetable h.firstcell h.lastcell ifile
    .ok ⟨hashtable, filetable, t.lastcell.set ifile h.lastcell, t.ninfile.set ifile h.npfile, offset⟩

/-- The loop over files, from `junk` in the arrays which are not set -/
def readTables (sys swap : Bool) (files : Nat → List Byte) (nfile nhash : Nat) (junk : Int) : Except Err Tables :=
  (List.range nfile).foldlM (tableStep sys swap files) ⟨List.replicate nhash junk, List.replicate nhash junk, List.replicate nfile junk, List.replicate nfile junk, 0⟩

/-- `npercell(ihash)` (85-91) -/
def cellCount (t : Tables) (ihash : Nat) : Except Err Int := do
  let f ← cGet t.filetable ihash
  let last ← cGet t.lastcell f
  let h ← cGet t.hashtable ihash
  if (ihash : Int) < last then
    let next ← cGet t.hashtable (ihash + 1)
    cInt (next - h)
  else
    let n ← cGet t.ninfile f
    cInt (n - h)

/-- The sum (93-104); negative numbers give a message only. -/
def countStep (hashmap : List Bool) (npercell : List Int) (npart : Int) (ihash : Nat) : Except Err Int :=
  if hashmap.getD ihash false then do
    let m ← cGet npercell ihash
    cInt (npart + m)
  else .ok npart

/-- `DO WHILE(hashmap(ihash).AND.filetable(ihash).EQ.ifile.AND.ihash.LT.nhash-1)` (132-135). The first argument bounds the number of passes. -/
def scan (hashmap : List Bool) (filetable : List Int) (nhash : Nat) (ifile : Int) : Nat → Nat → Except Err Nat
  | 0, _ => .error .diverges
  | fuel + 1, ihash => do
    let f ← cGet filetable ihash
    if hashmap.getD ihash false = true ∧ f = ifile ∧ (ihash : Int) < nhash - 1 then scan hashmap filetable nhash ifile fuel (ihash + 1)
    else .ok ihash

/-- The last cell of the chunk (132-139) -/
def lastOfChunk (hashmap : List Bool) (filetable : List Int) (nhash : Nat) (ifile : Int) (ihash : Nat) : Except Err Int := do
  let i ← scan hashmap filetable nhash ifile (nhash + 1) ihash
  let f ← cGet filetable i
  .ok (if hashmap.getD i false = false ∨ f ≠ ifile then (i : Int) - 1 else i)

/-- The C functions called for the chunk, on the file which is open (190-194) -/
def readChunk (sys swap : Bool) (file : List Byte) (ifirst ilast : Int) : Except Err (List Particle) := do
  let p ← readpartcoords sys swap file ifirst ilast
  let ids ← readpartids sys swap file ifirst ilast
  let v ← readpartvel sys swap file ifirst ilast
  .ok ((List.range (ilast - ifirst + 1).toNat).map (fun i =>
    ⟨p.1.getD i [], p.2.1.getD i [], p.2.2.getD i [], v.1.getD i [], v.2.1.getD i [], v.2.2.getD i [], ids.getD i []⟩))

/-- Variables of the loop over cells: `ihash`, `ipart`, `iopen`, the file which is open, and the arrays of particles -/
structure LoopState where
  ihash : Int
  ipart : Int
  iopen : Int
  handle : Option Nat
  out : List Particle

/-- `x(ipart:ipart+nread-1)` etc. are set. -/
def store (out : List Particle) (ipart : Int) (chunk : List Particle) : Except Err (List Particle) :=
  if ipart < 1 ∨ (out.length : Int) < ipart + chunk.length - 1 then .error .other else .ok (overlay out (ipart - 1).toNat chunk)

/-- The file to be read is opened unless it is open (158-185); the file of before is closed. -/
def openFile (s : LoopState) (ifile : Int) : Except Err LoopState :=
  if s.iopen ≠ ifile then
    if s.iopen ≥ 0 ∧ s.handle = none then .error .other
    else if ifile < 0 then .error .other
    else .ok { s with iopen := ifile, handle := some ifile.toNat }
  else .ok s

/-- A flagged cell and those after it (130-201) -/
def chunkStep (sys swap : Bool) (files : Nat → List Byte) (t : Tables) (npercell : List Int) (hashmap : List Bool) (nhash : Nat) (s : LoopState) : Except Err LoopState := do
  let ifcell := s.ihash
  let ifile ← cGet t.filetable s.ihash
  let ihash ← lastOfChunk hashmap t.filetable nhash ifile s.ihash.toNat
  let h0 ← cGet t.hashtable ifcell
  let ifirst ← cInt (h0 + 1)
  let h1 ← cGet t.hashtable ihash
  let m ← cGet npercell ihash
  let ilast ← cInt (h1 + m)
  let d ← cInt (ilast - ifirst)
  let nread ← cInt (d + 1)
  if nread > 0 then
    let s ← openFile s ifile
    match s.handle with
    | none => .error .other
    | some f =>
      let chunk ← readChunk sys swap (files f) ifirst ilast
      let out ← store s.out s.ipart chunk
      let ipart ← cInt (s.ipart + nread)
      .ok { s with ihash := ihash, ipart := ipart, out := out }
  else .ok { s with ihash := ihash }

/-- The loop over cells (124-203). The first argument bounds the number of passes. -/
def cellLoop (sys swap : Bool) (files : Nat → List Byte) (t : Tables) (npercell : List Int) (hashmap : List Bool) (nhash : Nat) : Nat → LoopState → Except Err LoopState
  | 0, _ => .error .diverges
  | fuel + 1, s =>
    if s.ihash < nhash then
      if hashmap.getD s.ihash.toNat false then do
        let s ← chunkStep sys swap files t npercell hashmap nhash s
        cellLoop sys swap files t npercell hashmap nhash fuel { s with ihash := s.ihash + 1 }
      else cellLoop sys swap files t npercell hashmap nhash fuel { s with ihash := s.ihash + 1 }
    else .ok s

/-- `readregion` (8-206): the particles. `junk` and `blank` are in arrays which are not set yet. -/
def readregion (sys swap : Bool) (files : Nat → List Byte) (nfile nhash : Nat) (hashmap : List Bool) (junk : Int) (blank : Particle) : Except Err (List Particle) := do
  let t ← readTables sys swap files nfile nhash junk
  let npercell ← (List.range nhash).mapM (cellCount t)
  let npart ← (List.range nhash).foldlM (countStep hashmap npercell) 0
  let s ← cellLoop sys swap files t npercell hashmap nhash (nhash + 1) ⟨0, 1, -1, none, List.replicate npart.toNat blank⟩
  match s.handle with
  | none => .error .other
  | some _ => .ok s.out

end Verif.ReadRegion
