import Verif.Model.SnapshotPaths
import Verif.Model.SimWrappers

/-!
The program examples/millennium/python/read_subhalo_catalogue.py, which prints all subhaloes of a snapshot. `fs` are the bytes of files, `s` is the byte order of the machine and `f14` the text of a number
of four bytes printed with `%14.6f`.
-/

namespace Verif.SubhaloCatalogue

open SnapshotPaths

/-- `"/virgo/data/Millennium/postproc_%03d/sub_tab_%03d.%d" % (isnap, isnap, ifile)` (18) -/
def fileName (isnap ifile : Int) : Name :=
  "/virgo/data/Millennium/postproc_".toList ++ pctZero 3 isnap ++ "/sub_tab_".toList ++ pctZero 3 isnap ++ ".".toList ++ pctD ifile

/-- `mill.SubTabFile(fname)` (19) -/
def openSubTab (s : Bool) (fs : Name → Option (List Byte)) (name : Name) : Except Err (List Byte × BFile) :=
  match fs name with
  | none => .error .ioError
  | some file =>
    match idBytesClass.openFile (lgadget2Init lgadget2SubTab) ⟨[.str (String.ofList name)], []⟩ s file with
    | .error e => .error e
    | .ok f => .ok (file, f)

/-- `a[i]` for an array with one index -/
def elem (a : List (List Byte)) (i : Nat) : Except Err (List Byte) :=
  match a[i]? with
  | none => .error .indexError
  | some v => .ok v

/-- `a[i,j]` for an array with three columns -/
def elem3 (a : List (List Byte)) (i j : Nat) : Except Err (List Byte) := if 3 ≤ j then .error .indexError else elem a (3 * i + j)

/-- The text printed for one subhalo (31-34) -/
def line (f14 : List Byte → Name) (parenthalo len pos vel : List (List Byte)) (i : Nat) : Except Err Name := do
  let p ← elem parenthalo i
  let l ← elem len i
  let x ← elem3 pos i 0
  let y ← elem3 pos i 1
  let z ← elem3 pos i 2
  let vx ← elem3 vel i 0
  let vy ← elem3 vel i 1
  let vz ← elem3 vel i 2
  let c := ", ".toList
  .ok (pctD (int32Value p) ++ c ++ pctD (int32Value l) ++ c ++ f14 x ++ c ++ f14 y ++ c ++ f14 z ++ c ++ f14 vx ++ c ++ f14 vy ++ c ++ f14 vz)

/-- The loop `for i in range(nsub)` (30-34): lines which were printed, and the error at which it stopped -/
def printLoop (get : Nat → Except Err Name) : List Nat → List Name × Option Err
  | [] => ([], none)
  | i :: is =>
    match get i with
    | .error e => ([], some e)
    | .ok t => let r := printLoop get is; (t :: r.1, r.2)

/-- The arrays read from one file (25-29) -/
def readArrays (s : Bool) (file : List Byte) (f : BFile) : Except Err (Int × List (List Byte) × List (List Byte) × List (List Byte) × List (List Byte)) := do
  let nsub ← f.int s file "Nsubhalos".toList
  let parenthalo ← f.dataset s file "SubParentHalo".toList
  let len ← f.dataset s file "SubLen".toList
  let pos ← f.dataset s file "SubPos".toList
  let vel ← f.dataset s file "SubVel".toList
  .ok (nsub, parenthalo, len, pos, vel)

/-- One pass of the loop over files (17-34) -/
def oneFile (s : Bool) (f14 : List Byte → Name) (fs : Name → Option (List Byte)) (isnap ifile : Int) : List Name × Option Err :=
  match openSubTab s fs (fileName isnap ifile) with
  | .error e => ([], some e)
  | .ok (file, f) =>
    match readArrays s file f with
    | .error e => ([], some e)
    | .ok (nsub, parenthalo, len, pos, vel) => printLoop (line f14 parenthalo len pos vel) (List.range nsub.toNat)

/-- The loop over files (15) -/
def fileLoop (file : Nat → List Name × Option Err) : List Nat → List Name × Option Err
  | [] => ([], none)
  | k :: ks =>
    match file k with
    | (out, some e) => (out, some e)
    | (out, none) => let r := fileLoop file ks; (out ++ r.1, r.2)

/-- The program, for any snapshot and number of files (63 and 512 in the program) -/
def program (s : Bool) (f14 : List Byte → Name) (fs : Name → Option (List Byte)) (isnap : Int) (nfiles : Nat) : List Name × Option Err :=
  let r := fileLoop (fun k => oneFile s f14 fs isnap k) (List.range nfiles)
  ("Parent halo, Number of particles, x, y, z, vx, vy, vz".toList :: r.1, r.2)

end Verif.SubhaloCatalogue
