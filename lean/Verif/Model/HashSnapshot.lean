import Verif.Model.Ranges
import Verif.Model.Peano

/-!
Reading cells of a Millennium snapshot with the hash table (python/virgo/formats/subfind_lgadget2.py `Snapshot` 412-530).

A snapshot file which has been opened is given by the values of its datasets. Numbers of cells and particles are integers without overflow.
-/

namespace Verif

/-- `SnapshotFile`: the parts used -/
structure HashFile (α : Type*) where
  first_hash_cell : Int
  last_hash_cell : Int
  npart : Int
  blockid : List Int
  pos : List α
  vel : List α
  ids : List α

/-- `self.hash_table` -/
abbrev HashTable := List (Nat × Int × Int)

/-- The loop which finds `ncell` and `bits` (436-440); the first argument is a bound on the number of passes -/
def gridLoop (nhash : Int) : Nat → Nat → Nat → Nat × Nat
  | 0, ncell, bits => (ncell, bits)
  | fuel + 1, ncell, bits => if (ncell : Int) ^ 3 < nhash then gridLoop nhash fuel (ncell * 2) (bits + 1) else (ncell, bits)

/-- `ncell` and `bits` -/
def gridSize (nhash : Int) : Nat × Nat := gridLoop nhash nhash.toNat 1 0

/-- `hashgrid = np.zeros(nhash, dtype=bool); hashgrid[keys] = True` (483-484): negative keys count from the end, others outside raise `IndexError` -/
def flagCells (nhash : Nat) (keys : List Int) : Except Err (List Bool) :=
  if keys.all (fun k => decide (-(nhash : Int) ≤ k ∧ k < nhash)) then
    .ok (keys.foldl (fun g (k : Int) => g.set (if k < 0 then k + nhash else k).toNat true) (List.replicate nhash false))
  else .error .indexError

/-- `x[mask]` -/
def selectMask {β : Type*} (x : List β) (mask : List Bool) : Except Err (List β) :=
  if x.length ≠ mask.length then .error .indexError
  else .ok (((x.zip mask).filter (fun e => e.2)).map Prod.fst)

/-- The cells in a file, from the cache if they are there (496-502) -/
def hashCells {α : Type*} (files : Nat → HashFile α) (table : HashTable) (ifile : Nat) : HashTable × Int × Int :=
  match table.lookup ifile with
  | some r => (table, r)
  | none => ((ifile, (files ifile).first_hash_cell, (files ifile).last_hash_cell) :: table, (files ifile).first_hash_cell, (files ifile).last_hash_cell)

/-- `num_in_cell` (516-520) if the table is not empty -/
def numInCell {α : Type*} (f : HashFile α) : List Int := List.zipWith (fun next this => next - this) (f.blockid.tail ++ [f.npart]) f.blockid

/-- The particles selected from one file (512-528) -/
def hashRead {α : Type*} (f : HashFile α) (read_cell : List Bool) : Except Err (List α × List α × List α) :=
  if f.blockid = [] then .error .indexError
  else match npRepeat read_cell (numInCell f) with
    | .error e => .error e
    | .ok read_particle => match selectMask f.pos read_particle with
      | .error e => .error e
      | .ok pos => match selectMask f.vel read_particle with
        | .error e => .error e
        | .ok vel => match selectMask f.ids read_particle with
          | .error e => .error e
          | .ok ids => .ok (pos, vel, ids)

/-- The loop over files (490-528): the new `hash_table`, which is kept if an exception is raised, and the arrays read -/
def hashLoop {α : Type*} (files : Nat → HashFile α) (hashgrid : List Bool) : List Nat → HashTable → List (List α × List α × List α) → HashTable × Except Err (List (List α × List α × List α))
  | [], table, out => (table, .ok out)
  | ifile :: rest, table, out =>
    let (table, first_hash_cell, last_hash_cell) := hashCells files table ifile
    let a := sliceBound hashgrid.length first_hash_cell
    let b := sliceBound hashgrid.length (last_hash_cell + 1)
    let read_cell := slice hashgrid a (b - a)
    if read_cell.any (fun c => c) then
      match hashRead (files ifile) read_cell with
      | .error e => (table, .error e)
      | .ok r => hashLoop files hashgrid rest table (out ++ [r])
    else hashLoop files hashgrid rest table out

/-- `np.concatenate` for each array (531-533): without arrays it raises `ValueError` -/
def hashConcat {α : Type*} (out : List (List α × List α × List α)) : Except Err (List α × List α × List α) :=
  if out = [] then .error .valueError
  else .ok ((out.map (fun r => r.1)).flatten, (out.map (fun r => r.2.1)).flatten, (out.map (fun r => r.2.2)).flatten)

/-- `read_cells(keys)` (477-535) -/
def readCells {α : Type*} (files : Nat → HashFile α) (nfiles nhash : Nat) (table : HashTable) (keys : List Int) : HashTable × Except Err (List α × List α × List α) :=
  match flagCells nhash keys with
  | .error e => (table, .error e)
  | .ok hashgrid => match hashLoop files hashgrid (List.range nfiles) table [] with
    | (table, .error e) => (table, .error e)
    | (table, .ok out) => (table, hashConcat out)

/-- The arrays `idx[i].flatten() + icoords[2*i]` modulo `ncell` (469-471) for ranges of cells; `np.indices` raises `ValueError` for negative sizes -/
def regionCells (ncell : Nat) (lo hi : Int × Int × Int) : Except Err (List (Int × Int × Int)) :=
  let nx := hi.1 - lo.1 + 1
  let ny := hi.2.1 - lo.2.1 + 1
  let nz := hi.2.2 - lo.2.2 + 1
  if nx < 0 ∨ ny < 0 ∨ nz < 0 then .error .valueError
  else .ok ((List.range nx.toNat).flatMap (fun (i : Nat) => (List.range ny.toNat).flatMap (fun (j : Nat) => (List.range nz.toNat).map (fun (k : Nat) =>
    ((i + lo.1) % (ncell : Int), (j + lo.2.1) % (ncell : Int), (k + lo.2.2) % (ncell : Int))))))

/-- `read_region(coords)` (456-475) for `coords` from `lo` to `hi`, in exact arithmetic. The sizes given to `np.indices` (466) are floating point numbers. Since version 1.12 numpy raises `TypeError` for these (`float_sizes` false); before they were accepted. -/
def readRegion {α : Type*} (float_sizes : Bool) (files : Nat → HashFile α) (nfiles nhash : Nat) (boxsize : ℚ) (table : HashTable) (lo hi : ℚ × ℚ × ℚ) : HashTable × Except Err (List α × List α × List α) :=
  let (ncell, bits) := gridSize nhash
  let cellsize := boxsize / ncell
  let cell := fun (p : ℚ × ℚ × ℚ) => (⌊p.1 / cellsize⌋, ⌊p.2.1 / cellsize⌋, ⌊p.2.2 / cellsize⌋)
  if float_sizes = false then (table, .error .typeError)
  else match regionCells ncell (cell lo) (cell hi) with
    | .error e => (table, .error e)
    | .ok cells => match phKeys 10000 cells bits with
      | .error e => (table, .error e)
      | .ok keys => readCells files nfiles nhash table keys

end Verif
