import Verif.Model.HashSnapshot
import Verif.Model.Match
import Verif.Model.ReduceElements
import Mathlib.Algebra.Order.Floor.Ring
import Mathlib.Algebra.Module.Prod

/-!
Python programs for Millennium data: examples/millennium/python/plot_fof_group.py and check_units.py, and examples/millennium2/python/check_units.py. What the programs read from files are arguments; plots are
left out. Arithmetic is exact, in any ordered field `K`. IDs are natural numbers below 2^64. `order l` is any answer of `np.argsort(l)`, whose method is not stable.
-/

namespace Verif.PythonPrograms

variable {α : Type}

/-- `l[i]` -/
def item (l : List α) (i : Int) : Except Err α := match pyGet? l i with
  | some v => .ok v
  | none => .error .indexError

/-- `l[idx]` for an array of indexes -/
def items (l : List α) (idx : List Int) : Except Err (List α) := idx.mapM (item l)

/-- `l[a:b]` -/
def pySlice (l : List α) (a b : Int) : List α := slice l (sliceBound l.length a) (sliceBound l.length b - sliceBound l.length a)

/-! ### Particles of one group -/

/-- `np.right_shift(v, 34)` of an unsigned number with 64 bits (plot_fof_group.py, 33) -/
def hashKey (v : Nat) : Nat := v / 2 ^ 34

/-- `np.right_shift(np.left_shift(v,30), 30)` (34) -/
def particleID (v : Nat) : Nat := v * 2 ^ 30 % 2 ^ 64 / 2 ^ 30

/-- examples/millennium/python/plot_fof_group.py, 20-62: positions and velocities of the particles of a group. `lens` and `offs` are the arrays of the group_tab file, `groupids` is the one of the sub_ids
file, and `files` are the snapshot files, with `num` the number of an ID. -/
def plotFofGroup (order : List Nat → List Nat) (num : α → Nat) (files : Nat → HashFile α) (nfiles nhash : Nat) (lens offs : List Int) (groupids : List Nat) (ifof : Int) : Except Err (List α × List α) := do
  -- (28)
  let off ← item offs ifof
  let len ← item lens ifof
  let ids := pySlice groupids off (off + len)
  -- (33-34)
  let hash_key := ids.map hashKey
  let ids := ids.map particleID
  -- (38-42)
  let keys_to_read := (npUnique hash_key).map (fun e : Nat × Nat => (e.1 : Int))
  let r ← (readCells files nfiles nhash [] keys_to_read).2
  let snap_ids := r.2.2.map num
  -- (49)
  let ptr ← matchArr ids snap_ids false none (order snap_ids)
  -- (53-58)
  if ptr.any (fun p => decide (p < 0)) then .error .other
  else do
    let found ← items snap_ids ptr
    if found ≠ ids then .error .other
    else do
      -- (61-62)
      let pos ← items r.1 ptr
      let vel ← items r.2.1 ptr
      .ok (pos, vel)

/-! ### Properties of subhalos -/

variable {K : Type} [Field K]

/-- A row of an array with three columns -/
abbrev Row (K : Type) := K × K × K

/-- `np.cross` -/
def cross (u v : Row K) : Row K := (u.2.1 * v.2.2 - u.2.2 * v.2.1, u.2.2 * v.1 - u.1 * v.2.2, u.1 * v.2.1 - u.2.1 * v.1)

/-- `ranges.sum_ranges(array, offset, length, normalize=True)` for an array with three columns, which are summed independently -/
def meanRanges (array : List (Row K)) (offset length : List Int) : Except Err (List (Row K)) := do
  let x ← sumRanges (array.map (fun r => r.1)) offset length none true
  let y ← sumRanges (array.map (fun r => r.2.1)) offset length none true
  let z ← sumRanges (array.map (fun r => r.2.2)) offset length none true
  .ok (x.zip (y.zip z))

/-- `((x + boxsize/2) % boxsize) - boxsize/2` -/
def wrap [LinearOrder K] [FloorRing K] (boxsize x : K) : K := (x + boxsize / 2) - boxsize * ⌊(x + boxsize / 2) / boxsize⌋ - boxsize / 2

/-- The same for each column -/
def wrapRow [LinearOrder K] [FloorRing K] (boxsize : K) (r : Row K) : Row K := (wrap boxsize r.1, wrap boxsize r.2.1, wrap boxsize r.2.2)

/-- `np.amax(subnr)` -/
def amax : List Int → Except Err Int
  | [] => .error .valueError
  | x :: l => .ok (l.foldl max x)

/-- Results of check_units.py -/
structure SubhaloProps (K : Type) where
  mean_pos : List (Row K)
  mean_vel : List (Row K)
  am : List (Row K)
  deriving DecidableEq

/-- The part which both programs have in common (examples/millennium/python/check_units.py, 68-105; examples/millennium2/python/check_units.py, 49-87). `pos`, `vel` and `ids` are the particles of the
snapshot, `groupids` the particles of groups, and `subnr` their subhalos. `sqrtA` is `np.sqrt(a)`. -/
def subhaloProps [LinearOrder K] [FloorRing K] (order : List Nat → List Nat) (sortOrder : List Int → List Nat) (pos vel : List (Row K)) (ids groupids : List Nat) (subnr : List Int) (boxsize a sqrtA : K) :
    Except Err (SubhaloProps K) := do
  let ptr ← matchArr groupids ids false none (order ids)
  let pos ← items pos ptr
  let vel ← items vel ptr
  -- sort by subhalo
  let idx := (sortOrder subnr).map Int.ofNat
  let pos ← items pos idx
  let vel ← items vel idx
  let subnr ← items subnr idx
  -- discard particles in no subhalo
  let ind := subnr.map (fun n => decide (n ≥ 0))
  let pos ← selectMask pos ind
  let vel ← selectMask vel ind
  let subnr ← selectMask subnr ind
  -- range of particles of each subhalo
  let m ← amax subnr
  let subs := (List.range (m + 1).toNat).map (fun i : Nat => (i : Int))
  let first_particle := subs.map (fun i => (ssLeft subnr i : Int))
  let num_particles := subs.map (fun i => (ssRight subnr i : Int) - (ssLeft subnr i : Int))
  -- wrap coordinates
  let f ← items first_particle subnr
  let ref ← items pos f
  let pos_rel := (List.zipWith (fun p q => p - q) pos ref).map (wrapRow boxsize)
  let pos := List.zipWith (fun p q => p + q) pos_rel ref
  -- means
  let mean_pos ← meanRanges pos first_particle num_particles
  let v ← meanRanges vel first_particle num_particles
  let mean_vel := v.map (fun r => sqrtA • r)
  -- angular momentum
  let mp ← items mean_pos subnr
  let mv ← items mean_vel subnr
  let l := List.zipWith cross ((List.zipWith (fun p q => p - q) pos mp).map (fun r => a • r)) ((List.zipWith (fun p q => p - q) vel mv).map (fun r => sqrtA • r))
  let am ← meanRanges l first_particle num_particles
  .ok ⟨mean_pos, mean_vel, am⟩

/-- examples/millennium2/python/check_units.py, 42-87. The arrays are those of all files, one after the other (`read_multi`). -/
def checkUnits2 [LinearOrder K] [FloorRing K] (order : List Nat → List Nat) (sortOrder : List Int → List Nat) (pos vel : List (Row K)) (ids : List Nat) (subLen subOffset : List Int) (groupids : List Nat) (boxsize a sqrtA : K) :
    Except Err (SubhaloProps K) := do
  let subnr ← assignRanges (List.replicate groupids.length (-1)) subOffset subLen ((List.range subLen.length).map (fun i : Nat => (i : Int)))
  subhaloProps order sortOrder pos vel ids groupids subnr boxsize a sqrtA

/-- A sub_tab file and the sub_ids file which belongs to it -/
structure SubFile where
  sublen : List Int
  suboff : List Int
  groupids : List Nat

/-- The loop over files of examples/millennium/python/check_units.py (31-58): `subnr` of all files. The last argument is `offset`. -/
def fileLoop : List SubFile → Nat → Except Err (List Int)
  | [], _ => .ok []
  | f :: rest, offset => do
    let nr ← assignRanges (List.replicate f.groupids.length (-1)) f.suboff f.sublen ((List.range f.sublen.length).map (fun i : Nat => (i : Int) + offset))
    let more ← fileLoop rest (offset + f.sublen.length)
    .ok (nr ++ more)

/-- `(v << 34) >> 34` of an unsigned number with 64 bits (check_units.py, 66) -/
def shortID (v : Nat) : Nat := v * 2 ^ 34 % 2 ^ 64 / 2 ^ 34

/-- examples/millennium/python/check_units.py, 26-105. `np` and `sqrt` are not defined in this program; here they are. -/
def checkUnits [LinearOrder K] [FloorRing K] (order : List Nat → List Nat) (sortOrder : List Int → List Nat) (pos vel : List (Row K)) (ids : List Nat) (files : List SubFile) (boxsize a sqrtA : K) : Except Err (SubhaloProps K) := do
  let subnr ← fileLoop files 0
  let groupids := (files.flatMap SubFile.groupids).map shortID
  subhaloProps order sortOrder pos vel ids groupids subnr boxsize a sqrtA

end Verif.PythonPrograms
