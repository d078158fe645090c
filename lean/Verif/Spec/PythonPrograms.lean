import Verif.Model.PythonPrograms
import Verif.Spec.HashSnapshot
import Verif.Spec.Ranges

/-! What the Python programs should find, described independently of them -/

namespace Verif.PythonPrograms

variable {K : Type} [Field K]

/-- A particle of the snapshot -/
structure Part (K : Type) where
  id : Nat
  pos : Row K
  vel : Row K

/-- Mean of vectors -/
def mean (l : List (Row K)) : Row K := ((l.length : K)⁻¹) • l.sum

/-- Angular momentum per mass of particles with positions `x` and velocities `v`, relative to their means -/
def angular {ι : Type*} (l : List ι) (x v : ι → Row K) : Row K := mean (l.map fun p => cross (x p - mean (l.map x)) (v p - mean (l.map v)))

/-- The particle which is taken for ID `v`: the one with this ID, but the last one of the snapshot if there is none. -/
def Taken (parts : List (Part K)) (v : Nat) (p : Part K) : Prop := (p ∈ parts ∧ p.id = v) ∨ ((∀ q ∈ parts, q.id ≠ v) ∧ parts.getLast? = some p)

/-- Position of `p` in the copy of the box which is next to `q` -/
def near [LinearOrder K] [FloorRing K] (boxsize : K) (q p : Part K) : Row K := q.pos + wrapRow boxsize (p.pos - q.pos)

/-- `y` gives positions of copies of particles in neighbouring boxes which are all less than half a box away from each other. -/
def Compact [LinearOrder K] (boxsize : K) (l : List (Part K)) (y : Part K → Row K) : Prop :=
  (∀ p ∈ l, ∃ i j k : Int, y p = p.pos + (boxsize * i, boxsize * j, boxsize * k)) ∧
  ∀ p ∈ l, ∀ q ∈ l, (-(boxsize / 2) < (y p - y q).1 ∧ (y p - y q).1 < boxsize / 2) ∧ (-(boxsize / 2) < (y p - y q).2.1 ∧ (y p - y q).2.1 < boxsize / 2) ∧
    (-(boxsize / 2) < (y p - y q).2.2 ∧ (y p - y q).2.2 < boxsize / 2)

/-- The results `r` are those of subhalos whose particles are `members 0`, `members 1`, ..., where positions are relative to one of the particles of the subhalo. Velocities in the snapshot have to be
multiplied by `sqrtA`, and positions by `a`. -/
def PropsOf [LinearOrder K] [FloorRing K] (r : SubhaloProps K) (boxsize a sqrtA : K) (nsub : Nat) (members : Nat → List (Part K)) : Prop :=
  r.mean_pos.length = nsub ∧ r.mean_vel.length = nsub ∧ r.am.length = nsub ∧ ∀ j < nsub, ∃ q ∈ members j,
    r.mean_pos[j]? = some (mean ((members j).map (near boxsize q))) ∧
    r.mean_vel[j]? = some (mean ((members j).map fun p => sqrtA • p.vel)) ∧
    r.am[j]? = some (angular (members j) (fun p => a • near boxsize q p) (fun p => sqrtA • p.vel))

/-- A sub_tab file and its sub_ids file: offset and length of each subhalo, and the IDs -/
structure CatFile where
  ranges : List (Nat × Nat)
  ids : List Nat

/-- The arrays of the files -/
def CatFile.arrays (c : CatFile) : SubFile := ⟨c.ranges.map (fun r => (r.2 : Int)), c.ranges.map (fun r => (r.1 : Int)), c.ids⟩

/-- The IDs of all files, one after the other -/
def allIDs (cats : List CatFile) : List Nat := cats.flatMap CatFile.ids

/-- The subhalos of all files: where their IDs are in `allIDs` -/
def allRanges : List CatFile → List (Nat × Nat)
  | [] => []
  | c :: rest => c.ranges ++ (allRanges rest).map (fun r => (c.ids.length + r.1, r.2))

/-- The particles of subhalo `j` of `R`, if `member` are the particles of the IDs -/
def membersOf {K : Type} (R : List (Nat × Nat)) (member : Nat → Part K) (j : Nat) : List (Part K) := (List.range (R.getD j (0, 0)).2).map (fun k => member ((R.getD j (0, 0)).1 + k))

end Verif.PythonPrograms
