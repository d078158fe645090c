import Verif.Model.HashSnapshot

/-! Snapshots sorted by cell, with hash tables. -/

namespace Verif

variable {α : Type*}

/-- A particle: its cell and its position, velocity and ID -/
structure CellParticle (α : Type*) where
  cell : Int
  pos : α
  vel : α
  id : α

/-- The file with given particles for cells `first` to `last`: the hash table has for each cell the number of particles in the cells before it. -/
def hashedFile (first last : Int) (ps : List (CellParticle α)) : HashFile α where
  first_hash_cell := first
  last_hash_cell := last
  npart := ps.length
  blockid := (List.range (last - first + 1).toNat).map (fun (j : Nat) => ((ps.filter (fun p => decide (p.cell < first + j))).length : Int))
  pos := ps.map CellParticle.pos
  vel := ps.map CellParticle.vel
  ids := ps.map CellParticle.id

/-- Particles are in the order of cells and the cells are those of the file, in a grid of `nhash` cells. -/
def CellOrdered (nhash : Nat) (first last : Int) (ps : List (CellParticle α)) : Prop :=
  0 ≤ first ∧ first ≤ last + 1 ∧ last < nhash ∧ ps.Pairwise (fun p q => p.cell ≤ q.cell) ∧ ∀ p ∈ ps, first ≤ p.cell ∧ p.cell ≤ last

/-- Arrays of particles -/
def particleArrays (ps : List (CellParticle α)) : List α × List α × List α := (ps.map CellParticle.pos, ps.map CellParticle.vel, ps.map CellParticle.id)

/-- The interval from `lo` to `hi`, or a periodic image of part of it, meets cell `x` of `n` cells in a box. -/
def CellMeets (n : Nat) (boxsize : ℚ) (lo hi : ℚ) (x : Int) : Prop :=
  ∃ p : ℚ, lo ≤ p ∧ p ≤ hi ∧ ∃ a : Int, x * (boxsize / n) ≤ p - a * boxsize ∧ p - a * boxsize < (x + 1) * (boxsize / n)

end Verif
