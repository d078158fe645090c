import Verif.Spec.ReadParticles
import Verif.Model.ReadRegion
import Verif.Lib.Dist

/-! The particles in a region of a snapshot -/

namespace Verif.ReadRegion

open ReadParticles

/-- A snapshot of `nfile` files: file `f` has `n f` particles and holds the next `cells f` cells. In cell `j` of file `f` the first particle is `start f j`, counted from zero. -/
structure Snapshot (Cs : Nat → Content) (n cells : Nat → Nat) (start : Nat → Nat → Nat) (nfile : Nat) : Prop where
  file : ∀ f < nfile, SnapshotFile (Cs f) (n f) (cells f)
  size : ∀ f < nfile, (292 : Int) + 32 * n f < 2147483648
  first : ∀ f < nfile, scalarInt (Cs f) "first_hash_cell".toList = pre cells f
  last : ∀ f < nfile, scalarInt (Cs f) "last_hash_cell".toList = (pre cells f : Int) + cells f - 1
  total : (pre cells nfile : Int) < 2147483648
  table : ∀ f < nfile, ∀ j < cells f, int32Value ((Cs f "blockid".toList).getD j []) = start f j
  order : ∀ f < nfile, ∀ j, j + 1 < cells f → start f j ≤ start f (j + 1)
  bound : ∀ f < nfile, ∀ j < cells f, start f j ≤ n f

/-- Particle number `i` of a file, counted from zero -/
def particleAt (C : Content) (i : Nat) : Particle :=
  let pos := fun d => (C "PartType1/Coordinates".toList).getD (3 * i + d) []
  let vel := fun d => (C "PartType1/Velocities".toList).getD (3 * i + d) []
  ⟨pos 0, pos 1, pos 2, vel 0, vel 1, vel 2, (C "PartType1/ParticleIDs".toList).getD i []⟩

/-- The particles of cell `j` of file `f`: those up to the next cell or to the end of the file -/
def cellParticles (Cs : Nat → Content) (n cells : Nat → Nat) (start : Nat → Nat → Nat) (f j : Nat) : List Particle :=
  (List.range' (start f j) ((if j + 1 < cells f then start f (j + 1) else n f) - start f j)).map (particleAt (Cs f))

/-- The particles of all flagged cells, in the order of the cells -/
def region (Cs : Nat → Content) (n cells : Nat → Nat) (start : Nat → Nat → Nat) (nfile : Nat) (hashmap : List Bool) : List Particle :=
  (List.range nfile).flatMap fun f => (List.range (cells f)).flatMap fun j =>
    if hashmap.getD (pre cells f + j) false then cellParticles Cs n cells start f j else []

end Verif.ReadRegion
