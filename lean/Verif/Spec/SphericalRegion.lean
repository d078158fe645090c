import Verif.Spec.GroupCoords
import Verif.Model.SphericalRegion
import Verif.Model.Peano

/-! Particles near a point in a periodic box which is divided into cells -/

namespace Verif.GroupLib

open ReadParticles ReadRegion

/-- Position of a particle -/
def place (val4 : List Byte → Rat) (p : Particle) : Vec := (val4 p.x, val4 p.y, val4 p.z)

/-- `x` is in interval `i` of those of width `w`. -/
def InInterval (w : Rat) (i : Nat) (x : Rat) : Prop := i * w ≤ x ∧ x < (i + 1) * w

/-- There are `2 ^ b` cells on each side of the box, numbered along the Peano-Hilbert curve, and the particles of a cell are inside it. -/
def Gridded (val4 : List Byte → Rat) (box : Rat) (b : Nat) (cells : List (List Particle)) : Prop :=
  ∀ i j k c : Nat, i < 2 ^ b → j < 2 ^ b → k < 2 ^ b → phKeyScalar i j k b = .ok (c : Int) → ∀ p ∈ cells.getD c [],
    InInterval (box / 2 ^ b) i (place val4 p).1 ∧ InInterval (box / 2 ^ b) j (place val4 p).2.1 ∧ InInterval (box / 2 ^ b) k (place val4 p).2.2

/-- A periodic image of `v` is in the sphere. -/
def InSphere (box : Rat) (s : Sphere) (v : Vec) : Prop :=
  ∃ k l m : Int, (v.1 + k * box - s.x) ^ 2 + (v.2.1 + l * box - s.y) ^ 2 + (v.2.2 + m * box - s.z) ^ 2 ≤ s.rad ^ 2

/-- `y` is `x` relative to `c` in a periodic box: the nearest image. -/
def Relative (box c x y : Rat) : Prop := (∃ k : Int, y = x - c + k * box) ∧ -(box / 2) ≤ y ∧ y ≤ box / 2

/-- The same for vectors -/
def RelativeVec (box : Rat) (s : Sphere) (v w : Vec) : Prop := Relative box s.x v.1 w.1 ∧ Relative box s.y v.2.1 w.2.1 ∧ Relative box s.z v.2.2 w.2.2

/-- The sphere is in the box. -/
structure Sphere.Ok (s : Sphere) (box : Rat) : Prop where
  x : 0 ≤ s.x ∧ s.x < box
  y : 0 ≤ s.y ∧ s.y < box
  z : 0 ≤ s.z ∧ s.z < box
  rad : 0 ≤ s.rad

end Verif.GroupLib
