import Verif.Model.Profiles
import Verif.Spec.PythonPrograms
import Mathlib.Algebra.Order.Archimedean.Basic

/-! Centres and profiles of groups, described independently of the programs -/

namespace Verif.Profiles

open PythonPrograms

variable {K : Type} [Field K] [LinearOrder K]

/-- Square root -/
def IsSqrt (sqrt : K → K) : Prop := ∀ a, 0 ≤ a → 0 ≤ sqrt a ∧ sqrt a * sqrt a = a

/-- `order` gives the order of any list, in some way for equal elements. -/
def SortsAny (order : List K → List Nat) : Prop := ∀ l, (order l).Perm (List.range l.length) ∧ ((order l).map fun i => l.getD i 0).Pairwise (· ≤ ·)

/-- Square of the distance of two points -/
def dist2 (p q : Row K) : K := (p.1 - q.1) * (p.1 - q.1) + (p.2.1 - q.2.1) * (p.2.1 - q.2.1) + (p.2.2 - q.2.2) * (p.2.2 - q.2.2)

/-- Particles less than `R` away from `c` -/
def inside (pos : List (Row K)) (c : Row K) (R : K) : List (Row K) := pos.filter fun p => decide (dist2 p c < R * R)

/-- Spheres which become smaller by a factor of 0.9 and are moved to the mean of their particles, until there are less than `nmin` -/
inductive Shrinks (pos : List (Row K)) (nmin : Nat) : Row K → K → Row K → Prop
  | stop {c R} : (inside pos c R).length < nmin → Shrinks pos nmin c R c
  | step {c R c'} : nmin ≤ (inside pos c R).length → Shrinks pos nmin (mean (inside pos c R)) (9 / 10 * R) c' → Shrinks pos nmin c R c'

/-- The largest element -/
def IsLargest (l : List K) (x : K) : Prop := x ∈ l ∧ ∀ y ∈ l, y ≤ x

/-- Number of elements which are not larger than `x` -/
def upTo (l : List K) (x : K) : Nat := l.countP fun y => decide (y ≤ x)

/-- Number of elements which are smaller than `x` -/
def below (l : List K) (x : K) : Nat := l.countP fun y => decide (y < x)

/-- The points are those of a curve of circular velocity for particles at the distances `r`, one for each particle: the particles before it are those which are nearer, and some at the same distance. -/
structure VelocityCurve (sqrt : K → K) (r : List K) (points : List (K × K)) : Prop where
  radii : (points.map fun p => p.1).Perm r
  inorder : (points.map fun p => p.1).Pairwise (· ≤ ·)
  value : ∀ (j : Nat) (p : K × K), points[j]? = some p → p.2 = sqrt (((j : K) + 1) / p.1) ∧ below r p.1 < j + 1 ∧ j + 1 ≤ upTo r p.1

/-- The mean density within `x` is at least 200 times the critical density, where all particles up to `x` are counted. -/
def Dense200 (pi rhocrit partMass : K) (r : List K) (x : K) : Prop := 200 * rhocrit * (4 * pi / 3 * (x * x * x)) ≤ partMass * (upTo r x : K)

/-- `x` is the largest distance of a particle within which the mean density is at least 200 times the critical density. -/
def IsR200 (pi rhocrit partMass : K) (r : List K) (x : K) : Prop := x ∈ r ∧ Dense200 pi rhocrit partMass r x ∧ ∀ y ∈ r, Dense200 pi rhocrit partMass r y → y ≤ x

/-- Circular velocity at the distance `x` (in physical units), from the mass of all particles up to `x` but one -/
def speedAt (sqrt : K → K) (u : Units K) (mpart a : K) (r : List K) (x : K) : K := if x = 0 then 0 else sqrt (u.g * (mpart * u.mass * ((upTo r x : K) - 1)) / (x * a * u.length)) / 1000

/-- `e` is the image of the offset `d` in a periodic box which is at most half a box away -/
def IsImage (boxsize : K) (d e : K) : Prop := (∃ k : Int, e = d + k * boxsize) ∧ -(boxsize / 2) ≤ e ∧ e < boxsize / 2

/-- `x` is the distance of `p` from `centre` in a periodic box. -/
def IsDistance (sqrt : K → K) (boxsize : K) (centre p : Row K) (x : K) : Prop :=
  ∃ e : Row K, IsImage boxsize (p.1 - centre.1) e.1 ∧ IsImage boxsize (p.2.1 - centre.2.1) e.2.1 ∧ IsImage boxsize (p.2.2 - centre.2.2) e.2.2 ∧ x = sqrt (dist2 e 0)

end Verif.Profiles
