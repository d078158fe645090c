import Mathlib.Data.List.Basic
import Mathlib.Data.Int.Order.Basic

namespace Verif

/-- Number of particles of halo `h` of the first snapshot which are in halo `g` of the second: entries of the first catalogue with group
number `h` whose ID occurs in the second catalogue with group number `g`. -/
def sharedParticles {α : Type*} [DecidableEq α] (ids1 : List α) (grnr1 : List Int) (ids2 : List α) (grnr2 : List Int)
    (h g : Int) : Nat :=
  (ids1.zip grnr1).countP (fun e => decide (e.2 = h ∧ (e.1, g) ∈ ids2.zip grnr2))

/-- `g` is the best of the non-negative numbers by `share`, the lowest one in case of ties; -1 if there is no share at all. -/
def BestMatch (share : Int → Nat) (g : Int) : Prop :=
  (g = -1 ∧ ∀ g' ≥ 0, share g' = 0) ∨
  (0 ≤ g ∧ 0 < share g ∧ ∀ g' ≥ 0, share g' < share g ∨ (share g' = share g ∧ g ≤ g'))

end Verif
