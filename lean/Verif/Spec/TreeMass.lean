import Verif.Spec.IndexTrees
import Mathlib.Algebra.Group.Defs

namespace Verif

variable {M : Type*}

/-- A chain of halos, each the descendant of the one before, from `x` to `i`, with total mass `v` -/
inductive ChainMass [Add M] (R : Nat → Nat → Prop) (mass : Nat → M) : Nat → Nat → M → Prop
  | single (i : Nat) : ChainMass R mass i i (mass i)
  | snoc {x p i : Nat} {v : M} (h : ChainMass R mass x p v) (hd : R p i) : ChainMass R mass x i (mass i + v)

/-- Descendants are at later times. -/
def Forward (nodeIndex descendantIndex snapnum : List Int) : Prop :=
  ∀ i j s t, IsDesc nodeIndex descendantIndex i j → snapnum[i]? = some s → snapnum[j]? = some t → s < t

/-- A halo: its index, that of its descendant, the snapshot and the branch mass -/
structure Halo (M : Type*) where
  node : Int
  desc : Int
  snap : Int
  mbranch : M
deriving DecidableEq

/-- `r` is the best among the halos of `H` with descendant `v`: it has positive branch mass, and every other one has a lower branch mass or, if equal, is found at a later time or, if at the same time, has the lower index. This does not mention any order of the halos. -/
def IsMain [Zero M] [LT M] (H : List (Halo M)) (v : Int) (r : Halo M) : Prop :=
  r ∈ H ∧ r.desc = v ∧ 0 < r.mbranch ∧
  ∀ k ∈ H, k.desc = v → k ≠ r → k.mbranch < r.mbranch ∨ (k.mbranch = r.mbranch ∧ (r.snap < k.snap ∨ (r.snap = k.snap ∧ k.node < r.node)))

end Verif
