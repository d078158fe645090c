import Mathlib.Data.List.Basic
import Mathlib.Data.Int.Order.Basic

namespace Verif

/-- Particle `p` is in the group with this offset and length. -/
abbrev inGroup (g : Nat × Nat) (p : Nat) : Prop := g.1 ≤ p ∧ p < g.1 + g.2

/-- The serial loop: -1 everywhere, then for each group in order `value` (of the group number, the offset and the position) is assigned
to the members which exist. `groups` is a list of (offset, length). -/
def serialLoop (value : Nat → Nat → Nat → Int) (n : Nat) (groups : List (Nat × Nat)) : List Int :=
  groups.zipIdx.foldl (fun arr g => arr.mapIdx (fun p x => if inGroup g.1 p then value g.2 g.1.1 p else x)) (List.replicate n (-1))

/-- `grnr[offset:offset+length] = i` for each group `i` in order. -/
def serialGroupIndex (n : Nat) (groups : List (Nat × Nat)) : List Int := serialLoop (fun i _ _ => i) n groups

/-- `rank[offset:offset+length] = arange(length)` for each group in order. -/
def serialGroupRank (n : Nat) (groups : List (Nat × Nat)) : List Int := serialLoop (fun _ o p => p - o) n groups

/-- Group `i` is the last one in the list which contains `p`. -/
def IsLastGroup (groups : List (Nat × Nat)) (p i : Nat) : Prop :=
  (∃ g, groups[i]? = some g ∧ inGroup g p) ∧ ∀ j g, i < j → groups[j]? = some g → ¬ inGroup g p

end Verif
