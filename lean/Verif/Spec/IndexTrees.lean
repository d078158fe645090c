import Verif.Lib.Np
import Mathlib.Logic.Relation

/-! Merger trees, independent of the model -/

namespace Verif

variable {α : Type*}

/-- Halo `j` is the descendant of halo `i`. -/
def IsDesc (nodeIndex descendantIndex : List α) (i j : Nat) : Prop := ∃ v, descendantIndex[i]? = some v ∧ nodeIndex[j]? = some v

/-- `x` is `i`, or `i` is reached from `x` by following descendants. -/
def InTree (nodeIndex descendantIndex : List α) (x i : Nat) : Prop := Relation.ReflTransGen (IsDesc nodeIndex descendantIndex) x i

/-- No halo is reached from itself. -/
def Acyclic (nodeIndex descendantIndex : List α) : Prop := ∀ i, ¬ Relation.TransGen (IsDesc nodeIndex descendantIndex) i i

/-- `d` times a partial function -/
def follow (f : Nat → Option Nat) : Nat → Nat → Option Nat
  | 0, i => some i
  | d + 1, i => (f i).bind (follow f d)

/-- A program ends with this result: it is reached whenever enough steps are allowed. -/
def Returns {β : Type*} (f : Nat → Except Err β) (r : Except Err β) : Prop := ∃ N, ∀ fuel, N ≤ fuel → f fuel = r

theorem Returns.unique {β : Type*} {f : Nat → Except Err β} {r s : Except Err β} (h : Returns f r) (g : Returns f s) : r = s := by
  obtain ⟨N, hN⟩ := h
  obtain ⟨M, hM⟩ := g
  rw [← hN (max N M) (le_max_left _ _), hM (max N M) (le_max_right _ _)]

end Verif
