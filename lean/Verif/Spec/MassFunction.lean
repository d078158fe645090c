import Verif.Spec.GroupLib
import Verif.Model.MassFunction

/-! All groups of a simulation, also those which are too small for the catalogue -/

namespace Verif.MassFunction

open GroupLib

/-- `sizes` has the number of particles of every group: those with at least `minlen` particles are in the tables, and the others are counted there. -/
structure AllSizes (Cs : Nat → Content) (ng : Nat → Nat) (minlen nfile : Nat) (sizes : List Nat) : Prop where
  large : ((allGroups Cs ng nfile).map (·.len)).Perm ((sizes.filter (fun s => decide (minlen ≤ s))).map (fun s : Nat => (s : Int)))
  small : ∀ i < minlen, ((List.range nfile).map (fun f => int32Value ((Cs f "Count".toList).getD i []))).sum = (sizes.count i : Int)
  nids : ((List.range nfile).map (fun f => scalarInt (Cs f) "Nids".toList)).sum = (((sizes.filter (fun s => decide (minlen ≤ s))).sum : Nat) : Int)

/-- Number of groups which have at least `k` particles -/
def above (sizes : List Nat) (k : Int) : Nat := sizes.countP (fun s : Nat => decide (k ≤ (s : Int)))

/-- The points are on the steps of the cumulative mass function of the groups with at least `minlen` particles, and there is one for each of these groups. -/
structure OnSteps (sizes : List Nat) (minlen : Nat) (p : Points) : Prop where
  lengths : p.count.length = p.groupLen.length
  all : p.groupLen.Perm ((sizes.filter (fun s => decide (minlen ≤ s))).map (fun s : Nat => (s : Int)))
  step : ∀ (j : Nat) (s c : Int), p.groupLen[j]? = some s → p.count[j]? = some c → (above sizes (s + 1) : Int) < c ∧ c ≤ above sizes s
  each : ∀ j < p.count.length, p.count[j]? = some ((j : Int) + 1)

end Verif.MassFunction
