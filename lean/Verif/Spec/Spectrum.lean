import Verif.Model.Spectrum
import Mathlib.Tactic.Linarith

/-! Binning of a spectrum, described independently of the program -/

namespace Verif.Spectrum

variable {K : Type} [Field K] [LinearOrder K]

/-- There are enough modes in the bins `b`, and `log k` of two of them is at least `d` apart. -/
def Wide (lg : K → K) (d minCount : K) (b : List (Bin K)) : Prop := (∃ x ∈ b, ∃ y ∈ b, d ≤ lg x.k - lg y.k) ∧ minCount ≤ (b.map fun r => r.count).sum

/-- Bands from the first bin on, each with the number of bins before it and as short as possible. What remains at the end is not enough for a band. -/
inductive Bands (W : List (Bin K) → Prop) : Nat → List (Bin K) → List (Nat × List (Bin K)) → Prop
  | rest {o l} : (∀ n, 0 < n → n ≤ l.length → ¬ W (l.take n)) → Bands W o l []
  | band {o b l bs} : b ≠ [] → W b → (∀ n, 0 < n → n < b.length → ¬ W (b.take n)) → Bands W (o + b.length) l bs → Bands W o (b ++ l) ((o, b) :: bs)

/-- The first `bins` rows of a table; if it has fewer, with copies of the last row -/
def padded (rows : List (Bin K)) (bins : Nat) : List (Bin K) := rows.take bins ++ (rows.getLast?.toList.flatMap fun r => List.replicate (bins - rows.length) r)

/-- `p` is the point for a band: its `k` is that of the bin at the mean position, and its power is the mean power of the modes. -/
def IsPoint (rows : List (Bin K)) (band : Nat × List (Bin K)) (p : Point K) : Prop :=
  ∃ (j : Nat) (r : Bin K), band.1 ≤ j ∧ j < band.1 + band.2.length ∧ rows[j]? = some r ∧
    (j : K) * (band.2.map fun r => r.count).sum ≤ (band.2.zipIdx.map fun x => ((band.1 + x.2 : Nat) : K) * x.1.count).sum ∧
    (band.2.zipIdx.map fun x => ((band.1 + x.2 : Nat) : K) * x.1.count).sum < ((j : K) + 1) * (band.2.map fun r => r.count).sum ∧
    p.count = (band.2.map fun r => r.count).sum ∧ p.k = r.k ∧ p.d2 * p.count = r.conv * r.shape * (band.2.map fun r => r.power).sum

end Verif.Spectrum
