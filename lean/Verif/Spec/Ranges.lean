import Verif.Lib.Dist
import Verif.Lib.Np
import Mathlib.Algebra.Field.Basic

namespace Verif

variable {α : Type*}

/-- Ranges (offset and length) inside an array of length `n`, in ascending order, which do not overlap. -/
def RangesOk (n : Nat) (R : List (Nat × Nat)) : Prop := (∀ r ∈ R, r.1 + r.2 ≤ n) ∧ R.Pairwise (fun r s => r.1 + r.2 ≤ s.1)

/-- The same for integers, which may be negative. -/
def IntRangesOk (n : Nat) (R : List (Int × Int)) : Prop :=
  (∀ r ∈ R, 0 ≤ r.1 ∧ 0 ≤ r.2 ∧ r.1 + r.2 ≤ n) ∧ R.Pairwise (fun r s => r.1 + r.2 ≤ s.1)

/-- Assign the ranges (offset, length, value) one after the other. -/
def assignEach (array : List α) (R : List (Nat × Nat × α)) : List α := R.foldl (fun a r => overlay a r.1 (List.replicate r.2.1 r.2.2)) array

/-- Sum, weighted sum or mean over one range. -/
def rangeSum [Field α] (array : List α) (weight : Option (List α)) (normalize : Bool) (o l : Nat) : α :=
  match weight, normalize with
  | none, false => (slice array o l).sum
  | none, true => (slice array o l).sum / (l : α)
  | some w, false => (List.zipWith (· * ·) (slice array o l) (slice w o l)).sum
  | some w, true => (List.zipWith (· * ·) (slice array o l) (slice w o l)).sum / (slice w o l).sum

end Verif
