import Verif.Proofs.FspLog

/-! C03: `find_splitting_points` -/

namespace Verif

/-- C03. If every rank's array is sorted and all requested ranks `r i` are valid positions `0 ≤ r i < N`, then
`find_splitting_points` terminates without an exception on every MPI rank after at most `N` passes (the fuel); all
MPI ranks return the same `(value, min_rank, max_rank)`; the value occurs in the distributed array; `min_rank` is the number
of elements below it, `max_rank + 1` the number of elements not above it, and `min_rank ≤ r i ≤ max_rank`. -/
theorem C03_find_splitting_points {α : Type*} [LinearOrder α] [Inhabited α] (P nranks fuel : Nat)
    (r : Nat → Int) (arr : Nat → List α) (hP : 0 < P) (hs : ∀ p < P, (arr p).Pairwise (· ≤ ·))
    (hr : ∀ i < nranks, 0 ≤ r i ∧ r i < (gcat P arr).length) (hfuel : (gcat P arr).length ≤ fuel) :
    ∃ out, findSplittingPoints fuel P nranks r arr = .ok out ∧
      ∀ i < nranks, ∃ (v : α) (mn mx : Int), (∀ p < P, out p i = (v, mn, mx)) ∧ v ∈ gcat P arr ∧
        mn = ((gcat P arr).countP (fun x => decide (x < v)) : Nat) ∧
        mx = ((gcat P arr).countP (fun x => decide (x ≤ v)) : Nat) - 1 ∧ mn ≤ r i ∧ r i ≤ mx :=
  findSplittingPoints_ok hP hs hr hfuel

/-- C03. The number of passes grows only with the logarithm of `N`: each pass removes at least a quarter of the elements which are left, so that `3 * (log2 N + 1)` passes are enough. -/
theorem C03_passes {α : Type*} [LinearOrder α] [Inhabited α] (P nranks fuel : Nat)
    (r : Nat → Int) (arr : Nat → List α) (hP : 0 < P) (hs : ∀ p < P, (arr p).Pairwise (· ≤ ·))
    (hr : ∀ i < nranks, 0 ≤ r i ∧ r i < (gcat P arr).length) (hfuel : 3 * (Nat.log 2 (gcat P arr).length + 1) ≤ fuel) :
    ∃ out, findSplittingPoints fuel P nranks r arr = .ok out ∧
      ∀ i < nranks, ∃ (v : α) (mn mx : Int), (∀ p < P, out p i = (v, mn, mx)) ∧ v ∈ gcat P arr ∧
        mn = ((gcat P arr).countP (fun x => decide (x < v)) : Nat) ∧
        mx = ((gcat P arr).countP (fun x => decide (x ≤ v)) : Nat) - 1 ∧ mn ≤ r i ∧ r i ≤ mx :=
  findSplittingPoints_log hP hs hr (fsp_log_fuel hfuel)

/-- Three ranks (one empty), duplicated values, more requests than ranks. -/
def fspExample : Nat → List Nat
  | 0 => [1, 3, 3, 7]
  | 1 => []
  | _ => [0, 3, 3, 9, 9]

example : (match findSplittingPoints 9 3 4 (fun i => [0, 3, 6, 8].getD i 0) fspExample with
    | .ok out => (List.range 3).map (fun p => (List.range 4).map (out p))
    | .error _ => []) = List.replicate 3 [(0, 0, 0), (3, 2, 5), (7, 6, 6), (9, 7, 8)] := by decide +kernel

/-- As many requests as ranks: the other branch of the code. -/
example : (match findSplittingPoints 9 3 3 (fun i => [1, 3, 7].getD i 0) fspExample with
    | .ok out => (List.range 3).map (fun p => (List.range 3).map (out p))
    | .error _ => []) = List.replicate 3 [(1, 1, 1), (3, 2, 5), (9, 7, 8)] := by decide +kernel

example : (∀ p < 3, (fspExample p).Pairwise (· ≤ ·)) ∧ (gcat 3 fspExample).length = 9 := by decide

/-- 90 passes are enough for a billion elements (up to `2 ^ 30`), whatever the values are. -/
example (arr : Nat → List Nat) (hs : ∀ p < 4, (arr p).Pairwise (· ≤ ·)) (h0 : 4 ≤ (gcat 4 arr).length) (hn : (gcat 4 arr).length < 2 ^ 30) : ∃ out, findSplittingPoints 90 4 3 (fun i => i + 1) arr = .ok out := by
  have hl := Nat.log_lt_of_lt_pow (b := 2) (by omega) hn
  obtain ⟨out, h, -⟩ := C03_passes 4 3 90 (fun i => i + 1) arr (by decide) hs (by intro i hi; omega) (by omega)
  exact ⟨out, h⟩

/-- Six passes are enough for the example above, which has nine elements (the bound of the theorem is 12). -/
example : (match findSplittingPoints 6 3 4 (fun i => [0, 3, 6, 8].getD i 0) fspExample with
    | .ok out => (List.range 3).map (fun p => (List.range 4).map (out p))
    | .error _ => []) = List.replicate 3 [(0, 0, 0), (3, 2, 5), (7, 6, 6), (9, 7, 8)] := by decide +kernel

example : ∃ out, findSplittingPoints 12 3 4 (fun i => [0, 3, 6, 8].getD i 0) fspExample = .ok out := by
  obtain ⟨out, h, -⟩ := C03_passes 3 4 12 (fun i => [0, 3, 6, 8].getD i 0) fspExample (by decide) (by decide) (by decide) (by
    have : Nat.log 2 9 < 4 := Nat.log_lt_of_lt_pow (by decide) (by decide)
    show 3 * (Nat.log 2 9 + 1) ≤ 12
    omega)
  exact ⟨out, h⟩

end Verif
