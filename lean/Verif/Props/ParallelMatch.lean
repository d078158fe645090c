import Verif.Proofs.ParallelMatch

/-! C11, C12: `parallel_match` -/

namespace Verif

variable {α : Type*}

/-- C11. `parallel_match` succeeds on every rank. Its result on rank `p` has the length of `arr1` there; the entry for a value `v` is -1 if `v` does not occur in
the combined `arr2`, and otherwise the smallest global index at which it occurs. -/
theorem C11_parallel_match [LinearOrder α] [Inhabited α] (P fuel : Nat) (arr1 arr2 : Nat → List α)
    (hfuel : (gcat P arr2).length ≤ fuel) :
    ∃ out, parallelMatch fuel P arr1 arr2 false = .ok out ∧ ∀ p < P, (out p).length = (arr1 p).length ∧
      ∀ (i : Nat) (v : α), (arr1 p)[i]? = some v →
        ((out p)[i]? = some (-1) ∧ v ∉ gcat P arr2) ∨
        ∃ j : Nat, (out p)[i]? = some (j : Int) ∧ (gcat P arr2)[j]? = some v ∧
          ∀ j' < j, (gcat P arr2)[j']? ≠ some v := by
  obtain ⟨out, h, ho⟩ := parallelMatch_ok (arr1 := arr1) (arr2_sorted := false) hfuel (by simp)
  refine ⟨out, h, fun p hp => ⟨by rw [ho p hp]; simp, fun i v hv => ?_⟩⟩
  rw [ho p hp, List.getElem?_map, hv, Option.map_some]
  by_cases hm : v ∈ gcat P arr2
  · right
    refine ⟨(gcat P arr2).idxOf v, by simp [firstIdx, hm], ?_, ?_⟩
    · rw [List.getElem?_eq_getElem (List.idxOf_lt_length_of_mem hm)]; simp
    · intro j' hj' hc
      have := idxOf_le hc
      omega
  · left
    exact ⟨by simp [firstIdx, hm], hm⟩

/-- C11. `3 * (log2 N + 1)` passes of `find_splitting_points` are enough, where `N` is the number of elements of `arr2`; `arr1` can have any length. -/
theorem C11_passes [LinearOrder α] [Inhabited α] (P fuel : Nat) (arr1 arr2 : Nat → List α)
    (hfuel : 3 * (Nat.log 2 (gcat P arr2).length + 1) ≤ fuel) :
    ∃ out, parallelMatch fuel P arr1 arr2 false = .ok out ∧ ∀ p < P, (out p).length = (arr1 p).length ∧
      ∀ (i : Nat) (v : α), (arr1 p)[i]? = some v →
        ((out p)[i]? = some (-1) ∧ v ∉ gcat P arr2) ∨
        ∃ j : Nat, (out p)[i]? = some (j : Int) ∧ (gcat P arr2)[j]? = some v ∧
          ∀ j' < j, (gcat P arr2)[j']? ≠ some v := by
  obtain ⟨out, h, ho⟩ := parallelMatch_any (arr1 := arr1) (arr2_sorted := false) (Or.inr (fsp_log_fuel hfuel)) (by simp)
  obtain ⟨out', h', ho'⟩ := C11_parallel_match P (gcat P arr2).length arr1 arr2 le_rfl
  obtain ⟨out'', h'', ho''⟩ := parallelMatch_ok (arr1 := arr1) (arr2 := arr2) (P := P) (arr2_sorted := false) le_rfl (by simp)
  obtain rfl : out'' = out' := by rw [h'] at h''; injection h'' with h''; exact h''.symm
  refine ⟨out, h, fun p hp => ?_⟩
  rw [ho p hp, ← ho'' p hp]
  exact ho' p hp

/-- C12. If the combined `arr2` is sorted, `arr2_sorted=True` gives the same result on every rank. -/
theorem C12_parallel_match_sorted [LinearOrder α] [Inhabited α] (P fuel : Nat) (arr1 arr2 : Nat → List α)
    (hfuel : (gcat P arr2).length ≤ fuel) (hs : (gcat P arr2).Pairwise (· ≤ ·)) :
    ∃ out out', parallelMatch fuel P arr1 arr2 true = .ok out ∧ parallelMatch fuel P arr1 arr2 false = .ok out' ∧
      ∀ p < P, out p = out' p := by
  obtain ⟨out, h, ho⟩ := parallelMatch_ok (arr1 := arr1) (arr2_sorted := true) hfuel (fun _ => hs)
  obtain ⟨out', h', ho'⟩ := parallelMatch_ok (arr1 := arr1) (arr2_sorted := false) hfuel (by simp)
  exact ⟨out, out', h, h', fun p hp => by rw [ho p hp, ho' p hp]⟩

/-- Values below, between and above those present, duplicates over several ranks, an empty rank in each array. -/
def matchExample1 : Nat → List Int
  | 0 => [7, -3, 2]
  | 1 => []
  | _ => [5, 2, 5, 100]

def matchExample2 : Nat → List Int
  | 0 => [5, 2, 5]
  | 1 => [5, 9]
  | _ => []

example : (match parallelMatch 5 3 matchExample1 matchExample2 false with
    | .ok out => (List.range 3).map out
    | .error _ => []) = [[-1, -1, 1], [], [0, 1, 0, -1]] := by decide +kernel

def matchExample3 : Nat → List Int
  | 0 => []
  | 1 => [2, 5, 5]
  | _ => [5, 9]

example : (gcat 3 matchExample3).Pairwise (· ≤ ·) ∧ (match parallelMatch 5 3 matchExample1 matchExample3 true with
    | .ok out => (List.range 3).map out
    | .error _ => []) = [[-1, -1, 0], [], [1, 0, 1, -1]] := by decide +kernel

/-- Any number of elements matched with fewer than `2 ^ 40` others: 120 passes. -/
example (P : Nat) (arr1 arr2 : Nat → List Int) (hn : (gcat P arr2).length < 2 ^ 40) : ∃ out, parallelMatch 120 P arr1 arr2 false = .ok out := by
  have hl : Nat.log 2 (gcat P arr2).length < 40 := by
    rcases Nat.eq_zero_or_pos (gcat P arr2).length with h | h
    · rw [h]; decide
    · exact Nat.log_lt_of_lt_pow (b := 2) (by omega) hn
  obtain ⟨out, h, -⟩ := C11_passes P 120 arr1 arr2 (by omega)
  exact ⟨out, h⟩

end Verif
