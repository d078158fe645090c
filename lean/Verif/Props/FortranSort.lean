import Verif.Proofs.FortranSort
import Mathlib.Data.Rat.Init
import Mathlib.Algebra.Order.Ring.Unbundled.Rat

set_option linter.unusedSectionVars false

/-! C77: `sort_index` returns an index which sorts the array, with the shell sort and with the heap sort. -/

namespace Verif

open FSort

variable {α : Type*} [LinearOrder α] [Inhabited α]

/-- C77: the first elements of the index are the positions in the array, each once, in order of the values. What lies beyond is kept if there are
fewer than two values and raised by one otherwise. -/
theorem C77_sort_index (arr : List α) (idx : List Nat) (h : arr.length ≤ idx.length) :
    ∃ out, sortIndex arr idx = .ok out ∧ out.length = idx.length ∧ SortsOneBased arr (out.take arr.length) ∧
      out.drop arr.length = if arr.length < 2 then idx.drop arr.length else (idx.drop arr.length).map (· + 1) := by
  unfold sortIndex
  simp only
  rw [if_neg (by omega)]
  by_cases h0 : arr.length = 0
  · rw [if_pos h0]
    refine ⟨idx, rfl, rfl, ?_, by simp [h0]⟩
    simp [h0, SortsOneBased]
  rw [if_neg h0]
  by_cases h1 : arr.length = 1
  · rw [if_pos h1]
    obtain ⟨x, rfl⟩ := List.length_eq_one_iff.1 h1
    match idx, h with
    | a :: t, _ =>
      refine ⟨1 :: t, rfl, rfl, ⟨by simp, ?_⟩, by simp⟩
      intro i j p q hij hi hj
      have := (List.getElem?_eq_some_iff.1 hj).1
      simp at this; omega
  rw [if_neg h1]
  refine ⟨_, rfl, ?_⟩
  have key : ((if arr.length < nswitch then shellSort arr (List.range arr.length) else heapSort arr (List.range arr.length))).Perm (List.range arr.length) ∧
      ∀ i j, i < j → j < arr.length →
        FSort.key arr (if arr.length < nswitch then shellSort arr (List.range arr.length) else heapSort arr (List.range arr.length)) i ≤
        FSort.key arr (if arr.length < nswitch then shellSort arr (List.range arr.length) else heapSort arr (List.range arr.length)) j := by
    split_ifs
    · exact shellSort_spec arr _ (by simp) (by omega)
    · exact heapSort_spec arr _ (by simp) (by omega)
  generalize (if arr.length < nswitch then shellSort arr (List.range arr.length) else heapSort arr (List.range arr.length)) = s at key
  have hl : s.length = arr.length := by rw [key.1.length_eq, List.length_range]
  refine ⟨by simp [hl]; omega, ?_, ?_⟩
  · rw [List.map_append, List.take_left' (by simpa using hl)]
    exact sortsOneBased_of arr s key.1 key.2
  · rw [if_neg (by omega), List.map_append, List.drop_left' (by simpa using hl)]

/-- C77: the subroutine stops if and only if the index is shorter than the array. -/
theorem C77_sort_index_stops (arr : List α) (idx : List Nat) :
    sortIndex arr idx = .error .abort ↔ idx.length < arr.length := by
  constructor
  · intro h
    by_contra hc
    obtain ⟨out, ho, -⟩ := C77_sort_index arr idx (by omega)
    rw [ho] at h; cases h
  · intro h
    simp [sortIndex, h]

namespace ExFortranSort

/-- Seven values with ties, sorted by the shell sort -/
example : sortIndex [(5 : Nat), 3, 9, 3, 0, 7, 1] [0, 0, 0, 0, 0, 0, 0] = .ok [5, 7, 4, 2, 1, 6, 3] := by decide +kernel

/-- 120 values, sorted by the heap sort; two more elements of the index are raised. -/
example : (sortIndex ((List.range 120).map (fun i => (i * 7) % 120)) (List.replicate 120 0 ++ [40, 50])).map
    (fun o => (o.take 3, o.drop 118)) = .ok ([1, 104, 87], [35, 18, 41, 51]) := by decide +kernel

example : sortIndex [(5 : Nat), 3] [0] = .error .abort := by decide +kernel

/-- The index is not a stable sort: equal values may change order. -/
example : sortIndex [(1 : Nat), 1, 0] [0, 0, 0] = .ok [3, 1, 2] ∧ sortIndex [(1 : Nat), 1, 0, 1, 0] [0, 0, 0, 0, 0] = .ok [3, 5, 2, 4, 1] := by decide +kernel

end ExFortranSort

end Verif
