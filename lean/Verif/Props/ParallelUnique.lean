import Verif.Proofs.ParallelUnique

/-! C13, C14, C15: `parallel_unique` -/

namespace Verif

variable {α : Type*}

/-- C13. The values returned by `parallel_unique` over all ranks are strictly increasing and are exactly the values that occur in the
input, with and without `arr_sorted` (for sorted input) and `repartition_output`. -/
theorem C13_parallel_unique [LinearOrder α] [Inhabited α] (P fuel : Nat) (arr : Nat → List α) (hP : 0 < P)
    (arr_sorted repart : Bool) (hfuel : (gcat P arr).length ≤ fuel)
    (hs : arr_sorted = true → (gcat P arr).Pairwise (· ≤ ·)) :
    ∃ U C, parallelUnique fuel P arr arr_sorted repart = .ok (U, C) ∧
      (gcat P U).Pairwise (· < ·) ∧ ∀ x, x ∈ gcat P U ↔ x ∈ gcat P arr := by
  obtain ⟨R, h1, h2, -, ⟨U, C, h4, -, h5, -⟩, ⟨U', C', h6, -, h7, -⟩⟩ := parallelUnique_ok hP hfuel hs
  cases repart
  · exact ⟨U, C, h4, by rw [h5]; exact h1, by rw [h5]; exact h2⟩
  · exact ⟨U', C', h6, by rw [h7]; exact h1, by rw [h7]; exact h2⟩

/-- C13. `3 * (log2 N + 1)` passes of `find_splitting_points` are enough. -/
theorem C13_passes [LinearOrder α] [Inhabited α] (P fuel : Nat) (arr : Nat → List α) (hP : 0 < P)
    (arr_sorted repart : Bool) (hfuel : 3 * (Nat.log 2 (gcat P arr).length + 1) ≤ fuel)
    (hs : arr_sorted = true → (gcat P arr).Pairwise (· ≤ ·)) :
    ∃ U C, parallelUnique fuel P arr arr_sorted repart = .ok (U, C) ∧
      (gcat P U).Pairwise (· < ·) ∧ (∀ x, x ∈ gcat P U ↔ x ∈ gcat P arr) ∧
      gcat P C = (gcat P U).map (fun x => (gcat P arr).count x) := by
  obtain ⟨R, h1, h2, h3, ⟨U, C, h4, -, h5, h5'⟩, ⟨U', C', h6, -, h7, h7'⟩⟩ := parallelUnique_any hP (Or.inr (fsp_log_fuel hfuel)) hs
  have hR : R.map Prod.snd = (R.map Prod.fst).map (fun x => (gcat P arr).count x) := by
    rw [List.map_map]
    exact List.map_congr_left (fun e he => h3 e he)
  cases repart
  · exact ⟨U, C, h4, by rw [h5]; exact h1, by rw [h5]; exact h2, by rw [h5, h5', hR]⟩
  · exact ⟨U', C', h6, by rw [h7]; exact h1, by rw [h7]; exact h2, by rw [h7, h7', hR]⟩

/-- C14. On every rank there are as many counts as values, and the `k`-th count is the number of times the `k`-th value occurs in the combined
input. In particular all counts are positive. -/
theorem C14_parallel_unique_counts [LinearOrder α] [Inhabited α] (P fuel : Nat) (arr : Nat → List α) (hP : 0 < P)
    (arr_sorted repart : Bool) (hfuel : (gcat P arr).length ≤ fuel)
    (hs : arr_sorted = true → (gcat P arr).Pairwise (· ≤ ·)) :
    ∃ U C, parallelUnique fuel P arr arr_sorted repart = .ok (U, C) ∧
      (∀ p < P, (C p).length = (U p).length) ∧
      gcat P C = (gcat P U).map (fun x => (gcat P arr).count x) ∧ (∀ c ∈ gcat P C, 0 < c) ∧
      (gcat P C).sum = (gcat P arr).length := by
  obtain ⟨R, h1, h2, h3, ⟨U, C, h4, hl, h5, h5'⟩, ⟨U', C', h6, hl', h7, h7'⟩⟩ := parallelUnique_ok hP hfuel hs
  have hR : R.map Prod.snd = (R.map Prod.fst).map (fun x => (gcat P arr).count x) := by
    rw [List.map_map]
    exact List.map_congr_left (fun e he => h3 e he)
  have hpos : ∀ c ∈ R.map Prod.snd, 0 < c := by
    intro c hc
    obtain ⟨e, he, rfl⟩ := List.mem_map.1 hc
    rw [h3 e he]
    exact List.count_pos_iff.2 ((h2 e.1).1 (List.mem_map.2 ⟨e, he, rfl⟩))
  have hsum : (R.map Prod.snd).sum = (gcat P arr).length := by
    rw [hR]
    have hnd : (R.map Prod.fst).Nodup := h1.imp (fun h => ne_of_lt h)
    generalize R.map Prod.fst = V at *
    have : ∀ (V G : List α), V.Nodup → (∀ x ∈ G, x ∈ V) → (V.map (fun x => G.count x)).sum = G.length := by
      intro V G hV
      induction G with
      | nil => intro _; simp
      | cons g G ih =>
        intro hm
        have hg : g ∈ V := hm g (by simp)
        have h0 := ih (fun x hx => hm x (by simp [hx]))
        rw [List.length_cons, ← h0]
        clear ih h0 hm
        induction V with
        | nil => simp at hg
        | cons v V ihV =>
          obtain ⟨hv1, hv2⟩ := List.nodup_cons.1 hV
          simp only [List.map_cons, List.sum_cons]
          rcases List.mem_cons.1 hg with rfl | hg'
          · have : V.map (fun x => (g :: G).count x) = V.map (fun x => G.count x) := by
              apply List.map_congr_left
              intro x hx
              exact List.count_cons_of_ne (fun h => hv1 (by rw [h]; exact hx))
            rw [this, List.count_cons_self]; omega
          · rw [ihV hv2 hg', List.count_cons_of_ne (fun h => hv1 (by rw [← h]; exact hg'))]; omega
    exact this V _ hnd (fun x hx => (h2 x).2 hx)
  cases repart
  · refine ⟨U, C, h4, fun p hp => (hl p hp).symm, by rw [h5, h5', hR], by rw [h5']; exact hpos, by rw [h5', hsum]⟩
  · refine ⟨U', C', h6, fun p hp => by rw [(hl' p hp).1, (hl' p hp).2], by rw [h7, h7', hR], by rw [h7']; exact hpos,
      by rw [h7', hsum]⟩

/-- C15. `repartition_output=True` gives the same global sequences of values and counts as `repartition_output=False`; with `n` distinct values the first `n mod P`
ranks hold `n / P + 1` of them and the others `n / P`. -/
theorem C15_parallel_unique_repartition [LinearOrder α] [Inhabited α] (P fuel : Nat) (arr : Nat → List α)
    (hP : 0 < P) (arr_sorted : Bool) (hfuel : (gcat P arr).length ≤ fuel)
    (hs : arr_sorted = true → (gcat P arr).Pairwise (· ≤ ·)) :
    ∃ U C U' C', parallelUnique fuel P arr arr_sorted false = .ok (U, C) ∧
      parallelUnique fuel P arr arr_sorted true = .ok (U', C') ∧ gcat P U' = gcat P U ∧ gcat P C' = gcat P C ∧
      ∀ p < P, let n := (gcat P U).length
        (U' p).length = n / P + (if p < n % P then 1 else 0) ∧ (C' p).length = (U' p).length := by
  obtain ⟨R, -, -, -, ⟨U, C, h4, -, h5, h5'⟩, ⟨U', C', h6, hl', h7, h7'⟩⟩ := parallelUnique_ok hP hfuel hs
  refine ⟨U, C, U', C', h4, h6, by rw [h5, h7], by rw [h5', h7'], fun p hp => ?_⟩
  rw [h5]
  simp only [List.length_map]
  exact ⟨(hl' p hp).1, by rw [(hl' p hp).1, (hl' p hp).2]⟩

/-- A value (3) which is the only one on a rank and crosses two boundaries, and an empty rank. -/
def uniqueExample : Nat → List Nat
  | 0 => [9, 3]
  | 1 => []
  | 2 => [3, 3]
  | _ => [3, 1, 3, 7]

example : (match parallelUnique 8 4 uniqueExample false false with
    | .ok (U, C) => (List.range 4).map (fun p => (U p).zip (C p))
    | .error _ => []) = [[(1, 1), (3, 5)], [], [], [(7, 1), (9, 1)]] := by decide +kernel

example : (match parallelUnique 8 3 uniqueExample false true with
    | .ok (U, C) => (List.range 3).map (fun p => (U p).zip (C p))
    | .error _ => []) = [[(3, 3)], [(9, 1)], []] := by decide +kernel

def uniqueExampleSorted : Nat → List Nat
  | 0 => [1, 3]
  | 1 => []
  | 2 => [3, 3]
  | _ => [3, 7]

example : (gcat 4 uniqueExampleSorted).Pairwise (· ≤ ·) ∧ (match parallelUnique 8 4 uniqueExampleSorted true true with
    | .ok (U, C) => (List.range 4).map (fun p => (U p).zip (C p))
    | .error _ => []) = [[(1, 1)], [(3, 4)], [(7, 1)], []] := by decide +kernel

/-- Fewer than `2 ^ 40` elements: 120 passes. -/
example (P : Nat) (hP : 0 < P) (arr : Nat → List Int) (hn : (gcat P arr).length < 2 ^ 40) : ∃ U C, parallelUnique 120 P arr false true = .ok (U, C) := by
  have hl : Nat.log 2 (gcat P arr).length < 40 := by
    rcases Nat.eq_zero_or_pos (gcat P arr).length with h | h
    · rw [h]; decide
    · exact Nat.log_lt_of_lt_pow (b := 2) (by omega) hn
  obtain ⟨U, C, h, -⟩ := C13_passes P 120 arr hP false true (by omega) (by simp)
  exact ⟨U, C, h⟩

end Verif
