import Verif.Proofs.ParallelSort
import Verif.Proofs.FetchElements
import Verif.Props.FetchElements

/-! C01, C02: `parallel_sort`; C10: using its index with `fetch_elements` -/

namespace Verif

variable {α β : Type*}

/-- C01. `parallel_sort` never fails on any rank; every rank keeps its number of elements, the concatenation of the arrays is a permutation
of what it was, and it is in non-decreasing order. `fuel` bounds the iterations of `find_splitting_points`. -/
theorem C01_parallel_sort [LinearOrder α] [Inhabited α] (P fuel : Nat) (arr : Nat → List α)
    (hfuel : (gcat P arr).length ≤ fuel) :
    ∃ out, parallelSort fuel P arr = .ok out ∧
      (∀ p < P, (out p).1.length = (arr p).length) ∧
      (gcat P (fun p => (out p).1)).Perm (gcat P arr) ∧
      (gcat P (fun p => (out p).1)).Pairwise (· ≤ ·) := by
  obtain ⟨out, h, O, hO, hcat⟩ := parallelSort_ok hfuel
  have h1 : gcat P (fun p => (out p).1) = (sortedPairs (gcat P arr)).map Prod.fst := by
    rw [← hcat, map_gcat]
    exact gcat_congr (fun p hp => by rw [(hO p hp).1])
  refine ⟨out, h, fun p hp => ?_, ?_, ?_⟩
  · rw [(hO p hp).1, ← (hO p hp).2]; simp
  · rw [h1, ← fancy_argsort]; exact fancy_argsort_perm _
  · rw [h1, ← fancy_argsort]; exact fancy_argsort_sorted _

/-- C01. The bound on the passes of `find_splitting_points` can be logarithmic: `parallel_sort` sorts any distributed array of `N` elements with
`3 * (log2 N + 1)` passes, and the index gives for each sorted element its place in the original array. -/
theorem C01_passes [LinearOrder α] [Inhabited α] (P fuel : Nat) (arr : Nat → List α)
    (hfuel : 3 * (Nat.log 2 (gcat P arr).length + 1) ≤ fuel) :
    ∃ out, parallelSort fuel P arr = .ok out ∧
      (∀ p < P, (out p).1.length = (arr p).length ∧ (out p).2.length = (arr p).length) ∧
      (gcat P (fun p => (out p).1)).Perm (gcat P arr) ∧
      (gcat P (fun p => (out p).1)).Pairwise (· ≤ ·) ∧
      (gcat P (fun p => (out p).2)).Perm (List.range (gcat P arr).length) ∧
      (gcat P (fun p => (out p).2)).map (fun i => (gcat P arr)[i]?) = (gcat P (fun p => (out p).1)).map some := by
  obtain ⟨out, h, O, hO, hcat⟩ := parallelSort_any (Or.inr (fsp_log_fuel hfuel))
  have h1 : gcat P (fun p => (out p).1) = (sortedPairs (gcat P arr)).map Prod.fst := by
    rw [← hcat, map_gcat]
    exact gcat_congr (fun p hp => by rw [(hO p hp).1])
  have h2 : gcat P (fun p => (out p).2) = (sortedPairs (gcat P arr)).map Prod.snd := by
    rw [← hcat, map_gcat]
    exact gcat_congr (fun p hp => by rw [(hO p hp).1])
  refine ⟨out, h, fun p hp => ⟨?_, ?_⟩, ?_, ?_, ?_, ?_⟩
  · rw [(hO p hp).1, ← (hO p hp).2]; simp
  · rw [(hO p hp).1, ← (hO p hp).2]; simp
  · rw [h1, ← fancy_argsort]; exact fancy_argsort_perm _
  · rw [h1, ← fancy_argsort]; exact fancy_argsort_sorted _
  · rw [h2, ← argsort_eq]; exact argsort_perm _
  · rw [h1, h2, List.map_map, List.map_map]
    apply List.map_congr_left
    rintro ⟨x, i⟩ he
    exact mem_sortedPairs.1 he

/-- C02. The index returned by `parallel_sort`: as many entries on each rank as there are elements, together a permutation of `0..N-1`;
element `k` of the sorted array is element `index[k]` of the original one; equal values have increasing index. -/
theorem C02_parallel_sort_index [LinearOrder α] [Inhabited α] (P fuel : Nat) (arr : Nat → List α)
    (hfuel : (gcat P arr).length ≤ fuel) :
    ∃ out, parallelSort fuel P arr = .ok out ∧
      let sorted := gcat P (fun p => (out p).1)
      let index := gcat P (fun p => (out p).2)
      (∀ p < P, (out p).2.length = (arr p).length) ∧
      index.Perm (List.range (gcat P arr).length) ∧
      (index.map (fun i => (gcat P arr)[i]?) = sorted.map some) ∧
      (∀ (k l i j : Nat) (x y : α), k < l → sorted[k]? = some x → sorted[l]? = some y →
        index[k]? = some i → index[l]? = some j → x = y → i < j) := by
  obtain ⟨out, h, O, hO, hcat⟩ := parallelSort_ok hfuel
  have h1 : gcat P (fun p => (out p).1) = (sortedPairs (gcat P arr)).map Prod.fst := by
    rw [← hcat, map_gcat]
    exact gcat_congr (fun p hp => by rw [(hO p hp).1])
  have h2 : gcat P (fun p => (out p).2) = (sortedPairs (gcat P arr)).map Prod.snd := by
    rw [← hcat, map_gcat]
    exact gcat_congr (fun p hp => by rw [(hO p hp).1])
  refine ⟨out, h, fun p hp => ?_, ?_, ?_, ?_⟩
  · rw [(hO p hp).1, ← (hO p hp).2]; simp
  · rw [h2, ← argsort_eq]; exact argsort_perm _
  · rw [h1, h2, List.map_map, List.map_map]
    apply List.map_congr_left
    rintro ⟨x, i⟩ he
    exact mem_sortedPairs.1 he
  · intro k l i j x y hkl hx hy hi hj hxy
    rw [h1, List.getElem?_map, Option.map_eq_some_iff] at hx hy
    rw [h2, List.getElem?_map, Option.map_eq_some_iff] at hi hj
    obtain ⟨a, ha, rfl⟩ := hx
    obtain ⟨b, hb, rfl⟩ := hy
    obtain ⟨a', ha', rfl⟩ := hi
    obtain ⟨b', hb', rfl⟩ := hj
    rw [ha] at ha'; rw [hb] at hb'
    cases ha'; cases hb'
    obtain ⟨hk', hka⟩ := List.getElem?_eq_some_iff.1 ha
    obtain ⟨hl', hlb⟩ := List.getElem?_eq_some_iff.1 hb
    have := List.pairwise_iff_getElem.1 (sortedPairs_lex (gcat P arr)) k l hk' hl' hkl
    rw [hka, hlb] at this
    rcases this with h | ⟨_, h⟩
    · exact (lt_irrefl _ (hxy ▸ h)).elim
    · exact h

private theorem gcat_fetched {γ : Type*} {P : Nat} {ix : Nat → List Nat} {c f : Nat → List γ}
    (hcf : ∀ me < P, (f me).map some = ((ix me).map Int.ofNat).map (fun i => (gcat P c)[i.toNat]?)) :
    (gcat P f).map some = (gcat P ix).map (fun i => (gcat P c)[i]?) := by
  rw [map_gcat, map_gcat]
  apply gcat_congr
  intro p hp
  rw [hcf p hp, List.map_map]
  rfl

/-- C10. Let `companion` be distributed like `arr`. Fetching its elements with the index returned by `parallel_sort` gives on each
rank an array with as many elements as `arr` has there, whose concatenation is `companion` arranged by the sorting index. For the array itself this is exactly
what `parallel_sort` leaves in `arr`, rank by rank. -/
theorem C10_sort_index_fetch [LinearOrder α] [Inhabited α] [Inhabited β] (P fuel : Nat) (arr : Nat → List α)
    (companion : Nat → List β) (hfuel : (gcat P arr).length ≤ fuel)
    (hcomp : ∀ p < P, (companion p).length = (arr p).length) :
    ∃ out fetched self, parallelSort fuel P arr = .ok out ∧
      fetchElements P companion (fun p => (out p).2.map Int.ofNat) = .ok fetched ∧
      fetchElements P arr (fun p => (out p).2.map Int.ofNat) = .ok self ∧
      (∀ p < P, (fetched p).length = (arr p).length ∧ self p = (out p).1) ∧
      ∀ k : Nat, k < (gcat P arr).length → ∃ i : Nat, (gcat P (fun p => (out p).1))[k]? = (gcat P arr)[i]? ∧
        (gcat P fetched)[k]? = (gcat P companion)[i]? ∧ i < (gcat P arr).length ∧
        (gcat P (fun p => (out p).2))[k]? = some i := by
  obtain ⟨out, h, hlen, hperm, hval, -⟩ := C02_parallel_sort_index P fuel arr hfuel
  obtain ⟨out', h', hlen', -, -⟩ := C01_parallel_sort P fuel arr hfuel
  obtain rfl : out' = out := by rw [h] at h'; injection h' with h'; exact h'.symm
  have hcl : (gcat P companion).length = (gcat P arr).length := by
    rw [length_gcat, length_gcat]; exact pre_congr hcomp
  have hin : ∀ me < P, ∀ i ∈ (out' me).2.map Int.ofNat, (0 : Int) ≤ i ∧ i < (gcat P arr).length := by
    intro me hme i hi
    obtain ⟨k, hk, rfl⟩ := List.mem_map.1 hi
    have : k ∈ gcat P (fun p => (out' p).2) := mem_gcat.2 ⟨me, hme, hk⟩
    rw [hperm.mem_iff] at this
    have := List.mem_range.1 this
    exact ⟨Int.natCast_nonneg _, by simpa using this⟩
  obtain ⟨fetched, hf, hfv⟩ := C09_fetch_elements P companion (fun p => (out' p).2.map Int.ofNat) none
    (by simp) (by rw [hcl]; exact hin)
  obtain ⟨self, hs, hsv⟩ := C09_fetch_elements P arr (fun p => (out' p).2.map Int.ofNat) none (by simp) hin
  have hself := gcat_fetched hsv
  have hselfeq : gcat P self = gcat P (fun p => (out' p).1) := by
    have := hself.trans hval
    exact List.map_injective_iff.2 (Option.some_injective _) this
  have hselflen : ∀ p < P, (self p).length = (out' p).1.length := by
    intro p hp
    have := congrArg List.length (hsv p hp)
    simp only [List.length_map] at this
    rw [this, hlen p hp, hlen' p hp]
  refine ⟨out', fetched, self, h, hf, hs, fun p hp => ⟨?_, eq_of_gcat_eq hselflen hselfeq p hp⟩, ?_⟩
  · have := congrArg List.length (hfv p hp)
    simp only [List.length_map] at this
    rw [this, hlen p hp]
  · intro k hk
    have hkl : k < (gcat P (fun p => (out' p).2)).length := by
      rw [hperm.length_eq, List.length_range]; exact hk
    refine ⟨(gcat P (fun p => (out' p).2))[k], ?_, ?_, ?_, List.getElem?_eq_getElem hkl⟩
    · have := congrArg (fun l => l[k]?) hval
      simp only [List.getElem?_map, List.getElem?_eq_getElem hkl, Option.map_some] at this
      cases hx : (gcat P (fun p => (out' p).1))[k]? with
      | none => rw [hx] at this; simp at this
      | some x => rw [hx] at this; simp only [Option.map_some] at this; injection this with this; exact this.symm
    · have := congrArg (fun l => l[k]?) (gcat_fetched hfv)
      simp only [List.getElem?_map, List.getElem?_eq_getElem hkl, Option.map_some] at this
      cases hx : (gcat P fetched)[k]? with
      | none => rw [hx] at this; simp at this
      | some x => rw [hx] at this; simp only [Option.map_some] at this; injection this
    · have := hperm.mem_iff.1 (List.getElem_mem hkl)
      exact List.mem_range.1 this

/-- Four ranks, one of them empty, with a value (3) present on all others and crossing two boundaries. -/
def sortExample : Nat → List Nat
  | 0 => [3, 9, 3]
  | 1 => []
  | 2 => [3, 1, 3, 3]
  | _ => [0, 3]

example : (match parallelSort 9 4 sortExample with
    | .ok out => (List.range 4).map out
    | .error _ => []) =
    [([0, 1, 3], [7, 4, 0]), ([], []), ([3, 3, 3, 3], [2, 3, 5, 6]), ([3, 9], [8, 1])] := by decide +kernel

example : (gcat 4 sortExample).length ≤ 9 := by decide

/-- 90 passes are enough to sort up to a billion elements (fewer than `2 ^ 30`) on any number of ranks. -/
example (P : Nat) (arr : Nat → List Nat) (hn : (gcat P arr).length < 2 ^ 30) : ∃ out, parallelSort 90 P arr = .ok out := by
  have hl : Nat.log 2 (gcat P arr).length < 30 := by
    rcases Nat.eq_zero_or_pos (gcat P arr).length with h | h
    · rw [h]; decide
    · exact Nat.log_lt_of_lt_pow (b := 2) (by omega) hn
  obtain ⟨out, h, -⟩ := C01_passes P 90 arr (by omega)
  exact ⟨out, h⟩

end Verif
