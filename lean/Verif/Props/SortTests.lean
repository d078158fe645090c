import Verif.Proofs.SortTests

/-! C121: the tests of `parallel_sort`, `repartition` and `parallel_unique` (python/virgo/mpi/test_parallel_sort.py), for every array which they could make -/

namespace Verif.SortTests

variable {α β γ : Type}

theorem bind_ok_iff {x : Except Err β} {k : β → Except Err γ} {c : γ} : (x >>= k) = .ok c ↔ ∃ b, x = .ok b ∧ k b = .ok c := by
  cases x with
  | error e =>
    constructor
    · intro h; cases h
    · rintro ⟨f, h, -⟩; cases h
  | ok v =>
    constructor
    · intro h; exact ⟨v, rfl, h⟩
    · rintro ⟨f, h, h'⟩; injection h with h; subst h; exact h'

/-- Element `k` of the sorted array is element `index[k]` of the combined array, on each rank. -/
def IndexReproduces (P : Nat) (arr : Nat → List α) (out : Nat → List α × List Nat) : Prop :=
  ∀ p < P, (out p).2.map (fun i => (gcat P arr)[i]?) = (out p).1.map some

/-- C121. The checks of `run_parallel_sort` decide correctness: whatever a sort function returns for `arr` (arrays of the right length on each rank), the test passes if and only if the
combined result is the sorted permutation of the input and the index reproduces it. -/
theorem C121_sort_iff [LinearOrder α] [Inhabited α] (P : Nat) (arr : Nat → List α) (out : Nat → List α × List Nat)
    (sort : (Nat → List α) → Except Err (Nat → List α × List Nat)) (hs : sort arr = .ok out)
    (h1 : ∀ p < P, (out p).1.length = (arr p).length) (h2 : ∀ p < P, (out p).2.length = (arr p).length) :
    runParallelSort P sort arr = .ok () ↔
      (gcat P (fun p => (out p).1)).Perm (gcat P arr) ∧ (gcat P (fun p => (out p).1)).Pairwise (· ≤ ·) ∧ IndexReproduces P arr out := by
  have hlen : (gcat P (fun p => (out p).1)).length = (npSort (gcat P arr)).length := by
    rw [(npSort_perm _).length_eq, length_gcat, length_gcat]
    exact pre_congr h1
  unfold runParallelSort
  rw [hs]
  show (allEqual (gcat P (fun p => (out p).1)) (npSort (gcat P arr)) >>= fun all_equal => assertRankZero all_equal >>= fun _ => checkIndex P arr out true) = .ok () ↔ _
  rw [allEqual_same hlen]
  show (assertRankZero (decide (gcat P (fun p => (out p).1) = npSort (gcat P arr))) >>= fun _ => checkIndex P arr out true) = .ok () ↔ _
  rw [bind_ok_iff]
  have := checkIndex_iff (in_place := true) h1 h2
  unfold IndexReproduces
  rw [← this]
  constructor
  · rintro ⟨_, h3, h4⟩
    unfold assertRankZero at h3
    split at h3
    · rename_i h
      obtain ⟨h5, h6⟩ := eq_npSort.1 (of_decide_eq_true h)
      exact ⟨h5, h6, h4⟩
    · cases h3
  · rintro ⟨h3, h4, h5⟩
    refine ⟨(), ?_, h5⟩
    unfold assertRankZero
    rw [if_pos (decide_eq_true (eq_npSort.2 ⟨h3, h4⟩))]

/-- What `parallel_sort` returns, in the form used by the tests. -/
theorem parallelSort_good [LinearOrder α] [Inhabited α] (P fuel : Nat) (arr : Nat → List α) (hfuel : (gcat P arr).length ≤ fuel) :
    ∃ out, parallelSort fuel P arr = .ok out ∧ (∀ p < P, (out p).1.length = (arr p).length) ∧ (∀ p < P, (out p).2.length = (arr p).length) ∧
      (gcat P (fun p => (out p).1)).Perm (gcat P arr) ∧ (gcat P (fun p => (out p).1)).Pairwise (· ≤ ·) ∧ IndexReproduces P arr out := by
  obtain ⟨out, h, h1, h3, h4⟩ := C01_parallel_sort P fuel arr hfuel
  obtain ⟨out', h', h2, -, h5, -⟩ := C02_parallel_sort_index P fuel arr hfuel
  obtain rfl : out' = out := by rw [h] at h'; injection h' with h'; exact h'.symm
  refine ⟨out', h, h1, h2, h3, h4, ?_⟩
  rw [map_gcat, map_gcat] at h5
  exact eq_of_gcat_eq (fun p hp => by simp [h1 p hp, h2 p hp]) h5

/-- C121. `parallel_sort` passes `run_parallel_sort` for every number of ranks, every distribution (with empty ranks) and every array, not only for the random ones. -/
theorem C121_sort_passes [LinearOrder α] [Inhabited α] (P fuel : Nat) (arr : Nat → List α) (hfuel : (gcat P arr).length ≤ fuel) :
    runParallelSort P (parallelSort fuel P) arr = .ok () := by
  obtain ⟨out, h, h1, h2, h3⟩ := parallelSort_good P fuel arr hfuel
  exact (C121_sort_iff P arr out _ h h1 h2).2 h3

/-- C121. The checks of `run_large_parallel_sort`, which never gathers the array: for values below `max_value` the test passes if and only if the result is the sorted permutation,
the index reproduces it and, with more than one rank, no rank is empty. The test of the numbers of elements would notice values beyond `max_value` in the result. -/
theorem C121_large_iff (P max_value : Nat) (hP : 0 < P) (hm : 2 ≤ max_value) (arr : Nat → List Nat) (out : Nat → List Nat × List Nat)
    (sort : (Nat → List Nat) → Except Err (Nat → List Nat × List Nat)) (hs : sort arr = .ok out) (hv : ∀ p < P, ∀ v ∈ arr p, v < max_value)
    (h1 : ∀ p < P, (out p).1.length = (arr p).length) (h2 : ∀ p < P, (out p).2.length = (arr p).length) :
    runLargeParallelSort P max_value sort arr = .ok () ↔
      ((gcat P (fun p => (out p).1)).Perm (gcat P arr) ∧ (gcat P (fun p => (out p).1)).Pairwise (· ≤ ·) ∧ IndexReproduces P arr out) ∧
        (1 < P → ∀ p < P, arr p ≠ []) := by
  have hP' : P - 1 + 1 = P := by omega
  have hstart := allreduce_bincount (P := P - 1) (x := arr) (m := max_value) (fun p hp => hv p (by omega))
  rw [hP'] at hstart
  have hci := checkIndex_iff (in_place := false) h1 h2
  have hne : (1 < P → ∀ p < P, (out p).1 ≠ []) ↔ (1 < P → ∀ p < P, arr p ≠ []) := by
    have : ∀ p < P, (out p).1 ≠ [] ↔ arr p ≠ [] := by
      intro p hp
      rw [← List.length_pos_iff, ← List.length_pos_iff, h1 p hp]
    exact ⟨fun h h' p hp => (this p hp).1 (h h' p hp), fun h h' p hp => (this p hp).2 (h h' p hp)⟩
  have hbt := between_iff (P := P) (a := fun p => (out p).1)
  rw [hne] at hbt
  have hall : ∀ b : Bool, assertAllRanks P (fun _ => b) = .ok () ↔ b = true := by
    intro b
    unfold assertAllRanks
    cases b
    · rw [if_neg (by rw [List.all_eq_true]; intro h; exact absurd (h 0 (List.mem_range.2 hP)) (by simp))]
      exact ⟨fun h => (by cases h), fun h => (by cases h)⟩
    · rw [if_pos (by simp)]; simp
  unfold runLargeParallelSort
  rw [hstart, hs]
  simp only [bind_ok_iff, Except.ok.injEq, exists_eq_left']
  unfold IndexReproduces
  rw [← hci]
  constructor
  · rintro ⟨e, he, _, ha, _, hb, same, hsame, _, hsa, hi⟩
    obtain ⟨h3, h4⟩ := hbt.1 ⟨ha, hb⟩
    rw [hall] at hsa
    subst hsa
    obtain ⟨h5, h6⟩ := allreduce_range hm he
    have h7 := allEqual_long (by simpa using hm) (le_trans hm h5) hsame
    have h8 : ∀ p < P, ∀ v ∈ (out p).1, v < max_value := fun p hp => h6 (by rw [← h7]; simp) p (by omega)
    have h9 := allreduce_bincount (P := P - 1) (x := fun p => (out p).1) (m := max_value) (fun p hp => h8 p (by omega))
    rw [hP', he] at h9
    injection h9 with h9
    refine ⟨⟨?_, h3, hi⟩, h4⟩
    refine perm_of_counts (m := max_value) ?_ ?_ (h9.symm.trans h7.symm)
    · intro v hv'; obtain ⟨p, hp, h⟩ := mem_gcat.1 hv'; exact h8 p hp v h
    · intro v hv'; obtain ⟨p, hp, h⟩ := mem_gcat.1 hv'; exact hv p hp v h
  · rintro ⟨⟨h3, h4, h5⟩, h6⟩
    have h8 : ∀ p < P, ∀ v ∈ (out p).1, v < max_value := by
      intro p hp v hv'
      have : v ∈ gcat P arr := h3.mem_iff.1 (mem_gcat.2 ⟨p, hp, hv'⟩)
      obtain ⟨q, hq, h⟩ := mem_gcat.1 this
      exact hv q hq v h
    have h9 := allreduce_bincount (P := P - 1) (x := fun p => (out p).1) (m := max_value) (fun p hp => h8 p (by omega))
    rw [hP'] at h9
    obtain ⟨ha, hb⟩ := hbt.2 ⟨h4, h6⟩
    refine ⟨_, h9, (), ha, (), hb, true, ?_, (), (hall true).2 rfl, h5⟩
    have : (List.range max_value).map (fun k => (gcat P arr).count k) = (List.range max_value).map (fun k => (gcat P (fun p => (out p).1)).count k) :=
      List.map_congr_left (fun k _ => (h3.count_eq k).symm)
    rw [this, allEqual_self]

/-- C121. `parallel_sort` passes `run_large_parallel_sort` whenever each rank has elements. -/
theorem C121_large_passes (P max_value fuel : Nat) (hP : 0 < P) (hm : 2 ≤ max_value) (arr : Nat → List Nat) (hv : ∀ p < P, ∀ v ∈ arr p, v < max_value)
    (hfuel : (gcat P arr).length ≤ fuel) (hne : ∀ p < P, arr p ≠ []) :
    runLargeParallelSort P max_value (parallelSort fuel P) arr = .ok () := by
  obtain ⟨out, h, h1, h2, h3⟩ := parallelSort_good P fuel arr hfuel
  exact (C121_large_iff P max_value hP hm arr out _ h hv h1 h2).2 ⟨h3, fun _ => hne⟩

/-- C121, a defect of the test: if the random number of elements of a rank is 0 (`np.random.randint` can give 0), it fails with more than one rank although the array is sorted correctly,
because `np.amin` of no elements is an error. -/
theorem C121_large_defect (P max_value fuel : Nat) (hP : 1 < P) (arr : Nat → List Nat) (hv : ∀ p < P, ∀ v ∈ arr p, v < max_value)
    (hfuel : (gcat P arr).length ≤ fuel) (p : Nat) (hp : p < P) (he : arr p = []) :
    runLargeParallelSort P max_value (parallelSort fuel P) arr = .error .valueError := by
  obtain ⟨out, h, h1, h2, h3, h4, h5⟩ := parallelSort_good P fuel arr hfuel
  have hP' : P - 1 + 1 = P := by omega
  have hstart := allreduce_bincount (P := P - 1) (x := arr) (m := max_value) (fun p hp => hv p (by omega))
  have h8 : ∀ p < P, ∀ v ∈ (out p).1, v < max_value := by
    intro p hp v hv'
    have : v ∈ gcat P arr := h3.mem_iff.1 (mem_gcat.2 ⟨p, hp, hv'⟩)
    obtain ⟨q, hq, h⟩ := mem_gcat.1 this
    exact hv q hq v h
  have h9 := allreduce_bincount (P := P - 1) (x := fun p => (out p).1) (m := max_value) (fun p hp => h8 p (by omega))
  have ha : assertAllRanks P (fun p => isAscending (out p).1) = .ok () := by
    unfold assertAllRanks
    rw [if_pos (List.all_eq_true.2 (fun q hq => (isAscending_iff _).2 ((gcat_pairwise_mem h4).1 q (List.mem_range.1 hq))))]
  have hb : checkBetween P (fun p => (out p).1) = .error .valueError := by
    unfold checkBetween
    rw [if_pos hP, if_pos (List.any_eq_true.2 ⟨p, List.mem_range.2 hp, ?_⟩)]
    have := h1 p hp
    rw [he] at this
    simpa using this
  unfold runLargeParallelSort
  rw [hstart, h]
  show (allreduceArrays (fun p => bincount max_value (out p).1) (P - 1) >>= _) = _
  rw [h9]
  show (assertAllRanks P (fun p => isAscending (out p).1) >>= _) = _
  rw [ha]
  show (checkBetween P (fun p => (out p).1) >>= _) = _
  rw [hb]
  rfl

theorem pre_countDest (P Q : Nat) (dest : Nat → List Nat) (hd : ∀ p < Q, ∀ d ∈ dest p, d < P) :
    pre (fun r => pre (fun p => (dest p).count r) Q) P = pre (fun p => (dest p).length) Q := by
  have one : ∀ l : List Nat, (∀ d ∈ l, d < P) → pre (fun r => l.count r) P = l.length := by
    intro l
    induction l with
    | nil =>
      intro _
      have : ∀ Q, pre (fun r => ([] : List Nat).count r) Q = 0 := by
        intro Q; induction Q with
        | zero => rfl
        | succ Q ih => rw [pre_succ, ih]; rfl
      rw [this]; rfl
    | cons x l ih =>
      intro h
      have hx := h x (by simp)
      rw [List.length_cons, ← ih (fun d hd => h d (by simp [hd]))]
      have : ∀ Q, pre (fun r => (x :: l).count r) Q = pre (fun r => l.count r) Q + if x < Q then 1 else 0 := by
        intro Q
        induction Q with
        | zero => simp
        | succ Q ihQ =>
          rw [pre_succ, pre_succ, ihQ, List.count_cons]
          have e : (if (x == Q) = true then 1 else 0) = if x = Q then 1 else 0 := by simp
          rw [e]
          split_ifs <;> omega
      rw [this, if_pos hx]
  induction Q with
  | zero =>
    have : ∀ P, pre (fun r => pre (fun p => (dest p).count r) 0) P = 0 := by
      intro P; induction P with
      | zero => rfl
      | succ P ih => rw [pre_succ, ih]; rfl
    rw [this]; rfl
  | succ Q ih =>
    have split : ∀ P, pre (fun r => pre (fun p => (dest p).count r) (Q + 1)) P =
        pre (fun r => pre (fun p => (dest p).count r) Q) P + pre (fun r => (dest Q).count r) P := by
      intro P; induction P with
      | zero => rfl
      | succ P ihP => rw [pre_succ, pre_succ, pre_succ, ihP, pre_succ]; omega
    rw [split, ih (fun p hp => hd p (by omega)), one _ (hd Q (by omega)), pre_succ]

/-- C121. `repartition` passes its tests for every array and every choice of destinations. -/
theorem C121_repartition_passes [DecidableEq α] [Inhabited α] (P : Nat) (arr : Nat → List α) (dest : Nat → List Nat)
    (hl : ∀ p < P, (dest p).length = (arr p).length) (hd : ∀ p < P, ∀ d ∈ dest p, d < P) :
    testRepartition P (repartition P) arr dest = .ok () := by
  have hsum : pre (sizes arr) P = pre (countDest P dest) P := by
    show _ = pre (fun r => pre (fun p => (dest p).count r) P) P
    rw [pre_countDest P P dest hd]
    exact pre_congr (fun p hp => (hl p hp).symm)
  obtain ⟨out, h1, -, h2⟩ := (C08_repartition P arr (countDest P dest)).1 hsum
  unfold testRepartition
  rw [h1]
  show (allEqual (gcat P arr) (gcat P out) >>= _) = _
  rw [h2, allEqual_self]
  rfl

/-- C121, a weakness of the test: it does not look at the sizes, so that a function which moves nothing passes. -/
theorem C121_repartition_defect [DecidableEq α] (P : Nat) (arr : Nat → List α) (dest : Nat → List Nat) :
    testRepartition P (fun a _ => .ok a) arr dest = .ok () := by
  unfold testRepartition
  show (allEqual (gcat P arr) (gcat P arr) >>= _) = _
  rw [allEqual_self]
  rfl

theorem lt_sorted_unique [LinearOrder α] {l m : List α} (hl : l.Pairwise (· < ·)) (hm : m.Pairwise (· < ·)) (h : ∀ x, x ∈ l ↔ x ∈ m) : l = m :=
  List.Perm.eq_of_pairwise (le := fun x y => x < y) (fun _ _ _ _ h1 h2 => absurd h2 (lt_asymm h1)) hl hm
    ((List.perm_ext_iff_of_nodup (hl.imp (fun h => ne_of_lt h)) (hm.imp (fun h => ne_of_lt h))).2 h)

/-- C121. `parallel_unique` passes `test_unique` for every array. -/
theorem C121_unique_passes [LinearOrder α] [Inhabited α] (P fuel : Nat) (arr : Nat → List α) (hP : 0 < P) (hfuel : (gcat P arr).length ≤ fuel) :
    testUnique P (fun a => parallelUnique fuel P a false true) arr = .ok () := by
  obtain ⟨U, C, h1, h2, h3⟩ := C13_parallel_unique P fuel arr hP false true hfuel (by simp)
  have : gcat P U = (npUnique (gcat P arr)).map Prod.fst :=
    lt_sorted_unique h2 (npUnique_lt _) (fun x => by rw [h3, npUnique_mem])
  unfold testUnique
  show (parallelUnique fuel P arr false true >>= _) = _
  rw [h1]
  show (allEqual (gcat P U) ((npUnique (gcat P arr)).map Prod.fst) >>= _) = _
  rw [this, allEqual_self]
  rfl

/-- C121, a defect of the test: the numbers of elements are not looked at (lines 272 and 273 make the same comparison). Whether a function passes does not depend on them. -/
theorem C121_unique_counts_defect [LinearOrder α] (P : Nat) (arr U : Nat → List α) (C C' : Nat → List Nat) :
    testUnique P (fun _ => .ok (U, C)) arr = testUnique P (fun _ => .ok (U, C')) arr := rfl

/-- C121, another weakness of `np.all(a == b)`: if there is only one value, a function which returns nothing at all passes. -/
theorem C121_unique_broadcast_defect [LinearOrder α] (P : Nat) (arr : Nat → List α) (x : α) (hx : x ∈ gcat P arr) (hall : ∀ y ∈ gcat P arr, y = x) :
    testUnique P (fun _ => .ok (fun _ => [], fun _ => [])) arr = .ok () := by
  have h1 : (npUnique (gcat P arr)).map Prod.fst = [x] :=
    lt_sorted_unique (npUnique_lt _) (by simp) (fun y => by
      rw [npUnique_mem, List.mem_singleton]
      exact ⟨hall y, fun h => by rw [h]; exact hx⟩)
  have h2 : gcat P (fun _ => ([] : List α)) = [] := by simp [gcat]
  unfold testUnique
  show (allEqual (gcat P (fun _ => ([] : List α))) ((npUnique (gcat P arr)).map Prod.fst) >>= _) = _
  rw [h1, h2]
  rfl

namespace ExSortTests

example : runParallelSort 4 (parallelSort 9 4) sortExample = .ok () := by decide +kernel

/-- Sorting on each rank only is noticed. -/
example : runParallelSort 2 (fun a => .ok (fun p => (npSort (a p), argsort (a p)))) (fun p => [[3, 1], [2, 0]].getD p []) = .error .assertion := by decide +kernel

/-- So is a wrong index. -/
example : runParallelSort 2 (fun _ => .ok (fun p => ([[0, 1], [2, 3]].getD p [], [[3, 1], [2, 1]].getD p []))) (fun p => [[3, 1], [2, 0]].getD p []) = .error .assertion := by
  decide +kernel

def large : Nat → List Nat := fun p => [[3, 1], [2, 0, 3], [1]].getD p []

example : (∀ p < 3, ∀ v ∈ large p, v < 5) ∧ (∀ p < 3, large p ≠ []) ∧ runLargeParallelSort 3 5 (parallelSort 6 3) large = .ok () := by decide +kernel

/-- One of the ranks without elements. -/
example : runLargeParallelSort 4 5 (parallelSort 6 4) large = .error .valueError := by decide +kernel

/-- A result with a larger value and one with another value. -/
example : runLargeParallelSort 2 3 (fun _ => .ok (fun p => ([[0, 1], [2, 7]].getD p [], []))) (fun p => [[0, 1], [2, 2]].getD p []) = .error .valueError := by decide +kernel

example : runLargeParallelSort 2 3 (fun _ => .ok (fun p => ([[0, 1], [1, 2]].getD p [], []))) (fun p => [[0, 1], [2, 2]].getD p []) = .error .assertion := by decide +kernel

example : testRepartition 2 (repartition 2) (fun p => [["a", "b", "c"], ["d"]].getD p []) (fun p => [[1, 1, 0], [1]].getD p []) = .ok () ∧
    countDest 2 (fun p => [[1, 1, 0], [1]].getD p []) 1 = 3 := by decide +kernel

example : testUnique 3 (fun a => parallelUnique 7 3 a false true) (fun p => [[4, 2, 4], [], [2, 4, 9, 4]].getD p []) = .ok () := by decide +kernel

example : testUnique 3 (fun _ => .ok (fun p => [[2, 4], [], [4, 9]].getD p [], fun _ => [])) (fun p => [[4, 2, 4], [], [2, 4, 9, 4]].getD p []) = .error .valueError := by
  decide +kernel

example : 5 ∈ gcat 2 (fun p => [[5, 5], [5]].getD p []) ∧ ∀ y ∈ gcat 2 (fun p => [[5, 5], [5]].getD p []), y = 5 := by decide

end ExSortTests

end Verif.SortTests
