import Verif.Proofs.UtilTests

/-! C123: the test of `group_index_from_length_and_offset` (python/virgo/mpi/test_util.py). -/

namespace Verif.UtilTests

open SortTests

variable {P : Nat} {lengths group_rank rank_for_id : List Nat}

/-- C123: whatever the random numbers are, `make_random_lengths_and_offsets` distributes the groups over the ranks in order: together the ranks have all
lengths, each rank the number of groups chosen for it, and the offset of a group is the sum of the lengths of the groups before it. -/
theorem C123_distribution (hg : ∀ v ∈ group_rank, v < P) (hl : group_rank.length = lengths.length) :
    gcat P (localPart P group_rank lengths) = lengths ∧
    (∀ i < lengths.length, (gcat P (localPart P group_rank (cumsumMinus lengths)))[i]? = some (lengths.take i).sum) ∧
    (∀ p < P, (localPart P group_rank lengths p).length = group_rank.count p ∧
      (localPart P group_rank (cumsumMinus lengths) p).length = group_rank.count p) := by
  have hl' : group_rank.length = (cumsumMinus lengths).length := by rw [cumsumMinus_eq, sumsFrom_length, hl]
  refine ⟨gcat_localPart hg _ hl, fun i hi => ?_, fun p hp => ⟨localPart_length hg _ hl hp, localPart_length hg _ hl' hp⟩⟩
  rw [gcat_localPart hg _ hl', cumsumMinus_eq, sumsFrom_eq, List.getElem?_map, List.getElem?_range hi]
  simp

theorem ids_length (hr : ∀ v ∈ rank_for_id, v < P) (hP : 0 < P) (n : Nat) :
    P ≤ (idsPerRank n rank_for_id).length ↔ P ≤ n ∨ P - 1 ∈ rank_for_id := by
  obtain ⟨-, h2, h3⟩ := bound_spec rank_for_id 0
  have hlen : (idsPerRank n rank_for_id).length = max n (rank_for_id.foldl (fun n v => max n (v + 1)) 0) := by simp [idsPerRank, bincount]
  rw [hlen]
  constructor
  · intro h
    by_cases hn : P ≤ n
    · exact Or.inl hn
    right
    by_contra hm
    have := h3 (P - 1) (by omega) (fun v hv => by
      have := hr v hv
      have : v ≠ P - 1 := fun h => hm (h ▸ hv)
      omega)
    omega
  · rintro (h | h)
    · omega
    · have := h2 _ h
      omega

/-- The conditions on the random numbers: a rank for each group and for each particle ID. -/
structure Choices (P : Nat) (lengths group_rank rank_for_id : List Nat) : Prop where
  ranks : 0 < P
  groups : group_rank.length = lengths.length ∧ ∀ v ∈ group_rank, v < P
  ids : rank_for_id.length = lengths.sum ∧ ∀ v ∈ rank_for_id, v < P

theorem any_short (hr : ∀ v ∈ rank_for_id, v < P) (hP : 0 < P) (n : Nat) :
    (List.range P).any (fun comm_rank => decide ((idsPerRank n rank_for_id).length ≤ comm_rank)) = !decide (P ≤ n ∨ P - 1 ∈ rank_for_id) := by
  rw [Bool.eq_iff_iff, List.any_eq_true]
  simp only [List.mem_range, decide_eq_true_eq, Bool.not_eq_true', decide_eq_false_iff_not]
  rw [← ids_length hr hP n]
  constructor
  · rintro ⟨x, h1, h2⟩; omega
  · intro h; exact ⟨P - 1, by omega, by omega⟩

/-- C123: the test tells right from wrong results. If there are enough particle IDs, it passes exactly if the group numbers, and the ranks if these are
wanted, are those of particles stored group by group. `f` is any function which returns as many numbers as there are IDs. -/
theorem C123_iff (h : Choices P lengths group_rank rank_for_id) {f : GroupIndexFn}
    (hf : ∀ p < P, ((f (localPart P group_rank lengths) (localPart P group_rank (cumsumMinus lengths)) (fun p => rank_for_id.count p)).1 p).length = rank_for_id.count p ∧
      ((f (localPart P group_rank lengths) (localPart P group_rank (cumsumMinus lengths)) (fun p => rank_for_id.count p)).2 p).length = rank_for_id.count p)
    (hids : P ≤ lengths.sum ∨ P - 1 ∈ rank_for_id)
    (with_rank : Bool) :
    checkLengthsOffsets P f lengths group_rank rank_for_id with_rank = .ok () ↔
      gcat P (f (localPart P group_rank lengths) (localPart P group_rank (cumsumMinus lengths)) (fun p => rank_for_id.count p)).1 = numbersFrom 0 lengths ∧
      (with_rank = true →
        gcat P (f (localPart P group_rank lengths) (localPart P group_rank (cumsumMinus lengths)) (fun p => rank_for_id.count p)).2 = memberRanks lengths) := by
  unfold checkLengthsOffsets
  rw [any_short h.ids.2 h.ranks, if_neg (by rw [decide_eq_true hids]; decide)]
  have hN : (fun comm_rank => (idsPerRank lengths.sum rank_for_id).getD comm_rank 0) = fun p => rank_for_id.count p :=
    funext (fun p => bincount_getD _ _ _)
  rw [hN, expectedGrnr_eq, expectedRank_eq]
  have hlen : ∀ a : Nat → List Int, (∀ p < P, (a p).length = rank_for_id.count p) → (gcat P a).length = lengths.sum := by
    intro a ha
    rw [length_gcat, pre_congr (f := sizes a) (g := fun p => rank_for_id.count p) ha, pre_count P _ h.ids.2, h.ids.1]
  have h1 := hlen _ (fun p hp => (hf p hp).1)
  have h2 := hlen _ (fun p hp => (hf p hp).2)
  rw [allEqual_same (by rw [h1, numbersFrom_length])]
  generalize gcat P (f (localPart P group_rank lengths) (localPart P group_rank (cumsumMinus lengths)) (fun p => rank_for_id.count p)).1 = g at h1 ⊢
  unfold checkRank
  cases with_rank with
  | false =>
    show assertRankZero _ = _ ↔ _
    unfold assertRankZero
    by_cases hg : g = numbersFrom 0 lengths <;> simp [hg]
  | true =>
    simp only [if_true]
    rw [allEqual_same (by rw [h2, memberRanks_length])]
    generalize gcat P (f (localPart P group_rank lengths) (localPart P group_rank (cumsumMinus lengths)) (fun p => rank_for_id.count p)).2 = r at h2 ⊢
    show assertRankZero _ = _ ↔ _
    unfold assertRankZero
    by_cases hg : g = numbersFrom 0 lengths <;> by_cases hr : r = memberRanks lengths <;> simp [hg, hr]

/-- C123: `group_index_from_length_and_offset` passes the test for all random numbers, on any number of ranks, if there are at least as many
particle IDs as ranks. -/
theorem C123_passes (h : Choices P lengths group_rank rank_for_id) (hids : P ≤ lengths.sum ∨ P - 1 ∈ rank_for_id) (with_rank : Bool) :
    checkLengthsOffsets P (groupIndex P) lengths group_rank rank_for_id with_rank = .ok () := by
  have hl' : group_rank.length = (cumsumMinus lengths).length := by rw [cumsumMinus_eq, sumsFrom_length, h.groups.1]
  have hl : ∀ p < P, (localPart P group_rank (cumsumMinus lengths) p).length = (localPart P group_rank lengths p).length := fun p hp => by
    rw [localPart_length h.groups.2 _ hl' hp, localPart_length h.groups.2 _ h.groups.1 hp]
  have hs : ∀ p < P, (localPart P group_rank (cumsumMinus lengths) p).Pairwise (· ≤ ·) := fun p hp => by
    rw [localPart_eq h.groups.2 _ hp, cumsumMinus_eq]
    exact (sumsFrom_sorted 0 lengths).sublist ((List.take_sublist _ _).trans (List.drop_sublist _ _))
  have h1 := C21_group_index (nids := fun p => rank_for_id.count p) hl hs
  have h2 := C22_group_rank (nids := fun p => rank_for_id.count p) hl hs
  rw [pre_count P _ h.ids.2, h.ids.1, gcat_localPart h.groups.2 _ hl', gcat_localPart h.groups.2 _ h.groups.1, cumsumMinus_eq] at h1 h2
  rw [C123_iff h (fun p hp => ⟨(cumsumMinus_eq lengths ▸ h1.2) p hp, (cumsumMinus_eq lengths ▸ h2.2) p hp⟩) hids, cumsumMinus_eq]
  exact ⟨h1.1.trans (serialIndex_eq _), fun _ => h2.1.trans (serialRank_eq _)⟩

/-- C123: not as intended, `ids_per_rank` is made with a minimum length of the number of IDs instead of the number of ranks. The test fails with an IndexError exactly if
there are fewer IDs than ranks, unless the last rank happens to get one, whatever the function under test does. -/
theorem C123_few_ids_defect (h : Choices P lengths group_rank rank_for_id) (f : GroupIndexFn) (with_rank : Bool)
    (hids : lengths.sum < P) (hlast : P - 1 ∉ rank_for_id) : checkLengthsOffsets P f lengths group_rank rank_for_id with_rank = .error .indexError := by
  unfold checkLengthsOffsets
  rw [any_short h.ids.2 h.ranks, if_pos]
  simp only [Bool.not_eq_true', decide_eq_false_iff_not]
  rintro (h | h)
  · omega
  · exact hlast h

namespace ExUtilTests

/-- Four groups, one empty, on three ranks, two of them on rank 1; eight particle IDs. -/
theorem choices : Choices 3 [3, 0, 4, 1] [1, 2, 1, 0] [2, 2, 0, 2, 0, 2, 2, 2] := ⟨by decide, by decide, by decide⟩

example : (List.range 3).map (localPart 3 [1, 2, 1, 0] [3, 0, 4, 1]) = [[3], [0, 4], [1]] ∧
    (List.range 3).map (localPart 3 [1, 2, 1, 0] (cumsumMinus [3, 0, 4, 1])) = [[0], [3, 3], [7]] := by decide +kernel

example : numbersFrom 0 [3, 0, 4, 1] = [0, 0, 0, 2, 2, 2, 2, 3] ∧ memberRanks [3, 0, 4, 1] = [0, 1, 2, 0, 1, 2, 3, 0] := by decide +kernel

example : checkLengthsOffsets 3 (groupIndex 3) [3, 0, 4, 1] [1, 2, 1, 0] [2, 2, 0, 2, 0, 2, 2, 2] true = .ok () :=
  C123_passes choices (by decide) true

/-- A function which ignores groups is found out. -/
example : checkLengthsOffsets 3 (fun _ _ N => (fun p => List.replicate (N p) (-1), fun p => List.replicate (N p) (-1)))
    [3, 0, 4, 1] [1, 2, 1, 0] [2, 2, 0, 2, 0, 2, 2, 2] false = .error .assertion := by decide +kernel

/-- Two IDs on three ranks: the third has no entry in `ids_per_rank`. -/
example : checkLengthsOffsets 3 (groupIndex 3) [2] [1] [0, 1] true = .error .indexError :=
  C123_few_ids_defect ⟨by decide, by decide, by decide⟩ _ true (by decide) (by decide)

/-- Without wanting the ranks these are not looked at. -/
example : checkLengthsOffsets 2 (fun L O N => ((groupIndex 2 L O N).1, fun p => List.replicate (N p) 7)) [2, 1] [1, 1] [1, 0, 1] false = .ok () ∧
    checkLengthsOffsets 2 (fun L O N => ((groupIndex 2 L O N).1, fun p => List.replicate (N p) 7)) [2, 1] [1, 1] [1, 0, 1] true = .error .assertion := by
  decide +kernel

end ExUtilTests

end Verif.UtilTests
