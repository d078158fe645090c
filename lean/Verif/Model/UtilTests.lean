import Verif.Model.GroupIndex
import Verif.Model.SortTests

/-! The test of `group_index_from_length_and_offset` (python/virgo/mpi/test_util.py). The random choices are arguments, and so is the function
under test. -/

namespace Verif.UtilTests

open SortTests

/-- `np.cumsum(l) - l` -/
def cumsumMinus (l : List Nat) : List Nat := (List.range l.length).map (fun i => (l.take (i + 1)).sum - l.getD i 0)

/-- The part of an array which rank 0 sends to rank `p` (test_util.py 25-38); `group_rank` has the random choices. -/
def localPart {α : Type} (P : Nat) (group_rank : List Nat) (l : List α) (p : Nat) : List α :=
  let nr_per_rank := bincount P group_rank
  let offset_for_rank := cumsumMinus nr_per_rank
  let i1 := offset_for_rank.getD p 0
  let i2 := i1 + nr_per_rank.getD p 0
  (l.take i2).drop i1

/-- `ids_per_rank` (47-49) before it is indexed by rank: the minimum length is `total_nr_ids`, not the number of ranks. -/
def idsPerRank (total_nr_ids : Nat) (rank_for_id : List Nat) : List Nat := bincount total_nr_ids rank_for_id

/-- The loop over groups (59-61): `arr[o:o+l] = values` for each group. The slices are in range because the array has as many
elements as there are group members. -/
def assignGroups (value : Nat → Nat → List Int) : List (Nat × Nat) → Nat → List Int → List Int
  | [], _, arr => arr
  | (l, o) :: rest, i, arr => assignGroups value rest (i + 1) (overlay arr o (value i l))

/-- `grnr` (57-60) -/
def expectedGrnr (lengths : List Nat) : List Int :=
  assignGroups (fun i l => List.replicate l (i : Int)) (lengths.zip (cumsumMinus lengths)) 0 (List.replicate lengths.sum (-1))

/-- `rank` (58-61) -/
def expectedRank (lengths : List Nat) : List Int :=
  assignGroups (fun _ l => (List.range l).map Int.ofNat) (lengths.zip (cumsumMinus lengths)) 0 (List.replicate lengths.sum (-1))

/-- A function like `group_index_from_length_and_offset` on all ranks: lengths, offsets and number of IDs on each rank to group numbers and ranks. -/
abbrev GroupIndexFn : Type := (Nat → List Nat) → (Nat → List Nat) → (Nat → Nat) → (Nat → List Int) × (Nat → List Int)

/-- Rank 0's comparison of the ranks in the group (102-105). `np.any(a != b)` is the negation of `np.all(a == b)`. -/
def checkRank (P : Nat) (with_rank : Bool) (rank_local : Nat → List Int) (rank : List Int) (all_ok : Bool) : Except Err Bool :=
  if with_rank then do
    let same ← allEqual (gcat P rank_local) rank
    .ok (if !same then false else all_ok)
  else .ok all_ok

/-- `check_lengths_offsets` (68-110) with `lengths` instead of random numbers. -/
def checkLengthsOffsets (P : Nat) (f : GroupIndexFn) (lengths group_rank rank_for_id : List Nat) (with_rank : Bool) : Except Err Unit :=
  if (List.range P).any (fun comm_rank => decide ((idsPerRank lengths.sum rank_for_id).length ≤ comm_rank)) then .error .indexError
  else do
    let all_ok ← allEqual (gcat P (f (localPart P group_rank lengths) (localPart P group_rank (cumsumMinus lengths))
      (fun comm_rank => (idsPerRank lengths.sum rank_for_id).getD comm_rank 0)).1) (expectedGrnr lengths)
    let all_ok ← checkRank P with_rank (f (localPart P group_rank lengths) (localPart P group_rank (cumsumMinus lengths))
      (fun comm_rank => (idsPerRank lengths.sum rank_for_id).getD comm_rank 0)).2 (expectedRank lengths) all_ok
    assertRankZero all_ok

end Verif.UtilTests
