import Verif.Model.ParallelSort
import Verif.Model.ParallelUnique
import Verif.Model.ParallelMatch
import Verif.Model.ReduceElements
import Verif.Model.Match

/-! The checks made by the tests of `virgo.mpi.parallel_sort` (python/virgo/mpi/test_parallel_sort.py). The random choices made by the tests are
arguments, so that a statement about all arguments is one about all the arrays which the tests could ever make. The
functions under test are arguments where it is of interest which other functions would pass. -/

namespace Verif.SortTests

variable {α : Type}

/-- `np.all(a == b)` for one dimensional arrays. An array of length one is broadcast. Any other difference in length is an error (a `ValueError`
since NumPy 1.25, before that the result was `False` with a warning; the test fails in both cases). -/
def allEqual [DecidableEq α] (a b : List α) : Except Err Bool :=
  if a.length = b.length then .ok (decide (a = b))
  else match a, b with
    | [x], b => .ok (b.all (fun y => decide (x = y)))
    | a, [y] => .ok (a.all (fun x => decide (x = y)))
    | _, _ => .error .valueError

/-- `assert_rank_zero(condition, message)` (test_parallel_sort.py 23-33): `condition` is the value on rank 0. -/
def assertRankZero (condition : Bool) : Except Err Unit := if condition then .ok () else .error .assertion

/-- `assert_all_ranks(condition, message)` (15-21). -/
def assertAllRanks (P : Nat) (condition : Nat → Bool) : Except Err Unit :=
  if (List.range P).all condition then .ok () else .error .assertion

/-- `assert_all_ranks(np.all(a == b), message)` with arrays on each rank. -/
def assertSame [DecidableEq α] (P : Nat) (a b : Nat → List α) : Except Err Unit :=
  if (List.range P).all (fun p => (allEqual (a p) (b p)).isOk) then
    assertAllRanks P (fun p => decide ((allEqual (a p) (b p)) = .ok true))
  else .error .valueError

/-- `np.sort(l)` -/
def npSort [LinearOrder α] (l : List α) : List α := sortBy (fun x y => decide (x ≤ y)) l

/-- The checks that the index can be used to make the sorted array (67-74 and 340-341): `fetch_elements` without and with a result array, which is the array itself.
All elements are looked up before the result is stored, so that it does not matter that these are the same array. -/
def checkIndex [DecidableEq α] [Inhabited α] (P : Nat) (arr : Nat → List α) (out : Nat → List α × List Nat) (in_place : Bool) :
    Except Err Unit := do
  let arr_ps_from_index ← fetchElements P arr (fun p => (out p).2.map Int.ofNat) none
  assertSame P arr_ps_from_index (fun p => (out p).1)
  if in_place then
    let arr_ps_from_index ← fetchElements P arr (fun p => (out p).2.map Int.ofNat) (some arr)
    assertSame P arr_ps_from_index (fun p => (out p).1)
  else .ok ()

/-- One pass of the loop in `run_parallel_sort` (51-74) with the array `arr`. `sort` is the function under test, `parallel_sort` with
`return_index=True`. `gather_to_first_rank` (python/virgo/mpi/parallel_sort.py 981-987) is the concatenation over all ranks. -/
def runParallelSort [LinearOrder α] [Inhabited α] (P : Nat) (sort : (Nat → List α) → Except Err (Nat → List α × List Nat))
    (arr : Nat → List α) : Except Err Unit := do
  let out ← sort arr
  let all_equal ← allEqual (gcat P (fun p => (out p).1)) (npSort (gcat P arr))
  assertRankZero all_equal
  checkIndex P arr out true

/-- `np.bincount(x, minlength=m)` for natural numbers. -/
def bincount (m : Nat) (x : List Nat) : List Nat := (List.range (max m (x.foldl (fun n v => max n (v + 1)) 0))).map (fun k => x.count k)

/-- `a + b` for one dimensional arrays. -/
def addArrays (a b : List Nat) : Except Err (List Nat) :=
  if a.length = b.length then .ok (List.zipWith (· + ·) a b)
  else match a, b with
    | [x], b => .ok (b.map (x + ·))
    | a, [y] => .ok (a.map (· + y))
    | _, _ => .error .valueError

/-- `comm.allreduce(x)` of arrays on ranks `0..P`. -/
def allreduceArrays (x : Nat → List Nat) : Nat → Except Err (List Nat)
  | 0 => .ok (x 0)
  | P + 1 => do
    let s ← allreduceArrays x P
    addArrays s (x (P + 1))

/-- `np.all(arr[1:] >= arr[:-1])` -/
def isAscending [LinearOrder α] : List α → Bool
  | x :: y :: l => decide (x ≤ y) && isAscending (y :: l)
  | _ => true

/-- The check of the order between ranks (330-333): `np.amin` and `np.amax` fail without elements. -/
def checkBetween [LinearOrder α] [Inhabited α] (P : Nat) (arr : Nat → List α) : Except Err Unit :=
  if P > 1 then
    if (List.range P).any (fun p => (arr p).isEmpty) then .error .valueError
    else assertAllRanks P (fun _ => (List.range (P - 1)).all (fun p => decide (amax (arr p) ≤ amin (arr (p + 1)))))
  else .ok ()

/-- `run_large_parallel_sort` (281-343) with the array `arr`; timing is left out. -/
def runLargeParallelSort (P max_value : Nat) (sort : (Nat → List Nat) → Except Err (Nat → List Nat × List Nat)) (arr : Nat → List Nat) :
    Except Err Unit := do
  let num_val_start ← allreduceArrays (fun p => bincount max_value (arr p)) (P - 1)
  let out ← sort arr
  let num_val_end ← allreduceArrays (fun p => bincount max_value (out p).1) (P - 1)
  assertAllRanks P (fun p => isAscending (out p).1)
  checkBetween P (fun p => (out p).1)
  let same ← allEqual num_val_start num_val_end
  assertAllRanks P (fun _ => same)
  checkIndex P arr out false

/-- `ndesired` of the repartition tests (175-179): the number of elements which have each rank as destination. -/
def countDest (P : Nat) (dest : Nat → List Nat) (rank : Nat) : Nat := pre (fun p => (dest p).count rank) P

/-- One pass of the loop in the tests of `repartition` (169-194, 213-238). -/
def testRepartition [DecidableEq α] (P : Nat) (repart : (Nat → List α) → (Nat → Nat) → Except Err (Nat → List α)) (arr : Nat → List α)
    (dest : Nat → List Nat) : Except Err Unit := do
  let new_arr ← repart arr (countDest P dest)
  let all_equal ← allEqual (gcat P arr) (gcat P new_arr)
  assertRankZero all_equal

/-- One pass of the loop in `test_unique` (253-278). Both comparisons (272-273) are between the values. -/
def testUnique [LinearOrder α] (P : Nat) (unique : (Nat → List α) → Except Err ((Nat → List α) × (Nat → List Nat))) (local_data : Nat → List α) :
    Except Err Unit := do
  let r ← unique local_data
  let check_unique := (npUnique (gcat P local_data)).map Prod.fst
  let all_unique_equal ← allEqual (gcat P r.1) check_unique
  let all_counts_equal ← allEqual (gcat P r.1) check_unique
  assertRankZero all_unique_equal
  assertRankZero all_counts_equal

/-- `np.bincount(x, minlength=m, weights=weights)` -/
def bincountWeighted [AddCommMonoid α] (m : Nat) (x : List Nat) (weights : List α) : List α :=
  (List.range (max m (x.foldl (fun n v => max n (v + 1)) 0))).map (fun k =>
    (((x.zip weights).filter (fun e => decide (e.1 = k))).map Prod.snd).sum)

/-- `comm.allreduce(x)` of arrays with the same length. -/
def allreduceSame [AddCommMonoid α] (x : Nat → List α) : Nat → List α
  | 0 => x 0
  | P + 1 => List.zipWith (· + ·) (allreduceSame x P) (x (P + 1))

/-- `run_parallel_bincount` (350-381). The values are below `max_value`, so that `np.bincount` has the same length `max_value + 1` on each rank. Numbers of elements are sums of
unit weights. -/
def runParallelBincount [AddCommMonoid α] [Inhabited α] [DecidableEq α] (P : Nat) (one : α) (order1 order2 : Nat → List Int → List Nat)
    (max_value : Nat) (arr : Nat → List Nat) (weights : Option (Nat → List α)) : Except Err Unit := do
  let count1 ← parallelBincount P one order1 order2 (fun p => (arr p).map Int.ofNat) weights (some ((max_value : Int) + 1)) none
  let w := weights.getD (fun p => List.replicate (arr p).length one)
  let count2 := allreduceSame (fun p => bincountWeighted (max_value + 1) (arr p) (w p)) (P - 1)
  assertAllRanks P (fun _ => decide ((gcat P count1).length = count2.length))
  let same ← allEqual (gcat P count1) count2
  assertAllRanks P (fun _ => same)

/-- `verify_parallel_match` (443-465). `order` is what `np.argsort` gives in the serial `match`. -/
def verifyParallelMatch [LinearOrder α] [Inhabited α] (P : Nat) (order : List α → List Nat) (arr1 arr2 : Nat → List α) (ptr : Nat → List Int) :
    Except Err Unit := do
  let ptr_check ← matchArr (gcat P arr1) (gcat P arr2) false none (order (gcat P arr2))
  let is_ok ← allEqual ptr_check (gcat P ptr)
  assertAllRanks P (fun p => if p = 0 then is_ok else true)

/-- `np.repeat(data, n)` -/
def npRepeat (data : List α) (n : List Nat) : List α := (data.zip n).flatMap (fun e => List.replicate e.2 e.1)

/-- Consecutive integers, each repeated a number of times if there are duplicates (477-484). `comm.scan` is the sum including this rank. -/
def distributedData (nr_local : Nat → Nat) (nr_dups : Option (Nat → List Nat)) (p : Nat) : List Nat :=
  let data := (List.range (nr_local p)).map (fun k => k + (pre nr_local (p + 1) - nr_local p))
  match nr_dups with
  | none => data
  | some n => npRepeat data (n p)

/-- `make_distributed_array` (468-491). `nr_local` and `nr_dups` are random numbers, `f` gives the random numbers for a number of elements. -/
def makeDistributedArray {β : Type} [LinearOrder β] [Inhabited β] (fuel P : Nat) (nr_local : Nat → Nat) (nr_dups : Option (Nat → List Nat))
    (f : Nat → Nat → List β) : Except Err (Nat → List Nat) := do
  let order ← parallelSort fuel P (fun p => f p (distributedData nr_local nr_dups p).length)
  fetchElements P (distributedData nr_local nr_dups) (fun p => (order p).2.map Int.ofNat) none

/-- `arr[keep]` -/
def npSelect (l : List α) (keep : List Bool) : List α := ((l.zip keep).filter Prod.snd).map Prod.fst

/-- One pass of the loop in `run_parallel_match` (513-525). -/
def runParallelMatch {β : Type} [LinearOrder β] [Inhabited β] (fuel P : Nat) (order : List Nat → List Nat) (nr_local1 nr_local2 : Nat → Nat)
    (nr_dups : Option (Nat → List Nat)) (f1 f2 : Nat → Nat → List β) (keep1 keep2 : Nat → Nat → List Bool) : Except Err Unit := do
  let arr1 ← makeDistributedArray fuel P nr_local1 nr_dups f1
  let arr1 := fun p => npSelect (arr1 p) (keep1 p (arr1 p).length)
  let arr2 ← makeDistributedArray fuel P nr_local2 none f2
  let arr2 := fun p => npSelect (arr2 p) (keep2 p (arr2 p).length)
  let ptr ← parallelMatch fuel P arr1 arr2 false
  verifyParallelMatch P order arr1 arr2 ptr

/-- `make_test_data(rank)` of `run_sendrecv_test` (402-405). -/
def makeTestData (rank : Nat) : List Nat := (List.range (rank * 1000)).map (fun k => k + 1000 * rank)

/-- The partner of a rank in pass `ngrp` of the loop (413-415): `rank ^ ngrp`, if there is such a rank. -/
def partner (P ngrp comm_rank : Nat) : Option Nat := if comm_rank ^^^ ngrp < P then some (comm_rank ^^^ ngrp) else none

/-- `recvbuf` before the call (421-422): the array of the partner set to zero. -/
def zeroedBuffer (P ngrp comm_rank : Nat) : List Nat :=
  match partner P ngrp comm_rank with
  | some rank => (makeTestData rank).map (fun _ => 0)
  | none => []

end Verif.SortTests
