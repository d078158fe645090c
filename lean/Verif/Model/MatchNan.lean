import Verif.Model.ParallelMatch
import Verif.Model.Match
import Verif.Model.SortNan

/-!
`match` and `parallel_match` of floating point numbers, among which there can be NaN. `np.argsort` and `np.searchsorted` put NaN after all other numbers and treat it as equal to itself, `np.amin` and `np.amax`
of an array with NaN are NaN, and `!=` is true for NaN. The largest element of the order is NaN.
-/

namespace Verif.MatchNan

open SortNan

variable {α : Type*} [LinearOrder α] [Inhabited α] [OrderTop α]

/-- `match(arr1, arr2, arr2_sorted)` (python/virgo/util/match.py 5-65) for one element `v` of `arr1`, after sorting (47-63) -/
def matchLookup (tmp2 : List α) (ind : List Nat) (v : α) : Int :=
  let ptr := ssLeft tmp2 v
  let ptr := if ptr ≥ tmp2.length then 0 else ptr
  if neNan (tmp2.getD ptr default) v then -1 else (ind.getD ptr 0 : Int)

/-- `match(arr1, arr2)` (5-65); `order` is the result of `argsort(arr2)`. -/
def matchArr (arr1 arr2 : List α) (order : List Nat) : List Int :=
  if arr2.length = 0 then List.replicate arr1.length (-1)
  else arr1.map (matchLookup (fancy arr2 order) order)

/-- `np.amin(l)` (python/virgo/mpi/parallel_sort.py 806) -/
def amin (l : List α) : α := if ⊤ ∈ l then ⊤ else Verif.amin l

/-- `np.amax(l)` (807); NaN is the largest element. -/
def amax (l : List α) : α := Verif.amax l

/-- Global index for one imported `arr1` element (853-860) -/
def lookup (arr2 : List α) (index_in : List Nat) (v : α) : Int :=
  let ptr := ssLeft arr2 v
  let ptr := if ptr ≥ arr2.length then 0 else ptr
  if neNan (arr2.getD ptr default) v then -1 else (index_in.getD ptr 0 : Int)

/-- Sorted `arr2` and the original global index of its elements on each task (787-800) -/
def ordered (fuel P : Nat) (arr2 : Nat → List α) (arr2_sorted : Bool) : Except Err ((Nat → List α) × (Nat → List Nat)) :=
  let n_per_task := sizes arr2
  let index_in := fun p => (List.range (arr2 p).length).map (fun k => k + pre n_per_task p)
  if arr2_sorted then .ok (arr2, index_in)
  else
    match sort neNan (findSplittingPoints fuel) P arr2 with
    | .error e => .error e
    | .ok res =>
      match fetchElements P index_in (fun p => (res p).2.map Int.ofNat) with
      | .error e => .error e
      | .ok index_in => .ok (fun p => (res p).1, index_in)

/-- What is done with the sorted `arr2` (802-873): `have2` are the tasks which have elements of it, with the smallest and largest element of each. -/
def exchange (P : Nat) (arr1 : Nat → List α) (have2 : List Nat) (min_on_task max_on_task : Nat → α) (look : Nat → α → Int) : Except Err (Nat → List Int) :=
  -- local sort (818-819)
  let idx := fun p => argsort (arr1 p)
  let arr1_ls := fun p => fancy (arr1 p) (idx p)
  -- elements to send to each task (824-840)
  let displ := fun p => pmDispl have2 min_on_task max_on_task (arr1_ls p)
  let count := fun p => pmCount have2 min_on_task max_on_task (arr1_ls p)
  if !(List.range P).all (fun p =>
      decide (pre (count p) have2.length ≤ (arr1_ls p).length) &&
      (List.range have2.length).all (fun k => decide (displ p k + count p k ≤ (arr1_ls p).length))) then
    .error .assertion
  else
    let send_displ := fun p t => if t ∈ have2 then displ p (have2.idxOf t) else 0
    let send_count := fun p t => if t ∈ have2 then count p (have2.idxOf t) else 0
    let recv_count := alltoall send_count
    let recv_displ := fun d => pre (recv_count d)
    let arr1_recv := a2av P arr1_ls send_count send_displ
    -- an array without elements can not be indexed (856)
    if !(List.range P).all (fun d => (arr1_recv d).isEmpty || decide (d ∈ have2)) then .error .indexError
    else
      let index_return := fun d => (arr1_recv d).map (look d)
      -- return the index information and restore the original order (865-873)
      let index_out := a2avInto P index_return recv_count recv_displ (fun p => List.replicate (arr1 p).length (-1)) send_displ
      .ok (fun p => scatter (emptyArray (index_out p).length) (idx p) (index_out p))

/-- `parallel_match(arr1, arr2, arr2_sorted, comm)` (python/virgo/mpi/parallel_sort.py 752-877) -/
def parallelMatch (fuel P : Nat) (arr1 arr2 : Nat → List α) (arr2_sorted : Bool) : Except Err (Nat → List Int) :=
  -- nothing to match (779-785)
  if pre (sizes arr1) P = 0 then .ok (fun _ => [])
  else if pre (sizes arr2) P = 0 then .ok (fun p => List.replicate (arr1 p).length (-1))
  else
    match ordered fuel P arr2 arr2_sorted with
    | .error e => .error e
    | .ok (arr2_ordered, index_in) =>
      exchange P arr1 (psMembers P arr2_ordered) (fun t => amin (arr2_ordered t)) (fun t => amax (arr2_ordered t)) (fun d => lookup (arr2_ordered d) (index_in d))

end Verif.MatchNan
