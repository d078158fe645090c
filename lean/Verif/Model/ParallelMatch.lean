import Verif.Model.ParallelSort
import Verif.Model.FetchElements

namespace Verif

variable {α : Type*}

/-- `np.amin(l)` of a non-empty array (`default` stands for the zero the code uses if it is empty). -/
def amin [LinearOrder α] [Inhabited α] : List α → α
  | [] => default
  | x :: xs => xs.foldl min x

/-- `np.amax(l)` of a non-empty array (`default` stands for the zero the code uses if it is empty). -/
def amax [LinearOrder α] [Inhabited α] : List α → α
  | [] => default
  | x :: xs => xs.foldl max x

/-- `send_displ` before it is expanded, for the `k`-th task with `arr2` elements
(python/virgo/mpi/parallel_sort.py 824-827). -/
def pmDispl [LinearOrder α] [Inhabited α] (have2 : List Nat) (min_on_task max_on_task : Nat → α) (ls : List α)
    (k : Nat) : Nat :=
  if k = 0 then ssLeft ls (min_on_task (have2.getD 0 0)) else ssRight ls (max_on_task (have2.getD (k - 1) 0))

/-- `send_count` before it is expanded (825, 828-829). -/
def pmCount [LinearOrder α] [Inhabited α] (have2 : List Nat) (min_on_task max_on_task : Nat → α) (ls : List α)
    (k : Nat) : Nat :=
  (max 0 ((ssRight ls (max_on_task (have2.getD k 0)) : Int) - pmDispl have2 min_on_task max_on_task ls k)).toNat

/-- Global index for one imported `arr1` element (853-860). -/
def pmLookup [LinearOrder α] [Inhabited α] (arr2 : List α) (index_in : List Nat) (v : α) : Int :=
  let ptr := ssLeft arr2 v
  let ptr := if ptr ≥ arr2.length then 0 else ptr
  if arr2.getD ptr default ≠ v then -1 else (index_in.getD ptr 0 : Int)

/-- Sorted `arr2` and the original global index of its elements on each task (787-800). -/
def pmOrdered [LinearOrder α] [Inhabited α] (fuel P : Nat) (arr2 : Nat → List α) (arr2_sorted : Bool) :
    Except Err ((Nat → List α) × (Nat → List Nat)) :=
  let n_per_task := sizes arr2
  let index_in := fun p => (List.range (arr2 p).length).map (fun k => k + pre n_per_task p)
  if arr2_sorted then .ok (arr2, index_in)
  else
    match parallelSort fuel P arr2 with
    | .error e => .error e
    | .ok res =>
      match fetchElements P index_in (fun p => (res p).2.map Int.ofNat) with
      | .error e => .error e
      | .ok index_in => .ok (fun p => (res p).1, index_in)

/-- `parallel_match(arr1, arr2, arr2_sorted, comm)` (python/virgo/mpi/parallel_sort.py 752-877). -/
def parallelMatch [LinearOrder α] [Inhabited α] (fuel P : Nat) (arr1 arr2 : Nat → List α) (arr2_sorted : Bool) :
    Except Err (Nat → List Int) :=
  -- nothing to match (779-785)
  if pre (sizes arr1) P = 0 then .ok (fun _ => [])
  else if pre (sizes arr2) P = 0 then .ok (fun p => List.replicate (arr1 p).length (-1))
  else
    match pmOrdered fuel P arr2 arr2_sorted with
    | .error e => .error e
    | .ok (arr2_ordered, index_in) =>
      -- range of values on each task (802-815)
      let min_on_task := fun t => amin (arr2_ordered t)
      let max_on_task := fun t => amax (arr2_ordered t)
      let have2 := psMembers P arr2_ordered
      -- local sort (818-819)
      let idx := fun p => argsort (arr1 p)
      let arr1_ls := fun p => fancy (arr1 p) (idx p)
      -- elements to send to each task (824-840)
      let displ := fun p => pmDispl have2 min_on_task max_on_task (arr1_ls p)
      let count := fun p => pmCount have2 min_on_task max_on_task (arr1_ls p)
      if !(List.range P).all (fun p =>
          decide (pre (count p) have2.length ≤ (arr1_ls p).length) &&
          (List.range have2.length).all (fun k => decide (displ p k + count p k ≤ (arr1_ls p).length))) then
        .error .assertion
      else
        let send_displ := fun p t => if (arr2_ordered t).length > 0 then displ p (have2.idxOf t) else 0
        let send_count := fun p t => if (arr2_ordered t).length > 0 then count p (have2.idxOf t) else 0
        let recv_count := alltoall send_count
        let recv_displ := fun d => pre (recv_count d)
        let arr1_recv := a2av P arr1_ls send_count send_displ
        -- an array without elements can not be indexed (856)
        if !(List.range P).all (fun d => (arr1_recv d).isEmpty || !(arr2_ordered d).isEmpty) then
          .error .indexError
        else
          let index_return := fun d => (arr1_recv d).map (pmLookup (arr2_ordered d) (index_in d))
          -- return the index information and restore the original order (865-873)
          let index_out := a2avInto P index_return recv_count recv_displ
            (fun p => List.replicate (arr1 p).length (-1)) send_displ
          .ok (fun p => scatter (emptyArray (index_out p).length) (idx p) (index_out p))

end Verif
