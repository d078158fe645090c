import Verif.Lib.Mpi
import Verif.Model.ParallelUnique
import Mathlib.Algebra.BigOperators.Group.List.Basic

namespace Verif

variable {α : Type*}

/-- What `np.argsort(l)` promises when the sorting algorithm is not specified (default quicksort, not stable): a permutation
of the positions which puts the values in order. Equal values may come in any order. -/
def IsArgsort [LinearOrder α] [Inhabited α] (l : List α) (order : List Nat) : Prop :=
  order.Perm (List.range l.length) ∧ Sorted (fancy l order)

/-- Position meant by the index `i` in an array of `n` elements, `none` for an `IndexError`. -/
def pyIdx? (n : Nat) (i : Int) : Option Nat :=
  if 0 ≤ i then (if i.toNat < n then some i.toNat else none)
  else if -i ≤ n then some (n + i).toNat else none

/-- Applying updates one by one: `op.at(arr, index, updates)` if `op` is a numpy ufunc (`arr[j] = op(arr[j], u)`, python/virgo/mpi/parallel_sort.py 1083-1085),
or `op.Reduce_local(updates[i], arr[j])` if it is an MPI operator (`arr[j] = op(u, arr[j])`, 1086-1089). -/
def applyUpdates (op : α → α → α) (ufunc : Bool) : List α → List (Int × α) → Except Err (List α)
  | arr, [] => .ok arr
  | arr, (j, u) :: rest =>
    match pyIdx? arr.length j with
    | none => .error .indexError
    | some k => applyUpdates op ufunc (arr.modify k (fun a => if ufunc then op a u else op u a)) rest

/-- `send_count` of `reduce_elements` (1046-1050); `index` is sorted. The offsets of the ranks do not decrease, so the differences are not negative. -/
def reduceSendCount (P : Nat) (all_local_offsets : Nat → Nat) (index : List Int) (p : Nat) : Nat :=
  let send_offset := fun q => ssLeft index (all_local_offsets q : Int)
  if p + 1 < P then send_offset (p + 1) - send_offset p else index.length - send_offset p

/-- `reduce_elements(arr, updates, index, op, comm)` (990-1089): the new contents of `arr`. `order me` is the result of the
`np.argsort` call on rank `me` (1041). Trailing dimensions are part of the element type, so that the check on them
(1030-1032) always passes. -/
def reduceElements [Inhabited α] (P : Nat) (op : α → α → α) (ufunc : Bool) (order : Nat → List Nat)
    (arr updates : Nat → List α) (index : Nat → List Int) : Except Err (Nat → List α) :=
  -- (1025-1027)
  if ¬ ∀ me < P, (index me).length = (updates me).length then .error .abort
  else
    -- (1035-1038)
    let all_local_offsets := pre (sizes arr)
    -- (1041-1043)
    let index := fun me => fancy (index me) (order me)
    let updates := fun me => fancy (updates me) (order me)
    -- (1046-1051)
    let send_count := fun me p => reduceSendCount P all_local_offsets (index me) p
    if ¬ ∀ me < P, pre (send_count me) P = (index me).length then .error .assertion
    else
      let send_displ := fun me => pre (send_count me)
      -- (1059-1076)
      let index_recv := a2av P index send_count send_displ
      let updates_recv := a2av P updates send_count send_displ
      -- (1079-1081)
      let index_recv := fun me => (index_recv me).map (fun i => i - (all_local_offsets me : Int))
      if ¬ ∀ me < P, ∀ i ∈ index_recv me, 0 ≤ i ∧ i ≤ (arr me).length then .error .assertion
      else
        let res := fun me => applyUpdates op ufunc (arr me) ((index_recv me).zip (updates_recv me))
        if ∀ me < P, (res me).toOption.isSome = true then .ok (fun me => (res me).toOption.getD [])
        else .error .indexError

/-- The number of bins of `parallel_bincount` (1125-1131): one more than the largest value, 0 standing for ranks without values, but not less than
`minlength`. -/
def binCountBins (P : Nat) (x : Nat → List Int) (minlength : Option Int) : Int :=
  let x_max := fun p => match x p with
    | [] => 0
    | a :: l => l.foldl max a
  let x_max := (List.range P).tail.foldl (fun m p => max m (x_max p)) (x_max 0)
  let total_nr_bins := x_max + 1
  match minlength with
  | none => total_nr_bins
  | some m => max total_nr_bins m

/-- Combining the elements of one rank (1148-1157): distinct values and sums of weights. `order` is the result of the `np.argsort` call. -/
def binCountLocal [AddCommMonoid α] [Inhabited α] (order : List Nat) (x : List Int) (weights : List α) :
    List (Int × α) :=
  let x := fancy x order
  let weights := fancy weights order
  let u := npUnique x
  (List.range u.length).map (fun i =>
    let offset := ((u.take i).map Prod.snd).sum
    ((u.getD i (0, 0)).1, (slice weights offset (u.getD i (0, 0)).2).sum))

/-- `parallel_bincount(x, weights, minlength, result, comm)` (1092-1161). `order1 me l` and `order2 me l` are what `np.argsort(l)` gives on
rank `me` here and in `reduce_elements`. `weights = none` is the case of unit weights, `one` is the `1` of `np.ones`. -/
def parallelBincount [AddCommMonoid α] [Inhabited α] (P : Nat) (one : α) (order1 order2 : Nat → List Int → List Nat)
    (x : Nat → List Int) (weights : Option (Nat → List α)) (minlength : Option Int)
    (result : Option (Nat → List α)) : Except Err (Nat → List α) :=
  let total_nr_bins := binCountBins P x minlength
  -- (1133-1144)
  let result : Except Err (Nat → List α) := match result with
    | none =>
      let local_nr_bins := fun me : Nat => total_nr_bins / P + if (me : Int) < total_nr_bins % P then 1 else 0
      if ∀ me < P, 0 ≤ local_nr_bins me then .ok (fun me => List.replicate (local_nr_bins me).toNat 0)
      else .error .valueError
    | some r => if (pre (sizes r) P : Int) < total_nr_bins then .error .valueError else .ok r
  match result with
  | .error e => .error e
  | .ok result =>
    let weights := match weights with
      | none => fun me => List.replicate (x me).length one
      | some w => w
    -- `weights[order]` (1150)
    if ¬ ∀ me < P, (x me).length ≤ (weights me).length then .error .indexError
    else
      let u := fun me => binCountLocal (order1 me (x me)) (x me) (weights me)
      reduceElements P (· + ·) true (fun me => order2 me ((u me).map Prod.fst)) result
        (fun me => (u me).map Prod.snd) (fun me => (u me).map Prod.fst)

end Verif
