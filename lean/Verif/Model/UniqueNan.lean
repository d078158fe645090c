import Verif.Model.ParallelUnique
import Verif.Model.SortNan

/-!
`parallel_unique` of floating point numbers, among which there can be NaN (the largest element of the order). `np.unique` sorts NaN last and returns it once, with the number of all NaN (NumPy 1.21 and later);
`==` is false for NaN.
-/

namespace Verif.UniqueNan

open SortNan (neNan)

variable {α : Type*} [LinearOrder α] [Inhabited α] [OrderTop α]

/-- `a == b` -/
def eqNan (a b : α) : Bool := decide (a = b ∧ a ≠ ⊤)

/-- The loop which adds the counts of later ranks (python/virgo/mpi/parallel_sort.py 944-947), at most `fuel` times -/
def puAccum (Q : Nat) (first_unique : Nat → α) (first_counts : Nat → Nat) (last : α) : Nat → Nat → Nat
  | 0, _ => 0
  | fuel + 1, rank_nr =>
    if rank_nr < Q ∧ eqNan (first_unique rank_nr) last then first_counts rank_nr + puAccum Q first_unique first_counts last fuel (rank_nr + 1)
    else 0

/-- What a rank with data does after the sort (932-955) -/
def puLocal (Q : Nat) (arr : Nat → List α) (me : Nat) : List (α × Nat) :=
  let u := fun q => npUnique (arr q)
  let first_unique := fun q => ((u q).map Prod.fst).getD 0 default
  let first_counts := fun q => ((u q).map Prod.snd).getD 0 0
  let last_unique := fun q => ((u q).map Prod.fst).getD ((u q).length - 1) default
  let local_unique := (u me).map Prod.fst
  let local_count := (u me).map Prod.snd
  let last := local_count.length - 1
  let local_count := local_count.set last (local_count.getD last 0 + puAccum Q first_unique first_counts (last_unique me) (Q - (me + 1)) (me + 1))
  let local_count := if me > 0 ∧ eqNan (first_unique me) (last_unique (me - 1)) then local_count.set 0 0 else local_count
  (local_unique.zip local_count).filter (fun e => decide (e.2 > 0))

/-- The sorted copy of the data (928-930) -/
def puSorted (fuel Q : Nat) (sub : Nat → List α) (arr_sorted : Bool) : Except Err (Nat → List α) :=
  if arr_sorted then .ok sub else
    match SortNan.sort neNan (findSplittingPoints fuel) Q sub with
    | .error e => .error e
    | .ok res => .ok (fun q => (res q).1)

/-- `parallel_unique(arr, comm, arr_sorted, return_counts=True, repartition_output)` (880-978) -/
def parallelUnique (fuel P : Nat) (arr : Nat → List α) (arr_sorted : Bool) (repartition_output : Bool) : Except Err ((Nat → List α) × (Nat → List Nat)) :=
  -- communicator of the ranks with data (912-923)
  let members := psMembers P arr
  let Q := members.length
  let sub := fun q => arr (members.getD q 0)
  match puSorted fuel Q sub arr_sorted with
  | .error e => .error e
  | .ok sorted =>
    let res := fun p => if (arr p).length > 0 then puLocal Q sorted (members.idxOf p) else []
    let local_unique := fun p => (res p).map Prod.fst
    let local_count := fun p => (res p).map Prod.snd
    if repartition_output then
      -- (965-972)
      let total_nr_unique := pre (sizes local_unique) P
      let ndesired := fun p => total_nr_unique / P + if p < total_nr_unique % P then 1 else 0
      if pre ndesired P ≠ total_nr_unique then .error .assertion
      else
        match repartition P local_unique ndesired, repartition P local_count ndesired with
        | .ok u, .ok c => .ok (u, c)
        | .error e, _ => .error e
        | _, .error e => .error e
    else .ok (local_unique, local_count)

end Verif.UniqueNan
