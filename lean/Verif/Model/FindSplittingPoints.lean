import Verif.Model.WeightedMedian

namespace Verif

variable {α : Type*}

/-- The variables of one MPI rank in `find_splitting_points` (one entry per requested rank). -/
structure FspRank (α : Type*) where
  imin : Nat → Int
  imax : Nat → Int
  done : Nat → Bool
  resMedian : Nat → α
  resMinRank : Nat → Int
  resMaxRank : Nat → Int

/-- Values of the variables before the loop (python/virgo/mpi/parallel_sort.py 412-423). -/
def fspInit [Inhabited α] (arr : Nat → List α) : Nat → FspRank α := fun p =>
  { imin := fun _ => 0
    imax := fun _ => ((arr p).length : Int) - 1
    done := fun _ => false
    resMedian := fun _ => default
    resMinRank := fun _ => 0
    resMaxRank := fun _ => 0 }

/-- `nlocal` (438): size of the active range on rank `p` for request `i`. -/
def fspNlocal (s : Nat → FspRank α) (p i : Nat) : Nat := (max 0 ((s p).imax i - (s p).imin i + 1)).toNat

/-- `local_median`, `local_weight` (441-447). Padding entries are `default` (0.0 in the code). -/
def fspLocal [Inhabited α] (P : Nat) (arr : Nat → List α) (s : Nat → FspRank α) (p i : Nat) : α × ℚ :=
  let nlocal := fspNlocal s p i
  let nactive_sum := pre (fun q => fspNlocal s q i) P
  if nlocal > 0 ∧ (s p).done i = false then
    ((arr p).getD ((s p).imin i + (nlocal / 2 : Nat)).toNat default, (nlocal : ℚ) / (nactive_sum : ℚ))
  else (default, 0)

/-- `est_median[i]` as known on rank `p` (449-471). If there are more requests than MPI ranks every rank evaluates the
median of medians itself, otherwise MPI rank `i` does it for request `i` and the results are gathered. -/
def fspEst [LinearOrder α] [Inhabited α] (P nranks : Nat) (arr : Nat → List α) (s : Nat → FspRank α)
    (p i : Nat) : Except Err α :=
  let medians := (List.range P).map (fun q => (fspLocal P arr s q i).1)
  let weights := (List.range P).map (fun q => (fspLocal P arr s q i).2)
  if nranks > P then
    if (s p).done i then .ok default else weightedMedian medians weights
  else
    if i < nranks ∧ (s i).done i = false then weightedMedian medians weights
    else .ok (medians.getD 0 default)

/-- The update of one rank's variables for one request (481-500), given the estimate, its
position in the local array and the sums over all ranks. -/
def fspUpdate (r : Int) (est : α) (ifirst ilast fsum lsum : Nat) (st : FspRank α) (i : Nat) : FspRank α :=
  if st.done i then st
  else
    let min_rank : Int := fsum
    let max_rank : Int := (lsum : Int) - 1
    let st := if r ≥ min_rank ∧ r ≤ max_rank then
        { st with
          resMedian := Function.update st.resMedian i est
          resMinRank := Function.update st.resMinRank i min_rank
          resMaxRank := Function.update st.resMaxRank i max_rank
          done := Function.update st.done i true }
      else st
    let st := if max_rank < r then
        { st with imin := Function.update st.imin i (max (st.imin i) ilast) } else st
    if min_rank > r then
      { st with imax := Function.update st.imax i (min (st.imax i) ((ifirst : Int) - 1)) } else st

/-- One pass of the `while` loop on all ranks (437-500). `np.searchsorted` is only evaluated for requests which are
not done, and the reductions are over those; the compressed index `j` of the code is not modelled, which is
justified because `done` is the same on all ranks (part of `C03_find_splitting_points`). -/
def fspStep [LinearOrder α] [Inhabited α] (P nranks : Nat) (r : Nat → Int) (arr : Nat → List α)
    (s : Nat → FspRank α) : Except Err (Nat → FspRank α) :=
  let est := fun p i => fspEst P nranks arr s p i
  if (List.range P).all (fun p => (List.range nranks).all (fun i => (est p i).isOk)) then
    let est := fun p i => (est p i).toOption.getD default
    let ifirst := fun p i => ssLeft (arr p) (est p i)
    let ilast := fun p i => ssRight (arr p) (est p i)
    .ok (fun p => (List.range nranks).foldl (fun st i =>
      fspUpdate (r i) (est p i) (ifirst p i) (ilast p i)
        (pre (fun q => ifirst q i) P) (pre (fun q => ilast q i) P) st i) (s p))
  else .error .indexError

/-- Does rank `p` go through the loop again: `any(done==False)` (435). -/
def fspWantsMore (nranks : Nat) (s : Nat → FspRank α) (p : Nat) : Bool :=
  (List.range nranks).any (fun i => !(s p).done i)

/-- The `while` loop (435-500), at most `fuel` passes. If some ranks want another pass and others do not, the
former block in a collective call that the latter never make: `deadlock`. -/
def fspLoop [LinearOrder α] [Inhabited α] (P nranks : Nat) (r : Nat → Int) (arr : Nat → List α) :
    Nat → (Nat → FspRank α) → Except Err (Nat → FspRank α)
  | fuel, s =>
    if (List.range P).all (fun p => !fspWantsMore nranks s p) then .ok s
    else if (List.range P).all (fun p => fspWantsMore nranks s p) then
      match fuel with
      | 0 => .error .diverges
      | fuel + 1 =>
        match fspStep P nranks r arr s with
        | .error e => .error e
        | .ok s' => fspLoop P nranks r arr fuel s'
    else .error .deadlock

/-- `find_splitting_points(arr, r, comm)` (python/virgo/mpi/parallel_sort.py 386-504): value, minimum and maximum rank for each requested
rank `r i`, `i < nranks`, as returned on each MPI rank. -/
def findSplittingPoints [LinearOrder α] [Inhabited α] (fuel P nranks : Nat) (r : Nat → Int)
    (arr : Nat → List α) : Except Err (Nat → Nat → α × Int × Int) :=
  match fspLoop P nranks r arr fuel (fspInit arr) with
  | .error e => .error e
  | .ok s => .ok (fun p i => ((s p).resMedian i, (s p).resMinRank i, (s p).resMaxRank i))

end Verif
