import Verif.Model.SortNan
import Verif.Model.FindSplittingPoints

/-!
`weighted_median` and `find_splitting_points` with weights in floating point arithmetic (python/virgo/mpi/parallel_sort.py 351-368 and 386-504). `fl` rounds a result to a number of type `float64` and `sum` is `np.sum`,
which adds numbers in an order of its own.
-/

namespace Verif.Rounded

variable {α : Type*} [LinearOrder α] [Inhabited α]

/-- `np.cumsum` with the running total so far -/
def cumsumFl (fl : ℚ → ℚ) (acc : ℚ) : List ℚ → List ℚ
  | [] => []
  | w :: ws => fl (acc + w) :: cumsumFl fl (fl (acc + w)) ws

/-- `weighted_median(arr, weight)` (351-368) -/
def weightedMedian (fl : ℚ → ℚ) (sum : List ℚ → ℚ) (arr : List α) (weight : List ℚ) : Except Err α :=
  -- (357-359)
  let idx := argsort arr
  let arr := fancy arr idx
  let weight := fancy weight idx
  -- (361)
  let weight := weight.map (fun w => fl (w / sum weight))
  let cs := cumsumFl fl 0 weight
  -- (363-368)
  let cand := ((arr.zip weight).zip cs).filter (fun e => decide (fl (e.2 - e.1.2) ≤ 1 / 2 ∧ fl (1 - e.2) ≤ 1 / 2))
  match cand with
  | [] => .error .indexError
  | e :: _ => .ok e.1.1

/-- `local_median`, `local_weight` (441-447) -/
def fspLocal (fl : ℚ → ℚ) (P : Nat) (arr : Nat → List α) (s : Nat → FspRank α) (p i : Nat) : α × ℚ :=
  let nlocal := fspNlocal s p i
  let nactive_sum := pre (fun q => fspNlocal s q i) P
  if nlocal > 0 ∧ (s p).done i = false then
    ((arr p).getD ((s p).imin i + (nlocal / 2 : Nat)).toNat default, fl (fl (nlocal : ℚ) / fl (nactive_sum : ℚ)))
  else (default, 0)

/-- `est_median[i]` as known on rank `p` (449-471) -/
def fspEst (fl : ℚ → ℚ) (sum : List ℚ → ℚ) (P nranks : Nat) (arr : Nat → List α) (s : Nat → FspRank α) (p i : Nat) : Except Err α :=
  let medians := (List.range P).map (fun q => (fspLocal fl P arr s q i).1)
  let weights := (List.range P).map (fun q => (fspLocal fl P arr s q i).2)
  if nranks > P then
    if (s p).done i then .ok default else weightedMedian fl sum medians weights
  else
    if i < nranks ∧ (s i).done i = false then weightedMedian fl sum medians weights
    else .ok (medians.getD 0 default)

/-- One pass of the `while` loop on all ranks (437-500) -/
def fspStep (fl : ℚ → ℚ) (sum : List ℚ → ℚ) (P nranks : Nat) (r : Nat → Int) (arr : Nat → List α) (s : Nat → FspRank α) : Except Err (Nat → FspRank α) :=
  let est := fun p i => fspEst fl sum P nranks arr s p i
  if (List.range P).all (fun p => (List.range nranks).all (fun i => (est p i).isOk)) then
    let est := fun p i => (est p i).toOption.getD default
    let ifirst := fun p i => ssLeft (arr p) (est p i)
    let ilast := fun p i => ssRight (arr p) (est p i)
    .ok (fun p => (List.range nranks).foldl (fun st i =>
      fspUpdate (r i) (est p i) (ifirst p i) (ilast p i)
        (pre (fun q => ifirst q i) P) (pre (fun q => ilast q i) P) st i) (s p))
  else .error .indexError

/-- The `while` loop (435-500), at most `fuel` passes -/
def fspLoop (fl : ℚ → ℚ) (sum : List ℚ → ℚ) (P nranks : Nat) (r : Nat → Int) (arr : Nat → List α) : Nat → (Nat → FspRank α) → Except Err (Nat → FspRank α)
  | fuel, s =>
    if (List.range P).all (fun p => !fspWantsMore nranks s p) then .ok s
    else if (List.range P).all (fun p => fspWantsMore nranks s p) then
      match fuel with
      | 0 => .error .diverges
      | fuel + 1 =>
        match fspStep fl sum P nranks r arr s with
        | .error e => .error e
        | .ok s' => fspLoop fl sum P nranks r arr fuel s'
    else .error .deadlock

/-- `find_splitting_points(arr, r, comm)` (386-504) -/
def findSplittingPoints (fl : ℚ → ℚ) (sum : List ℚ → ℚ) (fuel P nranks : Nat) (r : Nat → Int) (arr : Nat → List α) : Except Err (Nat → Nat → α × Int × Int) :=
  match fspLoop fl sum P nranks r arr fuel (fspInit arr) with
  | .error e => .error e
  | .ok s => .ok (fun p i => ((s p).resMedian i, (s p).resMinRank i, (s p).resMaxRank i))

end Verif.Rounded
