import Verif.Lib.Mpi
import Mathlib.Algebra.Order.Ring.Rat
import Mathlib.Algebra.Order.Field.Rat

namespace Verif

variable {α : Type*}

/-- `np.cumsum` with the running total so far. -/
def cumsumFrom (acc : ℚ) : List ℚ → List ℚ
  | [] => []
  | w :: ws => (acc + w) :: cumsumFrom (acc + w) ws

/-- `weighted_median(arr, weight)` (python/virgo/mpi/parallel_sort.py 351-368), with exact rational
weights in place of `float64`. `arr[ind][0]` on an empty selection is an `IndexError`. -/
def weightedMedian [LinearOrder α] [Inhabited α] (arr : List α) (weight : List ℚ) : Except Err α :=
  -- sort into ascending order (357-359)
  let idx := argsort arr
  let arr := fancy arr idx
  let weight := fancy weight idx
  -- normalise (361)
  let weight := weight.map (fun w => w / weight.sum)
  let cs := cumsumFrom 0 weight
  -- weight before and after each element (363-365), elements with at most half on each side (367)
  let cand := ((arr.zip weight).zip cs).filter
    (fun e => decide (e.2 - e.1.2 ≤ 1 / 2 ∧ 1 - e.2 ≤ 1 / 2))
  match cand with
  | [] => .error .indexError
  | e :: _ => .ok e.1.1

end Verif
