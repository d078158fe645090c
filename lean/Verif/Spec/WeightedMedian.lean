import Mathlib.Algebra.Order.Ring.Rat
import Mathlib.Order.Defs.LinearOrder

namespace Verif.Spec

variable {α : Type*} [LinearOrder α]

/-- Total weight of the entries with value below `m`. -/
def weightBelow (arr : List α) (weight : List ℚ) (m : α) : ℚ :=
  (((arr.zip weight).filter (fun e => decide (e.1 < m))).map Prod.snd).sum

/-- Total weight of the entries with value above `m`. -/
def weightAbove (arr : List α) (weight : List ℚ) (m : α) : ℚ :=
  (((arr.zip weight).filter (fun e => decide (m < e.1))).map Prod.snd).sum

end Verif.Spec
