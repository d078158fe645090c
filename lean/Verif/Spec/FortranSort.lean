import Mathlib.Order.Defs.LinearOrder
import Mathlib.Data.List.Basic

/-! What an index which sorts an array is, in Fortran where indexes start at one -/

namespace Verif.FSort

variable {α : Type*} [LinearOrder α]

/-- `out` lists the positions of the elements of `arr`, from one, each once and in order of the elements. -/
def SortsOneBased (arr : List α) (out : List Nat) : Prop :=
  out.Perm (List.range' 1 arr.length) ∧
  ∀ i j p q : Nat, i < j → out[i]? = some p → out[j]? = some q →
    ∃ x y, arr[p - 1]? = some x ∧ arr[q - 1]? = some y ∧ x ≤ y

end Verif.FSort
