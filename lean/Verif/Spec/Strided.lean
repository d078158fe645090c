import Verif.Model.Strided

/-! How arrays are stored, for C102. -/

namespace Verif.Arr2

variable {α : Type*}

/-- The elements of a row follow each other in memory and rows do not overlap; rows may have gaps between them and be in the opposite order. An array with one column has all elements next to each other. -/
def RowWise (a : Arr2 α) : Prop := a.s1 = 1 ∧ a.cols ≤ a.s0.natAbs ∧ (a.cols = 1 → a.s0 = 1)

/-- Columns follow each other in memory, as after `np.asfortranarray` or in the transpose of an array. -/
def ColumnWise (a : Arr2 α) : Prop := a.s0 = 1 ∧ a.s1 = a.rows ∧ 2 ≤ a.rows ∧ 2 ≤ a.cols

/-- The rows of a matrix whose memory is filled column by column -/
def columnRows [Inhabited α] (rows cols : Nat) (mem : List α) : List (List α) := (List.range rows).map (fun i => (List.range cols).map (fun j => mem.getD (i + j * rows) default))

end Verif.Arr2
