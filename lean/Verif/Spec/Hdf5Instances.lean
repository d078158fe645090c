import Verif.Spec.Hdf5Files
import Verif.Model.Hdf5Instances

/-!
Which routine belongs to which type and rank.
-/

namespace Verif.Hdf5

def ElemType.isInteger : ElemType → Bool
  | .integer4 | .integer8 => true
  | _ => false

/-- Each type has one routine for scalars and one for arrays with one to seven dimensions, and these look at all dimensions. -/
def RightRoutine (table : List (ElemType × Nat × Nat)) (ty : ElemType) (rank : Nat) : Prop := table.filter (fun e => decide (e.1 = ty ∧ e.2.1 = rank)) = [(ty, rank, rank)]

/-- Two arrays of the same shape have the same elements wherever all indexes after the second one are the first of their dimension. -/
structure SameFirstPlane (a b : FArray) : Prop where
  dims : a.dims = b.dims
  elems : ∀ idx, InShape a.dims idx → (∀ k, 2 ≤ k → idx.getD k 0 = 0) → a.at idx = b.at idx

end Verif.Hdf5
