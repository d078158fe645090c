import Verif.Lib.NdArray

namespace Verif

/-- `out` is the concatenation of the arrays `a 0, ..., a (P-1)` along `axis`: the length along the axis is the sum of the lengths, and element `idx` of `a p` is found
at `idx` shifted along the axis by the lengths of the arrays before `p`. -/
def IsConcat {α : Type*} (P axis : Nat) (a : Nat → NdArray α) (out : NdArray α) : Prop :=
  (∀ p < P, out.shape = (a p).shape.set axis (pre (fun q => (a q).shape.getD axis 0) P)) ∧
  ∀ p < P, ∀ idx, InShape (a p).shape idx → out.get (idx.modify axis (fun i => pre (fun q => (a q).shape.getD axis 0) p + i)) = (a p).get idx

end Verif
