import Verif.Model.WriteHdf5
import Verif.Spec.ReadBinary

/-! What is at a path of a HDF5 file. -/

namespace Verif.WriteHdf5

/-- The dataset at the given components -/
def h5Dataset : HGroup → List Name → Option HData
  | _, [] => none
  | g, [n] => (dget g.datasets n).map Prod.fst
  | g, n :: m :: rest => match dget g.groups n with
    | some h => h5Dataset h (m :: rest)
    | none => none

/-- Whether a group is at the given components -/
def h5IsGroup : HGroup → List Name → Bool
  | _, [] => true
  | g, n :: rest => match dget g.groups n with
    | some h => h5IsGroup h rest
    | none => false

/-- The attribute `a` of what is at the given components -/
def h5Attr : HGroup → List Name → Name → Option HData
  | g, [], a => dget g.attrs a
  | g, n :: rest, a => match dget g.groups n with
    | some h => h5Attr h rest a
    | none => if rest = [] then (dget g.datasets n).bind (fun d => dget d.2 a) else none

end Verif.WriteHdf5
