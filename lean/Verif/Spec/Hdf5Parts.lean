import Verif.Spec.Hdf5Data
import Verif.Model.Hdf5Parts

/-!
What a sequence of writes to parts of a dataset means
-/

namespace Verif.Hdf5Parts

open Hdf5

/-- A call, with the part as natural numbers from zero -/
structure Piece where
  start : List Nat
  count : List Nat
  call : Call

/-- A call which can be made for a dataset with `rank` dimensions of type `t`: `start` (from one) and `count` have enough entries, and the array is of the type and large enough -/
structure Piece.Good (p : Piece) (rank : Nat) (t : Hdf5.DType) : Prop where
  lstart : p.start.length = rank
  lcount : p.count.length = rank
  entries : ∀ i < rank, p.call.start[i]? = some ((p.start.getD i 0 : Int) + 1) ∧ p.call.count[i]? = some (p.count.getD i 0 : Int)
  wf : p.call.arr.WF
  type : p.call.arr.HasType t
  holds : Holds p.call.arr.dims p.count
  nonempty : 0 ∉ p.call.arr.dims

/-- The part has index `k`. -/
def Piece.Touches (p : Piece) (k : List Nat) : Prop := InPart p.start p.count k

/-- The element of the array for index `k` of the dataset is `v`. -/
def Piece.Puts (p : Piece) (k : List Nat) (v : List Byte) : Prop :=
  ∃ idx j, InShape p.count idx ∧ k = List.zipWith (· + ·) p.start idx ∧ InShape p.call.arr.dims j ∧ SamePlace p.count idx p.call.arr.dims j ∧ p.call.arr.at j = some v

/-- The dataset after a sequence of writes: it is as large as the largest of the parts, and each element is what was written there last, or what it was, or zero if it is new -/
structure Sequence (ds : Dset) (ps : List Piece) (ds' : Dset) : Prop where
  dtype : ds'.dtype = ds.dtype
  maxdims : ds'.maxdims = ds.maxdims
  rank : ds'.dims.length = ds.dims.length
  wf : ds'.WF
  dims : ∀ i < ds.dims.length, ds'.dims.getD i 0 = ps.foldl (fun m p => max m (p.start.getD i 0 + p.count.getD i 0)) (ds.dims.getD i 0)
  last : ∀ earlier p later, ps = earlier ++ p :: later → ∀ k v, p.Puts k v → (∀ q ∈ later, ¬ q.Touches k) → ds'.at k = some v
  old : ∀ k, InShape ds.dims k → (∀ p ∈ ps, ¬ p.Touches k) → ds'.at k = ds.at k
  zeros : ∀ k, InShape ds'.dims k → ¬ InShape ds.dims k → (∀ p ∈ ps, ¬ p.Touches k) → ds'.at k = some (List.replicate ds.dtype.size 0)

/-- The pieces are cut from array `a`: they are inside of it, have its elements, and every element is in one of them. -/
structure CutFrom (a : FArray) (ps : List Piece) : Prop where
  inside : ∀ p ∈ ps, Inside a.dims p.start p.count
  same : ∀ p ∈ ps, ∀ k v, p.Puts k v → a.at k = some v
  covers : ∀ k, InShape a.dims k → ∃ p ∈ ps, p.Touches k

end Verif.Hdf5Parts
