import Verif.Lib.Np

namespace Verif

variable {α : Type*}

/-- Loop-free part of `match` after sorting (python/virgo/util/match.py 47-63) for one element of `arr1`: `tmp2` is not empty, `ind` are the indexes into `arr2` of its elements. -/
def matchLookup [LinearOrder α] [Inhabited α] (tmp2 : List α) (ind : List Nat) (v : α) : Int :=
  -- (47); searchsorted gives no negative values, so (53) has no effect
  let ptr := ssLeft tmp2 v
  -- (52)
  let ptr := if ptr ≥ tmp2.length then 0 else ptr
  -- (56-57, 60-61)
  if tmp2.getD ptr default ≠ v then -1 else (ind.getD ptr 0 : Int)

/-- `match(arr1, arr2, arr2_sorted, arr2_index)` (python/virgo/util/match.py 5-65). `order` is the result of `argsort(arr2)`, which is not stable. Elements are values, so that
the conversion to native byte order (24-33) does nothing. -/
def matchArr [LinearOrder α] [Inhabited α] (arr1 arr2 : List α) (arr2_sorted : Bool) (arr2_index : Option (List Int)) (order : List Nat) : Except Err (List Int) :=
  -- (20-21)
  if arr2.length = 0 then .ok (List.replicate arr1.length (-1))
  else
    -- (36-45)
    let idx : List Int := if arr2_sorted then (List.range arr2.length).map Int.ofNat else arr2_index.getD (order.map Int.ofNat)
    match fancy? arr2 idx, fancy? (List.range arr2.length) idx with
    | some tmp2, some ind =>
      -- an array without elements can not be indexed (56)
      if tmp2.length = 0 ∧ arr1.length > 0 then .error .indexError
      else .ok (arr1.map (matchLookup tmp2 ind))
    | _, _ => .error .indexError

end Verif
