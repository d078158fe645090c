import Verif.Lib.Dist
import Verif.Lib.Np
import Mathlib.Algebra.Field.Basic

namespace Verif

variable {α : Type*}

/-- A bound of a Python slice of an array of length `n`. -/
def sliceBound (n : Nat) (i : Int) : Nat := if i < 0 then (i + n).toNat else min i.toNat n

/-- `array[start:stop,...] = v` -/
def sliceFill (array : List α) (start stop : Int) (v : α) : List α :=
  let a := sliceBound array.length start
  let b := sliceBound array.length stop
  overlay array a (List.replicate (b - a) v)

/-- `np.repeat(x, repeats)` -/
def npRepeat {β : Type*} (x : List β) (repeats : List Int) : Except Err (List β) :=
  if x.length ≠ repeats.length ∨ repeats.any (fun r => decide (r < 0)) then .error .valueError
  else .ok ((x.zip repeats).flatMap (fun e => List.replicate e.2.toNat e.1))

/-- `array[mask,...] = values` if both arrays are as long as needed. -/
def maskFill : List α → List Bool → List α → List α
  | a :: array, false :: mask, values => a :: maskFill array mask values
  | _ :: array, true :: mask, v :: values => v :: maskFill array mask values
  | array, _, _ => array

/-- `array[mask,...] = values`. A mask of the wrong length is an `IndexError`, values which do not fit a `ValueError` (a single value would be repeated). -/
def maskAssignChecked (array : List α) (mask : List Bool) (values : List α) : Except Err (List α) :=
  if mask.length ≠ array.length then .error .indexError
  else if values.length ≠ mask.count true then .error .valueError
  else .ok (maskFill array mask values)

/-- `all_lengths[0::2] = gap_length; all_lengths[1::2] = length` with one more gap than there are ranges -/
def interleave {β : Type*} : List β → List β → List β
  | g :: gs, l :: ls => g :: l :: interleave gs ls
  | gs, _ => gs

/-- `gap_length` (python/virgo/util/ranges.py 37-40): gap before each range, where `stop` is the end of the range before, and after the last. -/
def gapLengths (n : Int) : Int → List (Int × Int) → List Int
  | stop, [] => [n - stop]
  | stop, (o, l) :: rest => (o - stop) :: gapLengths n (o + l) rest

/-- `assign_ranges(array, offset, length, value)` (python/virgo/util/ranges.py 5-55): the array afterwards. -/
def assignRanges (array : List α) (offset length : List Int) (value : List α) : Except Err (List α) :=
  -- (23-26)
  if ¬ (offset.length = length.length ∧ length.length = value.length) then .error .valueError
  else match offset, length, value with
    -- (29-31)
    | [], _, _ => .ok array
    -- (32-34)
    | [o], [l], [v] => .ok (sliceFill array o (o + l) v)
    | _, _, _ =>
      -- (38-41)
      let gap_length := gapLengths array.length 0 (offset.zip length)
      -- (43-45)
      if length.sum + gap_length.sum ≠ array.length then .error .valueError
      else
        -- (48-53)
        let all_lengths := interleave gap_length length
        match npRepeat (interleave (List.replicate gap_length.length false) (List.replicate length.length true)) all_lengths with
        | .error e => .error e
        | .ok mask =>
          -- (56)
          match npRepeat value length with
          | .error e => .error e
          | .ok values => maskAssignChecked array mask values

/-- `np.add.reduceat(array, indices)`: sum from each index to the next one, or the single element if the next one is not larger. -/
def reduceat [AddMonoid α] (array : List α) : List Nat → Except Err (List α)
  | [] => .ok []
  | [i] => if i < array.length then .ok [(array.drop i).sum] else .error .indexError
  | i :: j :: rest =>
    if i < array.length then
      match reduceat array (j :: rest) with
      | .error e => .error e
      | .ok out => .ok ((if i < j then (slice array i (j - i)).sum else array.getD i 0) :: out)
    else .error .indexError

/-- `result[ind,...] = values` where `ind` marks the ranges with positive length -/
def fillNonzero : List α → List Bool → List α → List α := maskFill

/-- `sum_ranges(array, offset, length, weight=weight, normalize=normalize)` (python/virgo/util/ranges.py 58-128) with exact arithmetic; one-dimensional, or each element a row. -/
def sumRanges [Field α] (array : List α) (offset length : List Int) (weight : Option (List α)) (normalize : Bool) : Except Err (List α) :=
  -- (94-97)
  let ind := length.map (fun l => decide (l > 0))
  let offset_nz := (offset.zip ind).filterMap (fun e => if e.2 then some e.1 else none)
  let length_nz := length.filter (fun l => decide (l > 0))
  -- (100-101)
  match assignRanges (List.replicate array.length false) offset_nz length_nz (List.replicate offset_nz.length true) with
  | .error e => .error e
  | .ok mask =>
    let masked := fun (a : List α) => (a.zip mask).filterMap (fun e => if e.2 then some e.1 else none)
    let starts := (List.range length_nz.length).map (fun k => ((length_nz.take k).sum).toNat)
    -- (104-106)
    let result := List.replicate offset.length (0 : α)
    match weight with
    | none =>
      -- (110-112)
      match reduceat (masked array) starts with
      | .error e => .error e
      | .ok sums =>
        -- (113-115)
        .ok (fillNonzero result ind (if normalize then (sums.zip length_nz).map (fun e => e.1 / (e.2 : α)) else sums))
    | some weight =>
      -- (118)
      if weight.length ≠ array.length then .error .indexError
      else
        match reduceat (((masked array).zip (masked weight)).map (fun e => e.1 * e.2)) starts with
        | .error e => .error e
        | .ok sums =>
          if normalize then
            -- (121-124)
            match reduceat (masked weight) starts with
            | .error e => .error e
            | .ok sum_w => .ok (fillNonzero result ind ((sums.zip sum_w).map (fun e => e.1 / e.2)))
          else .ok (fillNonzero result ind sums)

end Verif
