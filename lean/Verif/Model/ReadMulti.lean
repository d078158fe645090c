import Verif.Model.MultiFile

/-!
`read_multi` (python/virgo/util/read_multi.py 11-58).
-/

namespace Verif

variable {ν α : Type*}

/-- Entry of `result`: a list of arrays, later replaced by an array -/
inductive RmEntry (α : Type*)
  | parts (l : List α)
  | array (a : α)
  deriving DecidableEq

/-- `result`, an `OrderedDict` -/
abbrev RmDict (ν α : Type*) := List (ν × RmEntry α)

/-- `result[name] = v`: replaces the value in place or adds the key at the end -/
def RmDict.set [DecidableEq ν] : RmDict ν α → ν → RmEntry α → RmDict ν α
  | [], name, v => [(name, v)]
  | (k, w) :: rest, name, v => if k = name then (k, v) :: rest else (k, w) :: RmDict.set rest name v

/-- `result[name]` -/
def RmDict.get [DecidableEq ν] (d : RmDict ν α) (name : ν) : Option (RmEntry α) := (d.find? (fun e => decide (e.1 = name))).map Prod.snd

/-- `if name in f: result[name].append(f[name][...])` (51-52) -/
def rmAppend [DecidableEq ν] (f : ν → Option α) (result : RmDict ν α) (name : ν) : RmDict ν α :=
  match f name, result.get name with
  | some a, some (.parts l) => result.set name (.parts (l ++ [a]))
  | _, _ => result

/-- The same for all names (50-52) -/
def rmReadFile [DecidableEq ν] (f : ν → Option α) (datasets : List ν) (result : RmDict ν α) : RmDict ν α := datasets.foldl (rmAppend f) result

/-- The loop over files (39-52). `openFile i` is the file with number `i`: what is stored under each name, or the exception when it is opened. -/
def rmFiles {ι : Type*} [DecidableEq ν] (openFile : ι → Except Err (ν → Option α)) (datasets : List ν) : List ι → RmDict ν α → Except Err (RmDict ν α)
  | [], result => .ok result
  | i :: rest, result =>
    match openFile i with
    | .error e => .error e
    | .ok f => rmFiles openFile datasets rest (rmReadFile f datasets result)

/-- `result[name] = np.concatenate(result[name], axis=axis)` for all names (55-56). `concatenate` is the numpy function for this axis applied to a list of arrays, `concatenateRows` the same
applied to an array, taken as the sequence of its rows. -/
def rmConcat [DecidableEq ν] (concatenate : List α → Except Err α) (concatenateRows : α → Except Err α) : List ν → RmDict ν α → Except Err (RmDict ν α)
  | [], result => .ok result
  | name :: rest, result =>
    match result.get name with
    | none => .error .keyError
    | some (.parts l) => (match concatenate l with
      | .error e => .error e
      | .ok a => rmConcat concatenate concatenateRows rest (result.set name (.array a)))
    | some (.array a) => (match concatenateRows a with
      | .error e => .error e
      | .ok a => rmConcat concatenate concatenateRows rest (result.set name (.array a)))

/-- `read_multi(format_str, idx, datasets, file_type, axis)` (python/virgo/util/read_multi.py 11-58) -/
def readMulti {ι : Type*} [DecidableEq ν] (concatenate : List α → Except Err α) (concatenateRows : α → Except Err α) (openFile : ι → Except Err (ν → Option α)) (idx : List ι)
    (datasets : List ν) : Except Err (RmDict ν α) :=
  -- (34-36)
  let result := datasets.foldl (fun result name => RmDict.set result name (.parts [])) []
  match rmFiles openFile datasets idx result with
  | .error e => .error e
  | .ok result => rmConcat concatenate concatenateRows datasets result

/-- `np.concatenate(l, axis=0)`: at least one array is needed and the other dimensions must agree. Arrays of one type. -/
def npConcatenate {τ β : Type*} (l : List (TypedArray τ β)) : Except Err (TypedArray τ β) :=
  match concatParts l with
  | .error e => .error e
  | .ok none => .error .valueError
  | .ok (some a) => .ok a

end Verif
