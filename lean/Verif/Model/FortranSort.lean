import Mathlib.Order.Defs.LinearOrder
import Verif.Lib.Np

/-!
`sort_index` (examples/millennium/fortran/sort.f90). The ten subroutines of the module (37-1208) differ in the types of the array and of the index
only; lines are those of `sort_index_real4` (37-151). Values are elements of a linear order: NaN is left out. Indexes do not overflow.
-/

namespace Verif.FSort

variable {α : Type*} [LinearOrder α] [Inhabited α]

/-- `arr(idx(i))` -/
def key (arr : List α) (idx : List Nat) (i : Nat) : α := arr.getD (idx.getD i 0) default

/-- `tmp = idx(i); idx(i) = idx(j); idx(j) = tmp` -/
def swapAt (idx : List Nat) (i j : Nat) : List Nat := (idx.set i (idx.getD j 0)).set j (idx.getD i 0)

/-- The loop `do while(2*root+1.le.finish)` (104-118, 130-144). The first argument bounds the number of passes. -/
def siftDown (arr : List α) (finish : Nat) : Nat → Nat → List Nat → List Nat
  | 0, _, idx => idx
  | fuel + 1, root, idx =>
    if 2 * root + 1 ≤ finish then
      let child := root * 2 + 1
      let child := if child < finish ∧ key arr idx child < key arr idx (child + 1) then child + 1 else child
      if key arr idx root < key arr idx child then siftDown arr finish fuel child (swapAt idx root child)
      else idx
    else idx

/-- The loop over `start`, which goes down to zero (100-120); the argument is `start + 1`. -/
def heapify (arr : List α) (n : Nat) : Nat → List Nat → List Nat
  | 0, idx => idx
  | start + 1, idx => heapify arr n start (siftDown arr (n - 1) n start idx)

/-- The loop over `finish`, which goes down to one (123-145) -/
def extract (arr : List α) (n : Nat) : Nat → List Nat → List Nat
  | 0, idx => idx
  | finish + 1, idx => extract arr n finish (siftDown arr finish n 0 (swapAt idx 0 (finish + 1)))

/-- The heap sort (99-145) -/
def heapSort (arr : List α) (idx : List Nat) : List Nat :=
  extract arr arr.length (arr.length - 1) (heapify arr arr.length ((arr.length - 1) / 2 + 1) idx)

/-- The loop `do while (j.ge.inc)` and the assignment which follows it (82-87). The first argument bounds the number of passes. -/
def shellInner (arr : List α) (inc tmp : Nat) : Nat → Nat → List Nat → List Nat
  | 0, j, idx => idx.set j tmp
  | fuel + 1, j, idx =>
    if j ≥ inc then
      if key arr idx (j - inc) ≤ arr.getD tmp default then idx.set j tmp
      else shellInner arr inc tmp fuel (j - inc) (idx.set j (idx.getD (j - inc) 0))
    else idx.set j tmp

/-- The loop over `i` (79-88), over the last `m` values of `i` -/
def shellPass (arr : List α) (inc : Nat) : Nat → List Nat → List Nat
  | 0, idx => idx
  | m + 1, idx =>
    let i := arr.length - (m + 1)
    shellPass arr inc m (shellInner arr inc (idx.getD i 0) arr.length i idx)

/-- The next increment (89-93): `floor(inc/2.2)`, unless it is two -/
def nextInc (inc : Nat) : Nat := if inc = 2 then 1 else inc * 5 / 11

/-- The loop over `inc` (78-94). The first argument bounds the number of passes. -/
def shellLoop (arr : List α) : Nat → Nat → List Nat → List Nat
  | 0, _, idx => idx
  | fuel + 1, inc, idx => if inc > 0 then shellLoop arr fuel (nextInc inc) (shellPass arr inc (arr.length - inc) idx) else idx

/-- The shell sort (77-94) -/
def shellSort (arr : List α) (idx : List Nat) : List Nat := shellLoop arr arr.length (arr.length / 2) idx

/-- `nswitch` (19) -/
def nswitch : Nat := 100

/-- `sort_index(arr, idx)` (37-151); `idx` has arbitrary contents and may be longer than `arr`. -/
def sortIndex (arr : List α) (idx : List Nat) : Except Err (List Nat) :=
  let n := arr.length
  if idx.length < n then .error .abort
  else if n = 0 then .ok idx
  else if n = 1 then .ok (idx.set 0 1)
  else
    let start := List.range n
    let sorted := if n < nswitch then shellSort arr start else heapSort arr start
    .ok ((sorted ++ idx.drop n).map (· + 1))

end Verif.FSort
