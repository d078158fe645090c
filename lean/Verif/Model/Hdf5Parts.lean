import Verif.Lib.Dist
import Verif.Model.Hdf5Data

/-!
Datasets which are written in several calls of `hdf5_write_data`, as in fortran/hdf5_wrapper/test/test_extend.f90. Each call opens the dataset by its name and writes a part; the file, which has to
find it again, is that of C96.
-/

namespace Verif.Hdf5Parts

open Hdf5

/-- Arguments of a call: `start`, `count` and the array (`hdf5_write_data(ifile, name, array, start=..., count=...)`, test_extend.f90 40-41) -/
structure Call where
  start : List Int
  count : List Int
  arr : FArray
  deriving DecidableEq

/-- Calls for a dataset which exists, one after the other (test_extend.f90 46-47, 60-61, 72, 80-85; write_dataset.inc 246-403) -/
def writeCalls (ds : Dset) (t : Hdf5.DType) : List Call → Except Err Dset
  | [] => .ok ds
  | p :: ps => do
    let ds1 ← writeOld ds t (some (p.start, p.count)) p.arr
    writeCalls ds1 t ps

/-- Calls for a dataset which does not exist before the first one (test_extend.f90 39-42, 53-56, 65-72, 90-91). The options of later calls are not looked at (write_dataset.inc 149-303). -/
def writeAll (o : CreateOptions) (t : Hdf5.DType) (p : Call) (ps : List Call) : Except Err Dset := do
  let ds ← writeNew o t (some (p.start, p.count)) p.arr
  writeCalls ds t ps

/-- Call number `i` of the loop which writes a one dimensional array in blocks of `b` elements (test_extend.f90 39-42, with `b` = 10): `idata(i:i+9)`, `start=(/i/)`, `count=(/10/)` -/
def blockCall (b : Nat) (elems : List (List Byte)) (i : Nat) : Call := ⟨[(i * b : Nat) + 1], [b], ⟨[b], slice elems (i * b) b⟩⟩

/-- All calls of this loop after the first one -/
def blockCalls (b m : Nat) (elems : List (List Byte)) : List Call := (List.range (m - 1)).map (fun i => blockCall b elems (i + 1))

/-- Call number `i` of the loop which writes a two dimensional array row by row (test_extend.f90 53-56): `rdata(i:i,1:ny)`, `start=(/i,1/)`, `count=(/1,ny/)` -/
def rowCall (nx ny : Nat) (elems : List (List Byte)) (i : Nat) : Call :=
  ⟨[(i : Nat) + 1, 1], [1, ny], ⟨[1, ny], (List.range ny).map (fun j => elems.getD (i + nx * j) [])⟩⟩

def rowCalls (nx ny : Nat) (elems : List (List Byte)) : List Call := (List.range (nx - 1)).map (fun i => rowCall nx ny elems (i + 1))

end Verif.Hdf5Parts
