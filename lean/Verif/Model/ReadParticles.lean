import Verif.Model.CPeano
import Verif.Model.ReadBinary

/-!
Reading of Millennium snapshots in C (examples/millennium/fortran/readparticles.c). Values are their bytes in little endian order. `sysLittle` says whether the
machine is little endian and `swap` whether the code is compiled with `-DBYTESWAP`. `abortmessagepart` is `.abort`; overflow of `int` is `.other`.
The file is open (`fgad`).
-/

namespace Verif.ReadParticles

open CPeano

/-- Exchange of the bytes `i` and `j` -/
def swapBytes (i j : Nat) (v : List Byte) : List Byte := (v.set i (v.getD j 0)).set j (v.getD i 0)

/-- `byte_swap8` (251-271) -/
def byteSwap8 (v : List Byte) : List Byte := swapBytes 3 4 (swapBytes 2 5 (swapBytes 1 6 (swapBytes 0 7 v)))

/-- `byte_swap4` (273-284) -/
def byteSwap4 (v : List Byte) : List Byte := swapBytes 1 2 (swapBytes 0 3 v)

/-- The value which the machine sees in some bytes of memory -/
def inMemory (sysLittle : Bool) (v : List Byte) : List Byte := if sysLittle then v else v.reverse

/-- A number of four bytes, after `byte_swap4` if it is compiled in -/
def value4 (sysLittle swap : Bool) (v : List Byte) : List Byte := inMemory sysLittle (if swap then byteSwap4 v else v)

/-- A number of eight bytes -/
def value8 (sysLittle swap : Bool) (v : List Byte) : List Byte := inMemory sysLittle (if swap then byteSwap8 v else v)

/-- `fseek(fgad, offset, SEEK_SET)` and `fread(buf, size, count, fgad)`, with an abort unless `count` items are read -/
def fread (file : List Byte) (offset : Int) (size count : Nat) : Except Err (List (List Byte)) :=
  if offset < 0 then .error .abort
  else if count ≠ 0 ∧ file.length < offset.toNat + size * count then .error .abort
  else .ok ((List.range count).map (fun i => (file.drop (offset.toNat + size * i)).take size))

/-- The number of particles of type one in the header (140-147, 181-188, 216-222) -/
def readNpfile (sysLittle swap : Bool) (file : List Byte) : Except Err Int := do
  let v ← fread file 8 4 1
  .ok (int32Value (value4 sysLittle swap (v.headD [])))

/-- `x[ipart]=block[ipart*3]; y[ipart]=block[ipart*3+1]; z[ipart]=block[ipart*3+2];` (105-118, 154-167) -/
def columns (sysLittle swap : Bool) (nread : Nat) (block : List (List Byte)) : List (List Byte) × List (List Byte) × List (List Byte) :=
  let v := fun k => value4 sysLittle swap (block.getD k [])
  ((List.range nread).map (fun ipart => v (ipart * 3)), (List.range nread).map (fun ipart => v (ipart * 3 + 1)), (List.range nread).map (fun ipart => v (ipart * 3 + 2)))

/-- `nread=*ilast-*ifirst+1`, with the number of bytes of the block, which is an `int` too; negative numbers of particles are not modelled. -/
def nRead (ifirst ilast : Int) (bytes : Int) : Except Err Nat := do
  let d ← cInt (ilast - ifirst)
  let n ← cInt (d + 1)
  let _ ← cInt (n * bytes)
  if n < 0 then .error .other else .ok n.toNat

/-- `readpartcoords_(ifirst, ilast, x, y, z)` (85-120): the values put into the arrays -/
def readpartcoords (sysLittle swap : Bool) (file : List Byte) (ifirst ilast : Int) :
    Except Err (List (List Byte) × List (List Byte) × List (List Byte)) := do
  let nread ← nRead ifirst ilast 12
  let a ← cInt (ifirst * 12)
  let offset ← cInt (256 + a)
  let block ← fread file offset 4 (3 * nread)
  .ok (columns sysLittle swap nread block)

/-- `readpartvel_(ifirst, ilast, vx, vy, vz)` (125-169) -/
def readpartvel (sysLittle swap : Bool) (file : List Byte) (ifirst ilast : Int) :
    Except Err (List (List Byte) × List (List Byte) × List (List Byte)) := do
  let nread ← nRead ifirst ilast 12
  let npfile ← readNpfile sysLittle swap file
  let a ← cInt (npfile * 12)
  let b ← cInt (264 + a)
  let c ← cInt (ifirst * 12)
  let offset ← cInt (b + c)
  let block ← fread file offset 4 (3 * nread)
  .ok (columns sysLittle swap nread block)

/-- `readpartids_(ifirst, ilast, ids)` (172-202) -/
def readpartids (sysLittle swap : Bool) (file : List Byte) (ifirst ilast : Int) : Except Err (List (List Byte)) := do
  let nread ← nRead ifirst ilast 1
  let npfile ← readNpfile sysLittle swap file
  let a ← cInt (npfile * 24)
  let b ← cInt (276 + a)
  let c ← cInt (ifirst * 8)
  let offset ← cInt (b + c)
  let ids ← fread file offset 8 nread
  .ok (ids.map (value8 sysLittle swap))

/-- What `readhash_` returns -/
structure HashInfo where
  firstcell : Int
  lastcell : Int
  htable : List Int
  npfile : Int
  deriving DecidableEq

/-- `readhash_(firstcell, lastcell, htable, npfile)` (209-249); negative sizes of the table are not modelled. `offset` is a `long int` when 16 is added. -/
def readhash (sysLittle swap : Bool) (file : List Byte) : Except Err HashInfo := do
  let npfile ← readNpfile sysLittle swap file
  let a ← cInt (npfile * 32)
  let offset ← cInt (292 + a)
  let hlen ← fread file offset 4 2
  let first := int32Value (value4 sysLittle swap (hlen.getD 0 []))
  let last := int32Value (value4 sysLittle swap (hlen.getD 1 []))
  let d ← cInt (last - first)
  let nhash ← cInt (d + 1)
  if nhash < 0 then .error .other
  else
    let table ← fread file (offset + 16) 4 nhash.toNat
    .ok ⟨first, last, table.map (fun v => int32Value (value4 sysLittle swap v)), npfile⟩

/-- The name which `open_gadget_` opens (63-74): blanks end the string. `name` has 256 characters. -/
def openName (name : List Char) : Except Err (List Char) :=
  if ' ' ∈ name.take 256 then .ok ((name.take 256).takeWhile (· ≠ ' ')) else .error .other

end Verif.ReadParticles
