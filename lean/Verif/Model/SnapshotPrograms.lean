import Verif.Model.FortranReaders
import Verif.Model.Formats
import Verif.Model.Hdf5Files

/-!
Programs which read a snapshot file of the Millennium-2 simulation (examples/millennium2/fortran/read_m2_snapshot_file.f90, examples/millennium2/c/read_mill2_snapshot_file.c and
examples/millennium2/idl/read_mill2_snapshot.pro) or of the Millennium-WMAP7 simulation (examples/millennium-wmap7/fortran/read_mr7_snapshot_file.f90 and
examples/millennium-wmap7/c/read_mr7_snapshot_file.c) and print the particles.

`big` is the byte order of the machine. Floating point numbers are their bytes; how they are printed is left out. What is printed for IDs is the text. `exit` in C is `.sanityCheck` (a wrong record) or
`.ioError`; variables which `fread` does not set, and memory outside of an array, are `.other`.
-/

namespace Verif.SnapshotPrograms

open CPeano FortranReaders

/-- A line for one particle -/
structure Line where
  pos : List (List Byte)
  vel : List (List Byte)
  id : Name
  deriving DecidableEq

/-- The lines for `n` particles; components of vectors follow each other in the arrays. -/
def printLines (text : List Byte → Name) (n : Nat) (pos vel ids : List (List Byte)) : List Line :=
  (List.range n).map (fun i => ⟨vector pos i, vector vel i, text (ids.getD i [])⟩)

/-- An INTEGER*8 written with `i16` -/
def fortranId (v : List Byte) : Name := iFormat 16 1 (int64Value v)

/-- A `long long` printed with `%llu` -/
def cId (v : List Byte) : Name := decimal (leNat v)

/-! ### Millennium-2 -/

/-- The header, without `unused` (read_m2_snapshot_file.f90 19-37, read_mill2_snapshot_file.c 5-24): bytes per element and numbers of elements. There are no gaps between them in C. -/
def m2Header : List (Nat × Nat) := [(4, 6), (8, 6), (8, 1), (8, 1), (4, 1), (4, 1), (4, 6), (4, 1), (4, 1), (8, 1), (8, 1), (8, 1), (8, 1), (4, 1), (4, 1), (4, 6)]

/-- A 64 bit integer -/
def wrap64 (x : Int) : Int := (x + 2 ^ 63) % 2 ^ 64 - 2 ^ 63

/-- Total number of particles of one type (read_m2_snapshot_file.f90 51-63) -/
def fortranTotal (lo hi : List Byte) : Int :=
  let nptot := int32Value lo
  let nptot_hw := int32Value hi
  let nptot := if nptot < 0 then nptot + 2 ^ 32 else nptot
  let nptot_hw := if nptot_hw < 0 then nptot_hw + 2 ^ 32 else nptot_hw
  wrap64 (nptot + wrap64 (nptot_hw * 2 ^ 32))

/-- What the Fortran program prints -/
structure M2Output where
  total : Int
  boxsize : List Byte
  lines : List Line
  deriving DecidableEq

/-- read_m2_snapshot_file.f90; `arg` is the first argument. Arrays with a negative size have no elements. -/
def m2Fortran (big : Bool) (fs : ByteFS) (arg : Name) : Except Err M2Output := do
  let file ← openSequential fs (assignChar 500 arg)
  let h ← recordRead big (m2Header ++ [(1, 64)]) file
  let v := fun k i => (h.1.getD k []).getD i []
  let np := int32Value (v 0 1)
  let pos ← recordRead big [(4, 3 * np.toNat)] h.2
  let vel ← recordRead big [(4, 3 * np.toNat)] pos.2
  let id ← recordRead big [(8, np.toNat)] vel.2
  .ok ⟨fortranTotal (v 6 1) (v 15 1), v 9 0, printLines fortranId np.toNat (pos.1.headD []) (vel.1.headD []) (id.1.headD [])⟩

/-- `fread` into variables which are used: all bytes have to be there. -/
def cRead (big : Bool) (w n : Nat) (bytes : List Byte) : Except Err (List (List Byte) × List Byte) :=
  match readItem big w n bytes with
  | .ok r => .ok r
  | .error _ => .error .other

/-- Result of the C program: the number of particles and the lines -/
structure M2COutput where
  np : Int
  lines : List Line
  deriving DecidableEq

/-- The end of the record of the header (read_mill2_snapshot_file.c 65-70): at the end of the file `irec` keeps its value. -/
def cHeaderEnd (big : Bool) (bytes : List Byte) : Except Err (List Byte) :=
  if bytes = [] then .ok []
  else do
    let e ← cRead big 4 1 bytes
    if int32Value (e.1.headD []) ≠ 256 then .error .sanityCheck else .ok e.2

/-- read_mill2_snapshot_file.c; other markers of records are not used, and need not be there (72-94). A name with 500 characters or more has no end in `fname`. The sizes of the arrays are an `int`; a negative one is too large
for any array. -/
def m2C (big : Bool) (fs : ByteFS) (arg : Name) : Except Err M2COutput := do
  if 500 ≤ arg.length then .error .other
  else
    match fs arg with
    | none => .error .ioError
    | some file =>
      let m ← cRead big 4 1 file
      if int32Value (m.1.headD []) ≠ 256 then .error .sanityCheck
      else if m.2.length < 256 then .error .other
      else
        let npart ← cRead big 4 6 m.2
        let fd ← cHeaderEnd big (m.2.drop 256)
        let np := int32Value (npart.1.getD 1 [])
        if np < 0 then .error .other
        else
          let n3 ← cInt (3 * np)
          let pos ← cRead big 4 n3.toNat (fd.drop 4)
          let vel ← cRead big 4 n3.toNat ((pos.2.drop 4).drop 4)
          let ids ← cRead big 8 np.toNat ((vel.2.drop 4).drop 4)
          .ok ⟨np, printLines cId np.toNat pos.1 vel.1 ids.1⟩

/-- `fltarr(...)` and so on in IDL: dimensions have to be positive. -/
def idlSize (n : Int) : Except Err Nat := if n ≤ 0 then .error .valueError else .ok n.toNat

/-- `readu` from a file opened with `/F77_UNFORMATTED` (read_mill2_snapshot.pro 16-32): one record. The variable `header` is shorter than the record. What is returned are `pos`, `vel` and `ids`. -/
def m2Idl (big : Bool) (fs : ByteFS) (fname : Name) : Except Err (List (List Byte) × List (List Byte) × List (List Byte)) :=
  match fs fname with
  | none => .error .ioError
  | some file => do
    let h ← recordRead big (m2Header ++ [(1, 6)]) file
    let n ← idlSize (int32Value ((h.1.getD 0 []).getD 1 []))
    let pos ← recordRead big [(4, 3 * n)] h.2
    let vel ← recordRead big [(4, 3 * n)] pos.2
    let ids ← recordRead big [(8, n)] vel.2
    .ok (pos.1.headD [], vel.1.headD [], ids.1.headD [])

/-! ### Millennium-WMAP7 -/

open Hdf5 in
/-- read_mr7_snapshot_file.f90, with the wrapper. New arrays have some values `junk`. -/
def mr7Fortran (junk : List Byte) (w : World) (arg : Name) : Except Err (List Line × World) := do
  let o ← openFile w (assignChar 500 arg) true
  let npfile ← readAttr o.2 o.1 "Header/NumPart_ThisFile".toList ⟨.integer true, 4⟩ ⟨[6], List.replicate 6 junk⟩
  let n := (int32Value (npfile.elems.getD 1 [])).toNat
  let pos ← readDset o.2 o.1 "PartType1/Coordinates".toList { memtype := ⟨.float, 4⟩, arr := ⟨[3, n], List.replicate (3 * n) junk⟩ }
  let vel ← readDset pos.2 o.1 "PartType1/Velocities".toList { memtype := ⟨.float, 4⟩, arr := ⟨[3, n], List.replicate (3 * n) junk⟩ }
  let id ← readDset vel.2 o.1 "PartType1/ParticleIDs".toList { memtype := ⟨.integer true, 8⟩, arr := ⟨[n], List.replicate n junk⟩ }
  let w ← closeFile id.2 o.1
  .ok (printLines fortranId n pos.1.elems vel.1.elems id.1.elems, w)

open Hdf5 in
/-- `H5LTget_attribute_...`: all elements; an object or attribute which is not there is an error. Conversion of types of other sizes or classes is not modelled (`.other`). -/
def ltAttribute (f : H5File) (obj attr : Name) (memtype : Hdf5.DType) : Except Err (List (List Byte)) :=
  match f.find obj with
  | none => .error .ioError
  | some l =>
    match assoc ((match l with | .dset a => Owner.dset a | .group => Owner.group (h5Components obj)), attr) f.attrs with
    | none => .error .ioError
    | some a => if a.dtype.cls.sameClass memtype.cls = false ∨ a.dtype.size ≠ memtype.size then .error .other else .ok (a.data.map (convert a.dtype memtype))

open Hdf5 in
/-- `H5LTread_dataset` with room for `room` elements -/
def ltRead (f : H5File) (name : Name) (memtype : Hdf5.DType) (room : Nat) : Except Err (List (List Byte)) :=
  match (h5dopen f name).bind (fun a => f.heap[a]?) with
  | none => .error .ioError
  | some ds =>
    if ds.dtype.cls.sameClass memtype.cls = false ∨ ds.dtype.size ≠ memtype.size then .error .other
    else if room < ds.data.length then .error .other
    else .ok (ds.data.map (convert ds.dtype memtype))

open Hdf5 in
/-- read_mr7_snapshot_file.c: `3*NumPart_ThisFile[1]` is an `unsigned int`, `3*i+2` is an `int` (which has to be large enough for all particles). A name with 500 characters or more has no end. Elements which
are not read have no value. -/
def mr7C (disk : Name → Option H5File) (arg : Name) : Except Err (List Line) := do
  if 500 ≤ arg.length then .error .other
  else
    match disk arg with
    | none => .error .ioError
    | some f =>
      let npart ← ltAttribute f "Header".toList "NumPart_ThisFile".toList ⟨.integer false, 4⟩
      if 6 < npart.length then .error .other
      else
        match npart[1]? with
        | none => .error .other
        | some v =>
          let np := leNat v
          let box ← ltAttribute f "Header".toList "BoxSize".toList ⟨.float, 8⟩
          if box.length ≠ 1 then .error .other
          else
            let pos ← ltRead f "PartType1/Coordinates".toList ⟨.float, 4⟩ (3 * np % 2 ^ 32)
            let vel ← ltRead f "PartType1/Velocities".toList ⟨.float, 4⟩ (3 * np % 2 ^ 32)
            let ids ← ltRead f "PartType1/ParticleIDs".toList ⟨.integer false, 8⟩ np
            let _ ← cInt (3 * (np : Int) - 1)
            if pos.length < 3 * np ∨ vel.length < 3 * np ∨ ids.length < np then .error .other
            else .ok (printLines cId np pos vel ids)

end Verif.SnapshotPrograms
