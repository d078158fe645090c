import Verif.Lib.Np
import Verif.Lib.Dist

/-!
Reading of binary files through an interface like that of h5py (python/virgo/util/read_binary.py). A file is the list of its bytes. The value of an array element is represented by its
bytes in little endian order, so that equal values are equal lists whatever the byte order in memory. Element types are integers and floating point numbers, whose byte swapped form has the
bytes reversed, or types without byte order; complex and structured types are left out. The shape of a dataset consists of natural numbers.
-/

namespace Verif

abbrev Byte := Fin 256

/-- A numpy type: size in bytes and `byteorder`, one of `<`, `>`, `=` and `|` (not applicable). -/
structure DType where
  itemsize : Nat
  byteorder : Char
  deriving DecidableEq

/-- `big_or_little(endian)` (python/virgo/util/read_binary.py 23-30). `sysLittle` is `sys.byteorder == "little"`. -/
def bigOrLittle (sysLittle : Bool) (endian : Char) : Char :=
  if endian = '=' then (if sysLittle then '<' else '>') else endian

/-- `endian in ("<",">","=")` -/
def validEndian (endian : Char) : Bool := endian == '<' || endian == '>' || endian == '='

/-- `need_byteswap(data_endian, dtype)` (33-46) -/
def needByteswap (sysLittle : Bool) (data_endian : Char) (dtype : DType) : Except Err Bool :=
  if dtype.byteorder = '|' then .ok false
  else if !validEndian data_endian then .error .valueError
  else .ok (bigOrLittle sysLittle dtype.byteorder != bigOrLittle sysLittle data_endian)

/-- A `BinaryDataset` (264-293, constructor 281-293), without the file it belongs to -/
structure Block where
  dtype : DType
  offset : Int
  shape : List Nat
  endian : Char
  deriving DecidableEq

/-- `size` (288-292) -/
def Block.size (b : Block) : Nat := b.shape.foldl (fun n s => n * s) 1

/-- `nbytes` (293) -/
def Block.nbytes (b : Block) : Nat := b.dtype.itemsize * b.size

/-- `array.byteswap()` on one element -/
def swapItem (item : List Byte) : List Byte := item.reverse

/-- Value of an element stored in memory with the byte order of its type -/
def memValue (sysLittle : Bool) (dtype : DType) (item : List Byte) : List Byte :=
  if dtype.byteorder = '|' then item
  else if bigOrLittle sysLittle dtype.byteorder = '<' then item else item.reverse

/-- Bytes in memory of a value: the inverse of `memValue` -/
def memBytes (sysLittle : Bool) (dtype : DType) (value : List Byte) : List Byte :=
  if dtype.byteorder = '|' then value
  else if bigOrLittle sysLittle dtype.byteorder = '<' then value else value.reverse

/-- Bytes of element `i` of the memory mapped array -/
def Block.item (b : Block) (file : List Byte) (i : Nat) : List Byte := slice file (b.offset.toNat + i * b.dtype.itemsize) b.dtype.itemsize

/-- `BinaryDataset.__getitem__(key)` (331-352): the values selected by `key`, given as the list of their positions in the flattened array. An empty file can not be mapped. -/
def Block.read (sysLittle : Bool) (file : List Byte) (b : Block) (key : List Nat) : Except Err (List (List Byte)) :=
  -- (333)
  if file = [] then .error .valueError
  -- (335-339)
  else if b.offset < 0 then .error .ioError
  else if b.offset + b.nbytes > file.length then .error .ioError
  else
    -- (347)
    match needByteswap sysLittle b.endian b.dtype with
    | .error e => .error e
    | .ok swap =>
      -- an index outside the array
      if key.any (fun i => decide (i ≥ b.size)) then .error .indexError
      -- (348, 350)
      else if swap then .ok ((key.map (b.item file)).map (fun x => memValue sysLittle b.dtype (swapItem x)))
      else .ok ((key.map (b.item file)).map (fun x => memValue sysLittle b.dtype x))

/-- `dataset[...]` -/
def Block.readAll (sysLittle : Bool) (file : List Byte) (b : Block) : Except Err (List (List Byte)) := b.read sysLittle file (List.range b.size)

/-! ### Names -/

abbrev Name := List Char

/-- `path.strip("/")` -/
def stripSlashes (path : Name) : Name := ((path.dropWhile (fun c => c == '/')).reverse.dropWhile (fun c => c == '/')).reverse

/-- `_split_path(path)` (49-64) -/
def splitPath (path : Name) : Option Name × Name :=
  let s := stripSlashes path
  match s.dropWhile (fun c => c != '/') with
  | [] => (none, s)
  | _ :: tail => (some (s.takeWhile (fun c => c != '/')), tail)

/-- `BinaryGroup` (117-125): names of attributes, of datasets and of groups. Blocks are given by their position in `all_blocks`; a dataset has attributes of its own. -/
inductive BGroup
  | mk (attrs : List (Name × Nat)) (datasets : List (Name × Nat × List (Name × Nat))) (groups : List (Name × BGroup))

def BGroup.attrs : BGroup → List (Name × Nat)
  | .mk a _ _ => a
def BGroup.datasets : BGroup → List (Name × Nat × List (Name × Nat))
  | .mk _ d _ => d
def BGroup.groups : BGroup → List (Name × BGroup)
  | .mk _ _ g => g

def BGroup.empty : BGroup := .mk [] [] []

/-- `d[key]`, as an option -/
def dget {β : Type*} (d : List (Name × β)) (key : Name) : Option β := (d.find? (fun e => e.1 == key)).map Prod.snd

/-- `d[key] = value` for a key which is present, or added at the end -/
def dset {β : Type*} : List (Name × β) → Name → β → List (Name × β)
  | [], key, v => [(key, v)]
  | (k, w) :: rest, key, v => if k = key then (k, v) :: rest else (k, w) :: dset rest key v

/-- What a path leads to -/
inductive BNode
  | dataset (id : Nat) (attrs : List (Name × Nat))
  | group (g : BGroup)

/-- `BinaryGroup.__getitem__(key)` (127-135). Each level uses up a character of the path. -/
def BGroup.getItem : Nat → BGroup → Name → Except Err BNode
  | 0, _, _ => .error .diverges
  | fuel + 1, g, key =>
    match splitPath key with
    | (none, tail) =>
      (match dget g.groups tail with
      | some h => .ok (.group h)
      | none => match dget g.datasets tail with
        | some (id, attrs) => .ok (.dataset id attrs)
        | none => .error .keyError)
    | (some head, tail) =>
      match dget g.groups head with
      | some h => BGroup.getItem fuel h tail
      | none => .error .keyError

/-- `BinaryAttrs.__getitem__` (101-102) of what a path leads to; `none` for the file itself: the attribute with the given name. -/
def BGroup.getAttr (g : BGroup) (path : Option Name) (name : Name) : Except Err Nat :=
  match path with
  | none => (match dget g.attrs name with
    | some id => .ok id
    | none => .error .keyError)
  | some p => match BGroup.getItem (p.length + 1) g p with
    | .error e => .error e
    | .ok (.dataset _ attrs) => (match dget attrs name with
      | some id => .ok id
      | none => .error .keyError)
    | .ok (.group h) => match dget h.attrs name with
      | some id => .ok id
      | none => .error .keyError

/-- `BinaryGroup._add_block` (152-187) for block number `id`: the new group and whether `endian` of the block is set.
The tests for a second attribute of the same name (161, 175) read the first one, as `BinaryAttrs` is a `Mapping`; it is assumed that this succeeds. -/
def BGroup.addBlock (is_attr : Bool) (id : Nat) : Nat → BGroup → Name → Except Err (BGroup × Bool)
  | 0, _, _ => .error .diverges
  | fuel + 1, .mk attrs datasets groups, name =>
    match splitPath name with
    | (none, tail) =>
      if is_attr then
        -- (160-163)
        if (dget attrs tail).isSome then .error .keyError else .ok (.mk (dset attrs tail id) datasets groups, true)
      else
        -- (165-169)
        if (dget datasets tail).isSome then .error .keyError
        else if (dget groups tail).isSome then .error .keyError
        else .ok (.mk attrs (dset datasets tail (id, [])) groups, true)
    | (some head, tail) =>
      match is_attr, dget datasets head with
      | true, some (d, dattrs) =>
        -- (173-178); `endian` is left as it was set by the constructor
        if (dget dattrs tail).isSome then .error .keyError else .ok (.mk attrs (dset datasets head (d, dset dattrs tail id)) groups, false)
      | _, dataset =>
        -- (181-182, 144-150)
        if (dget groups head).isNone ∧ dataset.isSome then .error .keyError
        else
          -- (184-186)
          match BGroup.addBlock is_attr id fuel ((dget groups head).getD .empty) tail with
          | .error e => .error e
          | .ok (h, flag) => .ok (.mk attrs datasets (dset groups head h), flag)

/-! ### Files -/

/-- A `BinaryFile` (394-421). `record` is `fortran_record`: value of the marker, offset, `auto_byteswap`. -/
structure BFile where
  root : BGroup
  offset : Int
  endian : Char
  blocks : List Block
  record : Option (List Byte × Int × Bool)

/-- `BinaryFile(fname)` (415-421) -/
def BFile.new : BFile := ⟨.empty, 0, '=', [], none⟩

/-- The calls which declare the contents of a file -/
inductive BOp
  | addDataset (name : Name) (dtype : DType) (shape : List Nat)
  | addAttribute (name : Name) (dtype : DType) (shape : List Nat)
  | skipBytes (n : Int)
  | readAndSkip (dtype : DType) (shape : List Nat)
  | setEndian (endian : Char)
  | enableByteswap (byteswap : Bool)
  | toggleByteswap
  | startRecord (auto_byteswap : Bool)
  | endRecord

/-- `BinaryFile._add_block` (430-441), called by `add_dataset` (443-444) and `add_attribute` (446-447). -/
def BFile.addBlock (f : BFile) (name : Name) (dtype : DType) (shape : List Nat) (is_attr : Bool) : BFile × Option Err :=
  -- (154-155)
  if !validEndian f.endian then (f, some .valueError)
  else match f.root.addBlock is_attr f.blocks.length (name.length + 1) name with
    | .error e => (f, some e)
    | .ok (root, flag) =>
      let new_block : Block := ⟨dtype, f.offset, shape, if flag then f.endian else '='⟩
      ({ f with root := root, offset := f.offset + new_block.nbytes, blocks := f.blocks ++ [new_block] }, none)

/-- `read_and_skip(dtype, shape)` (452-458): also gives the values read. -/
def BFile.readAndSkip (sysLittle : Bool) (file : List Byte) (f : BFile) (dtype : DType) (shape : List Nat) : BFile × Except Err (List (List Byte)) :=
  let tmp : Block := ⟨dtype, f.offset, shape, f.endian⟩
  match tmp.readAll sysLittle file with
  | .error e => (f, .error e)
  | .ok data => ({ f with offset := f.offset + tmp.nbytes, blocks := f.blocks ++ [tmp] }, .ok data)

/-- `set_endian(endian)` (460-472) -/
def BFile.setEndian (f : BFile) (endian : Char) : BFile × Option Err :=
  if !validEndian endian then (f, some .valueError)
  else ({ f with endian := endian, blocks := f.blocks.map (fun b => { b with endian := endian }) }, none)

/-- `enable_byteswap(byteswap)` (474-491) -/
def BFile.enableByteswap (sysLittle : Bool) (f : BFile) (byteswap : Bool) : BFile × Option Err :=
  f.setEndian (if sysLittle then (if byteswap then '>' else '<') else (if byteswap then '<' else '>'))

/-- `toggle_byteswap()` (493-500) -/
def BFile.toggleByteswap (sysLittle : Bool) (f : BFile) : BFile × Option Err :=
  if f.endian = '<' then ({ f with endian := '>' }, none)
  else if f.endian = '>' then ({ f with endian := '<' }, none)
  else if f.endian = '=' then f.enableByteswap sysLittle true
  else (f, none)

/-- `np.int32` -/
def int32Type : DType := ⟨4, '='⟩

/-- The number with these bytes in little endian order -/
def leNat : List Byte → Nat
  | [] => 0
  | b :: rest => b.val + 256 * leNat rest

/-- Value of an `int32` -/
def int32Value (value : List Byte) : Int := if leNat value ≥ 2147483648 then (leNat value : Int) - 4294967296 else leNat value

/-- `start_fortran_record(auto_byteswap)` (560-563) -/
def BFile.startRecord (sysLittle : Bool) (file : List Byte) (f : BFile) (auto_byteswap : Bool) : BFile × Option Err :=
  match f.record with
  | some _ => (f, some .ioError)
  | none =>
    match f.readAndSkip sysLittle file int32Type [] with
    | (f, .error e) => (f, some e)
    | (f, .ok data) => ({ f with record := some (data.headD [], f.offset, auto_byteswap) }, none)

/-- `end_fortran_record()` (565-585) -/
def BFile.endRecord (sysLittle : Bool) (file : List Byte) (f : BFile) : BFile × Option Err :=
  match f.record with
  | none => (f, some .ioError)
  | some (irec_start, start_offset, auto_byteswap) =>
    let end_offset := f.offset
    match f.readAndSkip sysLittle file int32Type [] with
    | (f, .error e) => (f, some e)
    | (f, .ok data) =>
      let irec_end := data.headD []
      if int32Value irec_start ≠ int32Value irec_end then (f, some .ioError)
      else if auto_byteswap ∧ end_offset - start_offset > 65535 then (f, some .ioError)
      else if end_offset - start_offset = int32Value (swapItem irec_start) ∧ end_offset - start_offset ≠ int32Value irec_start ∧ auto_byteswap then
        -- the swapped marker agrees with the length, as tested
        let f := (f.toggleByteswap sysLittle).1
        ({ f with record := none }, none)
      else if end_offset - start_offset ≠ int32Value irec_start then (f, some .ioError)
      else ({ f with record := none }, none)

/-- One call: the object afterwards and the exception, if there is one. `skip_bytes` is 449-450. -/
def BFile.step (sysLittle : Bool) (file : List Byte) (f : BFile) : BOp → BFile × Option Err
  | .addDataset name dtype shape => f.addBlock name dtype shape false
  | .addAttribute name dtype shape => f.addBlock name dtype shape true
  | .skipBytes n => ({ f with offset := f.offset + n }, none)
  | .readAndSkip dtype shape => match f.readAndSkip sysLittle file dtype shape with
    | (f, .error e) => (f, some e)
    | (f, .ok _) => (f, none)
  | .setEndian endian => f.setEndian endian
  | .enableByteswap byteswap => f.enableByteswap sysLittle byteswap
  | .toggleByteswap => f.toggleByteswap sysLittle
  | .startRecord auto_byteswap => f.startRecord sysLittle file auto_byteswap
  | .endRecord => f.endRecord sysLittle file

/-- Any sequence of calls on a new object, where the caller may go on after an exception -/
def BFile.run (sysLittle : Bool) (file : List Byte) (ops : List BOp) : BFile := ops.foldl (fun f op => (f.step sysLittle file op).1) .new

/-- Stable insertion for `sorted(self.all_blocks, key=lambda x: x.offset)` -/
def insertByOffset (b : Block) : List Block → List Block
  | [] => [b]
  | c :: rest => if b.offset ≤ c.offset then b :: c :: rest else c :: insertByOffset b rest

/-- `sorted(self.all_blocks, key=lambda x: x.offset)` -/
def sortByOffset (l : List Block) : List Block := l.foldr insertByOffset []

/-- `not np.any(offsets[1:] != offsets[:-1] + lengths[:-1])` (605) -/
def consecutive : List Block → Bool
  | a :: b :: rest => decide (b.offset = a.offset + a.nbytes) && consecutive (b :: rest)
  | _ => true

/-- `all_bytes_used()` (587-615) for a file with `file_size` bytes -/
def allBytesUsed (all_blocks : List Block) (file_size : Nat) : Bool :=
  let blocks := sortByOffset all_blocks
  if blocks.length > 0 ∧ (blocks.head?.map Block.offset) ≠ some 0 then false
  else if blocks.length > 1 ∧ !consecutive blocks then false
  else if file_size ≠ (blocks.map Block.nbytes).sum then false
  else true

/-- `seek(offset)` and `write(bytes)`: a gap is filled with zeros. -/
def writeAt (out : List Byte) (offset : Nat) (bytes : List Byte) : List Byte :=
  if bytes = [] then out
  else overlay (out ++ List.replicate (offset + bytes.length - out.length) 0) offset bytes

/-- The loop of `write_binary` (520-528) over the sorted blocks. -/
def writeBlocks (sysLittle : Bool) (file : List Byte) (endian : Option Char) : List Block → List Byte → Except Err (List Byte)
  | [], out => .ok out
  | b :: rest, out =>
    match b.readAll sysLittle file with
    | .error e => .error e
    | .ok data =>
      -- (524-525); types without byte order are not changed
      let dtype : DType := match endian with
        | some e => if b.dtype.byteorder = '|' then b.dtype else { b.dtype with byteorder := e }
        | none => b.dtype
      writeBlocks sysLittle file endian rest (writeAt out b.offset.toNat (data.flatMap (memBytes sysLittle dtype)))

/-- `open(fname, mode)` accepts these modes for writing bytes to a new file. -/
def validMode (mode : List Char) : Bool := mode == "wb".toList || mode == "xb".toList || mode == "bw".toList || mode == "bx".toList

/-- `write_binary(fname, mode, endian)` (505-529): the contents of the new file. Of the arguments accepted by `newbyteorder` only `<`, `>` and `=` are modelled. -/
def writeBinary (sysLittle : Bool) (file : List Byte) (all_blocks : List Block) (mode : List Char) (endian : Option Char) : Except Err (List Byte) :=
  if !validMode mode then .error .valueError
  else writeBlocks sysLittle file endian (sortByOffset all_blocks) []

/-- Bytes which are passed to the hash function by `hash` (531-558) -/
def hashInput (sysLittle : Bool) (file : List Byte) (all_blocks : List Block) : Except Err (List Byte) :=
  if !allBytesUsed all_blocks file.length then .error .ioError
  else match (sortByOffset all_blocks).mapM (fun b => b.readAll sysLittle file) with
    | .error e => .error e
    | .ok data => .ok (data.flatMap (fun values => values.flatten))

end Verif
