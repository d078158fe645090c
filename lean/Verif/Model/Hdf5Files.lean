import Verif.Model.Hdf5Data
import Verif.Model.FortranReaders
import Verif.Model.SwiftWrapper

/-!
Files, groups, datasets and attributes of the Fortran wrapper of HDF5 (fortran/hdf5_wrapper/src/hdf5_wrapper.F90, read_dataset.inc, write_dataset.inc, read_attribute.inc and write_attribute.inc):
the table of open files, and the dataset which is left open after reading.

A program is a sequence of calls; `hdf5_abort`, which ends it, is `.abort`. What depends on memory which was never set, or is outside of an array, is `.other`. Names of files are those given to the
wrapper, without blanks at the end: two names are two files. Files are only changed by this program. Creating a file only fails if it is open or cannot be written. HDF5 itself can always be
initialised (`do_open` is true). Attributes have less than 64 kB. Messages are left out.
-/

namespace Verif.Hdf5

open FortranReaders

/-- What a name in a file stands for: datasets are known by their address. -/
inductive Link
  | group
  | dset (addr : Nat)
  deriving DecidableEq

/-- What an attribute belongs to -/
inductive Owner
  | group (path : List Name)
  | dset (addr : Nat)
  deriving DecidableEq

/-- An attribute -/
structure Attr where
  dtype : DType
  dims : List Nat
  data : List (List Byte)
  deriving DecidableEq

/-- A file: names, all datasets which were ever created, and attributes -/
structure H5File where
  links : List (List Name × Link) := []
  heap : List Dset := []
  attrs : List ((Owner × Name) × Attr) := []
  writable : Bool := true

/-- The first entry of a table with a key -/
def assoc {α β : Type} [DecidableEq α] (k : α) : List (α × β) → Option β
  | [] => none
  | (a, b) :: rest => if a = k then some b else assoc k rest

/-- The root is always there. -/
def H5File.link (f : H5File) (p : List Name) : Option Link := if p = [] then some .group else assoc p f.links

/-- From the object `p` along `cs`: all objects on the way are groups. -/
def H5File.reach (f : H5File) (p : List Name) : List Name → Option Link
  | [] => f.link p
  | c :: cs => if f.link p = some .group then f.reach (p ++ [c]) cs else none

/-- The HDF5 library finds an object by its name. An empty name is an error; blanks at the end were removed by the Fortran interface. -/
def H5File.find (f : H5File) (name : Name) : Option Link := if trimBlanks name = [] then none else f.reach [] (h5Components (trimBlanks name))

/-- `h5dopen_f`: the address of the dataset -/
def h5dopen (f : H5File) (name : Name) : Option Nat :=
  match f.find name with
  | some (.dset a) => some a
  | _ => none

/-- `h5gopen_f` with a name which starts at the root -/
def h5gopen (f : H5File) (name : Name) : Bool := decide (f.find name = some .group)

/-- A new object with the path `cs`: there must not be one already, and it must be in a group. -/
def H5File.add (f : H5File) (cs : List Name) (l : Link) : Option H5File :=
  if cs = [] then none
  else if f.reach [] cs.dropLast = some .group ∧ f.link cs = none then some { f with links := (cs, l) :: f.links }
  else none

/-- `h5gunlink_f` -/
def h5gunlink (f : H5File) (name : Name) : H5File := { f with links := f.links.filter (fun l => decide (l.1 ≠ h5Components (trimBlanks name))) }

/-! ### Groups -/

/-- The string up to the first slash, and what is after it; `none` if there is no slash -/
def cutSlash : Name → Option (Name × Name)
  | [] => none
  | c :: rest => if c = '/' then some ([], rest) else (cutSlash rest).map (fun p => (c :: p.1, p.2))

/-- The loop over groups (hdf5_wrapper.F90 769-793): `path` is the group `loc_id`, `n_nest` counts the groups which are open. Creation of groups may fail, opening them may not. There is room for ten groups. -/
def groupLoop : Nat → H5File → List Name → Nat → Name → Except Err H5File
  | 0, f, _, _, _ => .ok f
  | fuel + 1, f, path, n_nest, thestring =>
    match cutSlash thestring with
    | none => .ok f
    | some (currentgroup, rest) =>
      let g := trimBlanks currentgroup
      if g = [] then .error .abort
      else
        let path' := path ++ (if g = ['.'] then [] else [g])
        let f' := (if g = ['.'] then none else f.add path' .group).getD f
        if f'.link path' = some .group then
          if 10 ≤ n_nest then .error .other
          else groupLoop fuel f' path' (n_nest + 1) rest
        else .error .abort

/-- Without a slash at the beginning -/
def stripSlash : Name → Name
  | [] => []
  | c :: rest => if c = '/' then rest else c :: rest

/-- `thestring` (hdf5_wrapper.F90 739-753): 256 characters, without the first slash, and with a slash at the end -/
def groupString (name : Name) : Except Err Name :=
  let s := stripSlash (trimBlanks (name.take 256))
  if s.getLast? = some '/' ∨ s = [] then .ok s
  else if 256 ≤ s.length then .error .other
  else .ok (s ++ ['/'])

/-- `hdf5_create_group` in an open file (hdf5_wrapper.F90 724-803) -/
def createGroup (f : H5File) (name : Name) : Except Err H5File :=
  match groupString name with
  | .error e => .error e
  | .ok s => groupLoop (s.length + 1) f [] 0 s

/-! ### Datasets -/

/-- Position of the last slash, from one, or zero: `index(name, "/", back=.true.)` -/
def lastSlash (name : Name) : Nat := if '/' ∈ name then name.length - (name.reverse.findIdx (· == '/')) else 0

/-- Arguments of `write_data` -/
structure WriteArgs where
  options : CreateOptions := {}
  overwrite : Bool := false
  memtype : DType
  region : Option (List Int × List Int) := none
  arr : FArray

/-- The groups with a new dataset (write_dataset.inc 148-159) -/
def parentGroups (f : H5File) (name : Name) : Except Err H5File :=
  let i := lastSlash name
  if 1 < i ∧ h5gopen f (name.take (i - 1)) = false then createGroup f (trimBlanks (name.take (i - 1))) else .ok f

/-- A new dataset in a file -/
def newDset (f : H5File) (name : Name) (w : WriteArgs) : Except Err H5File := do
  let f ← parentGroups f name
  let ds ← createDset w.options w.memtype w.region w.arr.dims
  match f.add (h5Components (trimBlanks name)) (.dset f.heap.length) with
  | none => .error .abort
  | some f' =>
    let ds ← putData ds w.memtype w.region w.arr
    .ok { f' with heap := f.heap ++ [ds] }

/-- `write_data` for an open file (write_dataset.inc 116-417): with `overwrite`, a dataset which exists is unlinked. -/
def writeFile (f : H5File) (name : Name) (w : WriteArgs) : Except Err H5File :=
  if 0 < w.options.gzip ∧ w.options.szip then .error .abort
  else
    match h5dopen f name with
    | none => newDset f name w
    | some a =>
      if w.overwrite then newDset (h5gunlink f name) name w
      else do
        let ds ← writeOld (f.heap.getD a ⟨w.memtype, [], [], []⟩) w.memtype w.region w.arr
        .ok { f with heap := f.heap.set a ds }

/-! ### The table of open files -/

/-- An entry of the table: which file it is, `read_only` and `fname_table` -/
structure Handle where
  file : Name
  readOnly : Bool
  fname : Name
  deriving DecidableEq

/-- The dataset which was left open -/
structure OpenDset where
  file : Name
  addr : Nat
  deriving DecidableEq

/-- Files on disk, and the variables of the module. `shared` are files which the HDF5 library has open, and whether they can be written. `table` is `file_id` and so on; it has no values before the first file
is opened. `dset` is `open_dset` and `open_dset_id`. -/
structure World where
  disk : Name → Option H5File
  shared : Name → Option Bool := fun _ => none
  table : Option (List (Option Handle)) := none
  dset : Option OpenDset := none
  open_file_name : Name := []
  open_dset_name : Name := []

/-- `nfilemax` -/
def nfilemax : Nat := 1000

/-- The free entry with the smallest number, which is made the new one -/
def newHandle (h : Handle) : List (Option Handle) → Nat → Except Err (Nat × List (Option Handle))
  | [], _ => .error .abort
  | none :: rest, i => .ok (i, some h :: rest)
  | some g :: rest, i => do
    let r ← newHandle h rest (i + 1)
    .ok (r.1, some g :: r.2)

/-- The table when the first file is opened (hdf5_wrapper.F90 303-318, 394-409) -/
def World.entries (w : World) : List (Option Handle) := w.table.getD (List.replicate nfilemax none)

def setKey {β : Type} (m : Name → β) (k : Name) (b : β) : Name → β := fun x => if x = k then b else m x

/-- `hdf5_open_file` (hdf5_wrapper.F90 290-378): the handle. A file which is already open cannot be opened for writing if it was not before. -/
def openFile (w : World) (fname : Name) (readonly : Bool) : Except Err (Nat × World) := do
  let name := trimBlanks fname
  match w.disk name with
  | none => .error .abort
  | some f =>
    if ¬ readonly ∧ ¬ (f.writable ∧ w.shared name ≠ some false) then .error .abort
    else
      let r ← newHandle ⟨name, readonly, trimBlanks (fname.take 1000)⟩ w.entries 1
      .ok (r.1, { w with table := some r.2, shared := setKey w.shared name (some ((w.shared name).getD (!readonly))) })

/-- `hdf5_create_file` (hdf5_wrapper.F90 383-433) -/
def createFile (w : World) (fname : Name) : Except Err (Nat × World) := do
  let name := trimBlanks fname
  if (w.shared name).isSome ∨ (w.disk name).map (·.writable) = some false then .error .abort
  else
    let r ← newHandle ⟨name, false, trimBlanks (fname.take 1000)⟩ w.entries 1
    .ok (r.1, { w with disk := setKey w.disk name (some {}), table := some r.2, shared := setKey w.shared name (some true) })

/-- The checks of `ifile`: a number which is not in the table, and a file which is not open -/
def World.handle (w : World) (ifile : Int) : Except Err Handle :=
  if ifile < 1 ∨ (nfilemax : Int) < ifile then .error .abort
  else
    match w.table with
    | none => .error .other
    | some t =>
      match t.getD (ifile - 1).toNat none with
      | none => .error .abort
      | some h => .ok h

/-- `hdf5_close_file` (hdf5_wrapper.F90 436-492). The library closes the file when the last identifier for it is closed. -/
def closeFile (w : World) (ifile : Int) : Except Err World := do
  let h ← w.handle ifile
  let table := w.entries.set (ifile - 1).toNat none
  .ok { w with
    dset := if w.dset.isSome ∧ charEq h.fname w.open_file_name then none else w.dset
    shared := if table.any (fun e => match e with | some g => decide (g.file = h.file) | none => false) then w.shared else setKey w.shared h.file none
    table := some table }

/-- `adjustl` -/
def adjustl (s : Name) : Name := s.dropWhile (· == ' ')

/-- Opening of the dataset (read_dataset.inc 70-92): one which was left open is used again if file and dataset have the same names. -/
def openDset (w : World) (h : Handle) (name : Name) : Except Err (OpenDset × World) :=
  match (if charEq (adjustl h.fname) (adjustl w.open_file_name) ∧ charEq (adjustl name) (adjustl w.open_dset_name) then w.dset else none) with
  | some d => .ok (d, w)
  | none =>
    match (w.disk h.file).bind (fun f => h5dopen f name) with
    | none => .error .abort
    | some a => .ok (⟨h.file, a⟩, { w with dset := some ⟨h.file, a⟩, open_file_name := trimBlanks h.fname, open_dset_name := trimBlanks (name.take 1000) })

/-- Arguments of `read_data` -/
structure ReadArgs where
  memtype : DType
  region : Option (List Int × List Int) := none
  arr : FArray

/-- The dataset of an identifier -/
def World.dsetAt (w : World) (d : OpenDset) : Option Dset := (w.disk d.file).bind (fun f => f.heap[d.addr]?)

/-- `read_data` (read_dataset.inc) -/
def readDset (w : World) (ifile : Int) (name : Name) (r : ReadArgs) : Except Err (FArray × World) := do
  let h ← w.handle ifile
  let d ← openDset w h name
  match d.2.dsetAt d.1 with
  | none => .error .other
  | some ds =>
    let a ← readData ds r.memtype r.region r.arr
    .ok (a, d.2)

/-- Changes of an open file which may be written -/
def onFile (w : World) (ifile : Int) (g : H5File → Except Err H5File) : Except Err World := do
  let h ← w.handle ifile
  if h.readOnly then .error .abort
  else
    match w.disk h.file with
    | none => .error .other
    | some f =>
      let f ← g f
      .ok { w with disk := setKey w.disk h.file (some f) }

/-- `write_data` (write_dataset.inc) -/
def writeDset (w : World) (ifile : Int) (name : Name) (a : WriteArgs) : Except Err World := onFile w ifile (fun f => writeFile f name a)

/-- `hdf5_create_group`: it does not check that the file is open, but then groups cannot be created. -/
def makeGroup (w : World) (ifile : Int) (name : Name) : Except Err World := onFile w ifile (fun f => createGroup f name)

/-! ### Attributes -/

/-- The owner and the name of an attribute (read_attribute.inc 54-80, write_attribute.inc 52-76): both names have 256 characters. -/
def attrKey (f : H5File) (name : Name) : Except Err (Owner × Name) :=
  let nslash := lastSlash name
  if nslash = 0 then .error .abort
  else
    let loc := trimBlanks ((name.take (nslash - 1)).take 256)
    let attr := trimBlanks (((trimBlanks name).drop nslash).take 256)
    match f.find loc with
    | some (.dset a) => .ok (.dset a, attr)
    | some .group => .ok (.group (h5Components loc), attr)
    | none => .error .abort

/-- `write_attribute` (write_attribute.inc) -/
def writeAttrFile (f : H5File) (name : Name) (overwrite : Bool) (memtype : DType) (arr : FArray) : Except Err H5File := do
  let k ← attrKey f name
  let attrs := if overwrite then f.attrs.filter (fun x => decide (x.1 ≠ k)) else f.attrs
  if k.2 = [] ∨ (assoc k attrs).isSome then .error .abort
  else .ok { f with attrs := (k, ⟨memtype, arr.dims, arr.elems⟩) :: attrs }

def writeAttr (w : World) (ifile : Int) (name : Name) (overwrite : Bool) (memtype : DType) (arr : FArray) : Except Err World := onFile w ifile (fun f => writeAttrFile f name overwrite memtype arr)

/-- `read_attribute` (read_attribute.inc): all elements, one after another, whatever the shapes are. Conversion between types which are not compatible is not modelled (`.other`). -/
def readAttr (w : World) (ifile : Int) (name : Name) (memtype : DType) (arr : FArray) : Except Err FArray := do
  let h ← w.handle ifile
  match w.disk h.file with
  | none => .error .other
  | some f =>
    let k ← attrKey f name
    match assoc k f.attrs with
    | none => .error .abort
    | some a =>
      if a.dtype.cls.sameClass memtype.cls = false ∨ (if memtype.cls = .string then memtype.size < a.dtype.size else a.dtype.size ≠ memtype.size) then .error .other
      else if arr.elems.length < a.data.length then .error .other
      else .ok ⟨arr.dims, overlay arr.elems 0 (a.data.map (convert a.dtype memtype))⟩

/-- Type and dimensions of a dataset or attribute: `hdf5_get_type`, `hdf5_get_dimensions` (hdf5_wrapper.F90 495-693). Names of attributes and what they belong to have 200 characters here. -/
def getInfo (w : World) (ifile : Int) (name : Name) : Except Err (DType × List Nat) := do
  let h ← w.handle ifile
  match w.disk h.file with
  | none => .error .other
  | some f =>
    match h5dopen f name with
    | some a =>
      match f.heap[a]? with
      | none => .error .other
      | some ds => .ok (ds.dtype, ds.dims)
    | none =>
      let nslash := lastSlash name
      if nslash = 0 then .error .abort
      else
        let loc := trimBlanks ((name.take (nslash - 1)).take 200)
        let attr := trimBlanks (((trimBlanks name).drop nslash).take 200)
        match f.find loc with
        | none => .error .abort
        | some l =>
          match assoc ((match l with | .dset a => Owner.dset a | .group => Owner.group (h5Components loc)), attr) f.attrs with
          | none => .error .abort
          | some a => .ok (a.dtype, a.dims)

end Verif.Hdf5
