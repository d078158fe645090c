import Verif.Spec.Hdf5Data
import Verif.Model.Hdf5Files

/-!
What programs with the Fortran wrapper of HDF5 should do
-/

namespace Verif.Hdf5

/-- The dataset with a name -/
def H5File.dset (f : H5File) (name : Name) : Option Dset := (h5dopen f name).bind (fun a => f.heap[a]?)

/-- Reading without a dataset which was left open: the file is that of the handle, and the dataset is the one which now has the name. -/
def uncachedRead (w : World) (ifile : Int) (name : Name) (r : ReadArgs) : Except Err FArray :=
  match w.handle ifile with
  | .error e => .error e
  | .ok h =>
    match (w.disk h.file).bind (fun f => f.dset name) with
    | none => .error .abort
    | some ds => readData ds r.memtype r.region r.arr

/-- What writing a dataset does to a file: all objects which were there, apart from this dataset, are unchanged, and there are no other new datasets. -/
structure Written (f f' : H5File) (name : Name) (ds : Dset) : Prop where
  written : f'.dset name = some ds
  others : ∀ n a, h5dopen f n = some a → h5dopen f name ≠ some a → h5dopen f' n = some a ∧ f'.heap[a]? = f.heap[a]?
  groups : ∀ n, h5gopen f n = true → h5gopen f' n = true
  new : ∀ n ds', f'.dset n = some ds' → f'.find n ≠ f'.find name → f.dset n = some ds'
  attrs : f'.attrs = f.attrs

/-- Calls of the wrapper -/
inductive Op
  | open (fname : Name) (readonly : Bool)
  | create (fname : Name)
  | close (ifile : Int)
  | read (ifile : Int) (name : Name) (r : ReadArgs)
  | write (ifile : Int) (name : Name) (a : WriteArgs)
  | group (ifile : Int) (name : Name)
  | attr (ifile : Int) (name : Name) (overwrite : Bool) (memtype : DType) (arr : FArray)

/-- What a call does -/
def step (w : World) : Op → Except Err World
  | .open fname readonly => (openFile w fname readonly).map (·.2)
  | .create fname => (createFile w fname).map (·.2)
  | .close ifile => closeFile w ifile
  | .read ifile name r => (readDset w ifile name r).map (·.2)
  | .write ifile name a => writeDset w ifile name a
  | .group ifile name => makeGroup w ifile name
  | .attr ifile name overwrite memtype arr => writeAttr w ifile name overwrite memtype arr

/-- Names which do not start with a blank, and have at most 1000 characters -/
def Plain (s : Name) : Prop := s.head? ≠ some ' ' ∧ s.length ≤ 1000

/-- The names in a call -/
def Op.Plain : Op → Prop
  | .open fname _ => Hdf5.Plain fname
  | .create fname => Hdf5.Plain fname
  | .read _ name _ => Hdf5.Plain name
  | _ => True

/-- A call which replaces a dataset, with its address and the file -/
def Replaces (w : World) (op : Op) (file : Name) (addr : Nat) : Prop :=
  ∃ ifile name a h f, op = .write ifile name a ∧ a.overwrite = true ∧ w.handle ifile = .ok h ∧ h.file = file ∧ w.disk file = some f ∧ h5dopen f name = some addr

/-- The state after a sequence of calls, none of which replaces the dataset which was read last -/
inductive Runs : World → List Op → World → Prop
  | nil (w : World) : Runs w [] w
  | cons {w w1 w2 : World} {op : Op} {ops : List Op} (h : step w op = .ok w1) (hp : op.Plain) (hr : ∀ d, w.dset = some d → ¬ Replaces w op d.file d.addr) (ht : Runs w1 ops w2) : Runs w (op :: ops) w2

/-- Any calls -/
inductive Calls : World → List Op → World → Prop
  | nil (w : World) : Calls w [] w
  | cons {w w1 w2 : World} {op : Op} {ops : List Op} (h : step w op = .ok w1) (ht : Calls w1 ops w2) : Calls w (op :: ops) w2

/-- What a handle from 1 to 1000 stands for -/
def World.entry (w : World) (k : Nat) : Option Handle := w.entries.getD (k - 1) none

/-- A handle which is not used -/
def World.Free (w : World) (k : Nat) : Prop := 1 ≤ k ∧ k ≤ 1000 ∧ w.entry k = none

/-- Handles after a file was opened: the smallest one which was not used is the new one. -/
structure Opened (w w' : World) (k : Nat) (file : Name) (readOnly : Bool) : Prop where
  free : w.Free k
  least : ∀ j, w.Free j → k ≤ j
  here : ∃ fname, w'.handle k = .ok ⟨file, readOnly, fname⟩
  others : ∀ j, 1 ≤ j → j ≠ k → w'.entry j = w.entry j

/-- The call changes the file through a handle -/
def Op.Changes (op : Op) (ifile : Int) : Prop := (∃ name a, op = .write ifile name a) ∨ (∃ name, op = .group ifile name) ∨ ∃ name o t arr, op = .attr ifile name o t arr

/-- Datasets in a file exist, and all objects are in groups. -/
structure H5File.WF (f : H5File) : Prop where
  addr : ∀ p a, f.link p = some (.dset a) → a < f.heap.length
  rooted : ∀ p l, f.link p = some l → f.reach [] p = some l

/-- Before the first call -/
structure Initial (w : World) : Prop where
  table : w.table = none
  shared : w.shared = fun _ => none
  dset : w.dset = none
  files : ∀ n f, w.disk n = some f → f.WF

/-! ### Names -/

/-- A part of a path -/
structure Part (c : Name) : Prop where
  ne : c ≠ []
  slash : '/' ∉ c
  dot : c ≠ ['.']
  blank : c.getLast? ≠ some ' '

/-- A path: parts with slashes between them -/
def pathName : List Name → Name
  | [] => []
  | [c] => c
  | c :: d :: cs => c ++ '/' :: pathName (d :: cs)

/-- With or without a slash at the beginning -/
def absName (lead : Bool) (cs : List Name) : Name := (if lead then ['/'] else []) ++ pathName cs

/-- Names of attributes -/
structure AttrName (attr : Name) : Prop where
  ne : attr ≠ []
  slash : '/' ∉ attr
  blank : attr.getLast? ≠ some ' '
  length : attr.length ≤ 256

/-- What the attributes of an object belong to -/
def H5File.owner (f : H5File) (cs : List Name) : Option Owner :=
  match f.link cs with
  | none => none
  | some .group => some (.group cs)
  | some (.dset a) => some (.dset a)

/-- An attribute of an object -/
def H5File.attr (f : H5File) (cs : List Name) (attr : Name) : Option Attr := (f.owner cs).bind (fun o => assoc (o, attr) f.attrs)

end Verif.Hdf5
