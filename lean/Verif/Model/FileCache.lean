import Verif.Model.ReadBinary

/-!
The cache of open files of `BinaryDataset` (python/virgo/util/read_binary.py 67-90, 278-391). `MemoryMappedFile` objects are numbered in the order in which they are made. Files on disk do
not change. An object is deallocated at any time after the last dataset has stopped referring to it: the sequences of events below contain all choices, including the immediate one of CPython.
If opening or mapping a file fails, the incomplete object is taken to be gone at once (it may live on as long as somebody keeps the traceback).
`mmap.close()` raises `BufferError` while an array still refers to the map, which can only happen if the traceback of a failed `array[key]` is kept; this is not modelled.
-/

namespace Verif

variable {φ : Type*} [DecidableEq φ]

/-- A `MemoryMappedFile` (67-90). `alive` is false once it has been deallocated. -/
structure MapObj (φ : Type*) where
  fname : φ
  closed : Bool
  alive : Bool
  deriving DecidableEq

/-- A `BinaryDataset`: `fname`, `file` and whether the program still holds it -/
structure CacheDs (φ : Type*) where
  fname : φ
  file : Option Nat
  live : Bool
  deriving DecidableEq

structure CacheState (φ : Type*) where
  objs : List (MapObj φ)
  datasets : List (CacheDs φ)
  /-- `BinaryDataset.file_cache`, oldest first (279) -/
  cache : List (φ × Nat)
  deriving DecidableEq

def CacheState.new : CacheState φ := ⟨[], [], []⟩

/-- `BinaryDataset.max_files` (278) -/
def maxFiles : Nat := 32

/-- `close()` (79-88) of an object -/
def closeObj (objs : List (MapObj φ)) (id : Nat) : List (MapObj φ) := objs.modify id (fun o => { o with closed := true })

/-- `self.file is not None and not(self.file.closed)` (306, 390) -/
def hasOpenFile (objs : List (MapObj φ)) (file : Option Nat) : Bool :=
  match file with
  | none => false
  | some id => match objs[id]? with
    | some o => !o.closed
    | none => false

/-- The loop of `_mmap_file` which removes the oldest files (321-324) -/
def evict (objs : List (MapObj φ)) : List (φ × Nat) → List (MapObj φ) × List (φ × Nat)
  | [] => (objs, [])
  | (f, id) :: rest =>
    if ((f, id) :: rest).length ≥ maxFiles then
      -- the weak reference gives `None` for an object which was deallocated
      let objs := match objs[id]? with
        | some o => if o.alive then closeObj objs id else objs
        | none => objs
      evict objs rest
    else (objs, (f, id) :: rest)

/-- `self.file = ...` -/
def setFile (datasets : List (CacheDs φ)) (d : Nat) (id : Nat) : List (CacheDs φ) := datasets.modify d (fun x => { x with file := some id })

/-- Exceptions of `MemoryMappedFile(fname)` (72-76): the file has to exist, and an empty file can not be mapped. -/
def openError (disk : φ → Option (List Byte)) (fname : φ) : Option Err :=
  match disk fname with
  | none => some .ioError
  | some [] => some .valueError
  | some (_ :: _) => none

/-- Lines 320-329 of `_mmap_file`. `disk` gives the bytes of every file which exists. -/
def openNew (disk : φ → Option (List Byte)) (s : CacheState φ) (d : Nat) (fname : φ) : CacheState φ × Option Err :=
  let (objs, cache) := evict s.objs s.cache
  match openError disk fname with
  | some e => (⟨objs, s.datasets, cache⟩, some e)
  | none => (⟨objs ++ [⟨fname, false, true⟩], setFile s.datasets d objs.length, cache ++ [(fname, objs.length)]⟩, none)

/-- `_mmap_file()` (295-329) of dataset number `d` -/
def mmapFile (disk : φ → Option (List Byte)) (s : CacheState φ) (d : Nat) : CacheState φ × Option Err :=
  match s.datasets[d]? with
  | none => (s, some .nameError)
  | some ds =>
    -- (306-307)
    if hasOpenFile s.objs ds.file then (s, none)
    else match s.cache.find? (fun e => decide (e.1 = ds.fname)) with
      | none => openNew disk s d ds.fname
      | some (_, id) =>
        -- (310-318)
        match s.objs[id]? with
        | none => (s, some .other)
        | some o =>
          if !o.alive ∨ o.closed then openNew disk { s with cache := s.cache.filter (fun e => decide (e.1 ≠ ds.fname)) } d ds.fname
          else ({ s with datasets := setFile s.datasets d id }, none)

/-- `__getitem__(key)` (331-352) of dataset number `d`, whose type and place in the file are those of `b` -/
def cacheRead (sysLittle : Bool) (disk : φ → Option (List Byte)) (s : CacheState φ) (d : Nat) (b : Block) (key : List Nat) : CacheState φ × Except Err (List (List Byte)) :=
  match mmapFile disk s d with
  | (s, some e) => (s, .error e)
  | (s, none) =>
    -- the map of `self.file`
    match (s.datasets[d]?.bind (·.file)).bind (fun id => s.objs[id]?) with
    | none => (s, .error .attributeError)
    | some o =>
      -- the map of a closed file is `None` (84)
      if o.closed then (s, .error .attributeError)
      else match disk o.fname with
        | none => (s, .error .attributeError)
        | some bytes => (s, b.read sysLittle bytes key)

/-- Events -/
inductive CacheOp (φ : Type*)
  /-- A dataset object is made. -/
  | create (fname : φ)
  /-- A dataset is read (333). -/
  | access (d : Nat)
  /-- `close()` of a dataset (389-391) -/
  | close (d : Nat)
  /-- The program stops using a dataset. -/
  | drop (d : Nat)
  /-- An object to which no dataset refers is deallocated (77-78). -/
  | collect (id : Nat)

def cacheStep (disk : φ → Option (List Byte)) (s : CacheState φ) : CacheOp φ → CacheState φ × Option Err
  | .create fname => ({ s with datasets := s.datasets ++ [⟨fname, none, true⟩] }, none)
  | .access d => mmapFile disk s d
  | .close d => match s.datasets[d]? with
    | none => (s, some .nameError)
    | some ds => match ds.file with
      | none => (s, none)
      | some id => if hasOpenFile s.objs ds.file then ({ s with objs := closeObj s.objs id }, none) else (s, none)
  | .drop d => ({ s with datasets := s.datasets.modify d (fun x => { x with live := false }) }, none)
  | .collect id =>
    if s.datasets.any (fun x => x.live && decide (x.file = some id)) then (s, none)
    else ({ s with objs := s.objs.modify id (fun o => { o with closed := true, alive := false }) }, none)

/-- Any sequence of events; the program may go on after an exception. -/
def cacheRun (disk : φ → Option (List Byte)) (ops : List (CacheOp φ)) : CacheState φ := ops.foldl (fun s op => (cacheStep disk s op).1) .new

end Verif
