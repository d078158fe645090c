import Mathlib.Data.List.Sort
import Verif.Lib.Np
import Verif.Lib.Exchange

/-!
Model of the MPI hashing tool, consistency_check/hash/hash_dirs_mpi.py (a Python 2 script).

The first part is the protocol by which rank 0 hands out directories and collects results (`DirectoryList.request_task`,
`DirectoryList.process_requests`, the loops in `recursive_hash`) as a transition system: every step of every rank may be scheduled at any time.
The second part is what is computed and stored: `hash_dir`, `DirectoryList.store_hashes`, the database, and the output files.

Simplifications:
* The elements of `os.walk` are a list which does not change during the run.
* How often rank 0 calls `process_requests` while it hashes a directory (once per block of every file, lines 143-144) is an arbitrary number
  `polls d` for every directory.
* `comm.recv`, `store_hashes` and `next(self.dirs, None)` in `process_requests` (123-125) are one step: nobody else can see the
  state in between.
* A message counts as visible to `Iprobe` from the time it is posted, but `Iprobe` may return False although there is a message.
-/

namespace Verif

open Exchange (upd)

/-! ### Distribution of directories -/

variable {D H σ : Type*}

/-- Where a rank other than zero is. -/
inductive HashWorker (D H : Type*)
  /-- at `comm.send(hashes, dest=0)` (103) -/
  | request (hashes : Option H)
  /-- the message is posted, `comm.send` has not returned -/
  | sending
  /-- in `comm.recv(source=0)` (104) -/
  | receiving
  /-- in `hash_dir` (254-256) -/
  | hashing (d : D)
  /-- left the loop (258) -/
  | finished

/-- Where rank 0 returns to after `process_requests`. -/
inductive HashCont (D : Type*)
  /-- `hash_file` (144) in `hash_dir`; the number is that of the calls still to be made for this directory -/
  | hashing (d : D) (polls : Nat)
  /-- `while dirlist.process_requests(): pass` (262-263) -/
  | draining

/-- Where rank 0 is. -/
inductive HashMaster (D H : Type*)
  /-- at `dirlist.request_task(hashes)` (251) -/
  | request (hashes : Option H)
  /-- in `hash_dir`, outside `process_requests` -/
  | hashing (d : D) (polls : Nat)
  /-- at `comm.Iprobe` (119) -/
  | probing (k : HashCont D)
  /-- at `comm.send(next_dir, dest=source)` (126) -/
  | replying (source : Nat) (next_dir : Option D) (k : HashCont D)
  /-- the answer is posted, `comm.send` has not returned -/
  | sending (source : Nat) (next_dir : Option D) (k : HashCont D)
  /-- after the loops (265) -/
  | finished

/-- State of all ranks. `up r` is the message from rank `r` to rank 0 which has not been received, `down r` the one from rank 0 to rank `r`. `hashed`
is a record (not present in the code) of which rank has hashed which directory. -/
structure HashState (D H σ : Type*) where
  dirs : List D
  num_finished : Nat
  store : σ
  master : HashMaster D H
  worker : Nat → HashWorker D H
  up : Nat → Option (Option H)
  down : Nat → Option (Option D)
  hashed : List (Nat × D)

/-- What the protocol depends on: number of ranks, `hash_dir`, `store_hashes`, number of calls of `process_requests`. -/
structure HashSys (D H σ : Type*) where
  P : Nat
  hash : D → H
  storeHashes : σ → Option H → σ
  polls : D → Nat

/-- `next(self.dirs, None)` (107, 125): the element and what is left -/
def nextDir : List D → Option D × List D
  | [] => (none, [])
  | d :: rest => (some d, rest)

/-- Rank 0 continues after `request_task` (252-258) -/
def masterAfterRequest (S : HashSys D H σ) : Option D → HashMaster D H
  | some d => .hashing d (S.polls d)
  | none => .probing .draining

/-- Ranks other than zero continue after `request_task` (252-258) -/
def workerAfterRequest : Option D → HashWorker D H
  | some d => .hashing d
  | none => .finished

/-- `if next_dir is None: self.num_finished += 1` (127-128) -/
def countFinished (num_finished : Nat) : Option D → Nat
  | some _ => num_finished
  | none => num_finished + 1

/-- `process_requests` returns `self.num_finished < comm_size - 1` (131), which only matters to the loop in lines 262-263 -/
def masterAfterProbing (P num_finished : Nat) : HashCont D → HashMaster D H
  | .hashing d n => .hashing d n
  | .draining => if num_finished < P - 1 then .probing .draining else .finished

/-- State at the start (249) -/
def hashStart (dirs : List D) (store : σ) : HashState D H σ :=
  { dirs := dirs, num_finished := 0, store := store, master := .request none, worker := fun _ => .request none, up := fun _ => none,
    down := fun _ => none, hashed := [] }

/-- One step of one rank. With `sync = true` the calls of `comm.send` only return once the message has been received (MPI may always do
this), otherwise they may return at any time. -/
inductive HashStep (S : HashSys D H σ) (sync : Bool) : HashState D H σ → HashState D H σ → Prop
  /-- `comm.send(hashes, dest=0)` is called (103) -/
  | send (c : HashState D H σ) (r : Nat) (hashes : Option H) (h0 : 0 < r) (hr : r < S.P) (hw : c.worker r = .request hashes) :
      HashStep S sync c { c with worker := upd c.worker r .sending, up := upd c.up r (some hashes) }
  /-- `comm.send(hashes, dest=0)` returns -/
  | sent (c : HashState D H σ) (r : Nat) (h0 : 0 < r) (hr : r < S.P) (hw : c.worker r = .sending) (hs : sync = true → c.up r = none) :
      HashStep S sync c { c with worker := upd c.worker r .receiving }
  /-- `comm.recv(source=0)` (104, 252-258) -/
  | recv (c : HashState D H σ) (r : Nat) (next_dir : Option D) (h0 : 0 < r) (hr : r < S.P) (hw : c.worker r = .receiving)
      (hm : c.down r = some next_dir) :
      HashStep S sync c { c with worker := upd c.worker r (workerAfterRequest next_dir), down := upd c.down r none }
  /-- `hash_dir` on a rank other than 0 (254-256) -/
  | hash (c : HashState D H σ) (r : Nat) (d : D) (h0 : 0 < r) (hr : r < S.P) (hw : c.worker r = .hashing d) :
      HashStep S sync c { c with worker := upd c.worker r (.request (some (S.hash d))), hashed := c.hashed ++ [(r, d)] }
  /-- `request_task` on rank 0 (106-107) -/
  | request (c : HashState D H σ) (hashes : Option H) (hm : c.master = .request hashes) :
      HashStep S sync c { c with store := S.storeHashes c.store hashes, dirs := (nextDir c.dirs).2,
                                 master := masterAfterRequest S (nextDir c.dirs).1 }
  /-- rank 0 calls `process_requests` in `hash_file` (144) -/
  | poll (c : HashState D H σ) (d : D) (n : Nat) (hm : c.master = .hashing d (n + 1)) :
      HashStep S sync c { c with master := .probing (.hashing d n) }
  /-- `hash_dir` returns on rank 0 -/
  | hash0 (c : HashState D H σ) (d : D) (hm : c.master = .hashing d 0) :
      HashStep S sync c { c with master := .request (some (S.hash d)), hashed := c.hashed ++ [(0, d)] }
  /-- `Iprobe` finds a message (119-125) -/
  | probe (c : HashState D H σ) (k : HashCont D) (source : Nat) (hashes : Option H) (h0 : 0 < source) (hr : source < S.P)
      (hm : c.master = .probing k) (hu : c.up source = some hashes) :
      HashStep S sync c { c with up := upd c.up source none, store := S.storeHashes c.store hashes, dirs := (nextDir c.dirs).2,
                                 master := .replying source (nextDir c.dirs).1 k }
  /-- `Iprobe` returns False (129-131) -/
  | leave (c : HashState D H σ) (k : HashCont D) (hm : c.master = .probing k) :
      HashStep S sync c { c with master := masterAfterProbing S.P c.num_finished k }
  /-- `comm.send(next_dir, dest=source)` is called (126) -/
  | reply (c : HashState D H σ) (source : Nat) (next_dir : Option D) (k : HashCont D) (hm : c.master = .replying source next_dir k) :
      HashStep S sync c { c with down := upd c.down source (some next_dir), master := .sending source next_dir k }
  /-- `comm.send(next_dir, dest=source)` returns (127-128) -/
  | replied (c : HashState D H σ) (source : Nat) (next_dir : Option D) (k : HashCont D) (hm : c.master = .sending source next_dir k)
      (hs : sync = true → c.down source = none) :
      HashStep S sync c { c with num_finished := countFinished c.num_finished next_dir, master := .probing k }

/-- States which can occur in a run. -/
inductive HashReach (S : HashSys D H σ) (sync : Bool) (dirs : List D) (store : σ) : HashState D H σ → Prop
  | start : HashReach S sync dirs store (hashStart dirs store)
  | step (c c' : HashState D H σ) : HashReach S sync dirs store c → HashStep S sync c c' → HashReach S sync dirs store c'

/-- An execution with `n` steps which change the state. -/
inductive HashRun (S : HashSys D H σ) (sync : Bool) (dirs : List D) (store : σ) : Nat → HashState D H σ → Prop
  | start : HashRun S sync dirs store 0 (hashStart dirs store)
  | idle (n : Nat) (c : HashState D H σ) : HashRun S sync dirs store n c → HashStep S sync c c → HashRun S sync dirs store n c
  | step (n : Nat) (c c' : HashState D H σ) : HashRun S sync dirs store n c → HashStep S sync c c' → c' ≠ c →
      HashRun S sync dirs store (n + 1) c'

/-! ### Hashes of a directory, output files and database -/

section Data

variable {ν π η β : Type*} [DecidableEq ν] [DecidableEq π] [DecidableEq β]

/-- `d[key] = value` -/
def kset {κ v : Type*} [DecidableEq κ] : List (κ × v) → κ → v → List (κ × v)
  | [], key, val => [(key, val)]
  | (k, w) :: rest, key, val => if k = key then (k, val) :: rest else (k, w) :: kset rest key val

/-- `d[key]`, as an option -/
def kget {κ v : Type*} [DecidableEq κ] : List (κ × v) → κ → Option v
  | [], _ => none
  | (k, w) :: rest, key => if k = key then some w else kget rest key

/-- `d.update(other)` -/
def kupdate {κ v : Type*} [DecidableEq κ] (d other : List (κ × v)) : List (κ × v) :=
  other.foldl (fun acc e => kset acc e.1 e.2) d

/-- Options of `recursive_hash` (230-232): path of the output file relative to the base directory, name of the output file in each directory (both after
`os.path.normpath`), the patterns as functions which say what they match. -/
structure HashOpts (ν π : Type*) where
  all_dirs_file : Option π
  per_dir_file : Option ν
  incl : Option (List (π → Bool))
  excl : Option (List (π → Bool))

/-- Is a file one of the output files? (171-175) -/
def isOutFile (o : HashOpts ν π) (name : ν) (rel_path : π) : Bool :=
  let is_out_file := match o.all_dirs_file with
    | some f => decide (rel_path = f)
    | none => false
  match o.per_dir_file with
  | some f => if name = f then true else is_out_file
  | none => is_out_file

/-- Include and exclude rules (178-184) -/
def doFile (o : HashOpts ν π) (rel_path : π) : Bool :=
  let do_file := match o.incl with
    | none => true
    | some pats => pats.any (fun p => p rel_path)
  match o.excl with
  | some pats => if pats.any (fun p => p rel_path) then false else do_file
  | none => do_file

/-- The hash of a file (186-196). `hash_file` gives `none` where it raises `IOError`. -/
def hashOf (cache : List (π × η)) (hash_file : π → Option η) (rel_path : π) : Option η :=
  match kget cache rel_path with
  | some h => some h
  | none => hash_file rel_path

/-- The loop over files in `hash_dir` (165-199): `hashes` and `hashes_with_path`. A directory is the list of its files: name (normalised) and path
relative to the base directory. -/
def hashDirLoop (o : HashOpts ν π) (cache : List (π × η)) (hash_file : π → Option η) :
    List (ν × π) → List (ν × Option η) × List (π × Option η) → List (ν × Option η) × List (π × Option η)
  | [], acc => acc
  | (name, rel_path) :: rest, acc =>
    if isOutFile o name rel_path = false ∧ doFile o rel_path = true then
      hashDirLoop o cache hash_file rest
        (kset acc.1 name (hashOf cache hash_file rel_path), kset acc.2 rel_path (hashOf cache hash_file rel_path))
    else hashDirLoop o cache hash_file rest acc

/-- Result of `hash_dir` (227) -/
def hashDir (o : HashOpts ν π) (cache : List (π × η)) (hash_file : π → Option η) (filenames : List (ν × π)) : List (π × Option η) :=
  (hashDirLoop o cache hash_file filenames ([], [])).2

/-- Lines of an output file (268, 273-274, and 212, 222-223): the names in increasing order, each with its hash (`none`: "UNREADABLE"). -/
def hashLines {κ v : Type*} [LinearOrder κ] (hashes : List (κ × Option v)) : List (κ × Option v) :=
  ((hashes.map Prod.fst).insertionSort (· ≤ ·)).map (fun name => (name, (kget hashes name).join))

/-- The lines of the file written to a directory (222-223) -/
def perDirLines {ν : Type*} [LinearOrder ν] (o : HashOpts ν π) (cache : List (π × η)) (hash_file : π → Option η) (filenames : List (ν × π)) :
    List (ν × Option η) :=
  hashLines (hashDirLoop o cache hash_file filenames ([], [])).1

/-- A row of the table in the database (54). `run` stands for the base directory and the hash type. -/
structure HashRow (β π η : Type*) where
  run : β
  path : π
  hash : η
  deriving DecidableEq

/-- `DirectoryList.all_hashes` and the contents of the database as of the last commit. -/
structure HashStore (β π η : Type*) where
  all_hashes : List (π × Option η)
  db : List (HashRow β π η)

/-- The rows inserted for one directory (87-90) -/
def newRows (run : β) (cache : List (π × η)) : List (π × Option η) → List (HashRow β π η)
  | [] => []
  | (name, val) :: rest =>
    match kget cache name, val with
    | none, some v => ⟨run, name, v⟩ :: newRows run cache rest
    | _, _ => newRows run cache rest

/-- `store_hashes` (79-91). The rows become visible together with the `commit`. `con`: is there a database? -/
def storeHashes (con : Bool) (run : β) (cache : List (π × η)) (st : HashStore β π η) : Option (List (π × Option η)) → HashStore β π η
  | none => st
  | some hashes =>
    { all_hashes := kupdate st.all_hashes hashes
      db := if con then st.db ++ newRows run cache hashes else st.db }

/-- The hashes read from the database when resuming (60-62) -/
def readCache (run : β) (db : List (HashRow β π η)) : List (π × η) :=
  db.foldl (fun acc row => if row.run = run then kset acc row.path row.hash else acc) []

/-- `DirectoryList.__init__` (38-72): the cache and the contents of the database at the start, or an exception. -/
def openDatabase (con resume : Bool) (run : β) (db : List (HashRow β π η)) : Except Err (List (π × η) × List (HashRow β π η)) :=
  let cache := if con && resume then readCache run db else []
  let db' := if con && !resume then [] else db
  if resume && cache.isEmpty then .error .other else .ok (cache, db')

/-- The protocol with `hash_dir` and `store_hashes` -/
def hashTool (P : Nat) (o : HashOpts ν π) (hash_file : π → Option η) (con : Bool) (run : β) (cache : List (π × η))
    (polls : List (ν × π) → Nat) : HashSys (List (ν × π)) (List (π × Option η)) (HashStore β π η) :=
  { P := P, hash := hashDir o cache hash_file, storeHashes := storeHashes con run cache, polls := polls }

/-- Database contents that can be found after any number of runs of the tool each of which was stopped at an arbitrary point. The first run starts
without `resume`, the later ones resume, on any number of ranks; in between other runs may add rows for other base directories or hash types. -/
inductive HashCrashes (o : HashOpts ν π) (hash_file : π → Option η) (run : β) (dirs : List (List (ν × π))) : List (HashRow β π η) → Prop
  | first (P : Nat) (db0 : List (HashRow β π η)) (cache : List (π × η)) (db : List (HashRow β π η)) (polls : List (ν × π) → Nat) (sync : Bool)
      (c : HashState (List (ν × π)) (List (π × Option η)) (HashStore β π η))
      (hopen : openDatabase true false run db0 = .ok (cache, db))
      (hreach : HashReach (hashTool P o hash_file true run cache polls) sync dirs ⟨[], db⟩ c) :
      HashCrashes o hash_file run dirs c.store.db
  | resumed (P : Nat) (db0 : List (HashRow β π η)) (cache : List (π × η)) (db : List (HashRow β π η)) (polls : List (ν × π) → Nat) (sync : Bool)
      (c : HashState (List (ν × π)) (List (π × Option η)) (HashStore β π η))
      (h0 : HashCrashes o hash_file run dirs db0)
      (hopen : openDatabase true true run db0 = .ok (cache, db))
      (hreach : HashReach (hashTool P o hash_file true run cache polls) sync dirs ⟨[], db⟩ c) :
      HashCrashes o hash_file run dirs c.store.db
  | other (db0 rows : List (HashRow β π η)) (h0 : HashCrashes o hash_file run dirs db0) (hrows : ∀ row ∈ rows, row.run ≠ run) :
      HashCrashes o hash_file run dirs (db0 ++ rows)

end Data

end Verif
