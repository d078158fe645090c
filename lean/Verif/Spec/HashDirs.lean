import Mathlib.Data.List.Basic
import Verif.Model.HashDirs

/-!
What the hashing tool should write. Written without the loops of the model, only with its types (options, rows, directories as lists of files).
-/

namespace Verif

variable {ν π η β : Type*}

/-- A file is to be hashed: it is not one of the output files, it matches a pattern to include if there are any, and no pattern to exclude. -/
def Selected (o : HashOpts ν π) (name : ν) (path : π) : Prop :=
  o.all_dirs_file ≠ some path ∧ o.per_dir_file ≠ some name ∧
    (∀ pats, o.incl = some pats → ∃ p ∈ pats, p path = true) ∧ ∀ pats, o.excl = some pats → ∀ p ∈ pats, p path = false

/-- A file to be hashed anywhere in the tree -/
def SelectedIn (o : HashOpts ν π) (dirs : List (List (ν × π))) (path : π) : Prop :=
  ∃ d ∈ dirs, ∃ name, (name, path) ∈ d ∧ Selected o name path

/-- The lines of the output file: one for every file to be hashed, in increasing order of the paths, with the hash of the file. There is only one such list. -/
def IsHashList [LinearOrder π] (o : HashOpts ν π) (hash_file : π → Option η) (dirs : List (List (ν × π))) (lines : List (π × Option η)) : Prop :=
  lines.Pairwise (fun a b => a.1 < b.1) ∧ ∀ path val, (path, val) ∈ lines ↔ SelectedIn o dirs path ∧ val = hash_file path

/-- The rows for this base directory and hash type are right and no path is there twice. -/
def RowsCorrect (o : HashOpts ν π) (hash_file : π → Option η) (run : β) (dirs : List (List (ν × π))) (db : List (HashRow β π η)) : Prop :=
  db.Pairwise (fun a b => a.run = run → b.run = run → a.path ≠ b.path) ∧
    ∀ row ∈ db, row.run = run → SelectedIn o dirs row.path ∧ hash_file row.path = some row.hash

/-- The rows for this base directory and hash type are those of all files which can be read. -/
def RowsComplete (o : HashOpts ν π) (hash_file : π → Option η) (run : β) (dirs : List (List (ν × π))) (db : List (HashRow β π η)) : Prop :=
  ∀ path hash, SelectedIn o dirs path → hash_file path = some hash → ⟨run, path, hash⟩ ∈ db

/-- Every path is in one directory and once only -/
def PathsDistinct (dirs : List (List (ν × π))) : Prop := (dirs.flatten.map Prod.snd).Nodup

/-- All ranks have left `recursive_hash` (except for writing the output file). -/
def HashDone {D H σ : Type*} (S : HashSys D H σ) (c : HashState D H σ) : Prop :=
  c.master = .finished ∧ ∀ r, 0 < r → r < S.P → c.worker r = .finished

end Verif
