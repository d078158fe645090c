import Verif.Model.MultiFile
import Verif.Model.ReadBinary

/-!
`MultiFile.__init__` (python/virgo/mpi/parallel_hdf5.py 314-381) on all ranks: names and numbers of the files, and the assignment of files to ranks, which is `multiFileLayout` of `Model/MultiFile.lean`.
-/

namespace Verif.MultiFileInit

/-- `filenames`: a string, a sequence, or something else -/
inductive Filenames
  | format (s : Name)
  | sequence (l : List Name)
  | other

/-- What is used of the first file: `int(infile[obj].attrs[attr])` and `int(infile[dataset][...])`, which can raise -/
structure FirstFile where
  attr : Name → Name → Except Err Int
  dataset : Name → Except Err Int

/-- `self.filenames`, `self.all_file_indexes`, and the files of the rank -/
structure MultiFile where
  filenames : List Name
  all_file_indexes : List Nat
  layout : FileLayout
  deriving DecidableEq

/-- `np.arange(n)` -/
def arange (n : Int) : List Nat := List.range n.toNat

/-- The part of the first rank (333-345) -/
def readFileIdx (substitute : Name → Nat → Except Err Name) (fs : Name → Option FirstFile) (fmt : Name) (file_nr_attr : Option (Name × Name)) (file_nr_dataset : Option Name) : Except Err (List Nat) :=
  (substitute fmt 0).andThen fun filename =>
  match fs filename with
  | none => .error .ioError
  | some infile => match file_nr_attr, file_nr_dataset with
    | some (obj, attr), _ => (infile.attr obj attr).andThen fun n => .ok (arange n)
    | none, some d => (infile.dataset d).andThen fun n => .ok (arange n)
    | none, none => .error .other

/-- Names for all numbers, and the assignment of files (349-350, 361-381) -/
def finish (P : Nat) (filenames : Except Err (List Name)) (file_idx : List Nat) (p : Nat) : Except Err MultiFile :=
  filenames.andThen fun names => (multiFileLayout names.length P p).andThen fun l => .ok ⟨names, file_idx, l⟩

/-- `MultiFile(filenames, file_nr_attr, file_nr_dataset, file_idx)` (314-381) on each rank. If the first rank raises an exception before `bcast` (348) the others wait for it. -/
def multiFileInit (P : Nat) (substitute : Name → Nat → Except Err Name) (fs : Name → Option FirstFile) (filenames : Filenames) (file_nr_attr : Option (Name × Name)) (file_nr_dataset : Option Name)
    (file_idx : Option (List Nat)) (p : Nat) : Except Err MultiFile :=
  match filenames with
  | .format fmt => match file_idx with
    | some idx => finish P (idx.mapM (substitute fmt)) idx p
    | none => match readFileIdx substitute fs fmt file_nr_attr file_nr_dataset with
      | .error e => if p = 0 then .error e else .error .deadlock
      | .ok idx => finish P (idx.mapM (substitute fmt)) idx p
  | .sequence l => finish P (.ok l) (List.range l.length) p
  | .other => .error .valueError

end Verif.MultiFileInit
