import Verif.Spec.MultiFileRead
import Verif.Model.MultiFileWrite

namespace Verif.MultiFileWrite

open Verif.MultiFileRead

variable {α β τ : Type*}

/-- What is in a file when it is opened: nothing in mode "w", and in mode "x" if it does not exist; what was in it in mode "r+" if it exists, and in mode "a". -/
def Opened (mode : Mode) (old : Option (H5 τ α β)) (start : H5 τ α β) : Prop :=
  match mode with
  | .w => start = ⟨[], []⟩
  | .x => old = none ∧ start = ⟨[], []⟩
  | .rplus => old = some start
  | .a => start = old.getD ⟨[], []⟩

/-- Names of the output files: all of them, or one with a place for the number of the file -/
def OutNames (substitute : Name → Nat → Except Err Name) (F : Nat) (idx : Nat → Nat) (out : Nat → Name) : NamesArg → Prop
  | .one fmt => ∀ i < F, substitute fmt (idx i) = .ok (out i)
  | .many l => l = (List.range F).map out

/-- HDF5 accepts a property list for a dataset: chunks are at least one and at most the size of the dataset in each dimension and have less than 4 GB, filters need chunks, and the compression
level is at most 9. -/
def Creates {ρ : Type*} (dcpl : Dcpl ρ) (shape : List Nat) (itemsize : Nat) : Prop :=
  (∀ c, dcpl.chunk = some c → c.length = shape.length ∧ (∀ i < c.length, 0 < c.getD i 0 ∧ c.getD i 0 ≤ shape.getD i 0) ∧ c.prod * itemsize < 2 ^ 32) ∧
  ((dcpl.shuffle = true ∨ dcpl.deflate ≠ none) → dcpl.chunk ≠ none) ∧ ∀ l, dcpl.deflate = some l → l ≤ 9

end Verif.MultiFileWrite
