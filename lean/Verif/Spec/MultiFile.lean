import Verif.Model.MpiUtil

namespace Verif

variable {α τ : Type*}

/-- The rows of the dataset in a file, none if the file does not have it. -/
def fileRows (files : Nat → Option (TypedArray τ α)) (f : Nat) : List α := (files f).elim [] TypedArray.rows

/-- The contents of all files in order, each row with the number of its file. -/
def filesWithNr (F : Nat) (files : Nat → Option (TypedArray τ α)) (idx : Nat → Nat) : List (α × Nat) :=
  (List.range F).flatMap (fun f => (fileRows files f).map (fun x => (x, idx f)))

/-- All datasets present have the same type and dimensions. -/
def SameType (F : Nat) (files : Nat → Option (TypedArray τ α)) (t : τ) (d : List Nat) : Prop :=
  ∀ f < F, ∀ a, files f = some a → a.dtype = t ∧ a.dims = d

end Verif
