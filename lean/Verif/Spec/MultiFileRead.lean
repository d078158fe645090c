import Verif.Spec.MultiFile
import Verif.Model.MultiFileRead

namespace Verif.MultiFileRead

variable {α β τ γ : Type*}

/-- The first entry with a name -/
def entry : List (Name × γ) → Name → Option γ
  | [], _ => none
  | (n, v) :: rest, name => if n = name then some v else entry rest name

/-- The dataset with a name in a file or in one of its groups -/
def datasetAt (f : H5 τ α β) (group : Option Name) (name : Name) : Option (Dset τ α β) :=
  match group with
  | none => entry f.root name
  | some g => match entry f.groups g with
    | none => none
    | some l => entry l name

/-- Its elements -/
def arrayAt (files : Nat → H5 τ α β) (group : Option Name) (name : Name) (f : Nat) : Option (TypedArray τ α) := (datasetAt (files f) group name).map Dset.arr

/-- Rank `p` reads file `f`. -/
def ReadsFile (F P p f : Nat) : Prop :=
  (∃ first num, multiFileLayout F P p = .ok (.independent first num) ∧ first ≤ f ∧ f < first + num) ∨ ∃ k n, multiFileLayout F P p = .ok (.collective f k n)

/-- File `f` has the dataset, with attributes `a`, and no file before it for which `Q` holds. -/
def FirstWith (F : Nat) (files : Nat → H5 τ α β) (group : Option Name) (name : Name) (Q : Nat → Prop) (a : List (Name × β)) : Prop :=
  ∃ f < F, Q f ∧ (datasetAt (files f) group name).map Dset.attrs = some a ∧ ∀ g < f, Q g → datasetAt (files g) group name = none

/-- What the ranks should have of a dataset: nothing if it is in no file. Otherwise the elements of all files in order, the attributes of the first file read by the rank
which has the dataset, or of the first such file at all, and the numbers of the files of the elements. Each rank has as many elements as `get_elements_per_file` says. -/
def Expected (P F : Nat) (files : Nat → H5 τ α β) (idx : Nat → Nat) (group : Option Name) (read_attributes : Bool) (name : Name) (t : τ) (d : List Nat)
    (out : Nat → Option (AArr τ α β)) (nr : Nat → Option (TypedArray Unit Nat)) : Prop :=
  ((∀ f < F, datasetAt (files f) group name = none) ∧ ∀ p < P, out p = none ∧ nr p = none) ∨
  ((∃ f < F, datasetAt (files f) group name ≠ none) ∧ ∃ rows : Nat → List α, ∃ nrs : Nat → List Nat, ∃ attrs : Nat → Option (List (Name × β)),
    (∀ p < P, out p = some ⟨⟨t, d, rows p⟩, attrs p⟩ ∧ nr p = some ⟨(), [], nrs p⟩ ∧ (nrs p).length = (rows p).length) ∧
    gcat P rows = gcat F (fileRows (arrayAt files group name)) ∧ gcat P (fun p => (rows p).zip (nrs p)) = filesWithNr F (arrayAt files group name) idx ∧
    (∀ p < P, ∃ e, elementsPerFile P F (arrayAt files group name) idx p = .ok e ∧ (rows p).length = (e.map Prod.snd).sum) ∧
    (read_attributes = false → ∀ p < P, attrs p = none) ∧
    (read_attributes = true → ∀ p < P, ∃ a, attrs p = some a ∧
      ((FirstWith F files group name (ReadsFile F P p) a) ∨ ((∀ f < F, ReadsFile F P p f → datasetAt (files f) group name = none) ∧ FirstWith F files group name (fun _ => True) a))))

end Verif.MultiFileRead
