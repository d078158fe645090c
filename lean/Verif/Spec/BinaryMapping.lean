import Verif.Model.FileCache
import Verif.Spec.ReadBinary

/-! Which files are open, and which blocks belong to a file -/

namespace Verif.BinaryMapping

/-- There is an open map of the file. -/
def IsOpen {φ : Type} (s : CacheState φ) (fname : φ) : Prop := ∃ (id : Nat) (o : MapObj φ), s.objs[id]? = some o ∧ o.fname = fname ∧ o.closed = false

/-- Dataset `d` holds a map which is open. -/
def Holds {φ : Type} (s : CacheState φ) (d : Nat) : Prop := ∃ (x : CacheDs φ) (id : Nat) (o : MapObj φ), s.datasets[d]? = some x ∧ x.file = some id ∧ s.objs[id]? = some o ∧ o.closed = false

/-- Dataset `d` is for a part of the file. -/
def PartOf {φ : Type} (s : CacheState φ) (d : Nat) (fname : φ) : Prop := ∃ x : CacheDs φ, s.datasets[d]? = some x ∧ x.fname = fname

/-- The block is a dataset, or an attribute of the file or of a group. -/
def Member (root : BGroup) (id : Nat) : Prop :=
  (∃ cs, kindAt root cs = some (some id)) ∨ ∃ cs x, (cs = [] ∨ kindAt root cs = some none) ∧ attrAtPath root cs x = some id

end Verif.BinaryMapping
