import Verif.Spec.ReadBinary
import Verif.Model.Formats
import Mathlib.Algebra.BigOperators.Group.List.Basic

/-! Layout of binary files, described independently of the classes which read them. -/

namespace Verif

/-- Values (bytes in little endian order) stored in a file under each name -/
abbrev Content := Name → List (List Byte)

/-- An array in a file: name, bytes per element, shape, whether elements have a byte order, and, if it is an attribute, the names of the group and of the attribute -/
structure Row where
  name : Name
  width : Nat
  shape : List Nat
  order : Bool
  attr : Option (Name × Name)
  deriving DecidableEq

/-- Arrays which follow each other, in a Fortran record or not -/
structure Section where
  record : Bool
  rows : List Row
  deriving DecidableEq

abbrev Layout := List Section

/-- Bytes of a value in a big or little endian file -/
def storeItem (big order : Bool) (v : List Byte) : List Byte := if order = true ∧ big = true then v.reverse else v

/-- The `n` lowest bytes of a number in little endian order -/
def leBytes : Nat → Nat → List Byte
  | 0, _ => []
  | n + 1, x => ⟨x % 256, Nat.mod_lt _ (by omega)⟩ :: leBytes n (x / 256)

/-- Marker at the beginning and the end of a record of `n` bytes -/
def markerBytes (big : Bool) (n : Nat) : List Byte := storeItem big true (leBytes 4 n)

def Row.bytes (big : Bool) (C : Content) (r : Row) : List Byte := (C r.name).flatMap (storeItem big r.order)

def Section.payload (big : Bool) (C : Content) (s : Section) : List Byte := s.rows.flatMap (Row.bytes big C)

def Section.bytes (big : Bool) (C : Content) (s : Section) : List Byte :=
  if s.record then markerBytes big (s.payload big C).length ++ s.payload big C ++ markerBytes big (s.payload big C).length else s.payload big C

/-- The file -/
def Layout.bytes (big : Bool) (C : Content) (L : Layout) : List Byte := L.flatMap (Section.bytes big C)

/-- Number and size of the values -/
def Row.Fits (C : Content) (r : Row) : Prop := (C r.name).length = r.shape.prod ∧ ∀ v ∈ C r.name, v.length = r.width

/-- The values have the right number and size and each record is shorter than 2 GB. -/
structure Layout.Fits (C : Content) (L : Layout) : Prop where
  rows : ∀ sec ∈ L, ∀ r ∈ sec.rows, r.Fits C
  records : ∀ sec ∈ L, sec.record = true → (sec.payload false C).length < 2147483648

/-- Value of a scalar of type `int32` -/
def scalarInt (C : Content) (name : Name) : Int := int32Value ((C name).headD [])

/-- The value of the row is found in the file under its name, with the right shape and size of elements. -/
def Row.ReadBack (s : Bool) (file : List Byte) (C : Content) (f : BFile) (r : Row) : Prop :=
  match r.attr with
  | some (group, a) => f.attribute s file group a = .ok (C r.name)
  | none => f.dataset s file r.name = .ok (C r.name) ∧ ∃ id attrs b, BGroup.getItem (r.name.length + 1) f.root r.name = .ok (.dataset id attrs) ∧ f.blocks[id]? = some b ∧
      b.shape = r.shape ∧ b.dtype.itemsize = r.width

/-- Files with this layout and these contents are read correctly, whatever follows, in either byte order and on either kind of machine; nothing else is found in them, and `all_bytes_used()` tells whether anything follows. -/
def Layout.ReadBy (C : Content) (L : Layout) (open_file : Bool → List Byte → Except Err BFile) : Prop :=
  ∀ (s big : Bool) (rest : List Byte), ∃ f, open_file s (L.bytes big C ++ rest) = .ok f ∧
    (∀ sec ∈ L, ∀ r ∈ sec.rows, r.ReadBack s (L.bytes big C ++ rest) C f) ∧
    (∀ name, (∀ sec ∈ L, ∀ r ∈ sec.rows, ¬comps name <+: comps r.name) → f.dataset s (L.bytes big C ++ rest) name = .error .keyError) ∧ (allBytesUsed f.blocks (L.bytes big C ++ rest).length = true ↔ rest = [])

end Verif
