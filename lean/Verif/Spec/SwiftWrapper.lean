import Verif.Model.SwiftWrapper
import Verif.Spec.SwiftUnits

/-!
HDF5 files with SWIFT metadata. Only the types of data, and what h5py does with a path (`h5Open`), are taken from the model.
-/

namespace Verif

variable {K : Type*} [Field K] [LinearOrder K]

/-- A file has a root, its objects have different paths, they are in groups, and their names are names. -/
structure H5.Ok (f : H5 K) : Prop where
  root : ∃ attrs, ([], H5Obj.group attrs) ∈ f
  nodup : (f.map (·.1)).Nodup
  parents : ∀ p n o, (p ++ [n], o) ∈ f → ∃ attrs, (p, H5Obj.group attrs) ∈ f
  names : ∀ p n o, (p ++ [n], o) ∈ f → n ≠ [] ∧ n ≠ ['.'] ∧ '/' ∉ n
  attrs : ∀ p attrs, (p, H5Obj.group attrs) ∈ f → (attrs.map (·.1)).Nodup

/-- Attributes with one number -/
def AttrVal.IsNumber (v : AttrVal K) (x : K) : Prop := v = .scalar x ∨ v = .array [x]

/-- There is a group with attributes which are all numbers. -/
def NumberGroup (f : H5 K) (p : List Name) : Prop := ∃ attrs, (p, H5Obj.group attrs) ∈ f ∧ ∀ a ∈ attrs, ∃ x, a.2.IsNumber x

/-- An attribute of a group is a number. -/
def HasNumber (f : H5 K) (p : List Name) (n : String) (x : K) : Prop := ∃ attrs v, (p, H5Obj.group attrs) ∈ f ∧ (n.toList, v) ∈ attrs ∧ v.IsNumber x

/-- Units in a group -/
structure HasUnits (f : H5 K) (p : List Name) (uI uL uM uT ut : K) : Prop where
  numbers : NumberGroup f p
  I : HasNumber f p "Unit current in cgs (U_I)" uI
  L : HasNumber f p "Unit length in cgs (U_L)" uL
  M : HasNumber f p "Unit mass in cgs (U_M)" uM
  T : HasNumber f p "Unit temperature in cgs (U_T)" uT
  t : HasNumber f p "Unit time in cgs (U_t)" ut

/-- The metadata in the group `p` of a file -/
structure SwiftMetadata (f : H5 K) (p : List Name) (uI uL uM uT ut a h parsec msun G : K) : Prop where
  units : HasUnits f (p ++ ["Units".toList]) uI uL uM uT ut
  code : (∀ o, (p ++ ["InternalCodeUnits".toList], o) ∉ f) ∨ ∃ cI cL cM cT ct, HasUnits f (p ++ ["InternalCodeUnits".toList]) cI cL cM cT ct
  cosmology : NumberGroup f (p ++ ["Cosmology".toList])
  a : ∃ attrs, (p ++ ["Cosmology".toList], H5Obj.group attrs) ∈ f ∧ ("Scale-factor".toList, .array [a]) ∈ attrs
  h : HasNumber f (p ++ ["Cosmology".toList]) "h" h
  constants : NumberGroup f (p ++ ["PhysicalConstants".toList, "CGS".toList])
  parsec : HasNumber f (p ++ ["PhysicalConstants".toList, "CGS".toList]) "parsec" parsec
  msun : HasNumber f (p ++ ["PhysicalConstants".toList, "CGS".toList]) "solar_mass" msun
  G : HasNumber f (p ++ ["PhysicalConstants".toList, "CGS".toList]) "newton_G" G

/-- Values of the base units, of `a` and of `h` -/
def snapBase (ampere uI uL uM uT ut a h : K) : UnitSym → K
  | .I => uI * ampere
  | .L => uL
  | .M => uM
  | .T => uT
  | .t => ut
  | .a => a
  | .h => h

/-- `f[k1][k2]...` with h5py, from the object `p` to the object `q` -/
inductive PlainChain (f : H5 K) : List Name → List Name → List Name → Prop
  | nil (p : List Name) : PlainChain f p [] p
  | cons {p q r : List Name} {k : Name} {ks : List Name} (attrs : List (Name × AttrVal K)) : (p, H5Obj.group attrs) ∈ f → h5Open f p k = .ok q → PlainChain f q ks r →
      PlainChain f p (k :: ks) r

end Verif
