import Verif.Model.SwiftUnits
import Verif.Model.ReadBinary

/-!
Wrappers of HDF5 files with SWIFT metadata (python/virgo/formats/swift.py 28-77 and 231-356, python/virgo/formats/soap.py 7-14). Arithmetic is exact.

An HDF5 file is a list of objects with their absolute paths; the root has the path `[]`. There are no links. Exponents and conversion factors of datasets are those of `UnitAttrs`; powers are
given by any function `pow`. The ampere has the value `ampere` in CGS units. What the package swiftsimio makes from the metadata is given by any function `sio`. Data are one-dimensional.
-/

namespace Verif

/-- Values of attributes: numbers, arrays, and others such as strings -/
inductive AttrVal (K : Type*)
  | scalar (x : K)
  | array (xs : List K)
  | text

/-- Objects in HDF5 files: datasets, groups, named types -/
inductive H5Obj (K : Type*)
  | dataset (data : List K) (attrs : UnitAttrs K K)
  | group (attrs : List (Name × AttrVal K))
  | namedType

abbrev H5 (K : Type*) := List (List Name × H5Obj K)

variable {K : Type*} [Field K] [LinearOrder K]

/-- The object with a path -/
def H5.obj (f : H5 K) (p : List Name) : Option (H5Obj K) := (f.find? (fun o => o.1 = p)).map (·.2)

/-- Parts of a path between slashes; `cur` has the characters since the last slash, last one first. -/
def slashParts (cur : Name) : Name → List Name
  | [] => [cur.reverse]
  | c :: rest => if c = '/' then cur.reverse :: slashParts [] rest else slashParts (c :: cur) rest

/-- The HDF5 library ignores empty parts and single dots. -/
def h5Components (key : Name) : List Name := (slashParts [] key).filter (fun s => s ≠ [] ∧ s ≠ ['.'])

/-- From the object `p` to the one with the path `cs` relative to it -/
def h5Walk (f : H5 K) (p : List Name) : List Name → Except Err (List Name)
  | [] => .ok p
  | c :: cs =>
    match H5.obj f p with
    | some (.group _) => if (H5.obj f (p ++ [c])).isSome then h5Walk f (p ++ [c]) cs else .error .keyError
    | _ => .error .keyError

/-- `obj[key]` of the `h5py.Group` with path `p`: the path of the object found. An empty name is refused by the HDF5 library. -/
def h5Open (f : H5 K) (p : List Name) (key : Name) : Except Err (List Name) :=
  match key with
  | [] => .error .other
  | '/' :: _ => h5Walk f [] (h5Components key)
  | _ => h5Walk f p (h5Components key)

/-- `obj[key].attrs` for a group -/
def h5Attrs (f : H5 K) (p : List Name) (key : Name) : Except Err (List (Name × AttrVal K)) :=
  match h5Open f p key with
  | .error e => .error e
  | .ok q =>
    match H5.obj f q with
    | some (.group attrs) => .ok attrs
    | _ => .error .other

/-- `float(value)` -/
def floatOf : AttrVal K → Except Err K
  | .scalar x => .ok x
  | .array [x] => .ok x
  | .array _ => .error .typeError
  | .text => .error .valueError

/-- `{name : float(value) for name, value in attrs.items()}` (33, 34, 46) -/
def floatDict : List (Name × AttrVal K) → Except Err (List (Name × K))
  | [] => .ok []
  | (name, value) :: rest =>
    match floatOf value with
    | .error e => .error e
    | .ok x =>
      match floatDict rest with
      | .error e => .error e
      | .ok d => .ok ((name, x) :: d)

/-- `d[name]` -/
def attrGet {α : Type*} (d : List (Name × α)) (name : Name) : Except Err α :=
  match d.find? (fun x => x.1 = name) with
  | none => .error .keyError
  | some x => .ok x.2

/-- Base quantities -/
inductive BaseQuantity
  | length | mass | time | temperature | angle | current
  deriving DecidableEq

/-- Names of units which are defined: `snap_length`, ..., `code_length`, ..., `a`, `h`, `swift_mpc`, `swift_msun`, `newton_G` -/
inductive RegName
  | snap (q : BaseQuantity)
  | code (q : BaseQuantity)
  | a | h | swiftMpc | swiftMsun | newtonG
  deriving DecidableEq

/-- A `UnitRegistry`: units with their values in CGS units, the last one first -/
abbrev Registry (K : Type*) := List (RegName × K)

/-- Lines 46-52: the units of one group of attributes -/
def defineBase (ampere : K) (name : BaseQuantity → RegName) (attrs : List (Name × AttrVal K)) (reg : Registry K) : Except Err (Registry K) :=
  match floatDict attrs with
  | .error e => .error e
  | .ok units_cgs =>
    match attrGet units_cgs "Unit length in cgs (U_L)".toList with
    | .error e => .error e
    | .ok uL =>
      match attrGet units_cgs "Unit mass in cgs (U_M)".toList with
      | .error e => .error e
      | .ok uM =>
        match attrGet units_cgs "Unit time in cgs (U_t)".toList with
        | .error e => .error e
        | .ok ut =>
          match attrGet units_cgs "Unit temperature in cgs (U_T)".toList with
          | .error e => .error e
          | .ok uT =>
            match attrGet units_cgs "Unit current in cgs (U_I)".toList with
            | .error e => .error e
            | .ok uI =>
              .ok ((name .current, uI * ampere) :: (name .angle, 1) :: (name .temperature, uT) :: (name .time, ut) :: (name .mass, uM) :: (name .length, uL) :: reg)

/-- Lines 43-52: one iteration of the loop over the groups -/
def defineGroup (ampere : K) (f : H5 K) (p : List Name) (groupName : Name) (name : BaseQuantity → RegName) (reg : Registry K) : Except Err (Registry K) :=
  match h5Open f p groupName with
  | .error _ => .ok reg
  | .ok _ =>
    match h5Attrs f p groupName with
    | .error e => .error e
    | .ok attrs => defineBase ampere name attrs reg

/-- The value of a unit -/
def Registry.value (reg : Registry K) (n : RegName) : Option K := (reg.find? (fun x => x.1 = n)).map (·.2)

/-- `soap_unit_registry_from_snapshot(snap)` (28-77) for the group with path `p`. A unit system with a unit which is not defined (59-67) is a UnitParseError. -/
def soapRegistry (ampere : K) (f : H5 K) (p : List Name) : Except Err (Registry K) :=
  match h5Attrs f p "PhysicalConstants/CGS".toList with
  | .error e => .error e
  | .ok pcAttrs =>
    match floatDict pcAttrs with
    | .error e => .error e
    | .ok physical_constants_cgs =>
      match h5Attrs f p "Cosmology".toList with
      | .error e => .error e
      | .ok cosmoAttrs =>
        match floatDict cosmoAttrs with
        | .error e => .error e
        | .ok cosmology =>
          match attrGet cosmology "Scale-factor".toList with
          | .error e => .error e
          | .ok a =>
            match attrGet cosmology "h".toList with
            | .error e => .error e
            | .ok h =>
              match defineGroup ampere f p "Units".toList .snap [] with
              | .error e => .error e
              | .ok reg =>
                match defineGroup ampere f p "InternalCodeUnits".toList .code reg with
                | .error e => .error e
                | .ok reg =>
                  let reg := (RegName.h, h) :: (.a, a) :: reg
                  if [BaseQuantity.length, .mass, .time, .temperature, .angle, .current].all (fun q => (Registry.value reg (.snap q)).isSome) = true then
                    match attrGet physical_constants_cgs "parsec".toList with
                    | .error e => .error e
                    | .ok parsec =>
                      match attrGet physical_constants_cgs "solar_mass".toList with
                      | .error e => .error e
                      | .ok solar_mass =>
                        match attrGet physical_constants_cgs "newton_G".toList with
                        | .error e => .error e
                        | .ok newton_G => .ok ((.newtonG, newton_G) :: (.swiftMsun, solar_mass) :: (.swiftMpc, 1000000 * parsec) :: reg)
                  else .error .other

/-- The base units of the registry's unit system and `a`, `h` (93-97, 112, 121) -/
def Registry.base (reg : Registry K) (s : UnitSym) : K :=
  (Registry.value reg (match s with
    | .I => .snap .current
    | .L => .snap .length
    | .M => .snap .mass
    | .T => .snap .temperature
    | .t => .snap .time
    | .a => .a
    | .h => .h)).getD 0

/-- What swiftsimio makes from the metadata: the values of the base units, and the cosmology, which is not looked at -/
structure SwiftsimioMeta (K : Type*) where
  units : UnitSym → K
  cosmology : Nat

/-- Attributes of the wrappers which the methods use; `none` if they are not set -/
structure Attached (K : Type*) where
  soap_registry : Option (Registry K) := none
  swiftsimio_units : Option (UnitSym → K) := none
  mode : Option Name := none
  cosmology : Option Nat := none
  expansion_factor : Option K := none

/-- What `SwiftGroup.__getitem__` returns: a `SwiftDataset` (with its copy of the attributes), a `SwiftGroup` or the object of h5py -/
inductive SwiftObj (K : Type*)
  | dataset (path : List Name) (attrs : UnitAttrs K K) (att : Attached K)
  | group (path : List Name) (att : Attached K)
  | raw (path : List Name)

/-- `self.x`, where the wrapped object has no such attribute (243-244) -/
def selfAttr {α : Type*} : Option α → Except Err α
  | none => .error .attributeError
  | some x => .ok x

/-- Lines 309-313: the attributes of the group, set on the result -/
def attach (self : Attached K) : Except Err (Attached K) :=
  match selfAttr self.soap_registry with
  | .error e => .error e
  | .ok r =>
    match selfAttr self.swiftsimio_units with
    | .error e => .error e
    | .ok u =>
      match selfAttr self.mode with
      | .error e => .error e
      | .ok m =>
        match selfAttr self.cosmology with
        | .error e => .error e
        | .ok c =>
          match selfAttr self.expansion_factor with
          | .error e => .error e
          | .ok x => .ok { soap_registry := some r, swiftsimio_units := some u, mode := some m, cosmology := some c, expansion_factor := some x }

/-- `SwiftGroup.__getitem__(key)` (300-314) -/
def swiftGet (f : H5 K) (path : List Name) (att : Attached K) (key : Name) : Except Err (SwiftObj K) :=
  match h5Open f path key with
  | .error e => .error e
  | .ok q =>
    match H5.obj f q with
    | some (.dataset _ attrs) =>
      match attach att with
      | .error e => .error e
      | .ok att => .ok (.dataset q attrs att)
    | some (.group _) =>
      match attach att with
      | .error e => .error e
      | .ok att => .ok (.group q att)
    | _ => .ok (.raw q)

/-- `obj[k1][k2]...` with strings as keys, which only groups have -/
def swiftChain (f : H5 K) (o : SwiftObj K) : List Name → Except Err (SwiftObj K)
  | [] => .ok o
  | k :: ks =>
    match o with
    | .group path att =>
      match swiftGet f path att k with
      | .error e => .error e
      | .ok o => swiftChain f o ks
    | _ => .error .other

/-- `SwiftFile.__init__(mode, metadata_path, ...)` (329-346). `SwiftSnapshot` (349-356) and `SOAPCatalogue` (soap.py 7-14) have the path "/" and the mode "soap" if none is given. -/
def swiftFile (ampere : K) (sio : H5 K → List Name → Except Err (SwiftsimioMeta K)) (f : H5 K) (mode metadataPath : Name) : Except Err (SwiftObj K) :=
  match h5Open f [] metadataPath with
  | .error e => .error e
  | .ok p =>
    match soapRegistry ampere f p with
    | .error e => .error e
    | .ok reg =>
      match sio f p with
      | .error e => .error e
      | .ok s =>
        match h5Attrs f p "Cosmology".toList with
        | .error e => .error e
        | .ok attrs =>
          match attrGet attrs "Scale-factor".toList with
          | .error e => .error e
          | .ok (.array (x :: _)) =>
            .ok (.group [] { soap_registry := some reg, swiftsimio_units := some s.units, mode := some mode, cosmology := some s.cosmology, expansion_factor := some x })
          | .ok _ => .error .indexError

/-- `SwiftSnapshot(..., mode=mode)` (349-356) and `SOAPCatalogue(..., mode=mode)` (soap.py 12-14) -/
def swiftSnapshot (ampere : K) (sio : H5 K → List Name → Except Err (SwiftsimioMeta K)) (f : H5 K) (mode : Option Name) : Except Err (SwiftObj K) :=
  swiftFile ampere sio f (mode.getD "soap".toList) "/".toList

/-- What is read: a `unyt_array`, or a `cosmo_array` with the power of the expansion factor and its value -/
inductive SwiftData (K : Type*)
  | unyt (data : List K) (units : UnitResult K K)
  | cosmo (data : List K) (units : UnitResult K K) (comoving : Bool) (aExponent aValue : K)

/-- `SwiftDataset.__getitem__(key)` (268-287); `sel` is what the key selects. -/
def datasetGet (pow : K → K → K) (f : H5 K) (path : List Name) (attrs : UnitAttrs K K) (att : Attached K) (sel : List K → Except Err (List K)) : Except Err (SwiftData K) :=
  match H5.obj f path with
  | some (.dataset all _) =>
    match sel all with
    | .error e => .error e
    | .ok data =>
      match selfAttr att.mode with
      | .error e => .error e
      | .ok mode =>
        if mode = "soap".toList then
          match selfAttr att.soap_registry with
          | .error e => .error e
          | .ok reg =>
            match soapUnits pow (Registry.base reg) attrs with
            | .error e => .error e
            | .ok units => .ok (.unyt data units)
        else if mode = "swiftsimio".toList then
          match selfAttr att.swiftsimio_units with
          | .error e => .error e
          | .ok base =>
            match swiftsimioUnits pow base attrs with
            | .error e => .error e
            | .ok (units, comoving) =>
              match selfAttr att.expansion_factor with
              | .error e => .error e
              | .ok a_value =>
                match attrs.get .a with
                | .error e => .error e
                | .ok a_exponent => .ok (.cosmo data units comoving a_exponent a_value)
        else .error .valueError
  | _ => .error .other

/-- `list(group)` (249-250): the names in the group of h5py, in the order of the file -/
def swiftIter (f : H5 K) (path : List Name) : List Name :=
  f.filterMap (fun o => match o.1.reverse with
    | [] => none
    | n :: r => if r.reverse = path then some n else none)

/-- `list(group.items())` of `Mapping`: `(key, self[key])` for every key -/
def swiftItems (f : H5 K) (path : List Name) (att : Attached K) : List Name → Except Err (List (Name × SwiftObj K))
  | [] => .ok []
  | n :: rest =>
    match swiftGet f path att n with
    | .error e => .error e
    | .ok o =>
      match swiftItems f path att rest with
      | .error e => .error e
      | .ok l => .ok ((n, o) :: l)

/-- `key in group` of `Mapping`: a KeyError of `self[key]` means that it is not there. -/
def swiftContains (f : H5 K) (path : List Name) (att : Attached K) (key : Name) : Except Err Bool :=
  match swiftGet f path att key with
  | .error .keyError => .ok false
  | .error e => .error e
  | .ok _ => .ok true

/-- `list(dataset)` (249-250): `__iter__` of the dataset of h5py, which gives its elements without units -/
def datasetIter (f : H5 K) (path : List Name) : Except Err (List K) :=
  match H5.obj f path with
  | some (.dataset all _) => .ok all
  | _ => .error .other

/-- `dataset[i]` of h5py for an integer; others than 0, ..., n-1 and -n, ..., -1 are refused. -/
def elementAt (i : Int) (l : List K) : Except Err (List K) :=
  let j := if i < 0 then i + l.length else i
  if j < 0 then .error .indexError
  else match l[j.toNat]? with
    | none => .error .indexError
    | some x => .ok [x]

/-- `i in dataset` of `Mapping`, for an integer: whether `self[i]` is a KeyError -/
def datasetContains (pow : K → K → K) (f : H5 K) (path : List Name) (attrs : UnitAttrs K K) (att : Attached K) (i : Int) : Except Err Bool :=
  match datasetGet pow f path attrs att (elementAt i) with
  | .error .keyError => .ok false
  | .error e => .error e
  | .ok _ => .ok true

end Verif
