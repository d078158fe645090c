import Verif.Model.ReadBinary

/-!
Readers of group catalogues and Millennium snapshots (python/virgo/formats/subfind_lgadget2.py, subfind_lgadget3.py, subfind_pgadget3.py, subfind_gadget4.py).

The constructors of these classes have the same form: datasets with fixed shapes are declared, the byte order is found, and further datasets are declared whose shapes come from the ones before. They are described by a `Format`, which is run by `Format.parse`.
-/

namespace Verif

/-- Numbers used as sizes and shapes -/
inductive FExpr
  /-- a constant -/
  | const (n : Nat)
  /-- `self[name][...]` of type `int32` -/
  | item (name : Name)
  /-- `self[group].attrs[name][i]` of type `uint32` -/
  | attrItem (group name : Name) (i : Nat)
  /-- `self[last][...] - self[first][...] + 1` -/
  | span (first last : Name)
  /-- `a` if `self[name][...] == 0` and `b` otherwise -/
  | ifZero (name : Name) (a b : Nat)
  /-- `self[group].attrs[name]` of type `int64` -/
  | attrInt64 (group name : Name)
  /-- `b` if `self[group].attrs[name] >= k`, of type `int32`, and `a` otherwise -/
  | ifAttrGe (group name : Name) (k a b : Nat)
  deriving DecidableEq

/-- A call of `add_dataset` or `add_attribute`: size of the elements, whether they have a byte order, and shape -/
structure BField where
  name : Name
  attr : Bool
  order : Bool
  size : FExpr
  dims : List FExpr
  deriving DecidableEq

/-- Some declarations: only made if `self[name][...] > 0` for the name given, between `start_fortran_record()` and `end_fortran_record()` or not -/
structure FPart where
  guard : Option Name
  record : Bool
  fields : List BField
  deriving DecidableEq

/-- A class which reads binary files. If `check` is a name, the byte order is changed if the dataset with this name is not between 1 and 65535; otherwise the header is a Fortran record, started by `start_fortran_record(auto_byteswap=True)`. -/
structure Format where
  check : Option Name
  header : List BField
  body : List FPart
  deriving DecidableEq

/-- `self[name][...]` -/
def BFile.dataset (s : Bool) (file : List Byte) (f : BFile) (name : Name) : Except Err (List (List Byte)) :=
  match BGroup.getItem (name.length + 1) f.root name with
  | .error e => .error e
  | .ok (.group _) => .error .typeError
  | .ok (.dataset id _) =>
    match f.blocks[id]? with
    | none => .error .other
    | some b => b.readAll s file

/-- `self[group].attrs[name]` -/
def BFile.attribute (s : Bool) (file : List Byte) (f : BFile) (group name : Name) : Except Err (List (List Byte)) :=
  match BGroup.getItem (group.length + 1) f.root group with
  | .error e => .error e
  | .ok (.dataset _ _) => .error .other
  | .ok (.group g) =>
    match dget g.attrs name with
    | none => .error .keyError
    | some id =>
      match f.blocks[id]? with
      | none => .error .other
      | some b => b.readAll s file

/-- Value of a scalar of type `int32` -/
def BFile.int (s : Bool) (file : List Byte) (f : BFile) (name : Name) : Except Err Int :=
  match f.dataset s file name with
  | .error e => .error e
  | .ok vals => .ok (int32Value (vals.headD []))

/-- Value of an `int64` -/
def int64Value (value : List Byte) : Int := if leNat value ≥ 9223372036854775808 then (leNat value : Int) - 18446744073709551616 else leNat value

def FExpr.eval (s : Bool) (file : List Byte) (f : BFile) : FExpr → Except Err Int
  | .const n => .ok n
  | .item name => f.int s file name
  | .attrItem group name i =>
    match f.attribute s file group name with
    | .error e => .error e
    | .ok vals => match vals[i]? with
      | none => .error .indexError
      | some v => .ok (leNat v)
  | .span first last =>
    match f.int s file last with
    | .error e => .error e
    | .ok b => match f.int s file first with
      | .error e => .error e
      | .ok a => .ok (b - a + 1)
  | .ifZero name a b =>
    match f.int s file name with
    | .error e => .error e
    | .ok v => .ok (if v = 0 then a else b)
  | .attrInt64 group name =>
    match f.attribute s file group name with
    | .error e => .error e
    | .ok vals => .ok (int64Value (vals.headD []))
  | .ifAttrGe group name k a b =>
    match f.attribute s file group name with
    | .error e => .error e
    | .ok vals => .ok (if int32Value (vals.headD []) ≥ k then b else a)

/-- Negative numbers as sizes or shapes are outside the model (the code would move backwards in the file). -/
def FExpr.evalNat (s : Bool) (file : List Byte) (f : BFile) (e : FExpr) : Except Err Nat :=
  match e.eval s file f with
  | .error e => .error e
  | .ok v => if v < 0 then .error .other else .ok v.toNat

def evalDims (s : Bool) (file : List Byte) (f : BFile) : List FExpr → Except Err (List Nat)
  | [] => .ok []
  | e :: rest =>
    match e.evalNat s file f with
    | .error e => .error e
    | .ok n => match evalDims s file f rest with
      | .error e => .error e
      | .ok l => .ok (n :: l)

/-- `add_dataset(name, dtype, shape)`, `add_attribute(name, dtype, shape)` -/
def addField (s : Bool) (file : List Byte) (f : BFile) (fld : BField) : Except Err BFile :=
  match fld.size.evalNat s file f with
  | .error e => .error e
  | .ok size => match evalDims s file f fld.dims with
    | .error e => .error e
    | .ok shape => match f.addBlock fld.name ⟨size, if fld.order then '=' else '|'⟩ shape fld.attr with
      | (_, some e) => .error e
      | (f, none) => .ok f

def addFields (s : Bool) (file : List Byte) (f : BFile) : List BField → Except Err BFile
  | [] => .ok f
  | fld :: rest => match addField s file f fld with
    | .error e => .error e
    | .ok f => addFields s file f rest

/-- Declarations inside a Fortran record -/
def addRecord (s : Bool) (file : List Byte) (f : BFile) (auto : Bool) (fields : List BField) : Except Err BFile :=
  match f.startRecord s file auto with
  | (_, some e) => .error e
  | (f, none) => match addFields s file f fields with
    | .error e => .error e
    | .ok f => match f.endRecord s file with
      | (_, some e) => .error e
      | (f, none) => .ok f

def addPart (s : Bool) (file : List Byte) (f : BFile) (p : FPart) : Except Err BFile :=
  let go := if p.record then addRecord s file f false p.fields else addFields s file f p.fields
  match p.guard with
  | none => go
  | some name => match f.int s file name with
    | .error e => .error e
    | .ok v => if v > 0 then go else .ok f

def addParts (s : Bool) (file : List Byte) (f : BFile) : List FPart → Except Err BFile
  | [] => .ok f
  | p :: rest => match addPart s file f p with
    | .error e => .error e
    | .ok f => addParts s file f rest

/-- The header and the byte order. The test of the number of files is found at subfind_lgadget2.py 41-43, 142-144, 241-243, subfind_lgadget3.py 54-56, 197-199 and subfind_pgadget3.py 43-45, 98-100, 190-192, 332-334. -/
def Format.open (s : Bool) (file : List Byte) (F : Format) : Except Err BFile :=
  match F.check with
  | none => addRecord s file .new true F.header
  | some name =>
    match addFields s file .new F.header with
    | .error e => .error e
    | .ok f => match f.int s file name with
      | .error e => .error e
      | .ok nfiles => if nfiles < 1 ∨ nfiles > 65535 then .ok (f.enableByteswap s true).1 else .ok f

/-- The constructor -/
def Format.parse (s : Bool) (file : List Byte) (F : Format) : Except Err BFile :=
  match F.open s file with
  | .error e => .error e
  | .ok f => addParts s file f F.body

/-! ### The classes -/

def dset4 (name : String) (dims : List FExpr) : BField := ⟨name.toList, false, true, .const 4, dims⟩
def dset8 (name : String) (dims : List FExpr) : BField := ⟨name.toList, false, true, .const 8, dims⟩
def dsetN (size : Nat) (name : String) (dims : List FExpr) : BField := ⟨name.toList, false, true, .const size, dims⟩

/-- A part without condition which is not a record -/
def plain (fields : List BField) : FPart := ⟨none, false, fields⟩

/-- A record without condition -/
def record (fields : List BField) : FPart := ⟨none, true, fields⟩

/-- `subfind_lgadget2.GroupTabFile` (subfind_lgadget2.py 27-51) -/
def lgadget2GroupTab : Format :=
  let n : FExpr := .item "Ngroups".toList
  { check := some "NTask".toList
    header := [dset4 "Ngroups" [], dset4 "Nids" [], dset4 "TotNgroups" [], dset4 "NTask" []]
    body := [plain [dset4 "GroupLen" [n], dset4 "GroupOffset" [n], dset4 "GroupMinLen" []], plain [dset4 "Count" [.item "GroupMinLen".toList]]] }

/-- `subfind_lgadget2.GroupIDsFile` (73-103). The name which is tested is not that of any dataset. -/
def lgadget2GroupIDs (id_bytes : Nat) : Format :=
  { check := some "NFiles".toList
    header := [dset4 "Ngroups" [], dset4 "Nids" [], dset4 "TotNgroups" [], dset4 "NTask" []]
    body := [plain [dsetN id_bytes "GroupIDs" [.item "Nids".toList]]] }

/-- `subfind_lgadget2.SubTabFile` (127-184) for `id_bytes` 4 or 8 -/
def lgadget2SubTab (id_bytes : Nat) : Format :=
  let ng : FExpr := .item "Ngroups".toList
  let ns : FExpr := .item "Nsubhalos".toList
  { check := some "NFiles".toList
    header := [dset4 "Ngroups" [], dset4 "Nids" [], dset4 "TotNgroups" [], dset4 "NFiles" [], dset4 "Nsubhalos" []]
    body := [plain [dset4 "NsubPerHalo" [ng], dset4 "FirstSubOfHalo" [ng],
      dset4 "SubLen" [ns], dset4 "SubOffset" [ns], dset4 "SubParentHalo" [ns],
      dset4 "Halo_M_Mean200" [ng], dset4 "Halo_R_Mean200" [ng], dset4 "Halo_M_Crit200" [ng], dset4 "Halo_R_Crit200" [ng], dset4 "Halo_M_TopHat200" [ng], dset4 "Halo_R_TopHat200" [ng],
      dset4 "SubPos" [ns, .const 3], dset4 "SubVel" [ns, .const 3], dset4 "SubVelDisp" [ns], dset4 "SubVmax" [ns], dset4 "SubSpin" [ns, .const 3],
      dsetN id_bytes "SubMostBoundID" [ns], dset4 "SubHalfMass" [ns]]] }

/-- `subfind_lgadget2.SubIDsFile` (227-257) for `id_bytes` 4 or 8 -/
def lgadget2SubIDs (id_bytes : Nat) : Format :=
  { check := some "NFiles".toList
    header := [dset4 "Ngroups" [], dset4 "Nids" [], dset4 "TotNgroups" [], dset4 "NFiles" []]
    body := [plain [dsetN id_bytes "GroupIDs" [.item "Nids".toList]]] }

def attr4 (name : String) (dims : List FExpr) : BField := ⟨name.toList, true, true, .const 4, dims⟩
def attr8 (name : String) (dims : List FExpr) : BField := ⟨name.toList, true, true, .const 8, dims⟩

/-- `subfind_lgadget2.SnapshotFile` (281-339) -/
def lgadget2Snapshot : Format :=
  let n : FExpr := .attrItem "Header".toList "NumPart_ThisFile".toList 1
  { check := none
    header := [attr4 "Header/NumPart_ThisFile" [.const 6], attr8 "Header/MassTable" [.const 6], attr8 "Header/Time" [], attr8 "Header/Redshift" [], attr4 "Header/Flag_Sfr" [], attr4 "Header/Flag_Feedback" [],
      attr4 "Header/NumPart_Total" [.const 6], attr4 "Header/Flag_Cooling" [], attr4 "Header/NumFilesPerSnapshot" [], attr8 "Header/BoxSize" [], attr8 "Header/Omega0" [], attr8 "Header/OmegaLambda" [], attr8 "Header/HubbleParam" [],
      attr4 "Header/Flag_StellarAge" [], attr4 "Header/Flag_Metals" [], attr4 "Header/HashTabSize" [], ⟨"Header/fill".toList, true, false, .const 1, [.const 84]⟩]
    body := [record [dset4 "PartType1/Coordinates" [n, .const 3]], record [dset4 "PartType1/Velocities" [n, .const 3]], record [dset8 "PartType1/ParticleIDs" [n]],
      record [dset4 "first_hash_cell" [], dset4 "last_hash_cell" []], record [dset4 "blockid" [.span "first_hash_cell".toList "last_hash_cell".toList]]] }

/-- `subfind_lgadget3.SubTabFile` (subfind_lgadget3.py 11-99) for `id_bytes` and `float_bytes` 4 or 8 -/
def lgadget3SubTab (so_vel_dispersions sub_shapes : Bool) (float_bytes : Nat) : Format :=
  let ng : FExpr := .item "Ngroups".toList
  let ns : FExpr := .item "Nsubgroups".toList
  let fl := dsetN float_bytes
  { check := some "NTask".toList
    header := [dset4 "Ngroups" [], dset8 "TotNgroups" [], dset4 "Nids" [], dset8 "TotNids" [], dset4 "NTask" [], dset4 "Nsubgroups" [], dset8 "TotNsubgroups" []]
    body := [plain ([dset4 "GroupLen" [ng], dset4 "GroupOffset" [ng], dset8 "GroupNr" [ng], fl "GroupCofM" [ng, .const 3], fl "GroupVel" [ng, .const 3], fl "GroupPos" [ng, .const 3],
      fl "Halo_M_Mean200" [ng], fl "Halo_M_Crit200" [ng], fl "Halo_M_TopHat200" [ng], fl "GroupVelDisp" [ng]] ++
      (if so_vel_dispersions then [fl "VelDisp_Mean200" [ng], fl "VelDisp_Crit200" [ng], fl "VelDisp_TopHat200" [ng]] else []) ++
      [dset4 "Nsubs" [ng], dset4 "FirstSub" [ng],
      dset4 "SubLen" [ns], dset4 "SubOffset" [ns], dset8 "SubGrNr" [ns], dset8 "SubNr" [ns], fl "SubPos" [ns, .const 3], fl "SubVel" [ns, .const 3], fl "SubCofM" [ns, .const 3], fl "SubSpin" [ns, .const 3],
      fl "SubVelDisp" [ns], fl "SubVmax" [ns], fl "SubRVmax" [ns], fl "SubHalfMass" [ns]] ++
      (if sub_shapes then [fl "SubShape" [ns, .const 6]] else []) ++
      [fl "SubBindingEnergy" [ns], fl "SubPotentialEnergy" [ns], fl "SubProfile" [ns, .const 9]])] }

/-- `subfind_lgadget3.SubIDsFile` (172-205) for `id_bytes` 4 or 8 -/
def lgadget3SubIDs (id_bytes : Nat) : Format :=
  { check := some "NTask".toList
    header := [dset4 "Ngroups" [], dset8 "TotNgroups" [], dset4 "Nids" [], dset8 "TotNids" [], dset4 "NTask" [], dset8 "NidsPrevious" []]
    body := [plain [dsetN id_bytes "GroupIDs" [.item "Nids".toList]]] }

/-- `subfind_pgadget3.GroupIDsFile` (subfind_pgadget3.py 18-51) and `SubIDsFile` (309-340) for `id_bytes` 4 or 8 -/
def pgadget3IDs (id_bytes : Nat) : Format :=
  { check := some "NTask".toList
    header := [dset4 "Ngroups" [], dset4 "TotNgroups" [], dset4 "Nids" [], dset8 "TotNids" [], dset4 "NTask" [], dset4 "SendOffset" []]
    body := [plain [dsetN id_bytes "GroupIDs" [.item "Nids".toList]]] }

/-- `subfind_pgadget3.GroupTabFile` (65-110) for `float_bytes` 4 or 8 -/
def pgadget3GroupTab (float_bytes : Nat) : Format :=
  let ng : FExpr := .item "Ngroups".toList
  let fl := dsetN float_bytes
  { check := some "NTask".toList
    header := [dset4 "Ngroups" [], dset4 "TotNgroups" [], dset4 "Nids" [], dset8 "TotNids" [], dset4 "NTask" []]
    body := [plain [dset4 "GroupLen" [ng], dset4 "GroupOffset" [ng], fl "GroupMass" [ng], fl "GroupCofM" [ng, .const 3], fl "GroupVel" [ng, .const 3], dset4 "GroupLenType" [ng, .const 6], fl "GroupMassType" [ng, .const 6]]] }

/-- `subfind_pgadget3.SubTabFile` (139-236) for `id_bytes` and `float_bytes` 4 or 8 and the other parameters false -/
def pgadget3SubTab (so_vel_dispersions : Bool) (id_bytes float_bytes : Nat) : Format :=
  let ng : FExpr := .item "Ngroups".toList
  let ns : FExpr := .item "Nsubgroups".toList
  let fl := dsetN float_bytes
  { check := some "NTask".toList
    header := [dset4 "Ngroups" [], dset4 "TotNgroups" [], dset4 "Nids" [], dset8 "TotNids" [], dset4 "NTask" [], dset4 "Nsubgroups" [], dset4 "TotNsubgroups" []]
    body := [plain ([dset4 "GroupLen" [ng], dset4 "GroupOffset" [ng], fl "GroupMass" [ng], fl "GroupPos" [ng, .const 3], fl "Halo_M_Mean200" [ng], fl "Halo_R_Mean200" [ng],
      fl "Halo_M_Crit200" [ng], fl "Halo_R_Crit200" [ng], fl "Halo_M_TopHat200" [ng], fl "Halo_R_TopHat200" [ng]] ++
      (if so_vel_dispersions then [fl "VelDisp_Mean200" [ng], fl "VelDisp_Crit200" [ng], fl "VelDisp_TopHat200" [ng]] else []) ++
      [dset4 "ContaminationLen" [ng], fl "ContaminationMass" [ng], dset4 "Nsubs" [ng], dset4 "FirstSub" [ng],
      dset4 "SubLen" [ns], dset4 "SubOffset" [ns], dset4 "SubParent" [ns], fl "SubMass" [ns], fl "SubPos" [ns, .const 3], fl "SubVel" [ns, .const 3], fl "SubCofM" [ns, .const 3], fl "SubSpin" [ns, .const 3],
      fl "SubVelDisp" [ns], fl "SubVmax" [ns], fl "SubRVmax" [ns], fl "SubHalfMass" [ns], dsetN id_bytes "SubMostBoundID" [ns], dset4 "SubGrNr" [ns]])] }

/-- `subfind_gadget4.SubTabFile` (subfind_gadget4.py 19-107) for `id_bytes` 4 or 8 -/
def gadget4SubTab (id_bytes : Nat) : Format :=
  let ng : FExpr := .item "Ngroups".toList
  let ns : FExpr := .item "Nsubgroups".toList
  let fl (name : String) (dims : List FExpr) : BField := ⟨name.toList, false, true, .ifZero "flag_dp".toList 4 8, dims⟩
  let grec (fld : BField) : FPart := ⟨some "Ngroups".toList, true, [fld]⟩
  let srec (fld : BField) : FPart := ⟨some "Nsubgroups".toList, true, [fld]⟩
  { check := none
    header := [dset4 "Ngroups" [], dset4 "Nsubgroups" [], dset4 "Nids" [], dset4 "TotNgroups" [], dset4 "TotNsubgroups" [], dset4 "TotNids" [], dset4 "NFiles" [], dset4 "padding1" [],
      dset8 "Time" [], dset8 "Redshift" [], dset8 "HubbleParam" [], dset8 "BoxSize" [], dset8 "Omega0" [], dset8 "OmegaLambda" [], dset4 "flag_dp" [], dset4 "padding2" []]
    body := [dset4 "GroupLen" [ng], fl "GroupMass" [ng], fl "GroupPos" [ng, .const 3], fl "GroupVel" [ng, .const 3], dset4 "GroupLenType" [ng, .const 6], fl "GroupMassType" [ng, .const 6],
        fl "Halo_M_Mean200" [ng], fl "Halo_R_Mean200" [ng], fl "Halo_M_Crit200" [ng], fl "Halo_R_Crit200" [ng], fl "Halo_M_TopHat200" [ng], fl "Halo_R_TopHat200" [ng], dset4 "Nsubs" [ng], dset4 "FirstSub" [ng]].map grec ++
      [dset4 "SubLen" [ns], fl "SubMass" [ns], fl "SubPos" [ns, .const 3], fl "SubVel" [ns, .const 3], dset4 "SubLenType" [ns, .const 6], fl "SubMassType" [ns, .const 6], fl "SubCofM" [ns, .const 3], fl "SubSpin" [ns, .const 3],
        fl "SubVelDisp" [ns], fl "SubVmax" [ns], fl "SubRVmax" [ns], fl "SubHalfMassRad" [ns], fl "SubHalfMassRadType" [ns, .const 6], fl "SubMassInRad" [ns], fl "SubMassInRadType" [ns, .const 6],
        dsetN id_bytes "SubMostBoundID" [ns], dset4 "SubGrNr" [ns], dset4 "SubParent" [ns]].map srec }

end Verif
