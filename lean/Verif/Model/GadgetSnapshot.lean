import Verif.Model.Formats

/-!
Gadget snapshots in binary format 1 (python/virgo/formats/gadget_snapshot.py, `GadgetBinarySnapshotFile` 20-160). Numbers of particles are added as integers without overflow.
-/

namespace Verif

/-- `typestr`: "int", "float" or anything else -/
inductive TypeStr
  | int | float | other
  deriving DecidableEq

/-- An element of `all_datasets`: name, type, shape for one particle and particle types which have it -/
structure SnapBlock where
  name : Name
  typestr : TypeStr
  shape : List Nat
  ptypes : Nat → Bool

/-- `x == 0` for a `float64`: both zeros -/
def isZeroFloat64 (v : List Byte) : Bool := v == List.replicate 8 0 || v == List.replicate 7 0 ++ [128]

/-- `np.uint32` -/
def uint32Type : DType := ⟨4, '='⟩

/-- The attributes of the header (gadget_snapshot.py 65-80) -/
def snapHeader : List BField :=
  [attr4 "Header/NumPart_ThisFile" [.const 6], attr8 "Header/MassTable" [.const 6], attr8 "Header/Time" [], attr8 "Header/Redshift" [], attr4 "Header/Flag_Sfr" [], attr4 "Header/Flag_Feedback" [],
    attr4 "Header/NumPart_Total" [.const 6], attr4 "Header/Flag_Cooling" [], attr4 "Header/NumFilesPerSnapshot" [], attr8 "Header/BoxSize" [], attr8 "Header/Omega0" [], attr8 "Header/OmegaLambda" [],
    attr8 "Header/HubbleParam" [], attr4 "Header/Flag_StellarAge" [], attr4 "Header/Flag_Metals" [], attr4 "Header/NumPart_Total_HighWord" [.const 6]]

def allTypes : Nat → Bool := fun _ => true
def gasOnly : Nat → Bool := fun i => i == 0

/-- `all_datasets` (94-102) -/
def snapDatasets (masstable : List (List Byte)) : List SnapBlock :=
  [⟨"Coordinates".toList, .float, [3], allTypes⟩, ⟨"Velocities".toList, .float, [3], allTypes⟩, ⟨"ParticleIDs".toList, .int, [], allTypes⟩,
    ⟨"Masses".toList, .float, [], fun i => isZeroFloat64 (masstable.getD i [])⟩, ⟨"InternalEnergy".toList, .float, [], gasOnly⟩, ⟨"Density".toList, .float, [], gasOnly⟩, ⟨"SmoothingLength".toList, .float, [], gasOnly⟩]

/-- `"PartType%i/%s" % (i, name)` -/
def partTypeName (i : Nat) (name : Name) : Name := "PartType".toList ++ [Nat.digitChar i] ++ '/' :: name

/-- `nextra` (112) -/
def nextra (npart : List Int) (ptypes : Nat → Bool) : Int := (((List.range 6).filter ptypes).map (fun i => npart.getD i 0)).sum

/-- The loop over particle types (152-155) -/
def snapFields (npart : List Int) (b : SnapBlock) (nbytes : Nat) : List BField :=
  ((List.range 6).filter (fun i => b.ptypes i && decide (npart.getD i 0 > 0))).map
    (fun i => ⟨partTypeName i b.name, false, true, .const nbytes, .const (npart.getD i 0).toNat :: b.shape.map .const⟩)

/-- What follows in the loop over datasets -/
inductive SnapNext
  | next (f : BFile) (count_records : Nat)
  | stop (f : BFile)

/-- The record of one dataset (115-160), after the marker at its beginning has been read -/
def snapRecord (s : Bool) (file : List Byte) (npart : List Int) (f : BFile) (irec : Int) (b : SnapBlock) : Except Err BFile :=
  let n_per_part : Int := (b.shape.foldl (fun n s => n * s) 1 : Nat)
  let n := nextra npart b.ptypes
  let nbytes := irec / (n_per_part * n)
  if (nbytes ≠ 4 ∧ nbytes ≠ 8) ∨ nbytes * n_per_part * n ≠ irec then .error .ioError
  else if b.typestr = .other then .error .valueError
  else match addFields s file f (snapFields npart b nbytes.toNat) with
    | .error e => .error e
    | .ok f => match f.readAndSkip s file uint32Type [] with
      | (_, .error e) => .error e
      | (f, .ok data) => if (leNat (data.headD []) : Int) ≠ n_per_part * nbytes * n then .error .ioError else .ok f

/-- One dataset (111-160) -/
def snapDataset (s : Bool) (file : List Byte) (npart : List Int) (f : BFile) (count_records : Nat) (b : SnapBlock) : Except Err SnapNext :=
  if nextra npart b.ptypes > 0 then
    match f.readAndSkip s file uint32Type [] with
    | (f, .error e) => if e = .ioError then (if count_records < 3 then .error .ioError else .ok (.stop f)) else .error e
    | (f, .ok data) => match snapRecord s file npart f (leNat (data.headD [])) b with
      | .error e => .error e
      | .ok f => .ok (.next f (count_records + 1))
  else .ok (.next f count_records)

/-- The loop over datasets (109) -/
def snapLoop (s : Bool) (file : List Byte) (npart : List Int) : BFile → Nat → List SnapBlock → Except Err BFile
  | f, _, [] => .ok f
  | f, count, b :: rest => match snapDataset s file npart f count b with
    | .error e => .error e
    | .ok (.stop f) => .ok f
    | .ok (.next f count) => snapLoop s file npart f count rest

/-- The header after the byte order is known (64-91), with numbers of particles and table of masses -/
def snapOpenHeader (s : Bool) (file : List Byte) (f : BFile) : Except Err (BFile × List Int × List (List Byte)) :=
  match addFields s file f snapHeader with
  | .error e => .error e
  | .ok f =>
    -- `skip_bytes` (81)
    let f := { f with offset := f.offset + (256 + 4 - f.offset) }
    match f.attribute s file "Header".toList "NumPart_ThisFile".toList with
    | .error e => .error e
    | .ok npart => match f.attribute s file "Header".toList "MassTable".toList with
      | .error e => .error e
      | .ok masstable => match f.readAndSkip s file uint32Type [] with
        | (_, .error e) => .error e
        | (f, .ok data) => if leNat (data.headD []) ≠ 256 then .error .ioError else .ok (f, npart.map int32Value, masstable)

/-- `GadgetBinarySnapshotFile(fname, extra)` (52-160) -/
def gadgetSnapshot (s : Bool) (file : List Byte) (extra : List SnapBlock) : Except Err BFile :=
  match BFile.readAndSkip s file .new uint32Type [] with
  | (_, .error e) => .error e
  | (f, .ok data) =>
    -- (57-62)
    let irec := leNat (data.headD [])
    if irec ≠ 256 ∧ irec ≠ 65536 then .error .ioError
    else match snapOpenHeader s file (f.enableByteswap s (decide (irec = 65536))).1 with
      | .error e => .error e
      | .ok (f, npart, masstable) => snapLoop s file npart f 0 (snapDatasets masstable ++ extra)

end Verif
