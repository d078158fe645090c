import Verif.Model.Formats

/-!
Readers of files in the byte order of the machine: merger trees (python/virgo/formats/mpa_trees.py), Rockstar (formats/rockstar.py) and Millennium-XXL (sims/mxxl.py).
Structured types have the byte order `|`, so that their elements are the bytes of the structure.
-/

namespace Verif

/-- A field of a structured type: `(name, type, (count,))`, where the type has `size` bytes; `count` is one if there is no shape. -/
structure SField where
  name : String
  size : Nat
  count : Nat := 1
  deriving DecidableEq

/-- Next multiple of `a` -/
def roundUp (x a : Nat) : Nat := (x + a - 1) / a * a

/-- Offset of a field which follows `pos` bytes. Numbers are aligned to their size. -/
def SField.offset (align : Bool) (pos : Nat) (fld : SField) : Nat := if align then roundUp pos fld.size else pos

/-- Offsets of the fields in `np.dtype(fields, align=align)` -/
def dtypeOffsets (align : Bool) : Nat → List SField → List Nat
  | _, [] => []
  | pos, fld :: rest => fld.offset align pos :: dtypeOffsets align (fld.offset align pos + fld.size * fld.count) rest

/-- Where the last field ends -/
def dtypeEnd (align : Bool) : Nat → List SField → Nat
  | pos, [] => pos
  | pos, fld :: rest => dtypeEnd align (fld.offset align pos + fld.size * fld.count) rest

/-- Largest size of a number -/
def maxSize (fields : List SField) : Nat := fields.foldl (fun m fld => max m fld.size) 1

/-- `np.dtype(fields, align=align).itemsize` -/
def dtypeSize (align : Bool) (fields : List SField) : Nat := if align then roundUp (dtypeEnd align 0 fields) (maxSize fields) else dtypeEnd align 0 fields

/-- `record[name]`: bytes of a field of an element with a structured type -/
def recordField (align : Bool) (fields : List SField) (record : List Byte) (name : String) : Option (List Byte) :=
  match (fields.zip (dtypeOffsets align 0 fields)).find? (fun p => p.1.name == name) with
  | some (fld, o) => some (slice record o (fld.size * fld.count))
  | none => none

/-- A class without detection of the byte order. `size` is the offset after the header which is asserted. -/
structure PlainFormat where
  header : List BField
  size : Option Nat
  body : List FPart

/-- The constructor -/
def PlainFormat.parse (s : Bool) (file : List Byte) (F : PlainFormat) : Except Err BFile :=
  match addParts s file .new [plain F.header] with
  | .error e => .error e
  | .ok f => match F.size with
    | none => addParts s file f F.body
    | some n => if f.offset ≠ n then .error .assertion else addParts s file f F.body

/-! ### Merger trees -/

/-- `mpa_trees.SubDescFile` (mpa_trees.py 7-17) -/
def mpaSubDesc : PlainFormat :=
  let n : FExpr := .item "TotNsubhalos".toList
  { header := [dset4 "TotNsubhalos" []], size := none, body := [plain [dset4 "HaloIndex" [n], dset4 "SnapNum" [n]]] }

/-- `mpa_trees.TreeAuxFile` (20-57) for `id_bytes` 4 or 8 -/
def mpaTreeAux (id_bytes : Nat) : PlainFormat :=
  let halos : FExpr := .item "TotHalos".toList
  let unique : FExpr := .item "Totunique".toList
  let trees : FExpr := .item "Ntrees".toList
  let snaps : FExpr := .item "TotSnaps".toList
  { header := [dset4 "TotHalos" [], dset4 "Totunique" [], dset4 "Ntrees" [], dset4 "TotSnaps" []]
    size := none
    body := [plain [dset4 "CountID_Snap" [snaps], dset4 "OffsetID_Snap" [snaps], dset4 "CountID_SnapTree" [snaps, trees], dset4 "OffsetID_SnapTree" [snaps, trees],
      dset4 "Nunique" [halos], dset4 "OffsetID_Halo" [halos], dsetN id_bytes "IDs" [unique], dset4 "Pos" [unique, .const 3], dset8 "Vel" [unique, .const 3]]] }

/-- `halo_data` (78-101) -/
def mpaHaloFields (id_bytes : Nat) (save_mass_tab : Bool) : List SField :=
  [⟨"Descendant", 4, 1⟩, ⟨"FirstProgenitor", 4, 1⟩, ⟨"NextProgenitor", 4, 1⟩, ⟨"FirstHaloInFOFgroup", 4, 1⟩, ⟨"NextHaloInFOFgroup", 4, 1⟩, ⟨"Len", 4, 1⟩,
    ⟨"M_Mean200", 4, 1⟩, ⟨"M_Crit200", 4, 1⟩, ⟨"M_TopHat", 4, 1⟩, ⟨"Pos", 4, 3⟩, ⟨"Vel", 4, 3⟩, ⟨"VelDisp", 4, 1⟩, ⟨"VMax", 4, 1⟩, ⟨"Spin", 4, 3⟩, ⟨"MostBoundID", id_bytes, 1⟩,
    ⟨"SnapNum", 4, 1⟩, ⟨"FileNr", 4, 1⟩, ⟨"SubhaloIndex", 4, 1⟩, ⟨"SubhalohalfMass", 4, 1⟩] ++ (if save_mass_tab then [⟨"SubMassTab", 4, 6⟩] else [])

/-- `mpa_trees.TreeFile` (62-113) -/
def mpaTree (id_bytes : Nat) (save_mass_tab : Bool) : PlainFormat :=
  { header := [dset4 "Ntrees" [], dset4 "Nhalos" []]
    size := none
    body := [plain [dset4 "NPerTree" [.item "Ntrees".toList],
      ⟨"HaloList".toList, false, false, .const (dtypeSize false (mpaHaloFields id_bytes save_mass_tab)), [.item "Nhalos".toList]⟩]] }

/-! ### Rockstar -/

/-- `fields` (rockstar.py 45-103); `halfmass` says whether `format_revision >= 2`. -/
def rockstarFields (halfmass hydro : Bool) : List SField :=
  [⟨"id", 8, 1⟩, ⟨"pos", 4, 6⟩, ⟨"corevel", 4, 3⟩, ⟨"bulkvel", 4, 3⟩, ⟨"m", 4, 1⟩, ⟨"r", 4, 1⟩, ⟨"child_r", 4, 1⟩, ⟨"vmax_r", 4, 1⟩, ⟨"mgrav", 4, 1⟩, ⟨"vmax", 4, 1⟩, ⟨"rvmax", 4, 1⟩,
    ⟨"rs", 4, 1⟩, ⟨"klypin_rs", 4, 1⟩, ⟨"vrms", 4, 1⟩, ⟨"J", 4, 3⟩, ⟨"energy", 4, 1⟩, ⟨"spin", 4, 1⟩, ⟨"alt_m", 4, 4⟩, ⟨"Xoff", 4, 1⟩, ⟨"Voff", 4, 1⟩, ⟨"b_to_a", 4, 1⟩, ⟨"c_to_a", 4, 1⟩,
    ⟨"A", 4, 3⟩, ⟨"b_to_a2", 4, 1⟩, ⟨"c_to_a2", 4, 1⟩, ⟨"A2", 4, 3⟩, ⟨"bullock_spin", 4, 1⟩, ⟨"kin_to_pot", 4, 1⟩, ⟨"m_pe_b", 4, 1⟩, ⟨"m_pe_d", 4, 1⟩] ++
  (if halfmass then [⟨"halfmass_radius", 4, 1⟩] else []) ++
  [⟨"num_p", 8, 1⟩, ⟨"num_child_particles", 8, 1⟩, ⟨"p_start", 8, 1⟩, ⟨"desc", 8, 1⟩, ⟨"flags", 8, 1⟩, ⟨"n_core", 8, 1⟩, ⟨"min_pos_err", 4, 1⟩, ⟨"min_vel_err", 4, 1⟩, ⟨"min_bulkvel_err", 4, 1⟩] ++
  (if hydro then [⟨"type", 4, 1⟩, ⟨"sm", 4, 1⟩, ⟨"gas", 4, 1⟩, ⟨"bh", 4, 1⟩, ⟨"peak_density", 4, 1⟩, ⟨"av_density", 4, 1⟩] else [])

/-- `rockstar.HalosFile` (18-109). Strings of bytes keep their zeros at the end. -/
def rockstarHalos (hydro : Bool) : PlainFormat :=
  let h := "Header".toList
  { header := [attr8 "Header/magic" [], attr8 "Header/snap" [], attr8 "Header/chunk" [], attr4 "Header/scale" [], attr4 "Header/om" [], attr4 "Header/ol" [], attr4 "Header/h0" [],
      attr4 "Header/bounds" [.const 6], attr8 "Header/num_halos" [], attr8 "Header/num_particles" [], attr4 "Header/box_size" [], attr4 "Header/particle_mass" [],
      attr8 "Header/particle_type" [], attr4 "Header/format_revision" [], ⟨"Header/rockstar_version".toList, true, false, .const 12, []⟩, ⟨"Header/unused".toList, true, false, .const 144, []⟩]
    size := some 256
    body := [plain [⟨"Halo".toList, false, false,
        .ifAttrGe h "format_revision".toList 2 (dtypeSize true (rockstarFields false hydro)) (dtypeSize true (rockstarFields true hydro)), [.attrInt64 h "num_halos".toList]⟩,
      dset8 "IDs" [.attrInt64 h "num_particles".toList]]] }

/-- Sum of two `int64`, which wraps around -/
def add64 (a b : Int) : Int := (a + b + 9223372036854775808) % 18446744073709551616 - 9223372036854775808

/-- `HalosFile.sanity_check()` (111-125) for halos with the given `p_start` and `num_p` and a number of IDs -/
def rockstarSanityCheck (p_start num_p : List Int) (nids : Nat) : Except Err Unit :=
  if !(List.zipWith add64 p_start num_p).all (fun x => decide (x ≤ nids)) then .error .sanityCheck
  else if p_start.any (fun x => decide (x < 0)) then .error .sanityCheck
  else .ok ()

/-! ### Millennium-XXL -/

/-- `mxxl.SubDescFile` (mxxl.py 16-26) -/
def mxxlSubDesc : PlainFormat :=
  let n : FExpr := .item "Nsubgroups".toList
  { header := [dset4 "Nsubgroups" []], size := none, body := [plain [dset8 "SubMostBoundID" [n], dset4 "Desc_FileNr" [n], dset4 "Desc_SubIndex" [n]]] }

/-- Integers with a given number of bits wrap around. -/
def wrapInt (bits : Nat) (x : Int) : Int := (x + 2 ^ (bits - 1)) % 2 ^ bits - 2 ^ (bits - 1)

/-- `mxxl.FieldFile` (53-75). `4 * isw_slabs_per_task * nn * nn` is computed with 64 bits, or with 32 bits by NumPy 2 and later. -/
def mxxlField (bits : Nat) (s : Bool) (file : List Byte) : Except Err BFile :=
  -- (58-59)
  match BFile.new.readAndSkip s file int32Type [] with
  | (_, .error e) => .error e
  | (f, .ok irec) =>
    -- (60-63)
    match addFields s file (f.enableByteswap s (int32Value (irec.headD []) != 8)).1 [dset4 "NTask" [], dset8 "BoxSize" [], dset4 "nn" [], dset4 "isw_slabs_per_task" []] with
    | .error e => .error e
    | .ok f =>
      -- (64)
      match f.readAndSkip s file int32Type [] with
      | (_, .error e) => .error e
      | (f, .ok _) =>
        -- (67-68)
        match f.int s file "nn".toList with
        | .error e => .error e
        | .ok nn => match f.int s file "isw_slabs_per_task".toList with
          | .error e => .error e
          | .ok slabs =>
            -- (69-71)
            match f.readAndSkip s file int32Type [] with
            | (_, .error e) => .error e
            | (f, .ok irec) =>
              if int32Value (irec.headD []) ≠ wrapInt bits (4 * slabs * nn * nn) then .error .ioError
              else
                -- (72)
                match addFields s file f [dset4 "grid" [.item "isw_slabs_per_task".toList, .item "nn".toList, .item "nn".toList]] with
                | .error e => .error e
                | .ok f =>
                  -- (73-75)
                  match f.readAndSkip s file int32Type [] with
                  | (_, .error e) => .error e
                  | (f, .ok irec) => if int32Value (irec.headD []) ≠ wrapInt bits (4 * slabs * nn * nn) then .error .ioError else .ok f

end Verif
