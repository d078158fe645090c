import Verif.Model.FormatsPlain
import Verif.Model.EagleFilename

/-!
Reader of properties files of Velociraptor (python/virgo/formats/velociraptor.py). Sizes of arrays whose length is an `uint64` become floating point numbers in NumPy before version 2; they are exact
below 2^53 and are taken as exact here.
-/

namespace Verif

/-- `type_list` (velociraptor.py 31-80); `keep` says whether `ikeepfof != 0`. -/
def velociraptorFields (keep : Bool) : List SField :=
  [⟨"haloid", 8, 1⟩, ⟨"ibound", 8, 1⟩, ⟨"hostid", 8, 1⟩, ⟨"numsubs", 8, 1⟩, ⟨"num", 8, 1⟩, ⟨"stype", 4, 1⟩] ++ (if keep then [⟨"directhostid", 8, 1⟩, ⟨"hostfofid", 8, 1⟩] else []) ++
  [⟨"gMvir", 8, 1⟩, ⟨"gcm", 8, 3⟩, ⟨"gpos", 8, 3⟩, ⟨"gcmvel", 8, 3⟩, ⟨"gvel", 8, 3⟩, ⟨"gmass", 8, 1⟩, ⟨"gMFOF", 8, 1⟩, ⟨"gM200m", 8, 1⟩, ⟨"gM200c", 8, 1⟩, ⟨"gMvir_again", 8, 1⟩, ⟨"Efrac", 8, 1⟩,
    ⟨"gRvir", 8, 1⟩, ⟨"gsize", 8, 1⟩, ⟨"gR200m", 8, 1⟩, ⟨"gR200c", 8, 1⟩, ⟨"gRvir_again", 8, 1⟩, ⟨"gRhalfmass", 8, 1⟩, ⟨"gRmaxvel", 8, 1⟩, ⟨"gmaxvel", 8, 1⟩, ⟨"gsigma_v", 8, 1⟩, ⟨"gveldisp", 8, 9⟩,
    ⟨"glambda_B", 8, 1⟩, ⟨"gJ", 8, 3⟩, ⟨"gq", 8, 1⟩, ⟨"gs", 8, 1⟩, ⟨"geigvec", 8, 9⟩, ⟨"cNFW", 8, 1⟩, ⟨"Krot", 8, 1⟩, ⟨"T", 8, 1⟩, ⟨"Pot", 8, 1⟩, ⟨"RV_sigma_v", 8, 1⟩, ⟨"RV_veldisp", 8, 9⟩,
    ⟨"RV_lambda_B", 8, 1⟩, ⟨"RV_J", 8, 3⟩, ⟨"RV_q", 8, 1⟩, ⟨"RV_s", 8, 1⟩, ⟨"RV_eigvec", 8, 9⟩]

/-- `"Header/entry%03d" % i` with type `S40` (28) -/
def velociraptorEntry (i : Nat) : BField := ⟨"Header/entry".toList ++ decimal3 i, true, false, .const 40, []⟩

/-- `halo_t` and the dataset (85-86) -/
def velociraptorHalo (keep : Bool) : BField := ⟨"Halo".toList, false, false, .const (dtypeSize false (velociraptorFields keep)), [.attrItem "Header".toList "ng".toList 0]⟩

/-- `velociraptor.PropertiesFile(fname, ikeepfof, ...)` (15-86). `npInt` says whether NumPy has `np.int`, which was removed in version 1.24; `flags` whether one of GASON, STARON, BHON and HIGHRES is set.
`NotImplementedError` is `.other`. -/
def velociraptorParse (npInt keep flags : Bool) (s : Bool) (file : List Byte) : Except Err BFile :=
  -- (21-24)
  match addFields s file .new [attr4 "Header/ThisTask" [], attr4 "Header/NProcs" [], attr8 "Header/ng" [], attr8 "Header/ngtot" []] with
  | .error e => .error e
  | .ok f =>
    -- (25)
    if npInt = false then .error .attributeError
    else match addFields s file f [attr8 "Header/hsize" []] with
      | .error e => .error e
      | .ok f =>
        -- (26)
        match f.attribute s file "Header".toList "hsize".toList with
        | .error e => .error e
        | .ok vals =>
          -- (27-28)
          match addFields s file f ((List.range (int64Value (vals.headD [])).toNat).map velociraptorEntry) with
          | .error e => .error e
          | .ok f =>
            -- (82-83)
            if flags then .error .other
            -- (86)
            else addFields s file f [velociraptorHalo keep]

end Verif
