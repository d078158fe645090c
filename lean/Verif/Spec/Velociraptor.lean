import Verif.Spec.FormatsPlain
import Verif.Spec.EagleFilename
import Verif.Model.Velociraptor

/-! Properties files of Velociraptor -/

namespace Verif

/-- Numbers which follow each other without gaps: name, size and how many there are -/
def packedBytes (value : String → List Byte) (ms : List Member) : List Byte := ms.flatMap (fun m => value m.name)

def packedSize (ms : List Member) : Nat := (ms.map (fun m => m.align * m.count)).sum

namespace Files

/-- Properties of a halo. With `keep`, the hosts are stored as well. -/
def velociraptorHalo (keep : Bool) : List Member :=
  ["haloid", "ibound", "hostid", "numsubs", "num"].map (⟨·, 8, 1⟩) ++ [⟨"stype", 4, 1⟩] ++ (if keep then ["directhostid", "hostfofid"].map (⟨·, 8, 1⟩) else []) ++ [⟨"gMvir", 8, 1⟩] ++
  ["gcm", "gpos", "gcmvel", "gvel"].map (⟨·, 8, 3⟩) ++
  ["gmass", "gMFOF", "gM200m", "gM200c", "gMvir_again", "Efrac", "gRvir", "gsize", "gR200m", "gR200c", "gRvir_again", "gRhalfmass", "gRmaxvel", "gmaxvel"].map (⟨·, 8, 1⟩) ++
  [⟨"gsigma_v", 8, 1⟩, ⟨"gveldisp", 8, 9⟩, ⟨"glambda_B", 8, 1⟩, ⟨"gJ", 8, 3⟩, ⟨"gq", 8, 1⟩, ⟨"gs", 8, 1⟩, ⟨"geigvec", 8, 9⟩] ++ ["cNFW", "Krot", "T", "Pot"].map (⟨·, 8, 1⟩) ++
  [⟨"RV_sigma_v", 8, 1⟩, ⟨"RV_veldisp", 8, 9⟩, ⟨"RV_lambda_B", 8, 1⟩, ⟨"RV_J", 8, 3⟩, ⟨"RV_q", 8, 1⟩, ⟨"RV_s", 8, 1⟩, ⟨"RV_eigvec", 8, 9⟩]

/-- A header with the names of `entries` columns, in strings of 40 characters, and `halos` structures -/
def velociraptor (keep : Bool) (entries halos : Nat) : Layout := [
  ⟨false, [head 4 [] "ThisTask", head 4 [] "NProcs", head 8 [] "ng", head 8 [] "ngtot", head 8 [] "hsize"] ++
    (List.range entries).map (fun i => ⟨"Header/entry".toList ++ threeDigits i, 40, [], false, some ("Header".toList, "entry".toList ++ threeDigits i)⟩)⟩,
  ⟨false, [structs (packedSize (velociraptorHalo keep)) halos "Halo"]⟩]

end Files

end Verif
