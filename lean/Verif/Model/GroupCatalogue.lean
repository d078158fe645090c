import Verif.Model.Formats
import Verif.Model.ReadMulti
import Verif.Model.EagleFilename

/-!
`GroupCatalogue` of Gadget-4 (python/virgo/formats/subfind_gadget4.py 110-151) and P-Gadget3 (python/virgo/formats/subfind_pgadget3.py 356-412).
-/

namespace Verif

/-- `fmt % {"i":i}` for formats in which the only conversions are `%%` and `%(i)d`. Others, which the name of a directory may have by accident, are not distinguished: an exception or a different name. -/
def percentDict (i : Nat) : Name → Except Err Name
  | [] => .ok []
  | c :: rest =>
    if c = '%' then
      match rest with
      | '%' :: rest => (percentDict i rest).map (fun t => '%' :: t)
      | '(' :: 'i' :: ')' :: 'd' :: rest => (percentDict i rest).map (fun t => decimal i ++ t)
      | _ => .error .other
    else (percentDict i rest).map (fun t => c :: t)

/-- `f[name][...]` as an array with the size of its elements as type, or `none` if not `name in f` (read_multi.py 51-52). `np.concatenate` refuses scalars, which is taken to happen here. -/
def BFile.array (s : Bool) (file : List Byte) (f : BFile) (name : Name) : Except Err (Option (TypedArray Nat (List (List Byte)))) :=
  match BGroup.getItem (name.length + 1) f.root name with
  | .error .keyError => .ok none
  | .error e => .error e
  | .ok (.group _) => .error .typeError
  | .ok (.dataset id _) =>
    match f.blocks[id]? with
    | none => .error .other
    | some b =>
      match b.readAll s file with
      | .error e => .error e
      | .ok data =>
        match b.shape with
        | [] => .error .valueError
        | n :: dims => .ok (some ⟨b.dtype.itemsize, dims, (List.range n).map (fun k => slice data (k * dims.prod) dims.prod)⟩)

/-- The names with what is found in a file, in order, or the first exception -/
def BFile.arrays (s : Bool) (file : List Byte) (f : BFile) : List Name → Except Err (List (Name × Option (TypedArray Nat (List (List Byte)))))
  | [] => .ok []
  | name :: rest =>
    match f.array s file name with
    | .error e => .error e
    | .ok a =>
      match f.arrays s file rest with
      | .error e => .error e
      | .ok l => .ok ((name, a) :: l)

/-- Files by name -/
abbrev ByteFS := Name → Option (List Byte)

/-- `file_type(format_str % {'i':i})` (read_multi.py 47): the bytes and the object -/
def openNumbered (s : Bool) (fs : ByteFS) (F : Format) (fmt : Name) (i : Nat) : Except Err (List Byte × BFile) :=
  match percentDict i fmt with
  | .error e => .error e
  | .ok fname =>
    match fs fname with
    | none => .error .ioError
    | some file =>
      match F.parse s file with
      | .error e => .error e
      | .ok f => .ok (file, f)

/-- What `read_multi` finds in a file (read_multi.py 47-52) -/
def numberedArrays (s : Bool) (fs : ByteFS) (F : Format) (fmt : Name) (datasets : List Name) (i : Nat) : Except Err (Name → Option (TypedArray Nat (List (List Byte)))) :=
  match openNumbered s fs F fmt i with
  | .error e => .error e
  | .ok (file, f) =>
    match f.arrays s file datasets with
    | .error e => .error e
    | .ok l => .ok (fun name => (dget l name).join)

/-- `GroupCatalogue(basedir, isnap, datasets)`: `F` is the class `SubTabFile` with its options, `stem` and `count` are the name of the files and of the dataset with their number.
`rows` is `np.concatenate` of an array (only used if a name is given twice). -/
def groupCatalogue (s : Bool) (fs : ByteFS) (F : Format) (stem count : String) (rows : TypedArray Nat (List (List Byte)) → Except Err (TypedArray Nat (List (List Byte)))) (basedir : Name) (isnap : Nat)
    (datasets : List Name) : Except Err (RmDict Name (TypedArray Nat (List (List Byte)))) :=
  let fname_fmt := basedir ++ "/groups_".toList ++ decimal3 isnap ++ '/' :: stem.toList ++ decimal3 isnap ++ ".%(i)d".toList
  match openNumbered s fs F fname_fmt 0 with
  | .error e => .error e
  | .ok (file, f) =>
    match f.int s file count.toList with
    | .error e => .error e
    | .ok nfiles => readMulti npConcatenate rows (numberedArrays s fs F fname_fmt datasets) (List.range nfiles.toNat) datasets

/-- subfind_gadget4.py 118-141, for `id_bytes` 4 or 8 -/
def gadget4Catalogue (s : Bool) (fs : ByteFS) (id_bytes : Nat) := groupCatalogue s fs (gadget4SubTab id_bytes) "fof_subhalo_tab_" "NFiles"

/-- subfind_pgadget3.py 364-402, for `id_bytes` 4 or 8 and `float_bytes` 4 or 8, where `SO_BAR_INFO` and `WRITE_SUB_IN_SNAP_FORMAT` are not set -/
def pgadget3Catalogue (s : Bool) (fs : ByteFS) (so_vel_dispersions : Bool) (id_bytes float_bytes : Nat) := groupCatalogue s fs (pgadget3SubTab so_vel_dispersions id_bytes float_bytes) "subhalo_tab_" "NTask"

/-- Names read by default (subfind_gadget4.py 122-129) -/
def gadget4Default : List Name := ["GroupLen", "GroupMass", "GroupPos", "GroupVel", "GroupLenType", "GroupMassType", "Halo_M_Mean200", "Halo_R_Mean200", "Halo_M_Crit200", "Halo_R_Crit200",
  "Halo_M_TopHat200", "Halo_R_TopHat200", "Nsubs", "FirstSub", "SubLen", "SubMass", "SubPos", "SubVel", "SubLenType", "SubMassType", "SubCofM", "SubSpin", "SubVelDisp", "SubVmax", "SubRVmax",
  "SubHalfMassRad", "SubHalfMassRadType", "SubMassInRad", "SubMassInRadType", "SubMostBoundID", "SubGrNr", "SubParent"].map String.toList

/-- Names read by default (subfind_pgadget3.py 373-384) -/
def pgadget3Default (so_vel_dispersions : Bool) : List Name := (["GroupLen", "GroupOffset", "GroupMass", "GroupPos", "Halo_M_Mean200", "Halo_R_Mean200", "Halo_M_Crit200", "Halo_R_Crit200",
  "Halo_M_TopHat200", "Halo_R_TopHat200", "ContaminationLen", "ContaminationMass", "Nsubs", "FirstSub", "SubLen", "SubOffset", "SubParent", "SubMass", "SubPos", "SubVel", "SubCofM", "SubSpin",
  "SubVelDisp", "SubVmax", "SubRVmax", "SubHalfMass", "SubMostBoundID", "SubGrNr"] ++ if so_vel_dispersions then ["VelDisp_Mean200", "VelDisp_Crit200", "VelDisp_TopHat200"] else []).map String.toList

end Verif
