import Verif.Model.FortranReaders

/-! Names of the files of snapshots in the Python readers: subfind_lgadget2.py, subfind_pgadget3.py and subfind_gadget4.py -/

namespace Verif.SnapshotPaths

/-- Sign of a number in `%d` -/
def sign (v : Int) : Name := if v < 0 then ['-'] else []

/-- `"%d" % v` and `"%i" % v` -/
def pctD (v : Int) : Name := sign v ++ decimal v.natAbs

/-- `"%0<w>d" % v`: zeros between the sign and the digits, so that there are at least `w` characters -/
def pctZero (w : Nat) (v : Int) : Name := sign v ++ List.replicate (w - (pctD v).length) '0' ++ decimal v.natAbs

/-- `"%<w>.<m>i" % v`: at least `m` digits, then blanks in front up to `w` characters -/
def pctWidth (w m : Nat) (v : Int) : Name :=
  let s := sign v ++ List.replicate (m - (decimal v.natAbs).length) '0' ++ decimal v.natAbs
  List.replicate (w - s.length) ' ' ++ s

/-- Directory and beginning of the name for `itype` (subfind_lgadget2.py, 15-24); None for others -/
def storeParts (itype : Int) : Option (Name × Name) :=
  if itype = 0 then some ("snapshot".toList, "snap_millennium".toList)
  else if itype = 1 then some ("group_tab".toList, "group_tab".toList)
  else if itype = 2 then some ("sub_tab".toList, "sub_tab".toList)
  else if itype = 3 then some ("sub_ids".toList, "sub_ids".toList)
  else if itype = 4 then some ("group_ids".toList, "group_ids".toList)
  else none

/-- `cosma_file_path` (subfind_lgadget2.py, 12-24). `%` of Python is not negative for a positive divisor. -/
def cosmaFilePath (itype isnap ifile : Int) : Option Name :=
  (storeParts itype).map fun d =>
    "/milli".toList ++ pctWidth 2 2 ((ifile + 3 * (63 - isnap)).fmod 14) ++ "/d".toList ++ pctWidth 2 2 isnap ++ "/".toList ++ d.1 ++ "/".toList ++ d.2 ++ "_".toList ++ pctWidth 3 3 isnap ++ ".".toList ++ pctD ifile

/-- `"%s/snapdir_%03d/%s_%03d.%d"` (subfind_lgadget2.py, 450-451; open_snap_file in subfind_pgadget3.py, 470-471, and subfind_gadget4.py, 227-228) -/
def snapName (basedir basename : Name) (isnap ifile : Int) : Name :=
  basedir ++ "/snapdir_".toList ++ pctZero 3 isnap ++ "/".toList ++ basename ++ "_".toList ++ pctZero 3 isnap ++ ".".toList ++ pctD ifile

/-- `"%s/groups_%03d/subhalo_tab_%03d.%d"` (open_subtab_file, subfind_pgadget3.py, 478) with `stem` for "subhalo_tab"; "fof_subhalo_tab" in subfind_gadget4.py, 235 -/
def subtabName (stem basedir : Name) (isnap ifile : Int) : Name :=
  basedir ++ "/groups_".toList ++ pctZero 3 isnap ++ "/".toList ++ stem ++ "_".toList ++ pctZero 3 isnap ++ ".".toList ++ pctD ifile

/-- The name in `open_file` (subfind_lgadget2.py, 445-454). A string can not be added to None. -/
def openFileName (basedir basename : Name) (isnap ifile : Int) : Except Err Name :=
  if basedir ≠ "COSMA".toList then .ok (snapName basedir basename isnap ifile)
  else
    match cosmaFilePath 0 isnap ifile with
    | none => .error .typeError
    | some p => .ok ("/gpfs/data/Millennium/".toList ++ p)

end Verif.SnapshotPaths
