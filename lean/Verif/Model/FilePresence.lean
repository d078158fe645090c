import Verif.Model.EagleFilename

/-!
The scripts which look for missing files: consistency_check/eagle/check_eagle_file_presence.py and consistency_check/p-gadget3/check_pgadget3_file_presence.py. Directories are given by `listdir`, with
`none` for an `OSError`. Names with `*`, `?` or `[` in them, which `glob` would interpret, and negative snapshot numbers are left out.
-/

namespace Verif

/-- `os.listdir(dirname)` -/
abbrev ListDir := Name → Option (List Name)

/-- Position after the last slash: `i = p.rfind('/') + 1; head, tail = p[:i], p[i:]` -/
def splitLast (p : Name) : Name × Name := ((p.reverse.dropWhile (fun c => c != '/')).reverse, (p.reverse.takeWhile (fun c => c != '/')).reverse)

/-- `os.path.basename(p)` -/
def baseName (p : Name) : Name := (splitLast p).2

/-- `os.path.dirname(p)`: without slashes at the end, unless there is nothing else -/
def dirName (p : Name) : Name :=
  let head := (splitLast p).1
  if head.all (fun c => c == '/') then head else (head.reverse.dropWhile (fun c => c == '/')).reverse

/-- Which files of an output are looked for in which directory, under which heading they are counted, and the attribute with the number of files -/
structure PresenceItem where
  key : Name
  dirbase : Name
  filebase : Name
  attr : Name
  isnap : Nat
  deriving DecidableEq

/-- `count[key] += 1` of a `defaultdict(lambda : 0)` -/
def bump : List (Name × Nat) → Name → List (Name × Nat)
  | [], key => [(key, 1)]
  | (k, n) :: rest, key => if k = key then (k, n + 1) :: rest else (k, n) :: bump rest key

/-- `count[key]` of a `defaultdict(lambda : 0)` -/
def countOf (d : List (Name × Nat)) (key : Name) : Nat := (dget d key).getD 0

/-- The loops of the two scripts as one loop over what is checked, in order: `if not(check_dir(...)): count_missing[key] += 1`, `count_expected[key] += 1`. The result has both counts and what is
kept between calls of `check_dir`. -/
def presenceLoop {σ : Type*} (check : σ → PresenceItem → Except Err (Bool × σ)) : List PresenceItem → σ → List (Name × Nat) → List (Name × Nat) → Except Err (List (Name × Nat) × List (Name × Nat) × σ)
  | [], st, missing, expected => .ok (missing, expected, st)
  | item :: rest, st, missing, expected =>
    match check st item with
    | .error e => .error e
    | .ok (ok, st) => presenceLoop check rest st (if ok then missing else bump missing item.key) (bump expected item.key)

/-- The lines of the summary: heading, directories which are not complete, all directories. Their order is that of the dictionary. -/
def presenceSummary (missing expected : List (Name × Nat)) : List (Name × Nat × Nat) :=
  (expected.filter (fun e => countOf missing e.1 > 0)).map (fun e => (e.1, countOf missing e.1, countOf expected e.1))

/-! ### P-Gadget3 -/

/-- `pgadget3_filename(simdir, dirbase, filebase, isnap, ifile)` (check_pgadget3_file_presence.py 14-21) -/
def pgadget3Filename (simdir dirbase filebase : Name) (isnap ifile : Nat) : Name :=
  let name := simdir ++ '/' :: dirbase ++ '_' :: decimal3 isnap ++ '/' :: filebase ++ '_' :: decimal3 isnap ++ '.' :: decimal ifile
  if filebase = "500_dm".toList then name ++ ".hdf5".toList else name

/-- `check_dir(basedir, dirbase, filebase, isnap, get_nfiles_func)` (check_pgadget3_file_presence.py 25-59) without the messages. `nfilesOf fname attr` is the function to get the number of files. -/
def pgadget3CheckDir (nfilesOf : Name → Name → Except Err Int) (listdir : ListDir) (basedir dirbase filebase attr : Name) (isnap : Nat) : Bool :=
  let fname := pgadget3Filename basedir dirbase filebase isnap 0
  let (files_ok, nfiles) : Int × Int :=
    match nfilesOf fname attr with
    | .error _ => (0, -1)
    | .ok nfiles =>
      match listdir (dirName fname) with
      | none => (0, nfiles)
      | some fnames =>
        ((List.range nfiles.toNat).foldl (fun files_ok ifile => if baseName (pgadget3Filename basedir dirbase filebase isnap ifile) ∈ fnames then files_ok + 1 else files_ok) 0, nfiles)
  files_ok = nfiles

/-- `range(first_num, max_num+1, step)` for a step which is not negative -/
def presenceRange (first_num max_num step : Nat) : Except Err (List Nat) :=
  if step = 0 then .error .valueError else .ok ((List.range ((max_num + 1 - first_num + step - 1) / step)).map (fun k => first_num + k * step))

/-- What is checked for one snapshot (check_pgadget3_file_presence.py 73-101) -/
def pgadget3Items (snapbase : Name) (isnap : Nat) : List PresenceItem :=
  [⟨"snapshot".toList, "snapdir".toList, snapbase, "NumFilesPerSnapshot".toList, isnap⟩,
   ⟨"group_tab".toList, "groups".toList, "group_tab".toList, "NTask".toList, isnap⟩,
   ⟨"group_ids".toList, "groups".toList, "group_ids".toList, "NTask".toList, isnap⟩,
   ⟨"subhalo_tab".toList, "groups".toList, "subhalo_tab".toList, "NTask".toList, isnap⟩,
   ⟨"subhalo_ids".toList, "groups".toList, "subhalo_ids".toList, "NTask".toList, isnap⟩]

/-- `check_pgadget3_run(basedir, snapbase, max_num, first_num, step)` (check_pgadget3_file_presence.py 62-112): the lines of the summary -/
def checkPgadget3Run (nfilesOf : Name → Name → Except Err Int) (listdir : ListDir) (basedir snapbase : Name) (max_num first_num step : Nat) : Except Err (List (Name × Nat × Nat)) :=
  match presenceRange first_num max_num step with
  | .error e => .error e
  | .ok isnaps =>
    match presenceLoop (fun (_ : Unit) (item : PresenceItem) => .ok (pgadget3CheckDir nfilesOf listdir basedir item.dirbase item.filebase item.attr item.isnap, ())) (isnaps.flatMap (pgadget3Items snapbase)) () [] [] with
    | .error e => .error e
    | .ok (missing, expected, _) => .ok (presenceSummary missing expected)

/-! ### EAGLE -/

/-- Redshift labels found so far -/
abbrev PresenceCache := List ((Name × Name × Nat) × Name)

def PresenceCache.get (cache : PresenceCache) (key : Name × Name × Nat) : Option Name := (cache.find? (fun e => e.1 == key)).map Prod.snd

/-- `eagle_filename(simdir, dirbase, filebase, isnap, ifile, cache)` (check_eagle_file_presence.py 13-36) and the cache after the call -/
def presenceFilename (listdir : ListDir) (cache : PresenceCache) (simdir dirbase filebase : Name) (isnap ifile : Nat) : Except Err Name × PresenceCache :=
  let key := (simdir, dirbase, isnap)
  let fname (zstring : Name) : Name := simdir ++ '/' :: dirbase ++ '_' :: decimal3 isnap ++ '_' :: zstring ++ '/' :: filebase ++ '_' :: decimal3 isnap ++ '_' :: zstring ++ '.' :: decimal ifile ++ ".hdf5".toList
  match cache.get key with
  | some zstring => (.ok (fname zstring), cache)
  | none =>
    match (((listdir simdir).getD []).filter (globMatch (dirPattern dirbase isnap))).map (fun d => simdir ++ '/' :: d) with
    | [dirname] =>
      let zstring := dirname.drop (dirname.length - 8)
      (.ok (fname zstring), (key, zstring) :: cache)
    | _ => (.error .ioError, cache)

/-- The loop over files (check_eagle_file_presence.py 61-64): `files_ok` and the cache -/
def presenceCount (listdir : ListDir) (basedir dirbase filebase : Name) (isnap : Nat) (fnames : List Name) : List Nat → PresenceCache → Int → Except Err (Int × PresenceCache)
  | [], cache, files_ok => .ok (files_ok, cache)
  | ifile :: rest, cache, files_ok =>
    match presenceFilename listdir cache basedir dirbase filebase isnap ifile with
    | (.error e, _) => .error e
    | (.ok fname, cache) => presenceCount listdir basedir dirbase filebase isnap fnames rest cache (if baseName fname ∈ fnames then files_ok + 1 else files_ok)

/-- `check_dir(basedir, dirbase, filebase, nfiles_attr, isnap)` (check_eagle_file_presence.py 39-74) without the messages. `nfilesOf fname attr` is `f["Header"].attrs[nfiles_attr]`; only an `IOError` is caught. -/
def eagleCheckDir (nfilesOf : Name → Name → Except Err Int) (listdir : ListDir) (basedir : Name) (cache : PresenceCache) (item : PresenceItem) : Except Err (Bool × PresenceCache) :=
  match presenceFilename listdir cache basedir item.dirbase item.filebase item.isnap 0 with
  | (.error .ioError, cache) => .ok (false, cache)
  | (.error e, _) => .error e
  | (.ok fname, cache) =>
    match nfilesOf fname item.attr with
    | .error .ioError => .ok (false, cache)
    | .error e => .error e
    | .ok nfiles =>
      match listdir (dirName fname) with
      | none => .ok (decide ((0 : Int) = nfiles), cache)
      | some fnames =>
        match presenceCount listdir basedir item.dirbase item.filebase item.isnap fnames (List.range nfiles.toNat) cache 0 with
        | .error e => .error e
        | .ok (files_ok, cache) => .ok (decide (files_ok = nfiles), cache)

/-- What is checked for one snapshot or snipshot (check_eagle_file_presence.py 94-131) -/
def eagleItems (snip : Bool) (isnap : Nat) : List PresenceItem :=
  let outtype := if snip then "snip".toList else "snap".toList
  [⟨outtype, outtype ++ "shot".toList, outtype, "NumFilesPerSnapshot".toList, isnap⟩,
   if snip then ⟨"group_snip_tab".toList, "groups_snip".toList, "group_snip_tab".toList, "NTask".toList, isnap⟩ else ⟨"group_tab".toList, "groups".toList, "group_tab".toList, "NTask".toList, isnap⟩,
   if snip then ⟨"eagle_subfind_snip_particles".toList, "particledata_snip".toList, "eagle_subfind_snip_particles".toList, "NumFilesPerSnapshot".toList, isnap⟩
     else ⟨"eagle_subfind_particles".toList, "particledata".toList, "eagle_subfind_particles".toList, "NumFilesPerSnapshot".toList, isnap⟩,
   if snip then ⟨"eagle_subfind_snip_tab".toList, "groups_snip".toList, "eagle_subfind_snip_tab".toList, "NTask".toList, isnap⟩
     else ⟨"eagle_subfind_tab".toList, "groups".toList, "eagle_subfind_tab".toList, "NTask".toList, isnap⟩]

/-- `check_eagle_run(basedir, num_snaps, num_snips)` (check_eagle_file_presence.py 77-141): the lines of the summary -/
def checkEagleRun (nfilesOf : Name → Name → Except Err Int) (listdir : ListDir) (basedir : Name) (num_snaps num_snips : Nat) : Except Err (List (Name × Nat × Nat)) :=
  match presenceLoop (eagleCheckDir nfilesOf listdir basedir) ((List.range num_snaps).flatMap (eagleItems false) ++ (List.range num_snips).flatMap (eagleItems true)) [] [] [] with
  | .error e => .error e
  | .ok (missing, expected, _) => .ok (presenceSummary missing expected)

end Verif
