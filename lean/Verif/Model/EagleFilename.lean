import Verif.Lib.Np
import Verif.Model.ReadBinary

/-!
Names of EAGLE output files (python/virgo/sims/eagle.py). The file system gives for each base directory the paths two levels below it, as pairs of a directory name and a file name. The base
directory is taken literally by `glob`: names with `*`, `?` or `[` in them are left out, and so are negative snapshot and file numbers.
-/

namespace Verif

/-- Names of the subdirectories of each directory below `basedir`, with the name of the subdirectory -/
abbrev EagleFS := Name → List (Name × Name)

/-- `"%d" % n` -/
def decimal (n : Nat) : Name := Nat.toDigits 10 n

/-- `"%03d" % n` -/
def decimal3 (n : Nat) : Name := List.replicate (3 - (decimal n).length) '0' ++ decimal n

/-- `dir_names` (python/virgo/sims/eagle.py 13-22) -/
def eagleDirNames : List (Name × Name) :=
  [("eagle_subfind_tab".toList, "groups".toList),
   ("eagle_subfind_snip_tab".toList, "groups_snip".toList),
   ("group_tab".toList, "groups".toList),
   ("group_snip_tab".toList, "groups_snip".toList),
   ("eagle_subfind_particles".toList, "particledata".toList),
   ("eagle_subfind_snip_particles".toList, "particledata_snip".toList),
   ("snapshot".toList, "snapshot".toList),
   ("snipshot".toList, "snipshot".toList)]

/-- A component of a `glob` pattern: `none` is `?` -/
abbrev GlobPattern := List (Option Char)

/-- A part of a pattern without wildcards -/
def lit (s : Name) : GlobPattern := s.map some

/-- `z???p???` -/
def labelPattern : GlobPattern := [some 'z', none, none, none, some 'p', none, none, none]

/-- `fnmatch` of one component of a path with a pattern in which `?` is the only wildcard -/
def globMatch : GlobPattern → Name → Bool
  | [], [] => true
  | none :: ps, _ :: cs => globMatch ps cs
  | some p :: ps, c :: cs => p == c && globMatch ps cs
  | _, _ => false

/-- Directory part of the pattern (33): `%s_%03d_z???p???` -/
def dirPattern (dir_name : Name) (isnap : Nat) : GlobPattern := lit (dir_name ++ '_' :: decimal3 isnap ++ ['_']) ++ labelPattern

/-- File part of the pattern (33): `%s_%03d_z???p???.%d.hdf5` -/
def filePattern (basename : Name) (isnap ifile : Nat) : GlobPattern :=
  lit (basename ++ '_' :: decimal3 isnap ++ ['_']) ++ labelPattern ++ lit ('.' :: decimal ifile ++ ".hdf5".toList)

/-- `glob.glob(pattern)` (35) -/
def globFiles (fs : EagleFS) (basedir : Name) (dpat fpat : GlobPattern) : List Name :=
  ((fs basedir).filter (fun e => globMatch dpat e.1 && globMatch fpat e.2)).map (fun e => basedir ++ '/' :: e.1 ++ '/' :: e.2)

/-- `[0-9]` -/
def reDigit (c : Char) : Bool := c.isDigit

/-- `(z[0-9][0-9][0-9]p[0-9][0-9][0-9])\.[0-9]+\.hdf5$` (40) at the start of a string: the group. `$` also matches before a newline at the end. -/
def reTail (s : Name) : Option Name :=
  let label := s.take 8
  let rest := s.drop 8
  match label with
  | [z, a, b, c, p, d, e, f] =>
    if z = 'z' ∧ reDigit a ∧ reDigit b ∧ reDigit c ∧ p = 'p' ∧ reDigit d ∧ reDigit e ∧ reDigit f then
      match rest with
      | '.' :: r =>
        if r.takeWhile reDigit ≠ [] ∧ (r.dropWhile reDigit = ".hdf5".toList ∨ r.dropWhile reDigit = ".hdf5\n".toList) then some label else none
      | _ => none
    else none
  | _ => none

/-- `re.match(r"^.*(...)...$", fname)` (40): `.*` takes as many characters which are not newlines as possible -/
def reMatch : Name → Option Name
  | [] => reTail []
  | c :: cs =>
    if c = '\n' then reTail (c :: cs)
    else match reMatch cs with
      | some g => some g
      | none => reTail (c :: cs)

/-- Key of the cache (25) -/
abbrev EagleKey := Name × Name × Nat

abbrev EagleCache := List (EagleKey × Name)

/-- `cache[key]` -/
def EagleCache.get (cache : EagleCache) (key : EagleKey) : Option Name := (cache.find? (fun e => e.1 == key)).map Prod.snd

/-- Arguments of a call -/
structure EagleCall where
  basedir : Name
  basename : Name
  isnap : Nat
  ifile : Nat
  deriving DecidableEq

/-- `eagle_filename(basedir, basename, isnap, ifile, cache)` (6-43): the result and the cache after the call. The cache is the default argument, which is shared between calls. -/
def eagleFilename (fs : EagleFS) (cache : EagleCache) (q : EagleCall) : Except Err Name × EagleCache :=
  -- (23)
  match dget eagleDirNames q.basename with
  | none => (.error .keyError, cache)
  | some dir_name =>
    let key : EagleKey := (q.basedir, q.basename, q.isnap)
    match cache.get key with
    | some zstr =>
      -- (28-30)
      (.ok (q.basedir ++ '/' :: dir_name ++ '_' :: decimal3 q.isnap ++ '_' :: zstr ++ '/' :: q.basename ++ '_' :: decimal3 q.isnap ++ '_' :: zstr ++ '.' :: decimal q.ifile ++ ".hdf5".toList), cache)
    | none =>
      -- (33-39)
      match globFiles fs q.basedir (dirPattern dir_name q.isnap) (filePattern q.basename q.isnap q.ifile) with
      | [fname] =>
        -- (40-41): `m.group` of `None` is an AttributeError
        match reMatch fname with
        | none => (.error .attributeError, cache)
        | some zstr => (.ok fname, (key, zstr) :: cache)
      | _ => (.error .ioError, cache)

/-- Cache after a sequence of calls, each made with the file system as it is at that time -/
def eagleCacheAfter (calls : List (EagleFS × EagleCall)) : EagleCache :=
  calls.foldl (fun cache c => (eagleFilename c.1 cache c.2).2) []

end Verif
