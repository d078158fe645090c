import Verif.Model.CPeano
import Verif.Model.EagleFilename
import Verif.Model.GroupCatalogue

/-!
Reading of Millennium files in Fortran (examples/millennium/fortran/readgroups.f90, readfile.f90 and file_path.f90).

Values are their bytes in little endian order; `big` is the byte order which the compiled program expects. Record lengths are in bytes, as readgroups.f90 (3-5) assumes.
A record of a file which is shorter than the record length does not exist. Records in sequential files have markers of four bytes. `STOP` is `.abort`, errors in `OPEN`, `READ` and
`WRITE` statements are `.ioError`, and overflow of an `INTEGER` is `.other`. The file system maps names without trailing blanks to contents.
The arrays given to `readfile` have room for the data.
-/

namespace Verif.FortranReaders

open CPeano

/-! ### Character variables -/

/-- `s(1:lnblnk(s))`; also what `OPEN` does with a file name -/
def trimBlanks (s : Name) : Name := (s.reverse.dropWhile (fun c => c == ' ')).reverse

/-- `a.EQ.b`: the shorter one is padded with blanks -/
def charEq (a b : Name) : Bool := trimBlanks a == trimBlanks b

/-- A number written with the edit descriptor `i<w>.<m>` -/
def iFormat (w m : Nat) (v : Int) : Name :=
  let digits := decimal v.natAbs
  let s := (if v < 0 then ['-'] else []) ++ List.replicate (m - digits.length) '0' ++ digits
  if w < s.length then List.replicate w '*' else List.replicate (w - s.length) ' ' ++ s

/-- `WRITE(var,...)` where `var` is declared `CHARACTER(LEN=len)` -/
def internalWrite (len : Nat) (s : Name) : Except Err Name :=
  if len < s.length then .error .ioError else .ok (s ++ List.replicate (len - s.length) ' ')

/-- Assignment to a variable declared `CHARACTER(LEN=len)` -/
def assignChar (len : Nat) (s : Name) : Name := s.take len ++ List.replicate (len - s.length) ' '

/-! ### Names of files -/

/-- Names of the directories and beginnings of the names of the files for each `itype` (file_path.f90, 36-58) -/
def storeNames (itype : Nat) : Except Err (Name × Name) :=
  if itype = 0 then .ok ("/snapshot/".toList, "snap_millennium_".toList)
  else if itype = 1 then .ok ("/group_tab/".toList, "group_tab_".toList)
  else if itype = 2 then .ok ("/sub_tab/".toList, "sub_tab_".toList)
  else if itype = 3 then .ok ("/sub_ids/".toList, "sub_ids_".toList)
  else if itype = 4 then .ok ("/group_ids/".toList, "group_ids_".toList)
  else .error .abort

/-- `filepath` (file_path.f90, 5-63) -/
def filepath (itype : Nat) (isnap ifile : Int) : Except Err Name := do
  let a ← cInt (63 - isnap)
  let b ← cInt (3 * a)
  let c ← cInt (ifile + b)
  let idest := c.tmod 14
  let fileno ← internalWrite 4 ('.' :: if ifile < 10 then iFormat 1 1 ifile else if ifile < 100 then iFormat 2 2 ifile else iFormat 3 3 ifile)
  let names ← storeNames itype
  let dir ← internalWrite 256 ("/data/milli".toList ++ iFormat 2 2 idest ++ "/d".toList ++ iFormat 2 2 isnap ++ names.1)
  let filename ← internalWrite 256 (names.2 ++ iFormat 3 3 isnap ++ fileno)
  .ok (assignChar 256 (trimBlanks dir ++ trimBlanks filename))

/-- The choice of the file (readgroups.f90, 93-106, 161-174, 232-245, 302-315, 395-408; readfile.f90, 67-83, 122-138) -/
def chooseFile (itype : Nat) (dirbase stem : Name) (basedir : Name) (isnap ifile : Int) : Except Err Name :=
  if charEq basedir "MILLENNIUM".toList then filepath itype isnap ifile
  else internalWrite 256 (trimBlanks basedir ++ '/' :: dirbase ++ '_' :: iFormat 3 3 isnap ++ '/' :: stem ++ '_' :: iFormat 3 3 isnap ++ '.' ::
    if ifile > 99 then iFormat 3 3 ifile else if ifile > 9 then iFormat 2 2 ifile else iFormat 1 1 ifile)

/-! ### Input lists -/

/-- Array of `n` elements of `w` bytes at the beginning of some bytes, and what follows -/
def readItem (big : Bool) (w n : Nat) (bytes : List Byte) : Except Err (List (List Byte) × List Byte) :=
  if bytes.length < w * n then .error .ioError
  else .ok ((List.range n).map (fun i => let v := slice bytes (w * i) w; if big then v.reverse else v), bytes.drop (w * n))

/-- An input list: bytes per element and number of elements of each array -/
def readItems (big : Bool) : List (Nat × Nat) → List Byte → Except Err (List (List (List Byte)))
  | [], _ => .ok []
  | (w, n) :: items, bytes => do
    let a ← readItem big w n bytes
    let rest ← readItems big items a.2
    .ok (a.1 :: rest)

/-- `OPEN(FILE=filename,STATUS='old',ACCESS='direct',RECL=recl)` and `READ(REC=1)` -/
def directRead (big : Bool) (fs : ByteFS) (filename : Name) (recl : Int) (items : List (Nat × Nat)) : Except Err (List (List (List Byte))) :=
  match fs (trimBlanks filename) with
  | none => .error .ioError
  | some file =>
    if recl ≤ 0 ∨ (file.length : Int) < recl then .error .ioError
    else readItems big items (file.take recl.toNat)

/-- `READ(1)` of one record of a sequential file: the values and the position after the record. The input list may be shorter than the record. -/
def recordRead (big : Bool) (items : List (Nat × Nat)) (bytes : List Byte) : Except Err (List (List (List Byte)) × List Byte) := do
  let m ← readItem big 4 1 bytes
  let n := int32Value (m.1.headD [])
  if n < 0 ∨ (m.2.length : Int) < n then .error .ioError
  else
    let e ← readItem big 4 1 (m.2.drop n.toNat)
    if int32Value (e.1.headD []) ≠ n then .error .ioError
    else
      let vals ← readItems big items (m.2.take n.toNat)
      .ok (vals, e.2)

/-! ### Groups and subhalos -/

/-- Element `i` of the header -/
def headerInt (vals : List (List (List Byte))) (i : Nat) : Int := int32Value ((vals.headD []).getD i [])

/-- Results of `readgrouptab` -/
structure GroupTab where
  nfoffile : Int
  nidfile : Int
  nfoftot : Int
  nfiles : Int
  foflen : List (List Byte)
  foffset : List (List Byte)
  deriving DecidableEq

/-- `readgrouptab` (readgroups.f90, 68-132); `associated` says whether one of the pointers is associated. -/
def readgrouptab (big : Bool) (fs : ByteFS) (associated : Bool) (basedir : Name) (isnap ifile : Int) : Except Err GroupTab :=
  if associated then .error .abort
  else do
    let filename ← chooseFile 1 "snapdir".toList "group_tab".toList basedir isnap ifile
    let header ← directRead big fs filename 20 [(4, 4)]
    let nfoffile := headerInt header 0
    let a ← cInt (nfoffile * 2)
    let nint ← cInt (4 + a)
    let nbytes ← cInt (nint * 4)
    let v ← directRead big fs filename nbytes [(4, 4), (4, nfoffile.toNat), (4, nfoffile.toNat)]
    .ok ⟨nfoffile, headerInt header 1, headerInt header 2, headerInt header 3, v.getD 1 [], v.getD 2 []⟩

/-- Results of `readgroupids` and `readsubids` -/
structure GroupIds where
  nfoffile : Int
  nidfile : Int
  nfoftot : Int
  nfiles : Int
  groupids : List (List Byte)
  deriving DecidableEq

/-- The second part of `readgroupids` (178-195) and of `readsubids` (319-336), which are the same -/
def readids (big : Bool) (fs : ByteFS) (filename : Name) : Except Err GroupIds := do
  let header ← directRead big fs filename 16 [(4, 4)]
  let nidfile := headerInt header 1
  let nint8 ← cInt (2 + nidfile)
  let nbytes ← cInt (nint8 * 8)
  let v ← directRead big fs filename nbytes [(4, 4), (8, nidfile.toNat)]
  .ok ⟨headerInt header 0, nidfile, headerInt header 2, headerInt header 3, v.getD 1 []⟩

/-- `readgroupids` (136-200) -/
def readgroupids (big : Bool) (fs : ByteFS) (associated : Bool) (basedir : Name) (isnap ifile : Int) : Except Err GroupIds :=
  if associated then .error .abort
  else do
    let filename ← chooseFile 4 "snapdir".toList "group_ids".toList basedir isnap ifile
    readids big fs filename

/-- `readsubids` (277-341) -/
def readsubids (big : Bool) (fs : ByteFS) (associated : Bool) (basedir : Name) (isnap ifile : Int) : Except Err GroupIds :=
  if associated then .error .abort
  else do
    let filename ← chooseFile 3 "postproc".toList "sub_ids".toList basedir isnap ifile
    readids big fs filename

/-- Numbers in the headers of sub_tab files -/
structure SubCounts where
  nfoffile : Int
  nidfile : Int
  nfoftot : Int
  nfiles : Int
  nsubfile : Int
  deriving DecidableEq

/-- Results of `readsubtab` -/
structure SubTab where
  counts : SubCounts
  nsphalo : List (List Byte)
  firstsub : List (List Byte)
  sublen : List (List Byte)
  suboffset : List (List Byte)
  subpar : List (List Byte)
  deriving DecidableEq

/-- The header of a sub_tab file (249-257, 412-420) -/
def readSubCounts (big : Bool) (fs : ByteFS) (filename : Name) : Except Err SubCounts := do
  let header ← directRead big fs filename 20 [(4, 5)]
  .ok ⟨headerInt header 0, headerInt header 1, headerInt header 2, headerInt header 3, headerInt header 4⟩

/-- `nint=5+(nfoffile*a)+(nsubfile*b)` and `nbytes=nint*4` (261-262, 424-425) -/
def subBytes (c : SubCounts) (a b : Int) : Except Err Int := do
  let x ← cInt (c.nfoffile * a)
  let y ← cInt (5 + x)
  let z ← cInt (c.nsubfile * b)
  let nint ← cInt (y + z)
  cInt (nint * 4)

/-- `readsubtab` (205-273) -/
def readsubtab (big : Bool) (fs : ByteFS) (associated : Bool) (basedir : Name) (isnap ifile : Int) : Except Err SubTab :=
  if associated then .error .abort
  else do
    let filename ← chooseFile 2 "postproc".toList "sub_tab".toList basedir isnap ifile
    let c ← readSubCounts big fs filename
    let nbytes ← subBytes c 2 3
    let ng := c.nfoffile.toNat
    let ns := c.nsubfile.toNat
    let v ← directRead big fs filename nbytes [(4, 5), (4, ng), (4, ng), (4, ns), (4, ns), (4, ns)]
    .ok ⟨c, v.getD 1 [], v.getD 2 [], v.getD 3 [], v.getD 4 [], v.getD 5 []⟩

/-- `TYPE subhalotype` (41-50) -/
structure Subhalo where
  pos : List (List Byte)
  vel : List (List Byte)
  spin : List (List Byte)
  veldisp : List Byte
  vmax : List Byte
  mostboundid : List Byte
  halfmass : List Byte
  len : List Byte
  offset : List Byte
  parent : List Byte
  deriving DecidableEq

/-- `TYPE halotype` (52-61) -/
structure Halo where
  mmean200 : List Byte
  rmean200 : List Byte
  mcrit200 : List Byte
  rcrit200 : List Byte
  mtophat200 : List Byte
  rtophat200 : List Byte
  nsubgroups : List Byte
  firstsubgroup : List Byte
  deriving DecidableEq

/-- `(1:nsubfile)%pos(k)=pos(k,1:nsubfile)` for `k` = 1, 2, 3 (437-445): element (k, i + 1) of an array `pos(3,nsubfile)` is number 3 * i + k - 1. -/
def vector (a : List (List Byte)) (i : Nat) : List (List Byte) := [a.getD (3 * i) [], a.getD (3 * i + 1) [], a.getD (3 * i + 2) []]

/-- `readsubhalos` (345-451) -/
def readsubhalos (big : Bool) (fs : ByteFS) (associated : Bool) (basedir : Name) (isnap ifile : Int) : Except Err (SubCounts × List Halo × List Subhalo) :=
  if associated then .error .abort
  else do
    let filename ← chooseFile 2 "postproc".toList "sub_tab".toList basedir isnap ifile
    let c ← readSubCounts big fs filename
    let nbytes ← subBytes c 8 17
    let ng := c.nfoffile.toNat
    let ns := c.nsubfile.toNat
    let v ← directRead big fs filename nbytes ([(4, 5), (4, ng), (4, ng), (4, ns), (4, ns), (4, ns), (4, ng), (4, ng), (4, ng), (4, ng), (4, ng), (4, ng), (4, 3 * ns), (4, 3 * ns),
      (4, ns), (4, ns), (4, 3 * ns), (8, ns), (4, ns)])
    let e := fun k i => (v.getD k []).getD i []
    .ok (c, (List.range ng).map (fun i => ⟨e 6 i, e 7 i, e 8 i, e 9 i, e 10 i, e 11 i, e 1 i, e 2 i⟩),
      (List.range ns).map (fun i => ⟨vector (v.getD 12 []) i, vector (v.getD 13 []) i, vector (v.getD 16 []) i, e 14 i, e 15 i, e 17 i, e 18 i, e 3 i, e 4 i, e 5 i⟩))

/-! ### Snapshots -/

/-- `TYPE headertype` (readfile.f90, 28-46), without `unused`, which is not read -/
structure SnapHeader where
  npart : List (List Byte)
  mass : List (List Byte)
  time : List Byte
  redshift : List Byte
  flag_sfr : List Byte
  flag_feedback : List Byte
  nparttotal : List (List Byte)
  flag_cooling : List Byte
  numfiles : List Byte
  boxsize : List Byte
  omega0 : List Byte
  omegalambda : List Byte
  hubbleparam : List Byte
  flag_stellarage : List Byte
  flag_metals : List Byte
  hashtabsize : List Byte
  deriving DecidableEq

/-- The first record (87-91, 142-146) -/
def headerRecord (big : Bool) (bytes : List Byte) : Except Err (SnapHeader × List Byte) := do
  let r ← recordRead big [(4, 6), (8, 6), (8, 1), (8, 1), (4, 1), (4, 1), (4, 6), (4, 1), (4, 1), (8, 1), (8, 1), (8, 1), (8, 1), (4, 1), (4, 1), (4, 1)] bytes
  let v := fun k => r.1.getD k []
  let s := fun k => (v k).headD []
  .ok (⟨v 0, v 1, s 2, s 3, s 4, s 5, v 6, s 7, s 8, s 9, s 10, s 11, s 12, s 13, s 14, s 15⟩, r.2)

/-- `OPEN(file=filename,status='old',form='unformatted')` -/
def openSequential (fs : ByteFS) (filename : Name) : Except Err (List Byte) :=
  match fs (trimBlanks filename) with
  | none => .error .ioError
  | some file => .ok file

/-- `readheader` (52-94) -/
def readheader (big : Bool) (fs : ByteFS) (basedir basename : Name) (isnap ifile : Int) : Except Err SnapHeader := do
  let filename ← chooseFile 0 "snapdir".toList (trimBlanks basename) basedir isnap ifile
  let file ← openSequential fs filename
  let h ← headerRecord big file
  .ok h.1

/-- Results of `readfile` -/
structure SnapData where
  header : SnapHeader
  firstcell : Int
  lastcell : Int
  hashtable : List (List Byte)
  pos : List (List Byte)
  vel : List (List Byte)
  id : List (List Byte)
  deriving DecidableEq

/-- `readfile` (98-158) -/
def readfile (big : Bool) (fs : ByteFS) (basedir basename : Name) (isnap ifile : Int) : Except Err SnapData := do
  let filename ← chooseFile 0 "snapdir".toList (trimBlanks basename) basedir isnap ifile
  let file ← openSequential fs filename
  let h ← headerRecord big file
  let np := (int32Value (h.1.npart.getD 1 [])).toNat
  let pos ← recordRead big [(4, 3 * np)] h.2
  let vel ← recordRead big [(4, 3 * np)] pos.2
  let id ← recordRead big [(8, np)] vel.2
  let c ← recordRead big [(4, 2)] id.2
  let firstcell := headerInt c.1 0
  let lastcell := headerInt c.1 1
  let d ← cInt (lastcell - firstcell)
  let nhash ← cInt (d + 1)
  let table ← recordRead big [(4, nhash.toNat)] c.2
  .ok ⟨h.1, firstcell, lastcell, table.1.headD [], pos.1.headD [], vel.1.headD [], id.1.headD []⟩

end Verif.FortranReaders
