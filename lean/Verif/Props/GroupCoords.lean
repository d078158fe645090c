import Verif.Proofs.CoordAll
import Verif.Props.GroupLib

/-! C89: the C library for IDL finds the positions of the particles of a group. -/

namespace Verif

open CPeano ReadParticles ReadRegion GroupLib

variable {sys : Bool} {fs : ByteFS} {dir base : Name} {num : Nat} {Cs : Nat → Content} {n cells : Nat → Nat} {start : Nat → Nat → Nat} {nfile : Nat}
  {Gs : Nat → Content} {ng : Nat → Nat} {minlen ngfile : Nat} {C : Content} {f g o len ni : Nat} {val4 val8 : List Byte → Rat} {qsort : List Nat → List Nat} {box box0 : Rat} {pos : List Vec}

/-- C89: if the particles with the IDs of a group are in the cells which the IDs name, `Pos` has their positions relative to the centre of mass in the order of the numbers
of the particles, and the array of files is as it was. `R` are the particles of these cells, of which the result only has those with the IDs. -/
theorem C89_coordinates (S : HashedSnapshot Cs n cells start nfile) (hs : SnapStored sys fs dir base num Cs n cells nfile) (hn : nfile ≤ 2 ^ 30)
    (T : GroupTabs Gs ng minlen ngfile) (ht : TabsStored sys fs dir num Gs ng minlen ngfile) (hf : f < ngfile) (hg : g < ng f) (ho : int32Value ((Gs f "GroupOffset".toList).getD g []) = o)
    (hi : IdsStored sys fs dir num f C ni) (hl : o + len ≤ ni) (h0 : 0 < len) (hcells : ∀ id ∈ idsOf C o len, idCell id < pre cells nfile)
    {R : List Particle} (hR : R = region Cs n cells start nfile (cellFlags (pre cells nfile) (idsOf C o len))) (hsize : R.length < 2 ^ 29)
    (hfound : ∀ id ∈ idsOf C o len, ∃ p ∈ R, lowOf p = lowId id) (hq : ∀ l, QSorted idSortCompareKey l (qsort l))
    (hbox : ∀ f < nfile, val8 ((Cs f "Header/BoxSize".toList).headD []) = box) (hb : 0 < box)
    (hin : ∀ p ∈ R, (0 ≤ val4 p.x ∧ val4 p.x ≤ box) ∧ (0 ≤ val4 p.y ∧ val4 p.y ≤ box) ∧ (0 ≤ val4 p.z ∧ val4 p.z ≤ box)) (hpos : len ≤ pos.length) {fuel : Nat} (hfu : 2 ≤ fuel) :
    ∃ (ps : List Particle) (vs : List Vec) (c : Vec),
      getGroupCoordinates sys fs dir base num val4 val8 qsort fuel (wholeTable n cells start nfile) (pre cells nfile) g f len box0 pos =
        ⟨.ok (vs ++ pos.drop len, c), (wholeTable n cells start nfile).filetable⟩ ∧
      (ps.map lowOf).Perm ((idsOf C o len).map lowId) ∧ (ps.map lowOf).Pairwise (· ≤ ·) ∧ (∀ p ∈ ps, p ∈ R) ∧
      Centred box (ps.map fun p => val4 p.x) (vs.map (·.1)) c.1 ∧ Centred box (ps.map fun p => val4 p.y) (vs.map (·.2.1)) c.2.1 ∧
      Centred box (ps.map fun p => val4 p.z) (vs.map (·.2.2)) c.2.2 := by
  have hids := groupIds_ok T ht hf hg ho hi hl
  have hcl : (C "GroupIDs".toList).length = ni := by
    have := (hi.fits.rows ⟨false, [Files.col 8 ni "GroupIDs"]⟩ (by rw [ids_sections]; simp) (Files.col 8 ni "GroupIDs") (by simp)).1
    exact this.trans (by simp [Files.col])
  have hlen : (idsOf C o len).length = len := by
    unfold idsOf slice
    rw [List.length_map, List.length_take, List.length_drop]
    omega
  generalize hG : idsOf C o len = ids at *
  have hne : ∃ id ∈ ids, idCell id < pre cells nfile := by
    obtain ⟨id, hid⟩ := List.exists_mem_of_length_pos (show 0 < ids.length by omega)
    exact ⟨id, hid, hcells id hid⟩
  obtain ⟨l1, ⟨boxes, b, l2, l3, l4⟩, l5⟩ := loops_ok S.toSnapshot hs hR hbox hne
  obtain ⟨ps, m1, m2, m3, m4, m5⟩ := match_ok (val4 := val4) hsize hq hfound (pos := pos) (by omega)
  have hpl : (ps.map (vecOf val4)).length = ids.length := by
    have := m2.length_eq
    rw [List.length_map, List.length_map] at this
    rw [List.length_map, this]
  obtain ⟨vs, c, r1, r2, r3, r4⟩ := recentre_ok (ws := ps.map (vecOf val4)) (rest := pos.drop ids.length) hb (by intro h; rw [h] at hpl; simp at hpl; omega) (by
        intro w hw
        obtain ⟨p, hp, rfl⟩ := List.mem_map.1 hw
        exact hin p (m4 p hp)) hfu
  have hroom : cInt (3 * (R.length : Int)) = .ok (3 * (R.length : Int)) := cInt_ok (by omega) (by omega)
  have hg : groupPositions sys fs dir base num val4 val8 qsort fuel (wholeTable n cells start nfile) (pre cells nfile)
      (flagTab (pre cells nfile) (fileAt n cells start nfile) (fun c => decide (c ∈ ids.map idCell))) R.length ids box0 pos = .ok (vs ++ pos.drop ids.length, c) := by
    unfold groupPositions
    rw [bindOk _ hroom, show (3 * (R.length : Int)).toNat = 3 * R.length by omega, bindOk _ l1, bindOk _ l2, Int.toNat_natCast, bindOk _ l5, l3]
    dsimp only
    rw [hpl] at r1
    rw [bindOk _ m1, l4, m5, r1]
  refine ⟨ps, vs, c, ?_, m2, m3, m4, ?_, ?_, ?_⟩
  · rw [coords_start S.toSnapshot hn hR hsize hcells hids, hg, afterMark_ok, hlen]
  · rw [List.map_map] at r2; exact r2
  · rw [List.map_map] at r3; exact r3
  · rw [List.map_map] at r4; exact r4

/-- C89: if a file of the snapshot is missing, the function fails and the numbers of files in the array of the caller are changed. -/
theorem C89_missing_file_defect (S : HashedSnapshot Cs n cells start nfile) (hn : nfile ≤ 2 ^ 30)
    (hs : ∀ f < nfile, (groupFile base dir num f).length ≤ 999 ∧ (fs (groupFile base dir num f) = none ∨ ∃ rest, fs (groupFile base dir num f) = some (snapshotBytes (Cs f) (n f) (cells f) (!sys) rest)))
    (T : GroupTabs Gs ng minlen ngfile) (ht : TabsStored sys fs dir num Gs ng minlen ngfile) (hf : f < ngfile) (hg : g < ng f) (ho : int32Value ((Gs f "GroupOffset".toList).getD g []) = o)
    (hi : IdsStored sys fs dir num f C ni) (hl : o + len ≤ ni) (hcells : ∀ id ∈ idsOf C o len, idCell id < pre cells nfile)
    (hsize : (region Cs n cells start nfile (cellFlags (pre cells nfile) (idsOf C o len))).length < 2 ^ 29)
    {id k : Nat} (hid : id ∈ idsOf C o len) (hk : (wholeTable n cells start nfile).filetable[idCell id]? = some (k : Int)) (hmiss : fs (groupFile base dir num k) = none) (fuel : Nat) :
    ∃ changed, getGroupCoordinates sys fs dir base num val4 val8 qsort fuel (wholeTable n cells start nfile) (pre cells nfile) g f len box0 pos = ⟨.error .ioError, changed⟩ ∧
      ∀ (c : Nat) (f : Int), (wholeTable n cells start nfile).filetable[c]? = some f → changed[c]? = some (2 * f + (if c ∈ (idsOf C o len).map idCell then 1 else 0)) := by
  have hids := groupIds_ok T ht hf hg ho hi hl
  generalize hG : idsOf C o len = ids at *
  generalize hR : region Cs n cells start nfile (cellFlags (pre cells nfile) ids) = R at *
  have hRl := length_if (fun c => decide (c ∈ ids.map idCell)) (cellAt Cs n cells start nfile) (pre cells nfile)
  have hR' := region_flags (Cs := Cs) (n := n) (cells := cells) (start := start) (nfile := nfile) ids
  rw [hR] at hR'
  have hfile : ∀ f < nfile, FileOk sys fs dir base num Cs n cells f ∨ openBuf fs (snapName dir base num f) = .error .ioError := by
    intro f hf
    obtain ⟨h1, h2⟩ := hs f hf
    unfold FileOk openBuf
    rw [snapName_eq, if_neg (by omega)]
    rcases h2 with h2 | ⟨rest, h2⟩
    · right; rw [h2]
    · left; exact ⟨rest, by rw [h2]⟩
  have hbadpos : ∀ (f : Nat) (key : Int), openBuf fs (snapName dir base num f) = .error .ioError → readPos sys fs dir base num (wholeTable n cells start nfile) f key = .error .ioError := by
    intro f key h
    unfold readPos
    rw [openSnap_nat, bindErr _ h]
  have hbad := cellLoop_bad (file := fileAt n cells start nfile) (P := fun c => decide (c ∈ ids.map idCell)) (size := pre cells nfile) (room := 3 * R.length) (e := Err.ioError)
    (g := fun c => coords (cellAt Cs n cells start nfile c)) (read := fun f key => do let r ← readPos sys fs dir base num (wholeTable n cells start nfile) f key; .ok r.1)
    (fun c hc _ => by
      obtain ⟨_, f, hf, e, h⟩ := cell_ok (sys := sys) (fs := fs) (dir := dir) (base := base) (num := num) S.toSnapshot hc
      rcases hfile f hf with h1 | h1
      · left; rw [bindOk _ (h h1).1]
      · right; rw [e, bindErr _ (hbadpos f c h1)])
    (by rw [coords_if, ← hR', length_coords]) (hcells id hid) (by simpa using ⟨id, hid, rfl⟩) (by
      obtain ⟨_, f, hf, e, _⟩ := cell_ok (Cs := Cs) (sys := sys) (fs := fs) (dir := dir) (base := base) (num := num) S.toSnapshot (hcells id hid)
      have hfk : f = k := by
        unfold fileAt at e
        rw [List.getD_eq_getElem?_getD, hk, Option.getD_some] at e
        exact_mod_cast e.symm
      subst hfk
      rw [e, bindErr _ (hbadpos f _ (by unfold openBuf; rw [snapName_eq, if_neg (by have := (hs f hf).1; omega), hmiss]))])
  have hroom : cInt (3 * (R.length : Int)) = .ok (3 * (R.length : Int)) := cInt_ok (by omega) (by omega)
  have hgp : groupPositions sys fs dir base num val4 val8 qsort fuel (wholeTable n cells start nfile) (pre cells nfile)
      (flagTab (pre cells nfile) (fileAt n cells start nfile) (fun c => decide (c ∈ ids.map idCell))) R.length ids box0 pos = .error .ioError := by
    unfold groupPositions
    rw [bindOk _ hroom, show (3 * (R.length : Int)).toNat = 3 * R.length by omega, bindErr _ hbad]
  refine ⟨flagTab (pre cells nfile) (fileAt n cells start nfile) (fun c => decide (c ∈ ids.map idCell)), ?_, ?_⟩
  · rw [coords_start S.toSnapshot hn hR.symm hsize hcells hids, hgp]
    rfl
  · intro c f hcf
    have hl := whole_file_length (n := n) (cells := cells) (start := start) nfile
    have hc : c < pre cells nfile := by rw [← hl]; exact (List.getElem?_eq_some_iff.1 hcf).1
    rw [flagTab_get _ _ hc]
    unfold fileAt
    rw [List.getD_eq_getElem?_getD, hcf]
    simp

/-- C89: if the number of a particle of the group is larger than all numbers in the cells, the code reads elements after the end of its array. -/
theorem C89_unknown_id_defect (S : HashedSnapshot Cs n cells start nfile) (hs : SnapStored sys fs dir base num Cs n cells nfile) (hn : nfile ≤ 2 ^ 30)
    (T : GroupTabs Gs ng minlen ngfile) (ht : TabsStored sys fs dir num Gs ng minlen ngfile) (hf : f < ngfile) (hg : g < ng f) (ho : int32Value ((Gs f "GroupOffset".toList).getD g []) = o)
    (hi : IdsStored sys fs dir num f C ni) (hl : o + len ≤ ni) (hcells : ∀ id ∈ idsOf C o len, idCell id < pre cells nfile)
    {R : List Particle} (hR : R = region Cs n cells start nfile (cellFlags (pre cells nfile) (idsOf C o len))) (hsize : R.length < 2 ^ 29) (hne : R ≠ [])
    (hmiss : ∃ id ∈ idsOf C o len, ∀ p ∈ R, lowOf p < lowId id) (hq : ∀ l, QSorted idSortCompareKey l (qsort l))
    (hbox : ∀ f < nfile, val8 ((Cs f "Header/BoxSize".toList).headD []) = box) (hpos : len ≤ pos.length) (fuel : Nat) :
    (getGroupCoordinates sys fs dir base num val4 val8 qsort fuel (wholeTable n cells start nfile) (pre cells nfile) g f len box0 pos).result = .error .other := by
  have hids := groupIds_ok T ht hf hg ho hi hl
  have hlen : (idsOf C o len).length ≤ len := by
    unfold idsOf slice
    rw [List.length_map, List.length_take]
    omega
  generalize hG : idsOf C o len = ids at *
  obtain ⟨id, hid, hlt⟩ := hmiss
  obtain ⟨l1, ⟨boxes, b, l2, l3, l4⟩, l5⟩ := loops_ok S.toSnapshot hs hR hbox ⟨id, hid, hcells id hid⟩
  obtain ⟨hp1, -⟩ := hq (markIds (R.map (fun p => leNat p.id)))
  obtain ⟨hp2, -⟩ := hq (ids.map (· % 2 ^ 34))
  have hbad := matchLoop_bad (L := qsort (markIds (R.map (fun p => leNat p.id)))) (posRead := (coords R).map val4) (fun v hv => by
      obtain ⟨i, hi, _, _, h3, _⟩ := mem_markIds hsize (hp1.subset hv)
      rw [h3]
      exact ⟨_, vector_ok val4 hi⟩) (qsort (ids.map (· % 2 ^ 34))) 0 0 pos
    ⟨lowId id, hp2.symm.subset (List.mem_map.2 ⟨id, hid, rfl⟩), fun v hv => by
      obtain ⟨i, hi, _, h2, _, _⟩ := mem_markIds hsize (hp1.subset hv)
      rw [h2]
      exact hlt _ (List.getElem_mem hi)⟩
    (by rw [hp1.length_eq]; unfold markIds; rw [List.length_map, List.length_range, List.length_map]; exact List.length_pos_iff.2 hne)
    (by rw [hp2.length_eq, List.length_map]; omega)
  have hroom : cInt (3 * (R.length : Int)) = .ok (3 * (R.length : Int)) := cInt_ok (by omega) (by omega)
  have hgp : groupPositions sys fs dir base num val4 val8 qsort fuel (wholeTable n cells start nfile) (pre cells nfile)
      (flagTab (pre cells nfile) (fileAt n cells start nfile) (fun c => decide (c ∈ ids.map idCell))) R.length ids box0 pos = .error .other := by
    unfold groupPositions
    rw [bindOk _ hroom, show (3 * (R.length : Int)).toNat = 3 * R.length by omega, bindOk _ l1, bindOk _ l2, Int.toNat_natCast, bindOk _ l5]
    dsimp only
    rw [bindErr _ hbad]
  rw [coords_start S.toSnapshot hn hR hsize hcells hids, hgp]
  rfl

namespace ExGroupCoords

/-- Two files with five cells; the particles of the first cell are numbers 7 and 5, then there is 9 in the second, 2 in the fourth and 11 in the last one. -/
def contents (f : Nat) : Content := fun name =>
  if name = "PartType1/ParticleIDs".toList then (if f = 0 then [7, 5, 2 ^ 34 + 9] else [3 * 2 ^ 34 + 2, 4 * 2 ^ 34 + 11]).map (leBytes 8)
  else if name = "PartType1/Coordinates".toList then (if f = 0 then [1, 10, 20, 99, 10, 20, 50, 50, 50] else [3, 12, 22, 60, 60, 60]).map (leBytes 4)
  else if name = "Header/BoxSize".toList then [leBytes 8 100]
  else ExGroupLib.contents f name

theorem fits (f : Nat) (hf : f < 2) : SnapshotFile (contents f) (ExReadRegion.number f) (ExReadRegion.cellsIn f) := by
  refine ⟨⟨?_, ?_⟩, ?_⟩
  · have : ∀ f < 2, ∀ sec ∈ Files.lgadget2Snapshot (ExReadRegion.number f) (ExReadRegion.cellsIn f), ∀ r ∈ sec.rows,
        (contents f r.name).length = r.shape.prod ∧ ∀ v ∈ contents f r.name, v.length = r.width := by
      decide +kernel
    exact this f hf
  · revert f; decide +kernel
  · revert f; decide +kernel

theorem snapshot : HashedSnapshot contents ExReadRegion.number ExReadRegion.cellsIn ExReadRegion.starts 2 where
  file := fits
  size := by decide +kernel
  first := by decide +kernel
  last := by decide +kernel
  total := by decide +kernel
  table := by decide +kernel
  order := by
    intro f hf j hj
    unfold ExReadRegion.starts; split_ifs <;> omega
  bound := by decide +kernel
  nonempty := by decide
  numFiles := by decide +kernel
  hashTabSize := by decide +kernel

/-- One table with two groups of one and three particles -/
def tables (_ : Nat) : Content := fun name =>
  if name = "Ngroups".toList ∨ name = "TotNgroups".toList then [leBytes 4 2]
  else if name = "Nids".toList then [leBytes 4 4]
  else if name = "NTask".toList ∨ name = "GroupMinLen".toList then [leBytes 4 1]
  else if name = "GroupLen".toList then [leBytes 4 1, leBytes 4 3]
  else if name = "GroupOffset".toList then [leBytes 4 0, leBytes 4 1]
  else if name = "Count".toList then [leBytes 4 100]
  else []

def idFile : Content := fun name =>
  if name = "GroupIDs".toList then [4 * 2 ^ 34 + 11, 7, 3 * 2 ^ 34 + 2, 5].map (leBytes 8) else [leBytes 4 0]

def store (name : Name) : Option (List Byte) :=
  if name = "d/group_tab_063.0".toList then some ((Files.lgadget2GroupTab 2 1).bytes false (tables 0))
  else if name = "d/group_ids_063.0".toList then some ((Files.lgadget2SubIDs 8 4).bytes false idFile)
  else if name = "d/snap_063.0".toList then some (snapshotBytes (contents 0) 3 2 false [])
  else if name = "d/snap_063.1".toList then some (snapshotBytes (contents 1) 2 3 false [])
  else none

def insertId (a : Nat) : List Nat → List Nat
  | [] => [a]
  | b :: l => if idSortCompareKey a b ≤ 0 then a :: b :: l else b :: insertId a l

/-- The numbers 2, 5 and 7 are at 3, 99 and 1 in a box of the size 100; their centre is at 1. -/
example : (getGroupCoordinates true store "d".toList "snap".toList 63 (fun v => (leNat v : Rat)) (fun v => (leNat v : Rat)) (List.foldr insertId []) 2
    ⟨[0, 2, 0, 0, 1], [0, 0, 1, 1, 1], [1, 4], [3, 2]⟩ 5 1 0 3 0 [(0, 0, 0), (0, 0, 0), (0, 0, 0)]).result = .ok ([(2, 4 / 3, 4 / 3), (-2, -2 / 3, -2 / 3), (0, -2 / 3, -2 / 3)], (1, 32 / 3, 62 / 3)) := by
  decide +kernel

/-- The cells of the group and the particles in them -/
example : (idsOf idFile 1 3).map idCell = [0, 3, 0] ∧
    (region contents ExReadRegion.number ExReadRegion.cellsIn ExReadRegion.starts 2 (cellFlags 5 (idsOf idFile 1 3))).map lowOf = [7, 5, 2] := by decide +kernel

/-- Without the second file the numbers of files become 1, 0, 2, 3 and 2. -/
example : (getGroupCoordinates true (fun name => if name = "d/snap_063.1".toList then none else store name) "d".toList "snap".toList 63 (fun v => (leNat v : Rat)) (fun v => (leNat v : Rat))
    (List.foldr insertId []) 2 ⟨[0, 2, 0, 0, 1], [0, 0, 1, 1, 1], [1, 4], [3, 2]⟩ 5 1 0 3 0 [(0, 0, 0), (0, 0, 0), (0, 0, 0)]).filetable = [1, 0, 2, 3, 2] := by decide +kernel

end ExGroupCoords

end Verif
