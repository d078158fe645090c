import Verif.Proofs.FortranPrograms

/-! C108: what the Fortran programs write for the particles of groups. -/

namespace Verif.FortranPrograms

open CPeano ReadRegion FortranReaders ReadParticles

variable {Cs : Nat → Content} {n cells : Nat → Nat} {start : Nat → Nat → Nat} {nfile : Nat}
variable {fs : ByteFS} {basedir basename : Name} {isnap ifile : Nat} {big : Bool}

theorem subids_ok {I : Content} {ni : Nat} (HI : StoredIDs fs basedir isnap ifile big I ni nfile) :
    readsubids big fs false basedir isnap ifile = .ok ⟨scalarInt I "Ngroups".toList, ni, scalarInt I "TotNgroups".toList, nfile, I "GroupIDs".toList⟩ ∧ IsArray 8 ni (I "GroupIDs".toList) := by
  obtain ⟨p, rest, hl, hf⟩ := HI.stored
  obtain ⟨-, -, -, -, h4⟩ := ids_layout big HI.fits rest
  exact ⟨by rw [(C93_ids_files big fs HI.fits HI.count HI.size rest hf).2 hl, HI.files], h4⟩

theorem grouptab_ok {G : Content} {ng : Nat} (HG : StoredGroupTab fs basedir isnap ifile big G ng) :
    readgrouptab big fs false basedir isnap ifile = .ok ⟨ng, scalarInt G "Nids".toList, scalarInt G "TotNgroups".toList, scalarInt G "NTask".toList, G "GroupLen".toList, G "GroupOffset".toList⟩ ∧
      (G "GroupLen".toList).length = ng ∧ (G "GroupOffset".toList).length = ng := by
  obtain ⟨minlen, p, rest, hfit, hl, hf⟩ := HG.stored
  have h := C93_group_tab_file big fs hl hfit HG.count HG.size rest hf
  refine ⟨h, ?_⟩
  obtain ⟨-, _, _, _, _, _, _, _, h1, h2, _⟩ := (C93_group_tab big fs false hl _).1 h
  exact ⟨by simpa using h1.1, by simpa using h2.1⟩

theorem subtab_ok {T : Content} {ng ns : Nat} (HT : StoredSubTab fs basedir isnap ifile big T ng ns) :
    readsubtab big fs false basedir isnap ifile = .ok ⟨⟨ng, scalarInt T "Nids".toList, scalarInt T "TotNgroups".toList, scalarInt T "NFiles".toList, ns⟩,
      T "NsubPerHalo".toList, T "FirstSubOfHalo".toList, T "SubLen".toList, T "SubOffset".toList, T "SubParentHalo".toList⟩ ∧
      (T "SubLen".toList).length = ns ∧ (T "SubOffset".toList).length = ns ∧ (T "SubParentHalo".toList).length = ns := by
  obtain ⟨p, rest, hl, hf⟩ := HT.stored
  have hs := HT.size
  have h := C93_sub_tab_file big fs hl HT.fits HT.groups HT.subhalos (by omega) rest hf
  refine ⟨h, ?_⟩
  obtain ⟨-, _, _, _, _, _, _, _, _, _, h2, _⟩ := (C93_sub_tab big fs false hl _).1 h
  exact ⟨by simpa using (h2 (T "SubLen".toList) (by simp)).1, by simpa using (h2 (T "SubOffset".toList) (by simp)).1, by simpa using (h2 (T "SubParentHalo".toList) (by simp)).1⟩

theorem header_ok (S : Snapshot Cs n cells start nfile) (H : Stored fs basedir basename isnap Cs n cells nfile big) (hi : ifile < nfile) (blanks : Nat) :
    readheader big fs basedir (basename ++ List.replicate blanks ' ') isnap ifile = .ok (headerOf (Cs ifile)) := by
  obtain ⟨p, rest, hl, hf⟩ := H.2 ifile hi
  exact C93_header big fs blanks H.1 hl (S.file ifile hi) rest hf

theorem getD_some {α : Type} {l : List α} {i : Nat} (d : α) (h : i < l.length) : l[i]? = some (l.getD i d) := by
  rw [List.getD_eq_getElem?_getD, List.getElem?_eq_getElem h]
  rfl

/-- C108: the program `readfofgroups` writes, for every particle of every group of the file, the number of the group and the coordinates of the particle of the snapshot which has this ID. -/
theorem C108_fof (S : Snapshot Cs n cells start nfile) (hu : UniqueIDs Cs n cells start nfile) (sys : Bool) (H : Stored fs basedir basename isnap Cs n cells nfile big)
    (hi : ifile < nfile) (hh : int32Value ((Cs ifile "Header/HashTabSize".toList).headD []) = pre cells nfile) {G I : Content} {ng ni : Nat} (HG : StoredGroupTab fs basedir isnap ifile big G ng)
    (HI : StoredIDs fs basedir isnap ifile big I ni nfile) (hng : scalarInt I "Ngroups".toList = ng) {len off : Nat → Nat} (hgr : Groups (G "GroupLen".toList) (G "GroupOffset".toList) ng ni len off)
    (hpos : 0 < ni) {who : Nat → Particle} (hw : ∀ i < ni, Meant Cs n cells start nfile ((I "GroupIDs".toList).getD i []) (who i))
    (hr : Few Cs n cells start nfile (wanted (pre cells nfile) (I "GroupIDs".toList))) (blanks : Nat) (junk : Int) (blank : Particle) :
    readfofgroups sys (big == sys) big fs basedir (basename ++ List.replicate blanks ' ') isnap ifile junk blank =
      .ok ((List.range ng).flatMap fun g => (List.range (len g)).map fun k => ((g : Int), coordsOf (who (off g + k)))) := by
  obtain ⟨i1, i2⟩ := subids_ok HI
  obtain ⟨g1, g2, g3⟩ := grouptab_ok HG
  obtain ⟨rest, hfiles⟩ := snapFiles_ok H blanks
  have hn := HI.size
  have hne : I "GroupIDs".toList ≠ [] := List.length_pos_iff.1 (by rw [i2.1]; exact hpos)
  obtain ⟨r1, r2⟩ := coords_of S i2.2 hne (by rw [i2.1]; exact hw) hu blank
  have hflag : ∀ v ∈ I "GroupIDs".toList, leNat v / 2 ^ 34 < pre cells nfile := by
    intro v hv
    obtain ⟨i, hi, rfl⟩ := List.getElem_of_mem hv
    have := inCell_lt (hw i (by rw [← i2.1]; exact hi)).1
    rw [List.getD_eq_getElem?_getD, List.getElem?_eq_getElem hi] at this
    exact this
  have hreg := C80_region S sys big rest hfiles (wanted (pre cells nfile) (I "GroupIDs".toList)) junk blank r1 hr
  unfold readfofgroups
  rw [bindOk _ (header_ok S H hi blanks)]
  dsimp only
  rw [show (headerOf (Cs ifile)).hashtabsize = (Cs ifile "Header/HashTabSize".toList).headD [] from rfl, hh, bindOk _ g1, bindOk _ i1]
  dsimp only
  rw [hng]
  simp only [Int.toNat_natCast]
  rw [bindOk _ (flagCells_ok hflag), bindOk _ hreg, bindOk _ r2]
  refine rows_ok (row := _) (g := fun g => (List.range (len g)).map fun k => ((g : Int), coordsOf (who (off g + k)))) ?_
  intro g hg
  obtain ⟨l1, l2, l3⟩ := hgr g hg
  rw [bindOk _ (at1_ok (getD_some [] (by omega))), bindOk _ (at1_ok (getD_some [] (by omega))), l1, l2, i2.1, bindOk _ (memberRows_ok (fun i => coordsOf (who i)) l3 (by omega)), List.map_map]
  rfl

/-- C108: the program `readgroupsexample` writes, for every particle of every subhalo of the file, the number of the subhalo, its group, and the coordinates of the particle of the snapshot which has
this ID. -/
theorem C108_subhalos (S : Snapshot Cs n cells start nfile) (hu : UniqueIDs Cs n cells start nfile) (sys : Bool) (H : Stored fs basedir basename isnap Cs n cells nfile big)
    {T I : Content} {ng ns ni : Nat} (HT : StoredSubTab fs basedir isnap ifile big T ng ns)
    (HI : StoredIDs fs basedir isnap ifile big I ni nfile) {len off : Nat → Nat} (hgr : Groups (T "SubLen".toList) (T "SubOffset".toList) ns ni len off)
    (hpos : 0 < ni) {who : Nat → Particle} (hw : ∀ i < ni, Meant Cs n cells start nfile ((I "GroupIDs".toList).getD i []) (who i))
    (hr : Few Cs n cells start nfile (wanted (pre cells nfile) (I "GroupIDs".toList))) (blanks : Nat) (junk : Int) (blank : Particle) :
    readgroupsexample sys (big == sys) big fs basedir (basename ++ List.replicate blanks ' ') isnap ifile (pre cells nfile) junk blank =
      .ok ((List.range ns).flatMap fun g => (List.range (len g)).map fun k => ((g : Int), int32Value ((T "SubParentHalo".toList).getD g []), coordsOf (who (off g + k)))) := by
  obtain ⟨i1, i2⟩ := subids_ok HI
  obtain ⟨g1, g2, g3, g4⟩ := subtab_ok HT
  obtain ⟨rest, hfiles⟩ := snapFiles_ok H blanks
  have hn := HI.size
  have hne : I "GroupIDs".toList ≠ [] := List.length_pos_iff.1 (by rw [i2.1]; exact hpos)
  obtain ⟨r1, r2⟩ := coords_of S i2.2 hne (by rw [i2.1]; exact hw) hu blank
  have hflag : ∀ v ∈ I "GroupIDs".toList, leNat v / 2 ^ 34 < pre cells nfile := by
    intro v hv
    obtain ⟨i, hi, rfl⟩ := List.getElem_of_mem hv
    have := inCell_lt (hw i (by rw [← i2.1]; exact hi)).1
    rw [List.getD_eq_getElem?_getD, List.getElem?_eq_getElem hi] at this
    exact this
  have hreg := C80_region S sys big rest hfiles (wanted (pre cells nfile) (I "GroupIDs".toList)) junk blank r1 hr
  unfold readgroupsexample
  rw [bindOk _ g1, bindOk _ i1]
  simp only [Int.toNat_natCast]
  rw [bindOk _ (flagCells_ok hflag), bindOk _ hreg, bindOk _ r2]
  refine rows_ok (row := _) (g := fun g => (List.range (len g)).map fun k => ((g : Int), int32Value ((T "SubParentHalo".toList).getD g []), coordsOf (who (off g + k)))) ?_
  intro g hg
  obtain ⟨l1, l2, l3⟩ := hgr g hg
  rw [bindOk _ (at1_ok (getD_some [] (by omega))), bindOk _ (at1_ok (getD_some [] (by omega))), bindOk _ (at1_ok (getD_some [] (by omega))), l1, l2, i2.1,
    bindOk _ (memberRows_ok (fun i => coordsOf (who i)) l3 (by omega)), List.map_map]
  rfl

/-- C108: `readfofgroups` stops with an error, and writes nothing, if one of the IDs is not that of a particle which has been read. -/
theorem C108_fof_stops (S : Snapshot Cs n cells start nfile) (sys : Bool) (H : Stored fs basedir basename isnap Cs n cells nfile big)
    (hi : ifile < nfile) (hh : int32Value ((Cs ifile "Header/HashTabSize".toList).headD []) = pre cells nfile) {G I : Content} {ng ni : Nat} (HG : StoredGroupTab fs basedir isnap ifile big G ng)
    (HI : StoredIDs fs basedir isnap ifile big I ni nfile) (hc : ∀ v ∈ I "GroupIDs".toList, leNat v / 2 ^ 34 < pre cells nfile)
    (hsome : region Cs n cells start nfile (wanted (pre cells nfile) (I "GroupIDs".toList)) ≠ []) (hr : Few Cs n cells start nfile (wanted (pre cells nfile) (I "GroupIDs".toList)))
    (hnot : ∃ v ∈ I "GroupIDs".toList, ∀ w ∈ I "GroupIDs".toList, ∀ p, InCell Cs n cells start nfile (leNat w / 2 ^ 34) p → leNat p.id ≠ leNat v % 2 ^ 34) (blanks : Nat) (junk : Int) (blank : Particle) :
    readfofgroups sys (big == sys) big fs basedir (basename ++ List.replicate blanks ' ') isnap ifile junk blank = .error .abort := by
  obtain ⟨i1, i2⟩ := subids_ok HI
  obtain ⟨g1, -, -⟩ := grouptab_ok HG
  obtain ⟨rest, hfiles⟩ := snapFiles_ok H blanks
  have hreg := C80_region S sys big rest hfiles (wanted (pre cells nfile) (I "GroupIDs".toList)) junk blank hsome hr
  have hstop := groupCoords_stop hsome (ids := I "GroupIDs".toList) blank (by
    obtain ⟨v, hv, hno⟩ := hnot
    refine ⟨v, hv, fun p hp he => ?_⟩
    obtain ⟨c, hc1, hc2⟩ := mem_region.1 hp
    obtain ⟨-, w, hw, rfl⟩ := wanted_iff.1 hc1
    exact hno w hw p hc2 ((strip_iff (id_length S hc2) (i2.2 v hv)).1 he))
  unfold readfofgroups
  rw [bindOk _ (header_ok S H hi blanks)]
  dsimp only
  rw [show (headerOf (Cs ifile)).hashtabsize = (Cs ifile "Header/HashTabSize".toList).headD [] from rfl, hh, bindOk _ g1, bindOk _ i1]
  simp only [Int.toNat_natCast]
  rw [bindOk _ (flagCells_ok hc), bindOk _ hreg, hstop]
  rfl

/-- C108: a file without groups makes `readfofgroups` fail: no particles are read, and `readregion` closes a file which is not open. -/
theorem C108_no_groups_defect (S : Snapshot Cs n cells start nfile) (sys : Bool) (H : Stored fs basedir basename isnap Cs n cells nfile big)
    (hi : ifile < nfile) (hh : int32Value ((Cs ifile "Header/HashTabSize".toList).headD []) = pre cells nfile) {G I : Content} {ng : Nat} (HG : StoredGroupTab fs basedir isnap ifile big G ng)
    (HI : StoredIDs fs basedir isnap ifile big I 0 nfile) (blanks : Nat) (junk : Int) (blank : Particle) :
    readfofgroups sys (big == sys) big fs basedir (basename ++ List.replicate blanks ' ') isnap ifile junk blank = .error .other := by
  obtain ⟨i1, i2⟩ := subids_ok HI
  obtain ⟨g1, -, -⟩ := grouptab_ok HG
  obtain ⟨rest, hfiles⟩ := snapFiles_ok H blanks
  have hnil : I "GroupIDs".toList = [] := List.length_eq_zero_iff.1 i2.1
  have hempty : region Cs n cells start nfile (wanted (pre cells nfile) []) = [] := by
    apply List.eq_nil_iff_forall_not_mem.2
    intro p hp
    obtain ⟨c, hc, -⟩ := mem_region.1 hp
    obtain ⟨-, w, hw, -⟩ := wanted_iff.1 hc
    cases hw
  have hreg := C80_empty_region S sys big rest hfiles (wanted (pre cells nfile) []) junk blank hempty
  unfold readfofgroups
  rw [bindOk _ (header_ok S H hi blanks)]
  dsimp only
  rw [show (headerOf (Cs ifile)).hashtabsize = (Cs ifile "Header/HashTabSize".toList).headD [] from rfl, hh, bindOk _ g1, bindOk _ i1]
  simp only [Int.toNat_natCast]
  rw [hnil, bindOk _ (flagCells_ok (by simp)), hreg]
  rfl

end Verif.FortranPrograms
