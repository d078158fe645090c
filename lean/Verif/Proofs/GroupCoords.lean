import Verif.Proofs.CoordMatch

set_option linter.unusedSectionVars false

namespace Verif.GroupLib

open CPeano ReadParticles ReadRegion

variable {sys : Bool} {fs : ByteFS} {dir base : Name} {num : Nat}

/-! ### IDs of the group -/

theorem groupIdsName_eq (dir : Name) (num f : Nat) : groupIdsName dir num f = groupFile "group_ids".toList dir num f := by
  have e : "/group_ids_".toList = "/".toList ++ ("group_ids".toList ++ "_".toList) := by decide
  unfold groupIdsName groupFile
  rw [e]
  simp only [List.append_assoc]

def idHeadRows : List Row := ["Ngroups", "Nids", "TotNgroups", "NFiles"].map (Files.one 4)

theorem ids_sections (ni : Nat) : Files.lgadget2SubIDs 8 ni = [⟨false, idHeadRows⟩, ⟨false, [Files.col 8 ni "GroupIDs"]⟩] := rfl

theorem ids_before (big : Bool) {C : Content} {ni : Nat} (h : (Files.lgadget2SubIDs 8 ni).Fits C) : (Layout.bytes big C [⟨false, idHeadRows⟩]).length = 16 := by
  simp only [Layout.bytes, List.flatMap_cons, List.flatMap_nil, List.append_nil, Section.bytes]
  rw [if_neg (by decide), length_payload big (h.rows _ (by rw [ids_sections]; simp))]
  decide

theorem idsHead_ok {C : Content} {ni : Nat} (h : (Files.lgadget2SubIDs 8 ni).Fits C) (rest : List Byte) :
    ∃ hd, tabHead sys ⟨(Files.lgadget2SubIDs 8 ni).bytes (!sys) C ++ rest, 0⟩ = .ok (hd, ⟨(Files.lgadget2SubIDs 8 ni).bytes (!sys) C ++ rest, 16⟩) := by
  have a1 : At (!sys) C ((Files.lgadget2SubIDs 8 ni).bytes (!sys) C ++ rest) 0 (Files.one 4 "Ngroups") :=
    at_row (before := []) (rows1 := []) (rec := false) (ids_sections _) h.rows rest rfl
  have a2 : At (!sys) C ((Files.lgadget2SubIDs 8 ni).bytes (!sys) C ++ rest) 4 (Files.one 4 "Nids") :=
    at_row (before := []) (rows1 := [Files.one 4 "Ngroups"]) (rec := false) (ids_sections _) h.rows rest rfl
  have a3 : At (!sys) C ((Files.lgadget2SubIDs 8 ni).bytes (!sys) C ++ rest) 8 (Files.one 4 "TotNgroups") :=
    at_row (before := []) (rows1 := [Files.one 4 "Ngroups", Files.one 4 "Nids"]) (rec := false) (ids_sections _) h.rows rest rfl
  have a4 : At (!sys) C ((Files.lgadget2SubIDs 8 ni).bytes (!sys) C ++ rest) 12 (Files.one 4 "NFiles") :=
    at_row (before := []) (rows1 := [Files.one 4 "Ngroups", Files.one 4 "Nids", Files.one 4 "TotNgroups"]) (rec := false) (ids_sections _) h.rows rest rfl
  refine ⟨⟨scalarInt C "Ngroups".toList, scalarInt C "Nids".toList, scalarInt C "TotNgroups".toList, scalarInt C "NFiles".toList⟩, ?_⟩
  unfold tabHead
  rw [bindOk _ (a1.scalar rfl rfl rfl)]
  dsimp only
  rw [bindOk _ (a2.scalar rfl rfl rfl)]
  dsimp only
  rw [bindOk _ (a3.scalar rfl rfl rfl)]
  dsimp only
  rw [bindOk _ (a4.scalar rfl rfl rfl)]
  rfl

theorem slice_eq_range {l : List (List Byte)} {o k : Nat} (h : o + k ≤ l.length) : slice l o k = (List.range k).map (fun t => l.getD (o + t) []) := by
  apply List.ext_getElem?
  intro i
  unfold slice
  rw [List.getElem?_map]
  by_cases hi : i < k
  · rw [List.getElem?_take, if_pos hi, List.getElem?_drop, List.getElem?_range hi, Option.map_some, List.getD_eq_getElem?_getD, List.getElem?_eq_getElem (by omega)]
    rfl
  · rw [List.getElem?_take, if_neg hi, List.getElem?_eq_none (by simpa using hi)]
    rfl

theorem groupIds_ok {Gs : Nat → Content} {ng : Nat → Nat} {minlen ngfile : Nat} (T : GroupTabs Gs ng minlen ngfile) (ht : TabsStored sys fs dir num Gs ng minlen ngfile)
    {f g o len ni : Nat} {C : Content} (hf : f < ngfile) (hg : g < ng f) (ho : int32Value ((Gs f "GroupOffset".toList).getD g []) = o) (hi : IdsStored sys fs dir num f C ni) (hl : o + len ≤ ni) :
    groupIds sys fs dir num f g len = .ok (idsOf C o len) := by
  obtain ⟨rest, h⟩ := open_tab ht hf
  obtain ⟨rest', h'⟩ := hi.stored
  have hT := T.file f hf
  have a : At (!sys) (Gs f) (tabBytes sys Gs ng minlen f rest) (16 + 4 * ng f) (Files.col 4 (ng f) "GroupOffset") := by
    refine at_row (before := [⟨false, tabHeadRows⟩]) (rows1 := [Files.col 4 (ng f) "GroupLen"]) (rec := false) (tab_sections _ _) hT.rows rest ?_
    rw [tab_before1 _ hT]
    simp [Files.col]
  have b : At (!sys) C ((Files.lgadget2SubIDs 8 ni).bytes (!sys) C ++ rest') 16 (Files.col 8 ni "GroupIDs") := by
    refine at_row (before := [⟨false, idHeadRows⟩]) (rows1 := []) (rec := false) (ids_sections _) hi.fits.rows rest' ?_
    rw [ids_before _ hi.fits]
    simp
  have hoff : CFile.int sys ⟨tabBytes sys Gs ng minlen f rest, 16 + 4 * ng f + 4 * g⟩ = .ok ((o : Int), ⟨tabBytes sys Gs ng minlen f rest, 16 + 4 * ng f + 4 * g + 4⟩) := by
    rw [a.int rfl rfl (i := g) (by simpa [Files.col] using hg) rfl, ← ho]
    rfl
  have hopen : openBuf fs (groupIdsName dir num f) = .ok ⟨(Files.lgadget2SubIDs 8 ni).bytes (!sys) C ++ rest', 0⟩ := by
    unfold openBuf
    have := hi.name
    rw [groupIdsName_eq, if_neg (by omega), h']
  obtain ⟨hd, hhd⟩ := idsHead_ok (sys := sys) hi.fits rest'
  have hsp : (Files.col 8 ni "GroupIDs").shape.prod = ni := by simp [Files.col]
  have hread := b.read (i := o) (k := len) (by rw [hsp]; omega) (q := 16 + 8 * o) (by simp [Files.col])
  unfold groupIds
  rw [bindOk _ h, bindOk _ (tabHead_ok hT rest), T.ngroups f hf]
  dsimp only
  rw [show (4 * (ng f : Int)) = ((4 * ng f : Nat) : Int) by push_cast; rfl, seek_nat, show (4 * (g : Int)) = ((4 * g : Nat) : Int) by push_cast; rfl, seek_nat, bindOk _ hoff, bindOk _ hopen, bindOk _ hhd]
  dsimp only
  rw [show (8 * (o : Int)) = ((8 * o : Nat) : Int) by push_cast; rfl, seek_nat]
  change (CFile.read _ (Files.col 8 ni "GroupIDs").width len >>= _) = _
  rw [bindOk _ hread]
  refine congrArg Except.ok ?_
  dsimp only
  unfold idsOf
  have hcl : (C "GroupIDs".toList).length = ni := b.1.1.trans hsp
  rw [slice_eq_range (by omega), List.map_map, List.map_map]
  refine List.map_congr_left fun t ht => ?_
  have ht := List.mem_range.1 ht
  exact congrArg leNat (value8_native sys (b.elem (i := o + t) (by rw [hsp]; omega)))

/-! ### Sorting -/

theorem compare_le {a b : Nat} (ha : a < 2 ^ 63) (hb : b < 2 ^ 63) (h : idSortCompareKey a b ≤ 0) : a ≤ b := by
  unfold idSortCompareKey signed64 at h
  rw [if_pos ha, if_pos hb] at h
  by_contra hc
  rw [if_neg (by omega), if_pos (by omega)] at h
  omega

theorem qsort_le {qsort : List Nat → List Nat} (hq : ∀ l, QSorted idSortCompareKey l (qsort l)) {l : List Nat} (hl : ∀ a ∈ l, a < 2 ^ 63) : (qsort l).Pairwise (· ≤ ·) := by
  obtain ⟨h1, h2⟩ := hq l
  refine (List.pairwise_iff_getElem.2 fun i j hi hj hij => ?_)
  exact compare_le (hl _ (h1.subset (List.getElem_mem hi))) (hl _ (h1.subset (List.getElem_mem hj))) (List.pairwise_iff_getElem.1 h2 i j hi hj hij)

/-! ### Particles which are read -/

theorem coords_get {R : List Particle} {i : Nat} (hi : i < R.length) : (coords R)[i * 3]? = some R[i].x ∧ (coords R)[i * 3 + 1]? = some R[i].y ∧ (coords R)[i * 3 + 2]? = some R[i].z := by
  induction R generalizing i with
  | nil => simp at hi
  | cons p R ih =>
    have e : coords (p :: R) = [p.x, p.y, p.z] ++ coords R := rfl
    rw [e]
    cases i with
    | zero => exact ⟨rfl, rfl, rfl⟩
    | succ i =>
      obtain ⟨h1, h2, h3⟩ := ih (i := i) (by simpa using hi)
      rw [List.getElem?_append_right (by simp only [List.length_cons, List.length_nil]; omega), List.getElem?_append_right (by simp only [List.length_cons, List.length_nil]; omega), List.getElem?_append_right (by simp only [List.length_cons, List.length_nil]; omega)]
      simp only [List.length_cons, List.length_nil, List.getElem_cons_succ]
      rw [show (i + 1) * 3 - (0 + 1 + 1 + 1) = i * 3 by omega, show (i + 1) * 3 + 1 - (0 + 1 + 1 + 1) = i * 3 + 1 by omega, show (i + 1) * 3 + 2 - (0 + 1 + 1 + 1) = i * 3 + 2 by omega]
      exact ⟨h1, h2, h3⟩

/-- Position of a particle -/
def vecOf (val4 : List Byte → Rat) (p : Particle) : Vec := (val4 p.x, val4 p.y, val4 p.z)

theorem vector_ok (val4 : List Byte → Rat) {R : List Particle} {i : Nat} (hi : i < R.length) : vector ((coords R).map val4) i = .ok (vecOf val4 R[i]) := by
  obtain ⟨h1, h2, h3⟩ := coords_get hi
  unfold vector
  rw [List.getElem?_map, List.getElem?_map, List.getElem?_map, h1, h2, h3]
  rfl

theorem mem_markIds {R : List Particle} (hR : R.length < 2 ^ 29) {v : Nat} (hv : v ∈ markIds (R.map (fun p => leNat p.id))) :
    ∃ i, ∃ h : i < R.length, v = lowOf R[i] * 2 ^ 29 + i ∧ v / 2 ^ 29 = lowOf R[i] ∧ v % 2 ^ 29 = i ∧ v < 2 ^ 63 := by
  unfold markIds at hv
  obtain ⟨i, hi, rfl⟩ := List.mem_map.1 hv
  rw [List.mem_range, List.length_map] at hi
  refine ⟨i, hi, ?_⟩
  have hg : (R.map (fun p => leNat p.id)).getD i 0 = leNat R[i].id := by
    rw [List.getD_eq_getElem?_getD, List.getElem?_map, List.getElem?_eq_getElem hi]; rfl
  have hlow : lowOf R[i] < 2 ^ 34 := Nat.mod_lt _ (by decide)
  have he : leNat R[i].id % 2 ^ 34 = lowOf R[i] := rfl
  rw [hg, he]
  omega

theorem markIds_mem {R : List Particle} (hR : R.length < 2 ^ 29) {p : Particle} (hp : p ∈ R) : ∃ v ∈ markIds (R.map (fun p => leNat p.id)), v / 2 ^ 29 = lowOf p := by
  obtain ⟨i, hi, rfl⟩ := List.mem_iff_getElem.1 hp
  have hlow : lowOf R[i] < 2 ^ 34 := Nat.mod_lt _ (by decide)
  refine ⟨lowOf R[i] * 2 ^ 29 + i, ?_, by omega⟩
  unfold markIds
  refine List.mem_map.2 ⟨i, by simpa using hi, ?_⟩
  have hg : (R.map (fun p => leNat p.id)).getD i 0 = leNat R[i].id := by
    rw [List.getD_eq_getElem?_getD, List.getElem?_map, List.getElem?_eq_getElem hi]; rfl
  have he : leNat R[i].id % 2 ^ 34 = lowOf R[i] := rfl
  rw [hg, he]
  omega

theorem forall2_particles {val4 : List Byte → Rat} {R : List Particle} {ids : List Nat} {ws : List Vec}
    (h : List.Forall₂ (fun id w => ∃ p ∈ R, lowOf p = id ∧ w = vecOf val4 p) ids ws) : ∃ ps : List Particle, ps.map lowOf = ids ∧ ps.map (vecOf val4) = ws ∧ ∀ p ∈ ps, p ∈ R := by
  induction h with
  | nil => exact ⟨[], rfl, rfl, by simp⟩
  | cons h _ ih =>
    obtain ⟨p, hp, h1, h2⟩ := h
    obtain ⟨ps, h3, h4, h5⟩ := ih
    refine ⟨p :: ps, by rw [List.map_cons, h1, h3], by rw [List.map_cons, ← h2, h4], ?_⟩
    intro q hq
    rcases List.mem_cons.1 hq with rfl | hq
    · exact hp
    · exact h5 q hq

/-- The matching of the sorted arrays -/
theorem match_ok {val4 : List Byte → Rat} {R : List Particle} (hR : R.length < 2 ^ 29) {qsort : List Nat → List Nat} (hq : ∀ l, QSorted idSortCompareKey l (qsort l))
    {ids : List Nat} (hids : ∀ id ∈ ids, ∃ p ∈ R, lowOf p = lowId id) {pos : List Vec} (hpos : ids.length ≤ pos.length) :
    ∃ ps : List Particle, matchLoop (qsort (markIds (R.map (fun p => leNat p.id)))) ((coords R).map val4) (qsort (ids.map (· % 2 ^ 34))) 0 0 pos = .ok (ps.map (vecOf val4) ++ pos.drop ids.length) ∧
      (ps.map lowOf).Perm (ids.map lowId) ∧ (ps.map lowOf).Pairwise (· ≤ ·) ∧ (∀ p ∈ ps, p ∈ R) ∧ (qsort (ids.map (· % 2 ^ 34))).length = ids.length := by
  obtain ⟨hp1, -⟩ := hq (markIds (R.map (fun p => leNat p.id)))
  obtain ⟨hp2, -⟩ := hq (ids.map (· % 2 ^ 34))
  have hs1 : (qsort (markIds (R.map (fun p => leNat p.id)))).Pairwise (· ≤ ·) := qsort_le hq fun a ha => by
    obtain ⟨_, _, _, _, _, h⟩ := mem_markIds hR ha
    exact h
  have hs2 : (qsort (ids.map (· % 2 ^ 34))).Pairwise (· ≤ ·) := qsort_le hq fun a ha => by
    obtain ⟨b, _, rfl⟩ := List.mem_map.1 ha
    have : b % 2 ^ 34 < 2 ^ 34 := Nat.mod_lt _ (by decide)
    omega
  have hl : (qsort (ids.map (· % 2 ^ 34))).length = ids.length := by rw [hp2.length_eq, List.length_map]
  have hsort : ∀ a b u v : Nat, a ≤ b → (qsort (markIds (R.map (fun p => leNat p.id))))[a]? = some u → (qsort (markIds (R.map (fun p => leNat p.id))))[b]? = some v → u / 2 ^ 29 ≤ v / 2 ^ 29 := by
    intro a b u v hab ha hb
    obtain ⟨ha1, ha2⟩ := List.getElem?_eq_some_iff.1 ha
    obtain ⟨hb1, hb2⟩ := List.getElem?_eq_some_iff.1 hb
    refine Nat.div_le_div_right ?_
    rw [← ha2, ← hb2]
    rcases Nat.lt_or_eq_of_le hab with h | h
    · exact List.pairwise_iff_getElem.1 hs1 a b ha1 hb1 h
    · subst h; exact le_refl _
  obtain ⟨ws, h1, h2⟩ := matchLoop_ok (posRead := (coords R).map val4) hsort (fun v hv => by
      obtain ⟨i, hi, _, _, h3, _⟩ := mem_markIds hR (hp1.subset hv)
      rw [h3]
      exact ⟨_, vector_ok val4 hi⟩) (qsort (ids.map (· % 2 ^ 34))) 0 0 pos hs2 (fun id hid => by
      obtain ⟨b, hb, rfl⟩ := List.mem_map.1 (hp2.subset hid)
      obtain ⟨p, hp, hpl⟩ := hids b hb
      obtain ⟨v, hv, hv2⟩ := markIds_mem hR hp
      exact ⟨v, hp1.symm.subset hv, hv2.trans hpl⟩) (by intro _ _ m u hm; omega) (by omega)
  have h3 : List.Forall₂ (fun id w => ∃ p ∈ R, lowOf p = id ∧ w = vecOf val4 p) (qsort (ids.map (· % 2 ^ 34))) ws := by
    refine h2.imp ?_
    rintro id w ⟨v, hv, hv1, hv2⟩
    obtain ⟨i, hi, _, e1, e2, _⟩ := mem_markIds hR (hp1.subset hv)
    refine ⟨R[i], List.getElem_mem hi, by omega, ?_⟩
    rw [e2, vector_ok val4 hi] at hv2
    exact (Except.ok.inj hv2).symm
  obtain ⟨ps, e1, e2, e3⟩ := forall2_particles h3
  have hwl : ws.length = ids.length := by rw [← h2.length_eq, hl]
  refine ⟨ps, ?_, ?_, ?_, e3, hl⟩
  · rw [h1, e2]
    unfold overlay
    rw [List.take_zero, List.nil_append, Nat.zero_add, hwl]
  · rw [e1]; exact hp2
  · rw [e1]; exact hs2

end Verif.GroupLib
