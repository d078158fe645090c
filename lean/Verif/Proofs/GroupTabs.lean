import Verif.Proofs.GroupLib

set_option linter.unusedSectionVars false

namespace Verif.GroupLib

open CPeano ReadParticles ReadRegion

/-! ### Group tables -/

theorem groupTabName_eq (dir : Name) (num f : Nat) : groupTabName dir num f = groupFile "group_tab".toList dir num f := by
  have e : "/group_tab_".toList = "/".toList ++ ("group_tab".toList ++ "_".toList) := by decide
  unfold groupTabName groupFile
  rw [e]
  simp only [List.append_assoc]

variable {sys : Bool} {fs : ByteFS} {dir : Name} {num : Nat} {Cs : Nat → Content} {ng : Nat → Nat} {minlen nfile : Nat}

/-- Bytes of a table -/
def tabBytes (sys : Bool) (Cs : Nat → Content) (ng : Nat → Nat) (minlen f : Nat) (rest : List Byte) : List Byte :=
  (Files.lgadget2GroupTab (ng f) minlen).bytes (!sys) (Cs f) ++ rest

theorem open_tab (hs : TabsStored sys fs dir num Cs ng minlen nfile) {f : Nat} (hf : f < nfile) :
    ∃ rest, openBuf fs (groupTabName dir num f) = .ok ⟨tabBytes sys Cs ng minlen f rest, 0⟩ := by
  obtain ⟨h1, rest, h2⟩ := hs f hf
  refine ⟨rest, ?_⟩
  unfold openBuf
  rw [groupTabName_eq, if_neg (by omega), h2]
  rfl

def tabHeadRows : List Row := ["Ngroups", "Nids", "TotNgroups", "NTask"].map (Files.one 4)
def tabRows (ng : Nat) : List Row := [Files.col 4 ng "GroupLen", Files.col 4 ng "GroupOffset", Files.one 4 "GroupMinLen"]

theorem tab_sections (ng minlen : Nat) : Files.lgadget2GroupTab ng minlen = [⟨false, tabHeadRows⟩, ⟨false, tabRows ng⟩, ⟨false, [Files.col 4 minlen "Count"]⟩] := rfl

theorem tab_before1 (big : Bool) {f : Nat} (h : (Files.lgadget2GroupTab (ng f) minlen).Fits (Cs f)) : (Layout.bytes big (Cs f) [⟨false, tabHeadRows⟩]).length = 16 := by
  simp only [Layout.bytes, List.flatMap_cons, List.flatMap_nil, List.append_nil, Section.bytes]
  rw [if_neg (by decide), length_payload big (h.rows _ (by rw [tab_sections]; simp))]
  decide

theorem tab_before2 (big : Bool) {f : Nat} (h : (Files.lgadget2GroupTab (ng f) minlen).Fits (Cs f)) :
    (Layout.bytes big (Cs f) [⟨false, tabHeadRows⟩, ⟨false, tabRows (ng f)⟩]).length = 20 + 8 * ng f := by
  have e : ([⟨false, tabHeadRows⟩, ⟨false, tabRows (ng f)⟩] : Layout) = [⟨false, tabHeadRows⟩] ++ [⟨false, tabRows (ng f)⟩] := rfl
  rw [e, layout_append, List.length_append, tab_before1 big h]
  simp only [Layout.bytes, List.flatMap_cons, List.flatMap_nil, List.append_nil, Section.bytes]
  rw [if_neg (by decide), length_payload big (h.rows _ (by rw [tab_sections]; simp))]
  simp [tabRows, Files.col, Files.one]
  ring

theorem tabHead_ok (h : (Files.lgadget2GroupTab (ng f) minlen).Fits (Cs f)) (rest : List Byte) :
    tabHead sys ⟨tabBytes sys Cs ng minlen f rest, 0⟩ =
      .ok (⟨scalarInt (Cs f) "Ngroups".toList, scalarInt (Cs f) "Nids".toList, scalarInt (Cs f) "TotNgroups".toList, scalarInt (Cs f) "NTask".toList⟩, ⟨tabBytes sys Cs ng minlen f rest, 16⟩) := by
  have a1 : At (!sys) (Cs f) (tabBytes sys Cs ng minlen f rest) 0 (Files.one 4 "Ngroups") :=
    at_row (before := []) (rows1 := []) (rec := false) (tab_sections _ _) h.rows rest rfl
  have a2 : At (!sys) (Cs f) (tabBytes sys Cs ng minlen f rest) 4 (Files.one 4 "Nids") :=
    at_row (before := []) (rows1 := [Files.one 4 "Ngroups"]) (rec := false) (tab_sections _ _) h.rows rest rfl
  have a3 : At (!sys) (Cs f) (tabBytes sys Cs ng minlen f rest) 8 (Files.one 4 "TotNgroups") :=
    at_row (before := []) (rows1 := [Files.one 4 "Ngroups", Files.one 4 "Nids"]) (rec := false) (tab_sections _ _) h.rows rest rfl
  have a4 : At (!sys) (Cs f) (tabBytes sys Cs ng minlen f rest) 12 (Files.one 4 "NTask") :=
    at_row (before := []) (rows1 := [Files.one 4 "Ngroups", Files.one 4 "Nids", Files.one 4 "TotNgroups"]) (rec := false) (tab_sections _ _) h.rows rest rfl
  unfold tabHead
  rw [bindOk _ (a1.scalar rfl rfl rfl)]
  dsimp only
  rw [bindOk _ (a2.scalar rfl rfl rfl)]
  dsimp only
  rw [bindOk _ (a3.scalar rfl rfl rfl)]
  dsimp only
  rw [bindOk _ (a4.scalar rfl rfl rfl)]
  rfl

theorem tabMinLen_ok (T : GroupTabs Cs ng minlen nfile) {f : Nat} (hf : f < nfile) (rest : List Byte) :
    tabMinLen sys ⟨tabBytes sys Cs ng minlen f rest, 0⟩ =
      .ok (⟨ng f, scalarInt (Cs f) "Nids".toList, pre ng nfile, nfile⟩, minlen, ⟨tabBytes sys Cs ng minlen f rest, 20 + 8 * ng f⟩) := by
  have h := T.file f hf
  have a : At (!sys) (Cs f) (tabBytes sys Cs ng minlen f rest) (16 + 8 * ng f) (Files.one 4 "GroupMinLen") := by
    refine at_row (before := [⟨false, tabHeadRows⟩]) (rows1 := [Files.col 4 (ng f) "GroupLen", Files.col 4 (ng f) "GroupOffset"]) (rec := false) (tab_sections _ _) h.rows rest ?_
    rw [tab_before1 _ h]
    simp [Files.col]
    ring
  unfold tabMinLen
  rw [bindOk _ (tabHead_ok h rest), T.ngroups f hf, T.total f hf, T.ntask f hf]
  dsimp only
  have e : (4 * (ng f : Int)) = ((4 * ng f : Nat) : Int) := by push_cast; rfl
  have e2 : 16 + 4 * ng f + 4 * ng f = 16 + 8 * ng f := by ring
  rw [e, seek_nat, seek_nat, e2, bindOk _ (a.scalar rfl rfl rfl)]
  have : scalarInt (Cs f) (Files.one 4 "GroupMinLen").name = minlen := T.minlen f hf
  rw [this]
  have e3 : 16 + 8 * ng f + 4 = 20 + 8 * ng f := by ring
  rw [e3]

theorem count_at (T : GroupTabs Cs ng minlen nfile) {f : Nat} (hf : f < nfile) (rest : List Byte) :
    At (!sys) (Cs f) (tabBytes sys Cs ng minlen f rest) (20 + 8 * ng f) (Files.col 4 minlen "Count") := by
  refine at_row (before := [⟨false, tabHeadRows⟩, ⟨false, tabRows (ng f)⟩]) (rows1 := []) (rec := false) (tab_sections _ _) (T.file f hf).rows rest ?_
  rw [tab_before2 _ (T.file f hf)]
  rfl

theorem len_at (T : GroupTabs Cs ng minlen nfile) {f : Nat} (hf : f < nfile) (rest : List Byte) :
    At (!sys) (Cs f) (tabBytes sys Cs ng minlen f rest) 16 (Files.col 4 (ng f) "GroupLen") := by
  refine at_row (before := [⟨false, tabHeadRows⟩]) (rows1 := []) (rec := false) (tab_sections _ _) (T.file f hf).rows rest ?_
  rw [tab_before1 _ (T.file f hf)]
  rfl

theorem totalGroups_ok (T : GroupTabs Cs ng minlen nfile) (hs : TabsStored sys fs dir num Cs ng minlen nfile) :
    getTotalNumberOfGroups sys fs dir num = .ok (pre ng nfile : Int) := by
  obtain ⟨rest, h⟩ := open_tab hs T.nonempty
  unfold getTotalNumberOfGroups
  rw [bindOk _ h, bindOk _ (tabHead_ok (T.file 0 T.nonempty) rest), T.total 0 T.nonempty]

theorem minLen_ok (T : GroupTabs Cs ng minlen nfile) (hs : TabsStored sys fs dir num Cs ng minlen nfile) :
    getMinimumGroupLen sys fs dir num = .ok (minlen : Int) := by
  obtain ⟨rest, h⟩ := open_tab hs T.nonempty
  unfold getMinimumGroupLen
  rw [bindOk _ h, bindOk _ (tabMinLen_ok T T.nonempty rest)]

/-! ### Groups below the minimum -/

/-- Sum of a number of the first `m` files -/
def sumFiles (g : Nat → Int) (m : Nat) : Int := ((List.range m).map g).sum

theorem sumFiles_succ (g : Nat → Int) (m : Nat) : sumFiles g (m + 1) = sumFiles g m + g m := by
  unfold sumFiles; rw [List.range_succ]; simp

def counts (Cs : Nat → Content) (f i : Nat) : Int := ((Cs f "Count".toList).map int32Value).getD i 0

theorem count_length (T : GroupTabs Cs ng minlen nfile) {f : Nat} (hf : f < nfile) : (Cs f "Count".toList).length = minlen := by
  have := (count_at (sys := true) T hf []).1.1
  exact this.trans (by simp [Files.col])

theorem belowStep_ok (T : GroupTabs Cs ng minlen nfile) (hs : TabsStored sys fs dir num Cs ng minlen nfile) (more : List Int) {m : Nat} (hm : m < nfile) (k : Int) :
    belowStep sys fs dir num minlen m ⟨nfile, k, (List.range minlen).map (fun i => sumFiles (fun f => counts Cs f i) m) ++ more, sumFiles (fun f => scalarInt (Cs f) "Nids".toList) m⟩ =
      .ok ⟨nfile, minlen, (List.range minlen).map (fun i => sumFiles (fun f => counts Cs f i) (m + 1)) ++ more, sumFiles (fun f => scalarInt (Cs f) "Nids".toList) (m + 1)⟩ := by
  obtain ⟨rest, h⟩ := open_tab hs hm
  have hc := (count_at T hm rest).ints rfl rfl (sys := sys) (k := (minlen : Int)) (by simp [Files.col])
  have hname : (Files.col 4 minlen "Count").name = "Count".toList := rfl
  rw [hname] at hc
  have hl := count_length T hm
  unfold belowStep
  rw [bindOk _ h, bindOk _ (tabMinLen_ok T hm rest)]
  dsimp only
  rw [bindOk _ hc]
  dsimp only
  rw [if_neg (by simp only [List.length_map, hl, List.length_append, List.length_range]; omega)]
  refine congrArg Except.ok ?_
  simp only [BelowState.mk.injEq, true_and]
  refine ⟨?_, (sumFiles_succ _ m).symm⟩
  apply List.ext_getElem?
  intro i
  simp only [List.length_append, List.length_map, List.length_range]
  rw [List.getElem?_map]
  by_cases hi : i < minlen
  · rw [List.getElem?_range (by omega), List.getElem?_append_left (by simpa using hi), List.getElem?_map, List.getElem?_range hi]
    simp only [Option.map_some]
    rw [sumFiles_succ, List.getD_eq_getElem?_getD, List.getElem?_append_left (by simpa using hi), List.getElem?_map, List.getElem?_range hi]
    rfl
  · rw [List.getElem?_append_right (by simpa using hi), List.length_map, List.length_range]
    by_cases h2 : i < minlen + more.length
    · rw [List.getElem?_range h2]
      simp only [Option.map_some]
      have : ((Cs m "Count".toList).map int32Value).getD i 0 = 0 := by
        rw [List.getD_eq_getElem?_getD, List.getElem?_eq_none (by rw [List.length_map, hl]; omega)]; rfl
      rw [this, add_zero, List.getD_eq_getElem?_getD, List.getElem?_append_right (by simpa using hi), List.length_map, List.length_range, List.getElem?_eq_getElem (by omega)]
      rfl
    · rw [List.getElem?_eq_none (by simpa using h2), List.getElem?_eq_none (by omega)]
      rfl

theorem belowLoop_ok (T : GroupTabs Cs ng minlen nfile) (hs : TabsStored sys fs dir num Cs ng minlen nfile) (more : List Int) :
    ∀ d m fuel k, m + d = nfile → d < fuel → (m = nfile → k = (minlen : Int)) →
    belowLoop sys fs dir num minlen fuel m ⟨nfile, k, (List.range minlen).map (fun i => sumFiles (fun f => counts Cs f i) m) ++ more, sumFiles (fun f => scalarInt (Cs f) "Nids".toList) m⟩ =
      .ok ⟨nfile, minlen, (List.range minlen).map (fun i => sumFiles (fun f => counts Cs f i) nfile) ++ more, sumFiles (fun f => scalarInt (Cs f) "Nids".toList) nfile⟩ := by
  intro d
  induction d with
  | zero =>
    intro m fuel k hm hf hk
    obtain ⟨fuel, rfl⟩ : ∃ g, fuel = g + 1 := ⟨fuel - 1, by omega⟩
    have : m = nfile := by omega
    subst this
    unfold belowLoop
    rw [if_neg (by simp), hk rfl]
  | succ d ih =>
    intro m fuel k hm hf hk
    obtain ⟨fuel, rfl⟩ : ∃ g, fuel = g + 1 := ⟨fuel - 1, by omega⟩
    unfold belowLoop
    rw [if_pos (by simp; omega), bindOk _ (belowStep_ok T hs more (by omega) k)]
    exact ih (m + 1) fuel minlen (by omega) (by omega) (fun _ => rfl)

theorem below_ok (T : GroupTabs Cs ng minlen nfile) (hs : TabsStored sys fs dir num Cs ng minlen nfile) {fuel : Nat} (hf : nfile < fuel) {below : List Int} (hb : minlen ≤ below.length) :
    getGroupcountBelowMinimumLen sys fs dir num fuel below =
      .ok (minlen, (List.range minlen).map (fun i => sumFiles (fun f => counts Cs f i) nfile) ++ below.drop minlen, sumFiles (fun f => scalarInt (Cs f) "Nids".toList) nfile) := by
  obtain ⟨rest, h⟩ := open_tab hs T.nonempty
  unfold getGroupcountBelowMinimumLen
  rw [bindOk _ h, bindOk _ (tabMinLen_ok T T.nonempty rest)]
  dsimp only
  rw [Int.toNat_natCast, if_neg (by omega)]
  have e : List.replicate minlen (0 : Int) = (List.range minlen).map (fun i => sumFiles (fun f => counts Cs f i) 0) := by
    simp [sumFiles]
  rw [e]
  have := belowLoop_ok T hs (below.drop minlen) nfile 0 fuel minlen (by omega) hf (fun _ => rfl)
  have e0 : sumFiles (fun f => scalarInt (Cs f) "Nids".toList) 0 = 0 := rfl
  rw [e0] at this
  rw [bindOk _ this]

/-! ### The catalogue -/

def fileGroups (Cs : Nat → Content) (ng : Nat → Nat) (f : Nat) : List CatData :=
  (List.range (ng f)).map fun i : Nat => ⟨int32Value ((Cs f "GroupLen".toList).getD i []), f, i⟩

theorem allGroups_succ (m : Nat) : allGroups Cs ng (m + 1) = allGroups Cs ng m ++ fileGroups Cs ng m := by
  unfold allGroups fileGroups; rw [List.range_succ, List.flatMap_append]; simp

theorem length_allGroups (m : Nat) : (allGroups Cs ng m).length = pre ng m := by
  induction m with
  | zero => rfl
  | succ m ih => rw [allGroups_succ, List.length_append, ih, pre_succ]; simp [fileGroups]

theorem catStep_ok (T : GroupTabs Cs ng minlen nfile) (hs : TabsStored sys fs dir num Cs ng minlen nfile) {out : List CatData} (ho : pre ng nfile ≤ out.length) {m : Nat} (hm : m < nfile) :
    catStep sys fs dir num m ⟨nfile, pre ng nfile, pre ng m, overlay out 0 (allGroups Cs ng m)⟩ =
      .ok ⟨nfile, pre ng nfile, pre ng (m + 1), overlay out 0 (allGroups Cs ng (m + 1))⟩ := by
  obtain ⟨rest, h⟩ := open_tab hs hm
  have hc := (len_at T hm rest).ints rfl rfl (sys := sys) (k := (ng m : Int)) (by simp [Files.col])
  have hname : (Files.col 4 (ng m) "GroupLen").name = "GroupLen".toList := rfl
  rw [hname] at hc
  have hl : (Cs m "GroupLen".toList).length = ng m := (len_at (sys := sys) T hm rest).1.1.trans (by simp [Files.col])
  have hp := pre_lt_total (f := ng) hm
  have hll : ((Cs m "GroupLen".toList).map int32Value).length = ng m := by rw [List.length_map, hl]
  unfold catStep
  rw [bindOk _ h, bindOk _ (tabHead_ok (T.file m hm) rest), T.ngroups m hm, T.total m hm, T.ntask m hm]
  dsimp only
  rw [bindOk _ hc]
  dsimp only
  rw [hll, length_overlay (by rw [length_allGroups]; omega), if_neg (by omega)]
  refine congrArg Except.ok ?_
  simp only [CatState.mk.injEq, true_and]
  refine ⟨by rw [pre_succ], ?_⟩
  have hg : ((List.range (ng m)).map (fun i : Nat => (⟨((Cs m "GroupLen".toList).map int32Value).getD i 0, m, i⟩ : CatData))) = fileGroups Cs ng m := by
    refine List.map_congr_left fun i hi => ?_
    rw [List.mem_range] at hi
    rw [List.getD_eq_getElem?_getD, List.getElem?_map, List.getD_eq_getElem?_getD, List.getElem?_eq_getElem (by omega)]
    rfl
  rw [hg, allGroups_succ]
  have l1 : (allGroups Cs ng m).length = pre ng m := length_allGroups m
  have l2 : (fileGroups Cs ng m).length = ng m := by simp [fileGroups]
  unfold overlay
  simp only [List.take_zero, List.nil_append, Nat.zero_add, List.length_append, l1, l2]
  rw [List.take_append_of_le_length (by omega), List.take_of_length_le (by omega), List.append_assoc, List.drop_append, List.drop_of_length_le (by omega), l1, List.nil_append, List.drop_drop]
  rw [show pre ng m + (pre ng m + ng m - pre ng m) = pre ng m + ng m by omega, List.append_assoc]

theorem catLoop_ok (T : GroupTabs Cs ng minlen nfile) (hs : TabsStored sys fs dir num Cs ng minlen nfile) {out : List CatData} (ho : pre ng nfile ≤ out.length) :
    ∀ d m fuel, m + d = nfile → d < fuel →
    catLoop sys fs dir num fuel m ⟨nfile, pre ng nfile, pre ng m, overlay out 0 (allGroups Cs ng m)⟩ =
      .ok ⟨nfile, pre ng nfile, pre ng nfile, overlay out 0 (allGroups Cs ng nfile)⟩ := by
  intro d
  induction d with
  | zero =>
    intro m fuel hm hf
    obtain ⟨fuel, rfl⟩ : ∃ g, fuel = g + 1 := ⟨fuel - 1, by omega⟩
    have : m = nfile := by omega
    subst this
    unfold catLoop
    rw [if_neg (by simp)]
  | succ d ih =>
    intro m fuel hm hf
    obtain ⟨fuel, rfl⟩ : ∃ g, fuel = g + 1 := ⟨fuel - 1, by omega⟩
    unfold catLoop
    rw [if_pos (by simp; omega), bindOk _ (catStep_ok T hs ho (by omega))]
    exact ih (m + 1) fuel (by omega) (by omega)

theorem catalogue_ok (T : GroupTabs Cs ng minlen nfile) (hs : TabsStored sys fs dir num Cs ng minlen nfile) {fuel : Nat} (hf : nfile < fuel) {out : List CatData} (ho : pre ng nfile ≤ out.length)
    {qsort : List CatData → List CatData} (hq : (qsort (allGroups Cs ng nfile)).length = pre ng nfile) :
    getGroupCatalogue sys fs dir num fuel qsort out = .ok (pre ng nfile, qsort (allGroups Cs ng nfile) ++ out.drop (pre ng nfile)) := by
  obtain ⟨rest, h⟩ := open_tab hs T.nonempty
  have e : overlay out 0 (allGroups Cs ng 0) = out := by simp [overlay, allGroups]
  have hl := catLoop_ok T hs ho nfile 0 fuel (by omega) hf
  rw [e] at hl
  have hl' : catLoop sys fs dir num fuel 0 ⟨nfile, pre ng nfile, 0, out⟩ = _ := hl
  have h3 := length_overlay (buf := out) (o := 0) (xs := allGroups Cs ng nfile) (by rw [length_allGroups]; omega)
  have h4 : (overlay out 0 (allGroups Cs ng nfile)).take (pre ng nfile) = allGroups Cs ng nfile := by
    unfold overlay
    rw [List.take_zero, List.nil_append, List.take_append_of_le_length (by rw [length_allGroups]), List.take_of_length_le (by rw [length_allGroups])]
  unfold getGroupCatalogue
  rw [bindOk _ h, bindOk _ (tabHead_ok (T.file 0 T.nonempty) rest), T.total 0 T.nonempty, T.ntask 0 T.nonempty]
  dsimp only
  rw [bindOk _ hl']
  dsimp only
  rw [Int.toNat_natCast, if_neg (by rw [h3]; omega), h4]
  refine congrArg Except.ok (Prod.ext rfl ?_)
  dsimp only
  unfold overlay
  rw [hq]
  simp only [List.take_zero, List.nil_append, Nat.zero_add, length_allGroups]
  rw [List.drop_append, List.drop_of_length_le (by rw [length_allGroups]), length_allGroups]
  simp

end Verif.GroupLib
