import Verif.Spec.ShowGroup
import Verif.Props.GroupCoords
import Verif.Props.MassFunction

/-! C127: the programs in IDL which plot groups and the numbers of particles in parts of the box -/

namespace Verif.ShowGroup

open GroupLib ReadParticles ReadRegion CPeano IdlReaders SnapshotPrograms MassFunction

variable {u : Setup} {Cs : Nat → Content} {n cells : Nat → Nat} {start : Nat → Nat → Nat} {nfile : Nat} {Gs : Nat → Content} {ng : Nat → Nat} {minlen ngfile : Nat}

theorem loadTable_ok (S : HashedSnapshot Cs n cells start nfile) {sys : Bool} {fs : ByteFS} {dir base : Name} {num : Nat} (hs : SnapStored sys fs dir base num Cs n cells nfile) (hcell : ∀ f < nfile, CellsAround cells nfile f)
    {fuel : Nat} (hf : nfile < fuel) : loadTable sys fs dir base num fuel = .ok (wholeTable n cells start nfile, pre cells nfile, nfile) := by
  have h0 := S.nonempty
  have hp : 0 < pre cells nfile := by have := (hcell 0 h0).2; omega
  obtain ⟨h1, h2⟩ := C88_hash_table S hs hcell (t := ⟨List.replicate (pre cells nfile) 0, List.replicate (pre cells nfile) 0, List.replicate nfile 0, List.replicate nfile 0⟩) (by simp) (by simp) (by simp) (by simp)
  have e1 : idlSize (pre cells nfile : Int) = .ok (pre cells nfile) := by unfold idlSize; rw [if_neg (by omega), Int.toNat_natCast]
  have e2 : idlSize (nfile : Int) = .ok nfile := by unfold idlSize; rw [if_neg (by omega), Int.toNat_natCast]
  unfold loadTable
  rw [h1]
  show (idlSize (pre cells nfile : Int) >>= _) = _
  rw [e1]
  show (idlSize (nfile : Int) >>= _) = _
  rw [e2]
  show (getHashTable sys fs dir base num fuel _ >>= _) = _
  rw [h2 fuel hf]
  rfl

theorem loadGroups_ok (T : GroupTabs Gs ng minlen ngfile) (ht : TabsStored u.sys u.fs u.dir u.num Gs ng minlen ngfile) (hng : 0 < pre ng ngfile) (qsort : List CatData → List CatData) (hq : ∀ l, QSorted idSortGroups l (qsort l))
    (hf : ngfile < u.fuel) : ∃ groups, loadGroups u qsort = .ok groups ∧ groups.Perm (allGroups Gs ng ngfile) ∧ groups.Pairwise (fun a b => b.len ≤ a.len) := by
  obtain ⟨groups, h1, h2, h3⟩ := C88_catalogue T ht (out := List.replicate (pre ng ngfile) ⟨0, 0, 0⟩) (by simp) qsort hq
  have e1 : idlSize (pre ng ngfile : Int) = .ok (pre ng ngfile) := by unfold idlSize; rw [if_neg (by omega), Int.toNat_natCast]
  refine ⟨groups, ?_, h2, h3⟩
  unfold loadGroups
  rw [totalGroups_ok T ht]
  show (idlSize (pre ng ngfile : Int) >>= _) = _
  rw [e1]
  show (getGroupCatalogue u.sys u.fs u.dir u.num u.fuel qsort _ >>= _) = _
  rw [h1 u.fuel hf]
  show Except.ok (groups ++ (List.replicate (pre ng ngfile) (⟨0, 0, 0⟩ : CatData)).drop (pre ng ngfile)) = _
  rw [List.drop_replicate, Nat.sub_self, List.replicate_zero, List.append_nil]

/-- Groups of the sorted catalogue are at their places. -/
theorem place_of {groups : List CatData} (hp : groups.Perm (allGroups Gs ng ngfile)) (hs : groups.Pairwise (fun a b => b.len ≤ a.len)) {k : Nat} {c : CatData} (hc : groups[k]? = some c) :
    ∃ f g : Nat, f < ngfile ∧ g < ng f ∧ c = ⟨lenOf Gs f g, f, g⟩ ∧ AtPlace Gs ng ngfile f g k := by
  have hm := hp.mem_iff.1 (List.mem_of_getElem? hc)
  unfold allGroups at hm
  obtain ⟨f, hf, hm⟩ := List.mem_flatMap.1 hm
  obtain ⟨g, hg, rfl⟩ := List.mem_map.1 hm
  refine ⟨f, g, List.mem_range.1 hf, List.mem_range.1 hg, rfl, ?_⟩
  have hd : (groups.map (fun g : CatData => g.len)).Pairwise (fun a b => b ≤ a) := List.pairwise_map.2 hs
  obtain ⟨s1, s2⟩ := sorted_steps hd (j := k) (s := lenOf Gs f g) (by rw [List.getElem?_map, hc]; rfl)
  rw [List.countP_map] at s1 s2
  rw [hp.countP_eq] at s1 s2
  refine ⟨?_, ?_⟩
  · have : (allGroups Gs ng ngfile).countP (fun c => decide (lenOf Gs f g < c.len)) = (allGroups Gs ng ngfile).countP ((fun x => decide (lenOf Gs f g + 1 ≤ x)) ∘ fun g : CatData => g.len) := by
      apply List.countP_congr
      intro c _
      simp only [Function.comp, decide_eq_true_eq]
      omega
    omega
  · exact s2

variable {Is : Nat → Content} {ni : Nat → Nat} {box : Rat} {box0 : Nat → Rat}

theorem showOne_ok (S : HashedSnapshot Cs n cells start nfile) (hs : SnapStored u.sys u.fs u.dir u.snapbase u.num Cs n cells nfile) (hn : nfile ≤ 2 ^ 30) (T : GroupTabs Gs ng minlen ngfile)
    (ht : TabsStored u.sys u.fs u.dir u.num Gs ng minlen ngfile) (hq : ∀ l, QSorted idSortCompareKey l (u.qsort l)) (hbox : ∀ f < nfile, u.val8 ((Cs f "Header/BoxSize".toList).headD []) = box) (hb : 0 < box) (hfu : 2 ≤ u.fuel)
    {groups : List CatData} {k f g len o : Nat} (hf : f < ngfile) (hg : g < ng f) (hc : groups[k]? = some ⟨lenOf Gs f g, f, g⟩)
    (F : Findable u.sys u.fs u.dir u.num Cs n cells start nfile Gs u.val4 box Is ni f g len o) (b0 : Rat) :
    ∃ s : Shown, showOne u groups (wholeTable n cells start nfile) (pre cells nfile) k b0 = .ok (s, wholeTable n cells start nfile) ∧ s.n = k ∧ s.len = len ∧ s.pos.length = len ∧
      ShowsIds (region Cs n cells start nfile (cellFlags (pre cells nfile) (idsOf (Is f) o len))) u.val4 box (idsOf (Is f) o len) s := by
  obtain ⟨ps, vs, c, h1, h2, _, h4, h5, h6, h7⟩ := C89_coordinates (box0 := b0) (pos := List.replicate len (0, 0, 0)) S hs hn T ht hf hg F.offset F.ids F.room F.pos F.inTable rfl F.size F.found hq hbox hb F.inside (by simp) hfu
  have hlen : len = vs.length := by
    have e1 := h5.length
    have e2 := h2.length_eq
    have e3 : (idsOf (Is f) o len).length = len := by
      have hcl : (Is f "GroupIDs".toList).length = ni f := by
        have := (F.ids.fits.rows ⟨false, [Files.col 8 (ni f) "GroupIDs"]⟩ (by rw [ids_sections]; simp) (Files.col 8 (ni f) "GroupIDs") (by simp)).1
        exact this.trans (by simp [Files.col])
      have := F.room
      unfold idsOf slice
      rw [List.length_map, List.length_take, List.length_drop]
      omega
    simp only [List.length_map] at e1 e2
    omega
  have e1 : idlSize (lenOf Gs f g) = .ok len := by
    have := F.pos
    rw [F.number]
    unfold idlSize
    rw [if_neg (by omega), Int.toNat_natCast]
  refine ⟨⟨k, len, vs, c⟩, ?_, rfl, rfl, hlen.symm, ps, h2, h4, h5, h6, h7⟩
  unfold showOne entry
  rw [hc]
  show (idlSize (lenOf Gs f g) >>= _) = _
  rw [e1]
  show (coordsOf _ (getGroupCoordinates u.sys u.fs u.dir u.snapbase u.num u.val4 u.val8 u.qsort u.fuel _ _ (Int.toNat (g : Int)) (Int.toNat (f : Int)) len b0 _) >>= _) = _
  rw [Int.toNat_natCast, Int.toNat_natCast, h1]
  show Except.ok ((⟨k, lenOf Gs f g, vs ++ (List.replicate len (0, 0, 0)).drop len, c⟩ : Shown), wholeTable n cells start nfile) = _
  rw [List.drop_replicate, Nat.sub_self, List.replicate_zero, List.append_nil, F.number]

theorem showLoop_ok {groups : List CatData} {t : HashTab} {k : Nat} {P : Nat → Shown → Prop} (ns : List Nat) (h : ∀ m ∈ ns, ∃ s, showOne u groups t k m (box0 m) = .ok (s, t) ∧ P m s) :
    ∃ out, showLoop u groups k box0 ns t = .ok out ∧ List.Forall₂ P ns out := by
  induction ns with
  | nil => exact ⟨[], rfl, List.Forall₂.nil⟩
  | cons m ns ih =>
    obtain ⟨s, h1, h2⟩ := h m List.mem_cons_self
    obtain ⟨out, h3, h4⟩ := ih (fun m' hm' => h m' (List.mem_cons_of_mem _ hm'))
    refine ⟨s :: out, ?_, List.Forall₂.cons h2 h4⟩
    show (showOne u groups t k m (box0 m) >>= fun s => showLoop u groups k box0 ns s.2 >>= fun rest => .ok (s.1 :: rest)) = _
    rw [h1]
    show (showLoop u groups k box0 ns t >>= fun rest => .ok (s :: rest)) = _
    rw [h3]
    rfl

/-- **C127** (groups): show_group.pro shows four groups with the numbers 2 to 5: for each of them there is a group which is at this place in the order of the numbers of particles, and its particles are plotted, relative to
their centre of mass. This is so for any order of groups with the same number of particles. -/
theorem C127_groups (S : HashedSnapshot Cs n cells start nfile) {dir : Name} (hdir : dir = u.base ++ "/snapdir_".toList ++ exts u.num ++ "/".toList) (hs : SnapStored u.sys u.fs dir u.snapbase u.num Cs n cells nfile) (hcell : ∀ f < nfile, CellsAround cells nfile f) (hn : nfile ≤ 2 ^ 30)
    (T : GroupTabs Gs ng minlen ngfile) (ht : TabsStored u.sys u.fs dir u.num Gs ng minlen ngfile) (h6 : 6 ≤ pre ng ngfile) (hq : ∀ l, QSorted idSortCompareKey l (u.qsort l))
    (qsort : List CatData → List CatData) (hq' : ∀ l, QSorted idSortGroups l (qsort l)) (hbox : ∀ f < nfile, u.val8 ((Cs f "Header/BoxSize".toList).headD []) = box) (hb : 0 < box)
    (hfu : 2 ≤ u.fuel) (hfu1 : nfile < u.fuel) (hfu2 : ngfile < u.fuel)
    {len o : Nat → Nat → Nat} (F : ∀ f < ngfile, ∀ g < ng f, Findable u.sys u.fs dir u.num Cs n cells start nfile Gs u.val4 box Is ni f g (len f g) (o f g)) :
    ∃ out, showGroup u qsort box0 = .ok out ∧ List.Forall₂ (fun (k : Nat) (s : Shown) => s.n = k ∧ ∃ f g, f < ngfile ∧ g < ng f ∧ AtPlace Gs ng ngfile f g k ∧ s.len = (len f g : Nat) ∧ s.pos.length = len f g ∧
      ShowsIds (region Cs n cells start nfile (cellFlags (pre cells nfile) (idsOf (Is f) (o f g) (len f g)))) u.val4 box (idsOf (Is f) (o f g) (len f g)) s) [2, 3, 4, 5] out := by
  obtain rfl : dir = u.dir := hdir
  obtain ⟨groups, g1, g2, g3⟩ := loadGroups_ok (u := u) T ht (by omega) qsort hq' hfu2
  have hlen : groups.length = pre ng ngfile := by rw [g2.length_eq, length_allGroups]
  obtain ⟨out, h1, h2⟩ := showLoop_ok (u := u) (groups := groups) (t := wholeTable n cells start nfile) (k := pre cells nfile) (box0 := box0)
    (P := fun (k : Nat) (s : Shown) => s.n = k ∧ ∃ f g, f < ngfile ∧ g < ng f ∧ AtPlace Gs ng ngfile f g k ∧ s.len = (len f g : Nat) ∧ s.pos.length = len f g ∧
      ShowsIds (region Cs n cells start nfile (cellFlags (pre cells nfile) (idsOf (Is f) (o f g) (len f g)))) u.val4 box (idsOf (Is f) (o f g) (len f g)) s) [2, 3, 4, 5] (by
    intro m hm
    have hm6 : m < groups.length := by
      simp only [List.mem_cons, List.not_mem_nil, or_false] at hm
      omega
    obtain ⟨f, g, hf, hg, hc, hpl⟩ := place_of g2 g3 (List.getElem?_eq_getElem hm6)
    obtain ⟨s, s1, s2, s3, s4, s5⟩ := showOne_ok S hs hn T ht hq hbox hb hfu hf hg (by rw [List.getElem?_eq_getElem hm6, hc]) (F f hf g hg) (box0 m)
    exact ⟨s, s1, s2, f, g, hf, hg, hpl, s3, s4, s5⟩)
  refine ⟨out, ?_, h2⟩
  unfold showGroup
  rw [g1]
  show (loadTable u.sys u.fs u.dir u.snapbase u.num u.fuel >>= _) = _
  rw [loadTable_ok S hs hcell hfu1]
  exact h1

/-- **C127**, defect: with fewer than six groups the program stops before the end. -/
theorem C127_few_groups_defect (S : HashedSnapshot Cs n cells start nfile) {dir : Name} (hdir : dir = u.base ++ "/snapdir_".toList ++ exts u.num ++ "/".toList) (hs : SnapStored u.sys u.fs dir u.snapbase u.num Cs n cells nfile) (hcell : ∀ f < nfile, CellsAround cells nfile f)
    (T : GroupTabs Gs ng minlen ngfile) (ht : TabsStored u.sys u.fs dir u.num Gs ng minlen ngfile) (h0 : 0 < pre ng ngfile) (h6 : pre ng ngfile < 6)
    (qsort : List CatData → List CatData) (hq' : ∀ l, QSorted idSortGroups l (qsort l)) (hfu1 : nfile < u.fuel) (hfu2 : ngfile < u.fuel) :
    ∀ out, showGroup u qsort box0 ≠ .ok out := by
  obtain rfl : dir = u.dir := hdir
  obtain ⟨groups, g1, g2, g3⟩ := loadGroups_ok (u := u) T ht h0 qsort hq' hfu2
  have hlen : groups.length = pre ng ngfile := by rw [g2.length_eq, length_allGroups]
  intro out hout
  unfold showGroup at hout
  rw [g1] at hout
  change (loadTable u.sys u.fs u.dir u.snapbase u.num u.fuel >>= _) = _ at hout
  rw [loadTable_ok S hs hcell hfu1] at hout
  change showLoop u groups (pre cells nfile) box0 [2, 3, 4, 5] (wholeTable n cells start nfile) = _ at hout
  have key : ∀ (ns : List Nat) (t : HashTab) (out : List Shown), 5 ∈ ns → showLoop u groups (pre cells nfile) box0 ns t ≠ .ok out := by
    intro ns
    induction ns with
    | nil => intro t out h; simp at h
    | cons m ns ih =>
      intro t out h hl
      change (showOne u groups t (pre cells nfile) m (box0 m) >>= fun s => showLoop u groups (pre cells nfile) box0 ns s.2 >>= fun rest => .ok (s.1 :: rest)) = _ at hl
      rcases hs1 : showOne u groups t (pre cells nfile) m (box0 m) with e | s
      · rw [hs1] at hl; cases hl
      · rw [hs1] at hl
        change (showLoop u groups (pre cells nfile) box0 ns s.2 >>= fun rest => .ok (s.1 :: rest)) = _ at hl
        rcases List.mem_cons.1 h with rfl | h
        · unfold showOne entry at hs1
          rw [List.getElem?_eq_none (by omega)] at hs1
          cases hs1
        · rcases hr : showLoop u groups (pre cells nfile) box0 ns s.2 with e | r
          · rw [hr] at hl; cases hl
          · exact ih s.2 r h hr
  exact key _ _ _ (by simp) hout

/-- **C127** (cubes): getcubes.pro gives the numbers of particles in as many equal parts of the table of cells as there are files, followed by zeros up to 512. If the number of files divides the number of cells every
particle is counted once. -/
theorem C127_cubes (S : HashedSnapshot Cs n cells start nfile) {sys : Bool} {fs : ByteFS} {base snapbase : Name} {num : Nat} {dir : Name} (hdir : dir = base ++ "/snapdir_".toList ++ exts num ++ "/".toList) (hs : SnapStored sys fs dir snapbase num Cs n cells nfile) (hcell : ∀ f < nfile, CellsAround cells nfile f)
    (h512 : nfile ≤ 512) (hb : ((allCells Cs n cells start nfile).flatten.length : Int) < 2147483648) {fuel : Nat} (hf : nfile < fuel) :
    ∃ counts, getCubes sys fs base snapbase num fuel = .ok (counts ++ List.replicate (512 - nfile) 0) ∧ counts.length = nfile ∧
      (∀ p < nfile, counts[p]? = some (((((allCells Cs n cells start nfile).drop (p * (pre cells nfile / nfile))).take (pre cells nfile / nfile)).flatten.length : Nat) : Int)) ∧
      (nfile ∣ pre cells nfile → counts.sum = (((allCells Cs n cells start nfile).flatten.length : Nat) : Int)) := by
  subst hdir
  change SnapStored sys fs (outputDir base num) snapbase num Cs n cells nfile at hs
  obtain ⟨counts, h1, h2, h3, h4⟩ := C88_cubes S (tab := List.replicate 512 0) (nf := nfile) (by rw [List.length_replicate]; exact h512) hb
  refine ⟨counts, ?_, h2, h3, ?_⟩
  · unfold getCubes
    rw [loadTable_ok S hs hcell hf]
    show getParticlesInCubes (wholeTable n cells start nfile) (pre cells nfile) nfile (List.replicate 512 0) = _
    rw [h1, List.drop_replicate]
  · intro hd
    rw [h4, Nat.mul_div_cancel' hd]
    have hl : (allCells Cs n cells start nfile).length = pre cells nfile := by
      unfold allCells
      rw [List.length_flatMap]
      have : ∀ m, ((List.range m).map fun f => ((List.range (cells f)).map fun j => cellParticles Cs n cells start f j).length).sum = pre cells m := by
        intro m
        induction m with
        | zero => rfl
        | succ m ih => rw [List.range_succ, List.map_append, List.sum_append, ih, pre_succ]; simp
      exact this nfile
    rw [← hl, List.take_length]

/-- **C127**, defect: the array has room for 512 files; with more the library writes behind its end. -/
theorem C127_files_defect (S : HashedSnapshot Cs n cells start nfile) {sys : Bool} {fs : ByteFS} {base snapbase : Name} {num : Nat} {dir : Name} (hdir : dir = base ++ "/snapdir_".toList ++ exts num ++ "/".toList) (hs : SnapStored sys fs dir snapbase num Cs n cells nfile) (hcell : ∀ f < nfile, CellsAround cells nfile f)
    (h512 : 512 < nfile) {fuel : Nat} (hf : nfile < fuel) : ∀ out, getCubes sys fs base snapbase num fuel ≠ .ok out := by
  subst hdir
  change SnapStored sys fs (outputDir base num) snapbase num Cs n cells nfile at hs
  intro out hout
  unfold getCubes at hout
  rw [loadTable_ok S hs hcell hf] at hout
  change getParticlesInCubes (wholeTable n cells start nfile) (pre cells nfile) nfile (List.replicate 512 0) = _ at hout
  unfold getParticlesInCubes at hout
  have key : ∀ (l : List Nat) (tab out : List Int), 512 ∈ l → tab.length = 512 → l.foldlM (fun tab proc => do
      let s ← cubeSum (wholeTable n cells start nfile) (proc * (pre cells nfile / nfile)) ((proc + 1) * (pre cells nfile / nfile))
      if tab.length ≤ proc then (.error .other : Except Err (List Int)) else .ok (tab.set proc s)) tab ≠ .ok out := by
    intro l
    induction l with
    | nil => intro tab out h; simp at h
    | cons p l ih =>
      intro tab out h ht hl
      rw [List.foldlM_cons] at hl
      rcases hc : cubeSum (wholeTable n cells start nfile) (p * (pre cells nfile / nfile)) ((p + 1) * (pre cells nfile / nfile)) with e | s
      · rw [hc] at hl; cases hl
      · rw [hc] at hl
        by_cases hp : tab.length ≤ p
        · change ((if tab.length ≤ p then (.error .other : Except Err (List Int)) else .ok (tab.set p s)) >>= _) = _ at hl
          rw [if_pos hp] at hl; cases hl
        · change ((if tab.length ≤ p then (.error .other : Except Err (List Int)) else .ok (tab.set p s)) >>= _) = _ at hl
          rw [if_neg hp] at hl
          rcases List.mem_cons.1 h with h' | h'
          · omega
          · exact ih (tab.set p s) out h' (by simp [ht]) hl
  exact key _ _ _ (List.mem_range.2 h512) List.length_replicate hout

namespace ExShowGroup

/-- One table with six groups, some of which have particles in common -/
def tables (_ : Nat) : Content := fun name =>
  if name = "Ngroups".toList ∨ name = "TotNgroups".toList then [leBytes 4 6]
  else if name = "Nids".toList then [leBytes 4 11]
  else if name = "NTask".toList ∨ name = "GroupMinLen".toList then [leBytes 4 1]
  else if name = "GroupLen".toList then [1, 3, 1, 2, 1, 3].map (leBytes 4)
  else if name = "GroupOffset".toList then [0, 1, 4, 5, 7, 8].map (leBytes 4)
  else if name = "Count".toList then [leBytes 4 100]
  else []

def idFile (_ : Nat) : Content := fun name =>
  if name = "GroupIDs".toList then [4 * 2 ^ 34 + 11, 7, 3 * 2 ^ 34 + 2, 5, 5, 7, 2 ^ 34 + 9, 3 * 2 ^ 34 + 2, 7, 5, 3 * 2 ^ 34 + 2].map (leBytes 8) else [leBytes 4 0]

def store (name : Name) : Option (List Byte) :=
  if name = "b/snapdir_063//group_tab_063.0".toList then some ((Files.lgadget2GroupTab 6 1).bytes false (tables 0))
  else if name = "b/snapdir_063//group_ids_063.0".toList then some ((Files.lgadget2SubIDs 8 11).bytes false (idFile 0))
  else if name = "b/snapdir_063//snap_063.0".toList then some (snapshotBytes (ExGroupCoords.contents 0) 3 2 false [])
  else if name = "b/snapdir_063//snap_063.1".toList then some (snapshotBytes (ExGroupCoords.contents 1) 2 3 false [])
  else none

def setup : Setup := ⟨true, store, "b".toList, "snap".toList, 63, fun v => (leNat v : Rat), fun v => (leNat v : Rat), List.foldr ExGroupCoords.insertId [], 3⟩

/-- The groups after the two largest ones have 2, 1, 1 and 1 particles. -/
example : (showGroup setup (List.foldr ExGroupLib.insertCat []) (fun _ => 0)).toOption.map (List.map fun s => (s.n, s.len, s.centre)) =
    some [(2, 2, (51 / 2, 30, 35)), (3, 1, (60, 60, 60)), (4, 1, (99, 10, 20)), (5, 1, (3, 12, 22))] := by decide +kernel

/-- The hypotheses about the group files -/
theorem tabs : GroupTabs tables (fun _ => 6) 1 1 where
  nonempty := by decide
  file := by
    have h : ∀ f < 1, ∀ sec ∈ Files.lgadget2GroupTab 6 1, (∀ r ∈ sec.rows, (tables f r.name).length = r.shape.prod ∧ ∀ v ∈ tables f r.name, v.length = r.width) ∧
        (sec.record = true → (sec.payload false (tables f)).length < 2147483648) := by decide +kernel
    exact fun f hf => ⟨fun sec hs => (h f hf sec hs).1, fun sec hs => (h f hf sec hs).2⟩
  ngroups := by decide +kernel
  total := by decide +kernel
  ntask := by decide +kernel
  minlen := by decide +kernel

theorem findable : ∀ f < 1, ∀ g < 6, Findable true store setup.dir 63 ExGroupCoords.contents ExReadRegion.number ExReadRegion.cellsIn ExReadRegion.starts 2 tables setup.val4 100 idFile (fun _ => 11) f g
    ([1, 3, 1, 2, 1, 3].getD g 0) ([0, 1, 4, 5, 7, 8].getD g 0) := by
  intro f hf
  obtain rfl : f = 0 := by omega
  have hi : IdsStored true store setup.dir 63 0 (idFile 0) 11 := by
    refine ⟨⟨?_, ?_⟩, by decide +kernel, ⟨[], by decide +kernel⟩⟩
    · have : ∀ sec ∈ Files.lgadget2SubIDs 8 11, ∀ r ∈ sec.rows, (idFile 0 r.name).length = r.shape.prod ∧ ∀ v ∈ idFile 0 r.name, v.length = r.width := by decide +kernel
      exact this
    · decide +kernel
  have key : ∀ g < 6, lenOf tables 0 g = ([1, 3, 1, 2, 1, 3].getD g 0 : Nat) ∧ 0 < [1, 3, 1, 2, 1, 3].getD g 0 ∧ int32Value ((tables 0 "GroupOffset".toList).getD g []) = ([0, 1, 4, 5, 7, 8].getD g 0 : Nat) ∧
      [0, 1, 4, 5, 7, 8].getD g 0 + [1, 3, 1, 2, 1, 3].getD g 0 ≤ 11 ∧ (∀ id ∈ idsOf (idFile 0) ([0, 1, 4, 5, 7, 8].getD g 0) ([1, 3, 1, 2, 1, 3].getD g 0), idCell id < pre ExReadRegion.cellsIn 2) := by decide +kernel
  have key2 : ∀ g < 6, ∀ id ∈ idsOf (idFile 0) ([0, 1, 4, 5, 7, 8].getD g 0) ([1, 3, 1, 2, 1, 3].getD g 0),
      ∃ p ∈ region ExGroupCoords.contents ExReadRegion.number ExReadRegion.cellsIn ExReadRegion.starts 2 (cellFlags (pre ExReadRegion.cellsIn 2) (idsOf (idFile 0) ([0, 1, 4, 5, 7, 8].getD g 0) ([1, 3, 1, 2, 1, 3].getD g 0))),
        lowOf p = lowId id := by decide +kernel
  have key3 : ∀ g < 6, (region ExGroupCoords.contents ExReadRegion.number ExReadRegion.cellsIn ExReadRegion.starts 2
      (cellFlags (pre ExReadRegion.cellsIn 2) (idsOf (idFile 0) ([0, 1, 4, 5, 7, 8].getD g 0) ([1, 3, 1, 2, 1, 3].getD g 0)))).length ≤ 5 := by decide +kernel
  have key4 : ∀ g < 6, ∀ p ∈ region ExGroupCoords.contents ExReadRegion.number ExReadRegion.cellsIn ExReadRegion.starts 2
      (cellFlags (pre ExReadRegion.cellsIn 2) (idsOf (idFile 0) ([0, 1, 4, 5, 7, 8].getD g 0) ([1, 3, 1, 2, 1, 3].getD g 0))),
      (0 ≤ setup.val4 p.x ∧ setup.val4 p.x ≤ 100) ∧ (0 ≤ setup.val4 p.y ∧ setup.val4 p.y ≤ 100) ∧ (0 ≤ setup.val4 p.z ∧ setup.val4 p.z ≤ 100) := by decide +kernel
  intro g hg
  obtain ⟨k1, k2, k3, k4, k5⟩ := key g hg
  exact ⟨k1, k2, k3, hi, k4, k5, lt_of_le_of_lt (key3 g hg) (by norm_num), key2 g hg, key4 g hg⟩

/-- Two parts of two cells each; the particle in the last cell is not counted. -/
example : getCubes true store "b".toList "snap".toList 63 3 = .ok ([3, 1] ++ List.replicate 510 0) := by decide +kernel

end ExShowGroup

end Verif.ShowGroup
