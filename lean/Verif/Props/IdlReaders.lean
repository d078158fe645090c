import Verif.Proofs.IdlSnapshots
import Verif.Proofs.IdlTrees
import Verif.Proofs.IdlPotential
import Verif.Props.FormatsCases
import Verif.Props.FormatsPlainCases
import Verif.Props.ReadRegion

/-!
C101: the programs in IDL read files of the Millennium simulation correctly.
-/

namespace Verif.IdlReaders

open Files FortranReaders SnapshotPrograms

section
variable {fs : ByteFS} {base : Name} {num : Nat}

/-- **C101** (ReadSubHalos.pro): with at least one group and one subhalo, the variables have the contents of the files. -/
theorem C101_subhalos (big : Bool) (hb : Compact base) (hn : num < 1000) (i : Nat) {Cg C : Content} {n minlen ng ns : Nat}
    (hg : (Files.lgadget2GroupTab n minlen).Fits Cg) (hN : intIn Cg "Ngroups" = n) (hs : (Files.lgadget2SubTab 8 ng ns).Fits C) (hG : intIn C "Ngroups" = ng) (hS : intIn C "Nsubhalos" = ns)
    (fg : Starts fs (ownPath .groupTab base num i) big Cg (Files.lgadget2GroupTab n minlen)) (ft : Starts fs (ownPath .subTab base num i) big C (Files.lgadget2SubTab 8 ng ns))
    (h0 : n ≠ 0) (h1 : ng ≠ 0) (h2 : ns ≠ 0) : readSubHalos big fs base num i = .ok (subHalosOf Cg C) := by
  rw [readSubHalos_eq big hb hn i hg hN hs hG hS fg ft, if_neg (by simp [h0, h1, h2])]

/-- Defect: files without groups or without subhalos cannot be read. -/
theorem C101_empty_defect (big : Bool) (hb : Compact base) (hn : num < 1000) (i : Nat) {Cg C : Content} {n minlen ng ns : Nat}
    (hg : (Files.lgadget2GroupTab n minlen).Fits Cg) (hN : intIn Cg "Ngroups" = n) (hs : (Files.lgadget2SubTab 8 ng ns).Fits C) (hG : intIn C "Ngroups" = ng) (hS : intIn C "Nsubhalos" = ns)
    (fg : Starts fs (ownPath .groupTab base num i) big Cg (Files.lgadget2GroupTab n minlen)) (ft : Starts fs (ownPath .subTab base num i) big C (Files.lgadget2SubTab 8 ng ns))
    (h : n = 0 ∨ ng = 0 ∨ ns = 0) : readSubHalos big fs base num i = .error .valueError := by
  rw [readSubHalos_eq big hb hn i hg hN hs hG hS fg ft, if_pos h]

/-- Defect (ReadGroups.pro): no group_tab file can be read, since the number of groups is not the variable which is used. -/
theorem C101_groups_defect (big : Bool) (hb : Compact base) (hn : num < 1000) (i : Nat) {C : Content} {n minlen : Nat} (hg : (Files.lgadget2GroupTab n minlen).Fits C)
    (fg : Starts fs (ownPath .groupTab base num i) big C (Files.lgadget2GroupTab n minlen)) : readGroups big fs base num i = .error .nameError := by
  obtain ⟨rest, fg⟩ := fg
  have hp := plain_bytes big C (L := Files.lgadget2GroupTab n minlen) (by intro s hs; simp only [Files.lgadget2GroupTab, List.mem_cons, List.not_mem_nil, or_false] at hs; rcases hs with rfl | rfl | rfl <;> rfl)
  have sg : (Files.lgadget2GroupTab n minlen).flatMap Section.rows = ["Ngroups", "Nids", "TotNgroups", "NTask"].map (one 4) ++ [col 4 n "GroupLen", col 4 n "GroupOffset", one 4 "GroupMinLen", col 4 minlen "Count"] := rfl
  unfold readGroups
  rw [(catName_eq hb hn i).2]
  simp only [bind, Except.bind]
  rw [openr_some fg, hp, sg, List.flatMap_append, List.append_assoc]
  dsimp only
  rw [readu_rows big (C := C) (l := ["Ngroups", "Nids", "TotNgroups", "NTask"].map (one 4)) (by repeat' (first | exact List.Forall₂.nil | refine List.Forall₂.cons ⟨rfl, rfl⟩ ?_))
    (fun r hr => hg.rows ⟨false, ["Ngroups", "Nids", "TotNgroups", "NTask"].map (one 4)⟩ (by simp [Files.lgadget2GroupTab]) r hr) (by decide)]

/-- **C101** (ReadSingle.pro): positions, velocities and IDs of the particles in a snapshot file with particles, whatever follows in the file. Without particles the program fails. -/
theorem C101_single (big : Bool) {snapbase : Name} (hb : Compact base) (hsb : Compact snapbase) (hn : num < 1000) (i : Nat) {C : Content} {n cells : Nat} (hC : ReadParticles.SnapshotFile C n cells)
    {rest : List Byte} (hf : fs (ownPath (.snapshot snapbase) base num i) = some (ReadParticles.snapshotBytes C n cells big rest)) :
    readSingle big fs base snapbase num i = if n = 0 then .error .valueError else .ok (C "PartType1/Coordinates".toList, C "PartType1/Velocities".toList, C "PartType1/ParticleIDs".toList) :=
  readSingle_eq big hb hsb hn i hC hf

/-- **C101** (ReadMulti_xyz.pro): the positions of all particles of a snapshot with less than 2^31 particles, of which each file has some, in the order of the files. -/
theorem C101_multi (big : Bool) {snapbase : Name} (hb : Compact base) (hsb : Compact snapbase) (hn : num < 1000) {C : Nat → Content} {n cells : Nat → Nat} {k : Nat}
    (hC : ∀ f, f < k → ReadParticles.SnapshotFile (C f) (n f) (cells f))
    (hf : ∀ f, f < k → ∃ rest, fs (ownPath (.snapshot snapbase) base num f) = some (ReadParticles.snapshotBytes (C f) (n f) (cells f) big rest)) (h0 : ∀ f, f < k → n f ≠ 0)
    (hk0 : k ≠ 0) (hk : k ≤ 32767) (hnf : int32Value ((C 0 "Header/NumFilesPerSnapshot".toList).headD []) = k) {total : Nat} (ht : total = ((List.range k).map n).sum)
    (hp : leNat ((C 0 "Header/NumPart_Total".toList).getD 1 []) = total) (hsmall : total < 2147483648) :
    readMulti big fs base snapbase num = .ok ((List.range k).flatMap (fun f => C f "PartType1/Coordinates".toList), (C 0 "Header/BoxSize".toList).headD []) := by
  have hi : int32Value ((C 0 "Header/NumPart_Total".toList).getD 1 []) = total := by
    unfold int32Value
    rw [if_neg (by omega), hp]
  have hpos : 0 < total := by
    have h1 := range_sum_le n (a := 1) (b := k) (by omega)
    have h2 := h0 0 (by omega)
    have h3 : ((List.range 1).map n).sum = n 0 := by simp
    omega
  have hlen := length_posUpTo hC
  rw [readMulti_eq hb hsb hn hC hf h0 hk0 hk hnf, hi, if_neg (by omega), if_pos (by omega), Int.toNat_natCast, GroupLib.overlay_full (by rw [hlen, List.length_replicate, ht])]
  rfl

/-- Defect: with 2^31 particles and more, as in the Millennium simulation, the program fails, since it only looks at 32 bits of the total number. -/
theorem C101_multi_defect (big : Bool) {snapbase : Name} (hb : Compact base) (hsb : Compact snapbase) (hn : num < 1000) {C : Nat → Content} {n cells : Nat → Nat} {k : Nat}
    (hC : ∀ f, f < k → ReadParticles.SnapshotFile (C f) (n f) (cells f))
    (hf : ∀ f, f < k → ∃ rest, fs (ownPath (.snapshot snapbase) base num f) = some (ReadParticles.snapshotBytes (C f) (n f) (cells f) big rest)) (h0 : ∀ f, f < k → n f ≠ 0)
    (hk : k ≤ 32767) (hnf : int32Value ((C 0 "Header/NumFilesPerSnapshot".toList).headD []) = k) {total : Nat} (ht : total = ((List.range k).map n).sum)
    (hp : leNat ((C 0 "Header/NumPart_Total".toList).getD 1 []) = total % 4294967296) (hlarge : 2147483648 ≤ total) :
    readMulti big fs base snapbase num = .error (if total % 4294967296 = 0 ∨ 2147483648 ≤ total % 4294967296 then .valueError else .indexError) := by
  have hk0 : k ≠ 0 := by
    rintro rfl
    simp at ht
    omega
  have hm := Nat.mod_lt total (y := 4294967296) (by omega)
  have hle := Nat.mod_le total 4294967296
  rw [readMulti_eq hb hsb hn hC hf h0 hk0 hk hnf]
  unfold int32Value
  rw [hp]
  by_cases h : total % 4294967296 = 0 ∨ 2147483648 ≤ total % 4294967296
  · rw [if_pos h, if_pos (by split <;> omega)]
  · rw [if_neg h, if_neg (by omega : ¬ total % 4294967296 ≥ 2147483648), if_neg (by omega), if_neg (by omega)]

/-- Defect: the program looks for `snap_millennium/_008.0` and so on, so that it fails if there are only snapshot files with their usual names. -/
theorem C101_multi_name_defect (big : Bool) (hb : Compact base) (hn : num < 1000) (hfs : ∀ p, fs p ≠ none → ∃ i, p = ownPath (.snapshot "snap_millennium".toList) base num i) :
    readMulti big fs base "snap_millennium/".toList num = .error .ioError := by
  have hnone : fs (ownPath (.snapshot "snap_millennium/".toList) base num 0) = none := by
    by_contra h
    obtain ⟨i, hi⟩ := hfs _ h
    unfold ownPath at hi
    rw [show (Kind.snapshot "snap_millennium/".toList).stem = "snap_millennium".toList ++ "/".toList from (by decide), show (Kind.snapshot "snap_millennium".toList).stem = "snap_millennium".toList from rfl,
      show (Kind.snapshot "snap_millennium/".toList).dir = (Kind.snapshot "snap_millennium".toList).dir from rfl] at hi
    simp only [List.append_assoc] at hi
    have h1 := List.append_cancel_left (List.append_cancel_left (List.append_cancel_left (List.append_cancel_left (List.append_cancel_left (List.append_cancel_left (List.append_cancel_left hi))))))
    exact absurd (congrArg List.head? h1) (by
      rw [show "/".toList = ['/'] from rfl, show "_".toList = ['_'] from rfl]
      simp)
  unfold readMulti openr
  rw [snapName0_eq, snapName_eq hb (by unfold Compact; decide) hn, hnone]
  rfl

/-- **C101** (ReadPotential.pro): if the files have all planes of the potential, each at least one, in any order, the result is the potential, where the first index is the fastest one. -/
theorem C101_potential (big : Bool) (hb : Compact base) (hn : num < 1000) {G : Nat} (hG0 : G ≠ 0) (hG : G < 2147483648) {phi : Nat → Nat → Nat → List Byte}
    (hphi : ∀ x y z, x < G → y < G → z < G → (phi x y z).length = 4) {files : List PotFile} (hset : PotSet G files) (hlen : files.length ≤ 32767) (hpos : ∀ q ∈ files, q.slabs ≠ 0)
    (hf : ∀ f (h : f < files.length), ∃ rest, fs (ownPath (.snapshot "potential".toList) base num f) = some ((files[f]).bytes big G phi ++ rest)) {fuel : Nat} (hfuel : files.length ≤ fuel) :
    ∃ a, readPotential big fs base num fuel = .ok (G, a) ∧ a.length = G * G * G ∧ ∀ x y z, x < G → y < G → z < G → a.getD (x + G * (y + G * z)) [] = phi x y z := by
  have h0 : 0 < files.length := by
    rw [List.length_pos_iff]
    rintro rfl
    have := hset.number
    simp at this
    omega
  obtain ⟨p, h1, h2⟩ := potLoop_eq big hb hn hG0 hG hphi hset hlen hpos hf fuel 0 (by omega) h0 ⟨none, 0⟩ _ rfl (by rw [if_pos rfl]) (by intro q hq; simp at hq)
  refine ⟨transpose3 G p, ?_, by simp [transpose3], ?_⟩
  · unfold readPotential
    rw [h1]
    rfl
  · intro x y z hx hy hz
    rw [transpose_getD p hx hy hz]
    obtain ⟨q, hq, h3, h4⟩ := hset.cover x hx
    exact h2 q hq x y z h3 h4 hy hz

/-- Defect: the program fails if the first file has no planes. -/
theorem C101_potential_defect (big : Bool) (hb : Compact base) (hn : num < 1000) {G : Nat} (hG0 : G ≠ 0) (hG : G < 2147483648) {phi : Nat → Nat → Nat → List Byte}
    (hphi : ∀ x y z, x < G → y < G → z < G → (phi x y z).length = 4) {files : List PotFile} (hset : PotSet G files) {q : PotFile} (hq : files.head? = some q) (hz : q.slabs = 0)
    (hf : ∃ rest, fs (ownPath (.snapshot "potential".toList) base num 0) = some (q.bytes big G phi ++ rest)) (fuel : Nat) :
    readPotential big fs base num (fuel + 1) = .error .valueError := by
  obtain ⟨rest, hrest⟩ := hf
  have hmem := List.mem_of_head? hq
  have hstep := potStep_eq big hb hn hG0 hG hphi 0 (hset.fields q hmem) (hset.inside q hmem) hrest ⟨none, 0⟩ _ 0 rfl (by have := hset.inside q hmem; omega) (by rw [if_pos rfl])
  rw [if_pos hz] at hstep
  unfold readPotential potLoop
  rw [hstep]
  rfl

/-- **C101** (ReadTree.pro): the trees of all files, with all halos, in the order of the files; `n f t` is the number of halos in tree `t` of file `f`. -/
theorem C101_trees (big : Bool) (hb : Compact base) (hn : num < 1000) {nfiles : Nat} {C : Nat → Content} {trees halos : Nat → Nat} {n : Nat → Nat → Nat}
    (hf : ∀ f < nfiles, (Files.mpaTree 8 false (trees f) (halos f)).Fits (C f)) (h1 : ∀ f < nfiles, intIn (C f) "Ntrees" = trees f)
    (h2 : ∀ f < nfiles, ∀ t < trees f, int32Value ((C f "NPerTree".toList).getD t []) = n f t) (h3 : ∀ f < nfiles, ((List.range (trees f)).map (n f)).sum = halos f)
    (ft : ∀ f < nfiles, Starts fs (treePath "trees" base num f) big (C f) (Files.mpaTree 8 false (trees f) (halos f))) (h0 : ∀ f < nfiles, trees f ≠ 0) (hz : ∀ f < nfiles, ∀ t < trees f, n f t ≠ 0) :
    readTrees big fs base num nfiles = .ok ((List.range nfiles).map (fun f => (intIn (C f) "Ntrees", intIn (C f) "Nhalos", (List.range (trees f)).map (treeOf (C f) (n f))))) := by
  have key : ∀ l : List Nat, (∀ f ∈ l, f < nfiles) → l.mapM (readTreeFile big fs base num) =
      .ok (l.map (fun f => (intIn (C f) "Ntrees", intIn (C f) "Nhalos", (List.range (trees f)).map (treeOf (C f) (n f))))) := by
    intro l
    induction l with
    | nil => intro _; rfl
    | cons f l ih =>
      intro hl
      have hfl := hl f (by simp)
      rw [List.mapM_cons, readTreeFile_eq big hb hn f (hf f hfl) (h1 f hfl) (h2 f hfl) (h3 f hfl) (ft f hfl), if_neg, ih (fun g hg => hl g (by simp [hg]))]
      · rfl
      · rintro (h | h)
        · exact h0 f hfl h
        · obtain ⟨t, ht, hn⟩ := List.mem_map.1 h
          exact hz f hfl t (List.mem_range.1 ht) hn
  exact key _ (fun f hf => List.mem_range.1 hf)

/-- The trees of a file together are all of its halos. -/
theorem C101_all_halos {C : Content} {trees halos : Nat} {n : Nat → Nat} (hf : (Files.mpaTree 8 false trees halos).Fits C) (h3 : ((List.range trees).map n).sum = halos) :
    ((List.range trees).map (treeOf C n)).flatten = C "HaloList".toList := by
  have hlen : (C "HaloList".toList).length = halos := by
    have := (hf.rows ⟨false, [col 4 trees "NPerTree", structs (structSize (mpaHalo 8 false)) halos "HaloList"]⟩ (by simp [Files.mpaTree]) (structs (structSize (mpaHalo 8 false)) halos "HaloList") (by simp)).1
    rw [show (structs (structSize (mpaHalo 8 false)) halos "HaloList").shape.prod = halos from prod_one _] at this
    exact this
  have key : ∀ t, ((List.range t).map (treeOf C n)).flatten = (C "HaloList".toList).take ((List.range t).map n).sum := by
    intro t
    induction t with
    | zero => rfl
    | succ t ih =>
      rw [List.range_succ, List.map_append, List.flatten_append, ih, List.map_append, List.sum_append]
      show _ ++ (treeOf C n t ++ []) = _
      rw [List.append_nil, treeOf, show ([t].map n).sum = n t by simp, ← List.take_add]
  rw [key, h3, ← hlen, List.take_length]

/-- Defect: a file with no trees, or with a tree without halos, cannot be read. -/
theorem C101_trees_defect (big : Bool) (hb : Compact base) (hn : num < 1000) (i : Nat) {C : Content} {trees halos : Nat} {n : Nat → Nat}
    (hf : (Files.mpaTree 8 false trees halos).Fits C) (h1 : intIn C "Ntrees" = trees) (h2 : ∀ t < trees, int32Value ((C "NPerTree".toList).getD t []) = n t)
    (h3 : ((List.range trees).map n).sum = halos) (ft : Starts fs (treePath "trees" base num i) big C (Files.mpaTree 8 false trees halos)) (h : trees = 0 ∨ ∃ t < trees, n t = 0) :
    readTreeFile big fs base num i = .error .valueError := by
  rw [readTreeFile_eq big hb hn i hf h1 h2 h3 ft, if_pos]
  rcases h with h | ⟨t, ht, hz⟩
  · exact Or.inl h
  · exact Or.inr (List.mem_map.2 ⟨t, List.mem_range.2 ht, hz⟩)

/-- **C101** (fields of halos): each tag of the structure has the value of the member of the C structure which was written. -/
theorem C101_halo (pad : Nat → Byte) (value : String → List Byte) (hf : ∀ m ∈ Files.mpaHalo 8 false, m.Fits value) :
    ∀ m ∈ Files.mpaHalo 8 false, recordField false haloStruct (structBytes pad value (Files.mpaHalo 8 false)) (haloTag m.name) = some (value m.name) := by
  intro m hm
  have h1 := (C81_tree_halo 8 (Or.inr rfl) false pad value hf).2 m hm
  have h2 : ∀ m ∈ Files.mpaHalo 8 false, ((haloStruct.zip (dtypeOffsets false 0 haloStruct)).find? (fun p => p.1.name == haloTag m.name)).map (fun p => (p.1.size * p.1.count, p.2)) =
      (((mpaHaloFields 8 false).zip (dtypeOffsets false 0 (mpaHaloFields 8 false))).find? (fun p => p.1.name == m.name)).map (fun p => (p.1.size * p.1.count, p.2)) := by decide +kernel
  have h3 := h2 m hm
  have h4 : ∀ (fields : List SField) (name : String) (rec : List Byte), recordField false fields rec name =
      (((fields.zip (dtypeOffsets false 0 fields)).find? (fun p => p.1.name == name)).map (fun p => (p.1.size * p.1.count, p.2))).map (fun q => slice rec q.2 q.1) := by
    intro fields name rec
    unfold recordField
    cases (fields.zip (dtypeOffsets false 0 fields)).find? (fun p => p.1.name == name) <;> rfl
  rw [h4, h3, ← h4, h1]

/-- **C101** (Read_TreeAux.pro): the variables have the contents of the file, unless there is nothing in one of the arrays. -/
theorem C101_treeaux (big : Bool) (hb : Compact base) (hn : num < 1000) (i : Nat) {C : Content} {halos unique trees snaps : Nat}
    (hf : (Files.mpaTreeAux 8 halos unique trees snaps).Fits C) (h1 : intIn C "TotHalos" = halos) (h2 : intIn C "Totunique" = unique) (h3 : intIn C "Ntrees" = trees) (h4 : intIn C "TotSnaps" = snaps)
    (ft : Starts fs (treePath "treeaux" base num i) big C (Files.mpaTreeAux 8 halos unique trees snaps)) :
    readTreeAux big fs base num i = if snaps = 0 ∨ trees = 0 ∨ halos = 0 ∨ unique = 0 then .error .valueError else .ok (treeAuxOf C) := readTreeAux_eq big hb hn i hf h1 h2 h3 h4 ft

theorem not_prefix {base s : Name} (hb : ' ' ∈ base) (hs : ' ' ∉ s) : ¬ base <+: s := fun h => hs (h.subset hb)

theorem removeBlanks_blank (s : Name) : ' ' ∉ removeBlanks s := by
  unfold removeBlanks
  intro h
  have := (List.mem_filter.1 h).2
  simp at this

/-- Defect: if there is a blank in the name of the directory, no file in it can be read. -/
theorem C101_blank_defect (big : Bool) (hb : ' ' ∈ base) (hfs : ∀ p, fs p ≠ none → base <+: p) (snapbase : Name) (i nfiles fuel : Nat) :
    readSubHalos big fs base num i = .error .ioError ∧ readGroups big fs base num i = .error .ioError ∧ readSingle big fs base snapbase num i = .error .ioError ∧
      readMulti big fs base snapbase num = .error .ioError ∧ readPotential big fs base num (fuel + 1) = .error .ioError ∧ readTrees big fs base num (nfiles + 1) = .error .ioError ∧
      readTreeAux big fs base num i = .error .ioError := by
  have hopen : ∀ s, openr fs (removeBlanks s) = .error .ioError := by
    intro s
    have : fs (removeBlanks s) = none := by
      by_contra h
      exact not_prefix hb (removeBlanks_blank s) (hfs _ h)
    unfold openr
    rw [this]
  refine ⟨?_, ?_, ?_, ?_, ?_, ?_, ?_⟩
  · unfold readSubHalos catName
    simp only [hopen, bind, Except.bind]
  · unfold readGroups catName
    simp only [hopen, bind, Except.bind]
  · unfold readSingle snapName
    simp only [hopen, bind, Except.bind]
  · unfold readMulti snapName0
    simp only [hopen, bind, Except.bind]
  · unfold readPotential potLoop potStep catName
    simp only [hopen, bind, Except.bind]
  · unfold readTrees
    rw [List.range_succ_eq_map, List.mapM_cons]
    unfold readTreeFile treeName
    simp only [hopen, bind, Except.bind]
  · unfold readTreeAux treeName
    simp only [hopen, bind, Except.bind]

end

/-! ### Examples -/

namespace ExIdl

def base : Name := "/data/milli".toList

def fs (big : Bool) : ByteFS := fun p =>
  if p = ownPath .groupTab base 63 5 then some ((Files.lgadget2GroupTab 2 3).bytes big exGroupTab)
  else if p = ownPath .subTab base 63 5 then some ((Files.lgadget2SubTab 8 2 3).bytes big exSubTab)
  else if p = treePath "treeaux" base 63 0 then some ((Files.mpaTreeAux 8 2 3 1 2).bytes big ExPlain.aux)
  else none

theorem compact : Compact base := by unfold Compact; decide

example : ownPath .subTab base 63 5 = "/data/milli/postproc_063/sub_tab_063.5".toList ∧ treePath "trees" base 7 12 = "/data/milli/treedata/trees_007.12".toList := by decide +kernel

example (big : Bool) : ∃ r, readSubHalos big (fs big) base 63 5 = .ok r ∧ r.nsubs = 3 ∧ r.subLen.map leNat = [6001, 6008, 6015] ∧ r.groupLen.map leNat = [8001, 8008] :=
  ⟨_, C101_subhalos (Cg := exGroupTab) (C := exSubTab) (n := 2) (minlen := 3) (ng := 2) (ns := 3) big compact (by decide) 5 (Layout.fits_of _ _ (by decide +kernel)) (by decide +kernel) (Layout.fits_of _ _ (by decide +kernel)) (by decide +kernel) (by decide +kernel)
    ⟨[], by rw [List.append_nil]; unfold fs; rw [if_pos rfl]⟩ ⟨[], by rw [List.append_nil]; unfold fs; rw [if_neg (by decide +kernel), if_pos rfl]⟩ (by decide) (by decide) (by decide),
    by decide +kernel, by decide +kernel, by decide +kernel⟩

example (big : Bool) : readTreeAux big (fs big) base 63 0 = .ok (treeAuxOf ExPlain.aux) := by
  rw [C101_treeaux (C := ExPlain.aux) (halos := 2) (unique := 3) (trees := 1) (snaps := 2) big compact (by decide) 0 (Layout.fits_of _ _ (by decide +kernel)) (by decide +kernel) (by decide +kernel) (by decide +kernel) (by decide +kernel)
    ⟨[], by rw [List.append_nil]; unfold fs; rw [if_neg (by decide +kernel), if_neg (by decide +kernel), if_pos rfl]⟩, if_neg (by decide)]

/-- A snapshot of two files with three and two particles -/
def content (f : Nat) : Content := fun name =>
  if name = "Header/NumPart_Total".toList then [leBytes 4 0, leBytes 4 5, leBytes 4 0, leBytes 4 0, leBytes 4 0, leBytes 4 0] else if name = "Header/NumFilesPerSnapshot".toList then [leBytes 4 2]
  else ExReadRegion.contents f name

theorem snapshotFile (f : Nat) (hf : f < 2) : ReadParticles.SnapshotFile (content f) (ExReadRegion.number f) (ExReadRegion.cellsIn f) := by
  refine ⟨⟨?_, ?_⟩, ?_⟩
  · have : ∀ f < 2, ∀ sec ∈ Files.lgadget2Snapshot (ExReadRegion.number f) (ExReadRegion.cellsIn f), ∀ r ∈ sec.rows, (content f r.name).length = r.shape.prod ∧ ∀ v ∈ content f r.name, v.length = r.width := by
      decide +kernel
    exact this f hf
  · revert f; decide +kernel
  · revert f; decide +kernel

def snapFs (big : Bool) : ByteFS := fun p =>
  if p = ownPath (.snapshot "snap".toList) base 8 0 then some (ReadParticles.snapshotBytes (content 0) (ExReadRegion.number 0) (ExReadRegion.cellsIn 0) big [])
  else if p = ownPath (.snapshot "snap".toList) base 8 1 then some (ReadParticles.snapshotBytes (content 1) (ExReadRegion.number 1) (ExReadRegion.cellsIn 1) big [])
  else none

example (big : Bool) : ∃ r, readMulti big (snapFs big) base "snap".toList 8 = .ok r ∧ r.1.map leNat = [0, 1, 2, 3, 4, 5, 6, 7, 8, 10, 11, 12, 13, 14, 15] :=
  ⟨_, C101_multi (C := content) (n := ExReadRegion.number) (cells := ExReadRegion.cellsIn) (k := 2) big compact (by unfold Compact; decide) (by decide) snapshotFile
    (fun f hf => ⟨[], by
      match f, hf with
      | 0, _ => unfold snapFs; rw [if_pos rfl]
      | 1, _ => unfold snapFs; rw [if_neg (by decide +kernel), if_pos rfl]⟩) (by decide) (by decide) (by decide) (by decide +kernel) (total := 5) (by decide) (by decide +kernel) (by decide), by decide +kernel⟩

example (big : Bool) : ∃ r, readSingle big (snapFs big) base "snap".toList 8 1 = .ok r ∧ r.2.2.map leNat = [30, 31] := by
  refine ⟨_, (C101_single big compact (by unfold Compact; decide) (by decide) 1 (snapshotFile 1 (by decide)) (rest := []) (by unfold snapFs; rw [if_neg (by decide +kernel), if_pos rfl])).trans (if_neg (by decide)), ?_⟩
  decide +kernel

/-- The potential on a grid with two points in each dimension, where the second plane is in the first file -/
def phi (x y z : Nat) : List Byte := leBytes 4 (100 * x + 10 * y + z)

def potFiles : List PotFile := [⟨1, 1, leBytes 4 4, leBytes 8 0, leBytes 8 0⟩, ⟨0, 1, leBytes 4 4, leBytes 8 0, leBytes 8 0⟩]

theorem potSet : PotSet 2 potFiles := ⟨by decide, by decide, by decide, by decide⟩

def potFs (big : Bool) : ByteFS := fun p =>
  if p = ownPath (.snapshot "potential".toList) base 42 0 then some (PotFile.bytes big 2 phi ⟨1, 1, leBytes 4 4, leBytes 8 0, leBytes 8 0⟩)
  else if p = ownPath (.snapshot "potential".toList) base 42 1 then some (PotFile.bytes big 2 phi ⟨0, 1, leBytes 4 4, leBytes 8 0, leBytes 8 0⟩) else none

example (big : Bool) : ∃ a, readPotential big (potFs big) base 42 2 = .ok (2, a) ∧ a.length = 8 ∧ a.getD 5 [] = leBytes 4 101 := by
  obtain ⟨a, h1, h2, h3⟩ := C101_potential (G := 2) (phi := phi) (files := potFiles) big compact (num := 42) (by decide) (by decide) (by decide) (fun _ _ _ _ _ _ => rfl) potSet (by decide) (by decide) (fs := potFs big)
    (fun f hf => ⟨[], by
      rw [List.append_nil]
      match f, hf with
      | 0, _ => unfold potFs; rw [if_pos rfl]; rfl
      | 1, _ => unfold potFs; rw [if_neg (by decide +kernel), if_pos rfl]; rfl⟩) (fuel := 2) (by decide)
  exact ⟨a, h1, h2, h3 1 0 1 (by decide) (by decide) (by decide)⟩

/-- Two tree files with the same three halos, in trees with two halos and one -/
def tree : Content := fun name => if name = "Ntrees".toList then [leBytes 4 2] else if name = "Nhalos".toList then [leBytes 4 3] else if name = "NPerTree".toList then [leBytes 4 2, leBytes 4 1]
  else if name = "HaloList".toList then [List.replicate 104 1, List.replicate 104 2, List.replicate 104 3] else []

example (big : Bool) (fs : ByteFS) (h : ∀ f < 2, fs (treePath "trees" base 63 f) = some ((Files.mpaTree 8 false 2 3).bytes big tree)) :
    ∃ r, readTrees big fs base 63 2 = .ok r ∧ r.map (fun x => x.2.2.map (List.map (fun v => v.headD 0))) = [[[1, 2], [3]], [[1, 2], [3]]] :=
  ⟨_, C101_trees (C := fun _ => tree) (trees := fun _ => 2) (halos := fun _ => 3) (n := fun _ t => if t = 0 then 2 else 1) big compact (by decide) (fun _ _ => Layout.fits_of _ _ (by decide +kernel)) (fun _ _ => by decide +kernel)
    (fun _ _ => by decide +kernel) (fun _ _ => by decide) (fun f hf => ⟨[], by rw [List.append_nil]; exact h f hf⟩) (fun _ _ => by decide) (fun _ _ => by decide), by decide +kernel⟩

end ExIdl

end Verif.IdlReaders
