import Verif.Spec.IdlReaders
import Verif.Props.FortranReaders
import Verif.Proofs.HashTab

/-! Proofs for the programs in IDL. -/

namespace Verif.IdlReaders

open Files FortranReaders SnapshotPrograms

/-! ### Names -/

theorem removeBlanks_compact {s : Name} (h : Compact s) : removeBlanks s = s := by
  unfold removeBlanks
  rw [List.filter_eq_self]
  intro c hc
  obtain ⟨h1, h2⟩ := h c hc
  simp [h1, h2]

theorem removeBlanks_append (a b : Name) : removeBlanks (a ++ b) = removeBlanks a ++ removeBlanks b := List.filter_append _ _

theorem compact_digits {s : Name} (h : ∀ c ∈ s, c.isDigit = true) : Compact s := by
  intro c hc
  refine ⟨?_, ?_⟩
  all_goals
    rintro rfl
    exact absurd (h _ hc) (by decide)

theorem compact_digitsOf (n : Nat) : Compact (digitsOf n) := compact_digits (fun _ h => digitsOf_digit h)

theorem removeBlanks_string (n : Nat) : removeBlanks (idlString n) = digitsOf n := by
  unfold idlString
  rw [removeBlanks_append, decimal_eq, removeBlanks_compact (compact_digitsOf n)]
  have : removeBlanks (List.replicate (8 - (digitsOf n).length) ' ') = [] := by
    unfold removeBlanks
    rw [List.filter_eq_nil_iff]
    intro c hc
    rw [(List.mem_replicate.1 hc).2]
    decide
  rw [this, List.nil_append]

theorem exts_eq {n : Nat} (h : n < 1000) : exts n = threeDigits n := by
  unfold exts
  rw [removeBlanks_string, ← decimal3_eq, decimal3, ← decimal_eq]
  have hl := FortranReaders.digits_length h
  dsimp only
  rw [List.length_append, show "000".toList.length = 3 from rfl, show 3 + (decimal n).length - 3 = (decimal n).length by omega, List.drop_append_of_le_length (by exact hl)]
  have : "000".toList.drop (decimal n).length = List.replicate (3 - (decimal n).length) '0' := by
    rw [show "000".toList = List.replicate 3 '0' from rfl, List.drop_replicate]
  rw [this, List.take_of_length_le]
  rw [List.length_append, List.length_replicate]
  omega

theorem compact_three {n : Nat} : Compact (threeDigits n) := compact_digits (fun _ h => threeDigits_digit h)

/-- Names of files of groups -/
theorem groupName_eq (k : Kind) {dir stem : String} (hd : removeBlanks dir.toList = "/".toList ++ k.dir.toList ++ "_".toList) (hs : removeBlanks stem.toList = "/".toList ++ k.stem ++ "_".toList)
    {base : Name} (hb : Compact base) {num : Nat} (hn : num < 1000) (i : Nat) : catName dir stem base num i = ownPath k base num i := by
  unfold catName ownPath
  simp only [removeBlanks_append, removeBlanks_string, exts_eq hn, removeBlanks_compact hb, removeBlanks_compact compact_three]
  rw [hd, hs, show removeBlanks ".".toList = ".".toList by decide]
  simp only [List.append_assoc]

theorem catName_eq {base : Name} (hb : Compact base) {num : Nat} (hn : num < 1000) (i : Nat) :
    catName "/postproc_" "/sub_tab_" base num i = ownPath .subTab base num i ∧ catName "/snapdir_" "/group_tab_" base num i = ownPath .groupTab base num i :=
  ⟨groupName_eq .subTab (by decide) (by decide) hb hn i, groupName_eq .groupTab (by decide) (by decide) hb hn i⟩

theorem potName_eq {base : Name} (hb : Compact base) {num : Nat} (hn : num < 1000) (i : Nat) :
    catName "/snapdir_" "/potential_" base num i = ownPath (.snapshot "potential".toList) base num i := groupName_eq (.snapshot "potential".toList) (by decide) (by decide) hb hn i

theorem snapName_eq {base snapbase : Name} (hb : Compact base) (hs : Compact snapbase) {num : Nat} (hn : num < 1000) (i : Nat) :
    snapName base snapbase num i = ownPath (.snapshot snapbase) base num i := by
  unfold snapName ownPath
  simp only [removeBlanks_append, removeBlanks_string, exts_eq hn, removeBlanks_compact hb, removeBlanks_compact hs, removeBlanks_compact compact_three]
  rw [show removeBlanks "/snapdir_".toList = "/".toList ++ (Kind.snapshot snapbase).dir.toList ++ "_".toList from (by decide : removeBlanks "/snapdir_".toList = "/".toList ++ "snapdir".toList ++ "_".toList), show removeBlanks ".".toList = ".".toList by decide,
    show removeBlanks "/".toList = "/".toList by decide, show removeBlanks "_".toList = "_".toList by decide, show (Kind.snapshot snapbase).stem = snapbase from rfl]
  simp only [List.append_assoc]

theorem snapName0_eq (base snapbase : Name) (num : Nat) : snapName0 base snapbase num = snapName base snapbase num 0 := by
  unfold snapName0 snapName
  simp only [removeBlanks_append, removeBlanks_string]
  have e : removeBlanks ".0".toList = removeBlanks ".".toList ++ digitsOf 0 := by decide
  rw [e]
  simp only [List.append_assoc]

theorem treeName_eq {base : Name} (hb : Compact base) {num : Nat} (hn : num < 1000) (i : Nat) :
    treeName "trees_" base num i = treePath "trees" base num i ∧ treeName "treeaux_" base num i = treePath "treeaux" base num i := by
  unfold treeName treePath
  simp only [removeBlanks_append, removeBlanks_string, exts_eq hn, removeBlanks_compact hb, removeBlanks_compact compact_three]
  rw [show removeBlanks "/treedata/".toList = "/treedata/".toList by decide, show removeBlanks "trees_".toList = "trees".toList ++ "_".toList by decide,
    show removeBlanks "treeaux_".toList = "treeaux".toList ++ "_".toList by decide, show removeBlanks ". ".toList = ".".toList by decide]
  simp only [List.append_assoc, and_self]

/-! ### Input -/

theorem readu_of (big : Bool) {items : List (Nat × Nat)} {vss : List (List (List Byte))} (h : List.Forall₂ (fun it v => IsArray it.1 it.2 v) items vss) (rest : List Byte) :
    readu big items (vss.flatMap (arrayBytes big) ++ rest) = .ok (vss, rest) := by
  induction h with
  | nil => rfl
  | @cons it v items vss h1 _ ih =>
    unfold readu
    rw [List.flatMap_cons, List.append_assoc, readItem_of big h1]
    simp only [bind, Except.bind]
    rw [ih]

theorem arrays_of_rows {C : Content} : ∀ {items : List (Nat × Nat)} {l : List Row}, List.Forall₂ (fun (it : Nat × Nat) (r : Row) => r.width = it.1 ∧ r.shape.prod = it.2) items l →
      (∀ r ∈ l, r.Fits C) → List.Forall₂ (fun it v => IsArray it.1 it.2 v) items (l.map (fun r => C r.name)) := by
  intro items l hl
  induction hl with
  | nil => intro _; exact .nil
  | cons h1 _ ih =>
    intro hr
    refine .cons ?_ (ih (fun r h => hr r (by simp [h])))
    have := hr _ List.mem_cons_self
    unfold Row.Fits at this
    rw [h1.1, h1.2] at this
    exact this

/-- Rows of a file are read. -/
theorem readu_rows (big : Bool) {C : Content} {items : List (Nat × Nat)} {l : List Row} (hl : List.Forall₂ (fun (it : Nat × Nat) (r : Row) => r.width = it.1 ∧ r.shape.prod = it.2) items l)
    (hr : ∀ r ∈ l, r.Fits C) (ho : ∀ r ∈ l, r.order = true) (rest : List Byte) : readu big items (l.flatMap (Row.bytes big C) ++ rest) = .ok (l.map (fun r => C r.name), rest) := by
  rw [rows_bytes big C ho]
  exact readu_of big (arrays_of_rows hl hr) rest

theorem idlSize_pos {n : Nat} (h : n ≠ 0) : idlSize n = .ok n := by
  unfold idlSize
  rw [if_neg (by omega), Int.toNat_natCast]

theorem idlSize_zero : idlSize ((0 : Nat) : Int) = .error .valueError := rfl

theorem openr_some {fs : ByteFS} {name : Name} {file : List Byte} (h : fs name = some file) : openr fs name = .ok file := by
  unfold openr
  rw [h]

theorem readSubHalos_eq (big : Bool) {fs : ByteFS} {base : Name} (hb : Compact base) {num : Nat} (hn : num < 1000) (i : Nat) {Cg C : Content} {n minlen ng ns : Nat}
    (hg : (Files.lgadget2GroupTab n minlen).Fits Cg) (hN : intIn Cg "Ngroups" = n) (hs : (Files.lgadget2SubTab 8 ng ns).Fits C) (hG : intIn C "Ngroups" = ng) (hS : intIn C "Nsubhalos" = ns)
    (fg : Starts fs (ownPath .groupTab base num i) big Cg (Files.lgadget2GroupTab n minlen)) (ft : Starts fs (ownPath .subTab base num i) big C (Files.lgadget2SubTab 8 ng ns)) :
    readSubHalos big fs base num i = if n = 0 ∨ ng = 0 ∨ ns = 0 then .error .valueError else .ok (subHalosOf Cg C) := by
  obtain ⟨rg, fg⟩ := fg
  obtain ⟨rt, ft⟩ := ft
  obtain ⟨n1, n2⟩ := catName_eq hb hn i
  have rows1 : ∀ r ∈ (Files.lgadget2GroupTab n minlen).flatMap Section.rows, r.Fits Cg := by
    intro r hr
    obtain ⟨s, h1, h2⟩ := List.mem_flatMap.1 hr
    exact hg.rows s h1 r h2
  have rows2 : ∀ r ∈ (Files.lgadget2SubTab 8 ng ns).flatMap Section.rows, r.Fits C := by
    intro r hr
    obtain ⟨s, h1, h2⟩ := List.mem_flatMap.1 hr
    exact hs.rows s h1 r h2
  have hpg := plain_bytes big Cg (L := Files.lgadget2GroupTab n minlen) (by intro s hs; simp only [Files.lgadget2GroupTab, List.mem_cons, List.not_mem_nil, or_false] at hs; rcases hs with rfl | rfl | rfl <;> rfl)
  have hpt := plain_bytes big C (L := Files.lgadget2SubTab 8 ng ns) (by intro s hs; simp only [Files.lgadget2SubTab, List.mem_cons, List.not_mem_nil, or_false] at hs; rcases hs with rfl | rfl <;> rfl)
  -- the rows of the files
  have sg : (Files.lgadget2GroupTab n minlen).flatMap Section.rows = ["Ngroups", "Nids", "TotNgroups", "NTask"].map (one 4) ++ ([col 4 n "GroupLen"] ++ [col 4 n "GroupOffset", one 4 "GroupMinLen", col 4 minlen "Count"]) := rfl
  have st : (Files.lgadget2SubTab 8 ng ns).flatMap Section.rows = ["Ngroups", "Nids", "TotNgroups", "NFiles", "Nsubhalos"].map (one 4) ++
      ([col 4 ng "NsubPerHalo", col 4 ng "FirstSubOfHalo", col 4 ns "SubLen", col 4 ns "SubOffset", col 4 ns "SubParentHalo"] ++
      ([col 4 ng "Halo_M_Mean200", col 4 ng "Halo_R_Mean200"] ++ ([col 4 ng "Halo_M_Crit200", col 4 ng "Halo_R_Crit200"] ++ ([col 4 ng "Halo_M_TopHat200", col 4 ng "Halo_R_TopHat200"] ++
      [vec 4 ns 3 "SubPos", vec 4 ns 3 "SubVel", col 4 ns "SubVelDisp", col 4 ns "SubVmax", vec 4 ns 3 "SubSpin", col 8 ns "SubMostBoundID", col 4 ns "SubHalfMass"])))) := rfl
  rw [sg] at rows1 hpg
  rw [st] at rows2 hpt
  have step : ∀ (X : Content) (items : List (Nat × Nat)) (l : List Row), (∀ r ∈ l, r.Fits X) → List.Forall₂ (fun (it : Nat × Nat) (r : Row) => r.width = it.1 ∧ r.shape.prod = it.2) items l → (∀ r ∈ l, r.order = true) →
      ∀ rest, readu big items (l.flatMap (Row.bytes big X) ++ rest) = .ok (l.map (fun r => X r.name), rest) := fun X items l h1 h2 h3 rest => readu_rows big h2 h1 h3 rest
  unfold readSubHalos
  rw [n1, n2]
  simp only [bind, Except.bind]
  rw [openr_some fg, hpg]
  simp only [List.flatMap_append, List.append_assoc]
  rw [step Cg _ (["Ngroups", "Nids", "TotNgroups", "NTask"].map (one 4)) (fun r h => rows1 r (List.mem_append_left _ h)) (by repeat' (first | exact List.Forall₂.nil | refine List.Forall₂.cons ⟨rfl, rfl⟩ ?_)) (by decide)]
  dsimp only
  rw [show long ((["Ngroups", "Nids", "TotNgroups", "NTask"].map (one 4)).map (fun r => Cg r.name)) 0 = n from hN]
  by_cases h0 : n = 0
  · subst h0
    rw [idlSize_zero, if_pos (Or.inl rfl)]
  · rw [idlSize_pos h0]
    dsimp only
    rw [step Cg [(4, n)] [col 4 n "GroupLen"] (fun r h => rows1 r (List.mem_append_right _ (List.mem_append_left _ h))) (.cons ⟨rfl, prod_one n⟩ .nil) (by intro r h; rw [List.mem_singleton.1 h]; rfl)]
    dsimp only
    rw [openr_some ft, hpt]
    simp only [List.flatMap_append, List.append_assoc]
    rw [step C _ (["Ngroups", "Nids", "TotNgroups", "NFiles", "Nsubhalos"].map (one 4)) (fun r h => rows2 r (List.mem_append_left _ h)) (by repeat' (first | exact List.Forall₂.nil | refine List.Forall₂.cons ⟨rfl, rfl⟩ ?_)) (by decide)]
    dsimp only
    rw [show long ((["Ngroups", "Nids", "TotNgroups", "NFiles", "Nsubhalos"].map (one 4)).map (fun r => C r.name)) 0 = ng from hG,
      show long ((["Ngroups", "Nids", "TotNgroups", "NFiles", "Nsubhalos"].map (one 4)).map (fun r => C r.name)) 4 = ns from hS]
    by_cases h1 : ng = 0
    · subst h1
      rw [idlSize_zero, if_pos (Or.inr (Or.inl rfl))]
    · rw [idlSize_pos h1]
      dsimp only
      by_cases h2 : ns = 0
      · subst h2
        rw [idlSize_zero, if_pos (Or.inr (Or.inr rfl))]
      · rw [idlSize_pos h2]
        dsimp only
        have ord : ∀ l : List Row, l.all (fun r => r.order) = true → ∀ r ∈ l, r.order = true := fun l h r hr => List.all_eq_true.1 h r hr
        rw [step C [(4, ng), (4, ng), (4, ns), (4, ns), (4, ns)] [col 4 ng "NsubPerHalo", col 4 ng "FirstSubOfHalo", col 4 ns "SubLen", col 4 ns "SubOffset", col 4 ns "SubParentHalo"]
          (fun r h => rows2 r (List.mem_append_right _ (List.mem_append_left _ h))) (.cons ⟨rfl, prod_one _⟩ (.cons ⟨rfl, prod_one _⟩ (.cons ⟨rfl, prod_one _⟩ (.cons ⟨rfl, prod_one _⟩ (.cons ⟨rfl, prod_one _⟩ .nil))))) (ord _ rfl)]
        dsimp only
        rw [step C [(4, ng), (4, ng)] [col 4 ng "Halo_M_Mean200", col 4 ng "Halo_R_Mean200"] (fun r h => rows2 r (List.mem_append_right _ (List.mem_append_right _ (List.mem_append_left _ h))))
          (.cons ⟨rfl, prod_one _⟩ (.cons ⟨rfl, prod_one _⟩ .nil)) (ord _ rfl)]
        dsimp only
        rw [step C [(4, ng), (4, ng)] [col 4 ng "Halo_M_Crit200", col 4 ng "Halo_R_Crit200"] (fun r h => rows2 r (List.mem_append_right _ (List.mem_append_right _ (List.mem_append_right _ (List.mem_append_left _ h)))))
          (.cons ⟨rfl, prod_one _⟩ (.cons ⟨rfl, prod_one _⟩ .nil)) (ord _ rfl)]
        dsimp only
        rw [step C [(4, ng), (4, ng)] [col 4 ng "Halo_M_TopHat200", col 4 ng "Halo_R_TopHat200"]
          (fun r h => rows2 r (List.mem_append_right _ (List.mem_append_right _ (List.mem_append_right _ (List.mem_append_right _ (List.mem_append_left _ h))))))
          (.cons ⟨rfl, prod_one _⟩ (.cons ⟨rfl, prod_one _⟩ .nil)) (ord _ rfl)]
        dsimp only
        rw [step C [(4, 3 * ns), (4, 3 * ns), (4, ns), (4, ns), (4, 3 * ns), (8, ns), (4, ns)] [vec 4 ns 3 "SubPos", vec 4 ns 3 "SubVel", col 4 ns "SubVelDisp", col 4 ns "SubVmax", vec 4 ns 3 "SubSpin", col 8 ns "SubMostBoundID", col 4 ns "SubHalfMass"]
          (fun r h => rows2 r (List.mem_append_right _ (List.mem_append_right _ (List.mem_append_right _ (List.mem_append_right _ (List.mem_append_right _ h))))))
          (.cons ⟨rfl, prod_vec _⟩ (.cons ⟨rfl, prod_vec _⟩ (.cons ⟨rfl, prod_one _⟩ (.cons ⟨rfl, prod_one _⟩ (.cons ⟨rfl, prod_vec _⟩ (.cons ⟨rfl, prod_one _⟩ (.cons ⟨rfl, prod_one _⟩ .nil))))))) (ord _ rfl)]
        rw [if_neg (by simp [h0, h1, h2])]
        dsimp only
        unfold subHalosOf
        rw [← hG, ← hS]
        rfl

/-! ### Tree files -/

theorem readTreeAux_eq (big : Bool) {fs : ByteFS} {base : Name} (hb : Compact base) {num : Nat} (hn : num < 1000) (i : Nat) {C : Content} {halos unique trees snaps : Nat}
    (hf : (Files.mpaTreeAux 8 halos unique trees snaps).Fits C) (h1 : intIn C "TotHalos" = halos) (h2 : intIn C "Totunique" = unique) (h3 : intIn C "Ntrees" = trees) (h4 : intIn C "TotSnaps" = snaps)
    (ft : Starts fs (treePath "treeaux" base num i) big C (Files.mpaTreeAux 8 halos unique trees snaps)) :
    readTreeAux big fs base num i = if snaps = 0 ∨ trees = 0 ∨ halos = 0 ∨ unique = 0 then .error .valueError else .ok (treeAuxOf C) := by
  obtain ⟨rt, ft⟩ := ft
  have rows : ∀ r ∈ (Files.mpaTreeAux 8 halos unique trees snaps).flatMap Section.rows, r.Fits C := by
    intro r hr
    obtain ⟨s, h1, h2⟩ := List.mem_flatMap.1 hr
    exact hf.rows s h1 r h2
  have hp := plain_bytes big C (L := Files.mpaTreeAux 8 halos unique trees snaps) (by intro s hs; simp only [Files.mpaTreeAux, List.mem_cons, List.not_mem_nil, or_false] at hs; rcases hs with rfl | rfl <;> rfl)
  have st : (Files.mpaTreeAux 8 halos unique trees snaps).flatMap Section.rows = ["TotHalos", "Totunique", "Ntrees", "TotSnaps"].map (one 4) ++ ([col 4 snaps "CountID_Snap", col 4 snaps "OffsetID_Snap"] ++
      ([vec 4 snaps trees "CountID_SnapTree", vec 4 snaps trees "OffsetID_SnapTree"] ++ ([col 4 halos "Nunique", col 4 halos "OffsetID_Halo"] ++ ([col 8 unique "IDs"] ++ ([vec 4 unique 3 "Pos"] ++ [vec 8 unique 3 "Vel"]))))) := rfl
  rw [st] at rows hp
  have step : ∀ (items : List (Nat × Nat)) (l : List Row), (∀ r ∈ l, r.Fits C) → List.Forall₂ (fun (it : Nat × Nat) (r : Row) => r.width = it.1 ∧ r.shape.prod = it.2) items l → (∀ r ∈ l, r.order = true) →
      ∀ rest, readu big items (l.flatMap (Row.bytes big C) ++ rest) = .ok (l.map (fun r => C r.name), rest) := fun items l h1 h2 h3 rest => readu_rows big h2 h1 h3 rest
  have ord : ∀ l : List Row, l.all (fun r => r.order) = true → ∀ r ∈ l, r.order = true := fun l h r hr => List.all_eq_true.1 h r hr
  have pm : [snaps, trees].prod = trees * snaps := by simp [Nat.mul_comm]
  unfold readTreeAux
  rw [(treeName_eq hb hn i).2]
  simp only [bind, Except.bind]
  rw [openr_some ft, hp]
  simp only [List.flatMap_append, List.append_assoc]
  rw [step _ (["TotHalos", "Totunique", "Ntrees", "TotSnaps"].map (one 4)) (fun r h => rows r (List.mem_append_left _ h)) (by repeat' (first | exact List.Forall₂.nil | refine List.Forall₂.cons ⟨rfl, rfl⟩ ?_)) (by decide)]
  dsimp only
  have e : ∀ k, long ((["TotHalos", "Totunique", "Ntrees", "TotSnaps"].map (one 4)).map (fun r => C r.name)) k = long [C "TotHalos".toList, C "Totunique".toList, C "Ntrees".toList, C "TotSnaps".toList] k := fun _ => rfl
  simp only [e]
  rw [show long [C "TotHalos".toList, C "Totunique".toList, C "Ntrees".toList, C "TotSnaps".toList] 3 = snaps from h4, show long [C "TotHalos".toList, C "Totunique".toList, C "Ntrees".toList, C "TotSnaps".toList] 2 = trees from h3,
    show long [C "TotHalos".toList, C "Totunique".toList, C "Ntrees".toList, C "TotSnaps".toList] 0 = halos from h1, show long [C "TotHalos".toList, C "Totunique".toList, C "Ntrees".toList, C "TotSnaps".toList] 1 = unique from h2]
  by_cases z1 : snaps = 0
  · subst z1
    rw [idlSize_zero, if_pos (Or.inl rfl)]
  rw [idlSize_pos z1]
  dsimp only
  by_cases z2 : trees = 0
  · subst z2
    rw [idlSize_zero, if_pos (Or.inr (Or.inl rfl))]
  rw [idlSize_pos z2]
  dsimp only
  by_cases z3 : halos = 0
  · subst z3
    rw [idlSize_zero, if_pos (Or.inr (Or.inr (Or.inl rfl)))]
  rw [idlSize_pos z3]
  dsimp only
  rw [step [(4, snaps), (4, snaps)] [col 4 snaps "CountID_Snap", col 4 snaps "OffsetID_Snap"] (fun r h => rows r (List.mem_append_right _ (List.mem_append_left _ h))) (.cons ⟨rfl, prod_one _⟩ (.cons ⟨rfl, prod_one _⟩ .nil)) (ord _ rfl)]
  dsimp only
  rw [step [(4, trees * snaps), (4, trees * snaps)] [vec 4 snaps trees "CountID_SnapTree", vec 4 snaps trees "OffsetID_SnapTree"] (fun r h => rows r (List.mem_append_right _ (List.mem_append_right _ (List.mem_append_left _ h)))) (.cons ⟨rfl, pm⟩ (.cons ⟨rfl, pm⟩ .nil)) (ord _ rfl)]
  dsimp only
  rw [step [(4, halos), (4, halos)] [col 4 halos "Nunique", col 4 halos "OffsetID_Halo"] (fun r h => rows r (List.mem_append_right _ (List.mem_append_right _ (List.mem_append_right _ (List.mem_append_left _ h)))))
    (.cons ⟨rfl, prod_one _⟩ (.cons ⟨rfl, prod_one _⟩ .nil)) (ord _ rfl)]
  dsimp only
  by_cases z4 : unique = 0
  · subst z4
    rw [idlSize_zero, if_pos (Or.inr (Or.inr (Or.inr rfl)))]
  rw [idlSize_pos z4]
  dsimp only
  rw [step [(8, unique)] [col 8 unique "IDs"] (fun r h => rows r (List.mem_append_right _ (List.mem_append_right _ (List.mem_append_right _ (List.mem_append_right _ (List.mem_append_left _ h)))))) (.cons ⟨rfl, prod_one _⟩ .nil) (ord _ rfl)]
  dsimp only
  rw [step [(4, 3 * unique)] [vec 4 unique 3 "Pos"] (fun r h => rows r (List.mem_append_right _ (List.mem_append_right _ (List.mem_append_right _ (List.mem_append_right _ (List.mem_append_right _ (List.mem_append_left _ h)))))))
    (.cons ⟨rfl, prod_vec _⟩ .nil) (ord _ rfl)]
  dsimp only
  rw [if_neg (by simp [z1, z2, z3, z4])]
  unfold treeAuxOf
  rw [h1, h2, h3, h4]
  rfl

end Verif.IdlReaders
