import Verif.Proofs.GroupCatalogue
import Verif.Props.FormatsCases

/-!
C84: `GroupCatalogue` of Gadget-4 and P-Gadget3.
-/

namespace Verif

/-- A Gadget-4 file: the header has the numbers of groups and subhalos in this file and the size `fl` of floating point numbers, and the arrays agree with them. -/
structure Gadget4File (id fl : Nat) (c : CatFile) : Prop where
  groups : scalarInt c.content "Ngroups".toList = c.ngroups
  subs : scalarInt c.content "Nsubgroups".toList = c.nsubs
  precision : fl = if scalarInt c.content "flag_dp".toList = 0 then 4 else 8
  fits : (Files.gadget4SubTab id fl c.ngroups c.nsubs).Fits c.content

/-- A P-Gadget3 file: the header has the numbers of groups and subhalos in this file and a number of files from which the byte order is found. -/
structure Pgadget3File (so : Bool) (id fl : Nat) (c : CatFile) : Prop where
  groups : scalarInt c.content "Ngroups".toList = c.ngroups
  subs : scalarInt c.content "Nsubgroups".toList = c.nsubs
  count : FileCount c.content "NTask"
  fits : (Files.pgadget3SubTab so id fl c.ngroups c.nsubs).Fits c.content

/-- An array with `n` entries -/
def catRow (n : Nat) (col : String × Nat × List Nat) : Row := ⟨col.1.toList, col.2.1, n :: col.2.2, true, none⟩

/-- Rows which are not scalars -/
def arrayRows (L : Layout) : List Row := (L.flatMap Section.rows).filter (fun r => !r.shape.isEmpty)

theorem mem_arrayRows {L : Layout} {name : Name} {width n : Nat} {dims : List Nat} : (⟨name, width, n :: dims, true, none⟩ : Row) ∈ arrayRows L ↔ ∃ sec ∈ L, (⟨name, width, n :: dims, true, none⟩ : Row) ∈ sec.rows := by
  simp [arrayRows]

theorem catRow_mem {n m : Nat} {name : Name} {width : Nat} {dims : List Nat} {l : List (String × Nat × List Nat)} :
    (⟨name, width, n :: dims, true, none⟩ : Row) ∈ l.map (catRow m) ↔ n = m ∧ ∃ c ∈ l, c.1.toList = name ∧ c.2.1 = width ∧ c.2.2 = dims := by
  simp only [List.mem_map, catRow, Row.mk.injEq, List.cons.injEq]
  constructor
  · rintro ⟨c, hc, h1, h2, ⟨h3, h4⟩, -⟩; exact ⟨h3.symm, c, hc, h1, h2, h4⟩
  · rintro ⟨h, c, hc, h1, h2, h3⟩; exact ⟨c, hc, h1, h2, ⟨h.symm, h3⟩, trivial, trivial⟩

def gadget4GroupCols (fl : Nat) : List (String × Nat × List Nat) := [("GroupLen", 4, []), ("GroupMass", fl, []), ("GroupPos", fl, [3]), ("GroupVel", fl, [3]), ("GroupLenType", 4, [6]), ("GroupMassType", fl, [6]),
  ("Halo_M_Mean200", fl, []), ("Halo_R_Mean200", fl, []), ("Halo_M_Crit200", fl, []), ("Halo_R_Crit200", fl, []), ("Halo_M_TopHat200", fl, []), ("Halo_R_TopHat200", fl, []), ("Nsubs", 4, []), ("FirstSub", 4, [])]

def gadget4SubCols (id fl : Nat) : List (String × Nat × List Nat) := [("SubLen", 4, []), ("SubMass", fl, []), ("SubPos", fl, [3]), ("SubVel", fl, [3]), ("SubLenType", 4, [6]), ("SubMassType", fl, [6]), ("SubCofM", fl, [3]),
  ("SubSpin", fl, [3]), ("SubVelDisp", fl, []), ("SubVmax", fl, []), ("SubRVmax", fl, []), ("SubHalfMassRad", fl, []), ("SubHalfMassRadType", fl, [6]), ("SubMassInRad", fl, []), ("SubMassInRadType", fl, [6]),
  ("SubMostBoundID", id, []), ("SubGrNr", 4, []), ("SubParent", 4, [])]

def pgadget3GroupCols (so : Bool) (fl : Nat) : List (String × Nat × List Nat) := [("GroupLen", 4, []), ("GroupOffset", 4, []), ("GroupMass", fl, []), ("GroupPos", fl, [3]), ("Halo_M_Mean200", fl, []), ("Halo_R_Mean200", fl, []),
  ("Halo_M_Crit200", fl, []), ("Halo_R_Crit200", fl, []), ("Halo_M_TopHat200", fl, []), ("Halo_R_TopHat200", fl, [])] ++
  (if so then [("VelDisp_Mean200", fl, []), ("VelDisp_Crit200", fl, []), ("VelDisp_TopHat200", fl, [])] else []) ++ [("ContaminationLen", 4, []), ("ContaminationMass", fl, []), ("Nsubs", 4, []), ("FirstSub", 4, [])]

def pgadget3SubCols (id fl : Nat) : List (String × Nat × List Nat) := [("SubLen", 4, []), ("SubOffset", 4, []), ("SubParent", 4, []), ("SubMass", fl, []), ("SubPos", fl, [3]), ("SubVel", fl, [3]), ("SubCofM", fl, [3]), ("SubSpin", fl, [3]),
  ("SubVelDisp", fl, []), ("SubVmax", fl, []), ("SubRVmax", fl, []), ("SubHalfMass", fl, []), ("SubMostBoundID", id, []), ("SubGrNr", 4, [])]

theorem gadget4_rows (id fl ng ns : Nat) : arrayRows (Files.gadget4SubTab id fl ng ns) =
    (if ng = 0 then [] else (gadget4GroupCols fl).map (catRow ng)) ++ (if ns = 0 then [] else (gadget4SubCols id fl).map (catRow ns)) := by
  unfold Files.gadget4SubTab
  split <;> split <;> rfl

theorem pgadget3_rows (so : Bool) (id fl ng ns : Nat) : arrayRows (Files.pgadget3SubTab so id fl ng ns) = (pgadget3GroupCols so fl).map (catRow ng) ++ (pgadget3SubCols id fl).map (catRow ns) := by
  cases so <;> rfl

def gadget4HeaderNames : List Name := ["Ngroups", "Nsubgroups", "Nids", "TotNgroups", "TotNsubgroups", "TotNids", "NFiles", "padding1", "Time", "Redshift", "HubbleParam", "BoxSize", "Omega0", "OmegaLambda", "flag_dp", "padding2"].map String.toList

theorem gadget4_apart : (∀ a ∈ (gadget4GroupCols 0).map (fun c => c.1.toList), ∀ b ∈ gadget4HeaderNames ++ (gadget4SubCols 0 0).map (fun c => c.1.toList), ¬comps a <+: comps b) ∧
    ∀ a ∈ (gadget4SubCols 0 0).map (fun c => c.1.toList), ∀ b ∈ gadget4HeaderNames ++ (gadget4GroupCols 0).map (fun c => c.1.toList), ¬comps a <+: comps b := by decide +kernel

theorem gadget4_names (id fl ng ns : Nat) : ((Files.gadget4SubTab id fl ng ns).flatMap Section.rows).map Row.name =
    gadget4HeaderNames ++
      (if ng = 0 then [] else (gadget4GroupCols 0).map (fun c => c.1.toList)) ++ (if ns = 0 then [] else (gadget4SubCols 0 0).map (fun c => c.1.toList)) := by
  unfold Files.gadget4SubTab
  split <;> split <;> rfl

/-- The arrays of a Gadget-4 catalogue -/
theorem gadget4_isArray {id fl : Nat} {sub : Bool} {name : Name} {width : Nat} {dims : List Nat} : IsArray (Files.gadget4SubTab id fl) sub name width dims ↔
    ∃ c ∈ (if sub then gadget4SubCols id fl else gadget4GroupCols fl), c.1.toList = name ∧ c.2.1 = width ∧ c.2.2 = dims := by
  unfold IsArray
  rw [← mem_arrayRows, gadget4_rows]
  cases sub <;> simp [catRow_mem]

/-- The arrays of a P-Gadget3 catalogue -/
theorem pgadget3_isArray {so : Bool} {id fl : Nat} {sub : Bool} {name : Name} {width : Nat} {dims : List Nat} : IsArray (Files.pgadget3SubTab so id fl) sub name width dims ↔
    ∃ c ∈ (if sub then pgadget3SubCols id fl else pgadget3GroupCols so fl), c.1.toList = name ∧ c.2.1 = width ∧ c.2.2 = dims := by
  unfold IsArray
  rw [← mem_arrayRows, pgadget3_rows, List.mem_append, catRow_mem, catRow_mem]
  cases sub <;> simp

theorem gadget4_class {id fl : Nat} (hid : id = 4 ∨ id = 8) : CatClass (gadget4SubTab id) (Files.gadget4SubTab id fl) false "NFiles" (Gadget4File id fl) where
  reads := fun c h => C69_gadget4_sub_tab c.content id fl c.ngroups c.nsubs hid h.precision h.groups h.subs h.fits
  fits := fun c h => h.fits
  present := by
    intro sub name width dims ha c hc
    have hc : 0 < c.count sub := by simpa using hc
    rw [gadget4_isArray] at ha
    rw [← mem_arrayRows, gadget4_rows, List.mem_append]
    cases sub
    · have hg : c.ngroups ≠ 0 := by simp only [CatFile.count] at hc; simp at hc; omega
      rw [if_neg hg]
      exact Or.inl (catRow_mem.2 ⟨rfl, ha⟩)
    · have hg : c.nsubs ≠ 0 := by simp only [CatFile.count] at hc; simp at hc; omega
      rw [if_neg hg (t := ([] : List Row))]
      exact Or.inr (catRow_mem.2 ⟨rfl, ha⟩)
  absent := by
    rintro sub name width dims ha c - hc sec' hsec' r' hr'
    have h2 : r'.name ∈ ((Files.gadget4SubTab id fl c.ngroups c.nsubs).flatMap Section.rows).map Row.name := List.mem_map_of_mem (List.mem_flatMap.2 ⟨sec', hsec', hr'⟩)
    rw [gadget4_isArray] at ha
    rw [gadget4_names] at h2
    obtain ⟨col, hcol, rfl, -⟩ := ha
    cases sub
    · have hg : c.ngroups = 0 := by simpa [CatFile.count] using hc
      rw [if_pos hg, List.append_nil] at h2
      have h1 : col.1.toList ∈ (gadget4GroupCols 0).map (fun c => c.1.toList) := List.mem_map_of_mem (f := fun c : String × Nat × List Nat => c.1.toList) (l := gadget4GroupCols fl) hcol
      have h3 : r'.name ∈ gadget4HeaderNames ++ (gadget4SubCols 0 0).map (fun c => c.1.toList) := by
        rw [List.mem_append] at h2 ⊢
        rcases h2 with h2 | h2
        · exact Or.inl h2
        · split at h2
          · cases h2
          · exact Or.inr h2
      exact gadget4_apart.1 _ h1 _ h3
    · have hg : c.nsubs = 0 := by simpa [CatFile.count] using hc
      rw [if_pos hg, List.append_nil] at h2
      have h1 : col.1.toList ∈ (gadget4SubCols 0 0).map (fun c => c.1.toList) := List.mem_map_of_mem (f := fun c : String × Nat × List Nat => c.1.toList) (l := gadget4SubCols id fl) hcol
      have h3 : r'.name ∈ gadget4HeaderNames ++ (gadget4GroupCols 0).map (fun c => c.1.toList) := by
        rw [List.mem_append] at h2 ⊢
        rcases h2 with h2 | h2
        · exact Or.inl h2
        · split at h2
          · cases h2
          · exact Or.inr h2
      exact gadget4_apart.2 _ h1 _ h3
  header := by
    intro ng ns
    exact ⟨_, by unfold Files.gadget4SubTab; simp only [List.mem_append, List.mem_singleton]; exact Or.inl (Or.inl rfl), by simp⟩

theorem pgadget3_class {so : Bool} {id fl : Nat} (hid : id = 4 ∨ id = 8) (hfl : fl = 4 ∨ fl = 8) : CatClass (pgadget3SubTab so id fl) (Files.pgadget3SubTab so id fl) true "NTask" (Pgadget3File so id fl) where
  reads := fun c h => C69_pgadget3_sub_tab c.content so id fl c.ngroups c.nsubs hid hfl h.groups h.subs h.count h.fits
  fits := fun c h => h.fits
  present := by
    rintro sub name width dims ha c -
    rw [pgadget3_isArray] at ha
    rw [← mem_arrayRows, pgadget3_rows, List.mem_append]
    cases sub
    · exact Or.inl (catRow_mem.2 ⟨rfl, ha⟩)
    · exact Or.inr (catRow_mem.2 ⟨rfl, ha⟩)
  absent := by intro sub name width dims ha c h; cases h
  header := by
    intro ng ns
    exact ⟨_, List.mem_cons_self, by simp⟩

variable {s : Bool} {fs : ByteFS} (rows : TypedArray Nat (List (List Byte)) → Except Err (TypedArray Nat (List (List Byte)))) {basedir : Name} (isnap : Nat) {files : List CatFile} {datasets : List Name}
  (sub : Name → Bool) (width : Name → Nat) (dims : Name → List Nat)

/-- Gadget-4: the arrays asked for have the entries of all files, provided that there is at least one. Files may differ in byte order and have other bytes at the end. -/
theorem C84_gadget4 {id fl : Nat} (hid : id = 4 ∨ id = 8) (hb : '%' ∉ basedir) (hst : Stored fs (Files.gadget4SubTab id fl) "fof_subhalo_tab_" basedir isnap files) (hok : ∀ c ∈ files, Gadget4File id fl c)
    (hne : files ≠ []) (hn : ∀ c ∈ files.head?, scalarInt c.content "NFiles".toList = files.length) (hd : datasets.Nodup)
    (ha : ∀ n ∈ datasets, IsArray (Files.gadget4SubTab id fl) (sub n) n (width n) (dims n)) (hp : ∀ n ∈ datasets, ∃ c ∈ files, 0 < c.count (sub n)) :
    ∃ d, gadget4Catalogue s fs id rows basedir isnap datasets = .ok d ∧ d.map Prod.fst = datasets ∧
      ∀ n ∈ datasets, ∃ a, d.get n = some (.array a) ∧ IsCatalogue files (sub n) n (width n) (dims n) a :=
  (gadget4_class hid).catalogue (by decide) hb isnap hst rows hd hok sub width dims ha hne hn (fun n h => Or.inr (hp n h))

/-- A catalogue without any groups, or without any subhalos, is a `ValueError` if any of their arrays is asked for, as it is by default, instead of empty arrays. -/
theorem C84_gadget4_empty_defect {id fl : Nat} (hid : id = 4 ∨ id = 8) (hb : '%' ∉ basedir) (hst : Stored fs (Files.gadget4SubTab id fl) "fof_subhalo_tab_" basedir isnap files)
    (hok : ∀ c ∈ files, Gadget4File id fl c) (hne : files ≠ []) (hn : ∀ c ∈ files.head?, scalarInt c.content "NFiles".toList = files.length) (hd : datasets.Nodup)
    (ha : ∀ n ∈ datasets, IsArray (Files.gadget4SubTab id fl) (sub n) n (width n) (dims n)) (hp : ∃ n ∈ datasets, ∀ c ∈ files, c.count (sub n) = 0) :
    gadget4Catalogue s fs id rows basedir isnap datasets = .error .valueError :=
  (gadget4_class hid).nowhere (by decide) hb isnap hst rows hd hok sub width dims ha hne hn rfl hp

/-- The names read by default are those of all arrays. -/
theorem C84_gadget4_default (id fl : Nat) : gadget4Default.Nodup ∧ ∀ name, name ∈ gadget4Default ↔ ∃ sub width dims, IsArray (Files.gadget4SubTab id fl) sub name width dims := by
  refine ⟨by decide +kernel, fun name => ?_⟩
  have h : gadget4Default = (gadget4GroupCols fl).map (fun c => c.1.toList) ++ (gadget4SubCols id fl).map (fun c => c.1.toList) := rfl
  rw [h, List.mem_append, List.mem_map, List.mem_map]
  simp only [gadget4_isArray]
  constructor
  · rintro (⟨c, hc, rfl⟩ | ⟨c, hc, rfl⟩)
    · exact ⟨false, _, _, c, hc, rfl, rfl, rfl⟩
    · exact ⟨true, _, _, c, hc, rfl, rfl, rfl⟩
  · rintro ⟨sub, _, _, c, hc, rfl, -⟩
    cases sub
    · exact Or.inl ⟨c, hc, rfl⟩
    · exact Or.inr ⟨c, hc, rfl⟩

/-- P-Gadget3: the same, also if there are no entries at all. -/
theorem C84_pgadget3 {so : Bool} {id fl : Nat} (hid : id = 4 ∨ id = 8) (hfl : fl = 4 ∨ fl = 8) (hb : '%' ∉ basedir) (hst : Stored fs (Files.pgadget3SubTab so id fl) "subhalo_tab_" basedir isnap files)
    (hok : ∀ c ∈ files, Pgadget3File so id fl c) (hne : files ≠ []) (hn : ∀ c ∈ files.head?, scalarInt c.content "NTask".toList = files.length) (hd : datasets.Nodup)
    (ha : ∀ n ∈ datasets, IsArray (Files.pgadget3SubTab so id fl) (sub n) n (width n) (dims n)) :
    ∃ d, pgadget3Catalogue s fs so id fl rows basedir isnap datasets = .ok d ∧ d.map Prod.fst = datasets ∧
      ∀ n ∈ datasets, ∃ a, d.get n = some (.array a) ∧ IsCatalogue files (sub n) n (width n) (dims n) a :=
  (pgadget3_class hid hfl).catalogue (by decide) hb isnap hst rows hd hok sub width dims ha hne hn (fun _ _ => Or.inl rfl)

theorem C84_pgadget3_default (so : Bool) (id fl : Nat) : (pgadget3Default so).Nodup ∧ ∀ name, name ∈ pgadget3Default so ↔ ∃ sub width dims, IsArray (Files.pgadget3SubTab so id fl) sub name width dims := by
  refine ⟨by cases so <;> decide +kernel, fun name => ?_⟩
  have h : (pgadget3Default so).Perm ((pgadget3GroupCols so fl).map (fun c => c.1.toList) ++ (pgadget3SubCols id fl).map (fun c => c.1.toList)) := by
    have h1 : (pgadget3GroupCols so fl).map (fun c => c.1.toList) = (pgadget3GroupCols so 0).map (fun c => c.1.toList) := by cases so <;> rfl
    have h2 : (pgadget3SubCols id fl).map (fun c => c.1.toList) = (pgadget3SubCols 0 0).map (fun c => c.1.toList) := rfl
    rw [h1, h2]
    cases so <;> decide +kernel
  rw [h.mem_iff, List.mem_append, List.mem_map, List.mem_map]
  simp only [pgadget3_isArray]
  constructor
  · rintro (⟨c, hc, rfl⟩ | ⟨c, hc, rfl⟩)
    · exact ⟨false, _, _, c, hc, rfl, rfl, rfl⟩
    · exact ⟨true, _, _, c, hc, rfl, rfl, rfl⟩
  · rintro ⟨sub, _, _, c, hc, rfl, -⟩
    cases sub
    · exact Or.inl ⟨c, hc, rfl⟩
    · exact Or.inr ⟨c, hc, rfl⟩

/-- If fewer files are there than the first one says, this is an `IOError`, and no part of the catalogue is returned. -/
theorem C84_gadget4_missing {id fl : Nat} (hid : id = 4 ∨ id = 8) (hb : '%' ∉ basedir) (hst : Stored fs (Files.gadget4SubTab id fl) "fof_subhalo_tab_" basedir isnap files)
    (hok : ∀ c ∈ files, Gadget4File id fl c) (hn : ∀ c ∈ files.head?, (files.length : Int) < scalarInt c.content "NFiles".toList)
    (ha : ∀ n ∈ datasets, IsArray (Files.gadget4SubTab id fl) (sub n) n (width n) (dims n)) (hm : fs (catalogueFile "fof_subhalo_tab_" basedir isnap files.length) = none) :
    gadget4Catalogue s fs id rows basedir isnap datasets = .error .ioError :=
  (gadget4_class hid).missing (by decide) hb isnap hst rows hok sub width dims ha hn hm

theorem C84_pgadget3_missing {so : Bool} {id fl : Nat} (hid : id = 4 ∨ id = 8) (hfl : fl = 4 ∨ fl = 8) (hb : '%' ∉ basedir) (hst : Stored fs (Files.pgadget3SubTab so id fl) "subhalo_tab_" basedir isnap files)
    (hok : ∀ c ∈ files, Pgadget3File so id fl c) (hn : ∀ c ∈ files.head?, (files.length : Int) < scalarInt c.content "NTask".toList)
    (ha : ∀ n ∈ datasets, IsArray (Files.pgadget3SubTab so id fl) (sub n) n (width n) (dims n)) (hm : fs (catalogueFile "subhalo_tab_" basedir isnap files.length) = none) :
    pgadget3Catalogue s fs so id fl rows basedir isnap datasets = .error .ioError :=
  (pgadget3_class hid hfl).missing (by decide) hb isnap hst rows hok sub width dims ha hn hm

/-- If the name of the directory has `%%`, files are looked for in a directory with `%` in its place. -/
theorem C84_percent_defect (F : Format) (stem count : String) (hs : '%' ∉ stem.toList) {a b : Name} (ha : '%' ∉ a) (hb : '%' ∉ b) (hm : fs (catalogueFile stem (a ++ '%' :: b) isnap 0) = none) :
    groupCatalogue s fs F stem count rows (a ++ '%' :: '%' :: b) isnap datasets = .error .ioError := by
  have h1 : percentDict 0 ((a ++ '%' :: '%' :: b) ++ "/groups_".toList ++ decimal3 isnap ++ '/' :: stem.toList ++ decimal3 isnap ++ ".%(i)d".toList) = .ok (catalogueFile stem (a ++ '%' :: b) isnap 0) := by
    have h := percentDict_name stem hs hb isnap 0
    have h2 : ∀ q, percentDict 0 ('%' :: '%' :: q) = (percentDict 0 q).map (fun t => '%' :: t) := fun q => by simp [percentDict]
    simp only [List.append_assoc, List.cons_append] at h ⊢
    rw [percentDict_plain 0 ha, h2, h]
    simp only [Except.map, catalogueFile, List.append_assoc, List.cons_append]
  unfold groupCatalogue openNumbered
  simp only [h1, hm]

end Verif
