import Verif.Proofs.HashCells
import Verif.Props.ReadRegion

/-! C88: the C library for IDL loads group catalogues and hash tables. -/

namespace Verif

open CPeano ReadParticles ReadRegion GroupLib

section tabs

variable {sys : Bool} {fs : ByteFS} {dir : Name} {num : Nat} {Cs : Nat → Content} {ng : Nat → Nat} {minlen nfile : Nat}

/-- C88: the number of groups in all files, and the smallest number of particles of a group -/
theorem C88_numbers (T : GroupTabs Cs ng minlen nfile) (hs : TabsStored sys fs dir num Cs ng minlen nfile) :
    getTotalNumberOfGroups sys fs dir num = .ok (((List.range nfile).map ng).sum : Int) ∧ getMinimumGroupLen sys fs dir num = .ok (minlen : Int) := by
  have e : ((List.range nfile).map ng).sum = pre ng nfile := by
    clear T hs
    induction nfile with
    | zero => rfl
    | succ m ih => rw [List.range_succ, List.map_append, List.sum_append, ih, pre_succ]; simp
  refine ⟨?_, minLen_ok T hs⟩
  rw [totalGroups_ok T hs, ← e]

/-- C88: the numbers of small groups are added up over the files, and so are the numbers of particles; the rest of the array is unchanged. -/
theorem C88_small_groups (T : GroupTabs Cs ng minlen nfile) (hs : TabsStored sys fs dir num Cs ng minlen nfile) {below : List Int} (hb : minlen ≤ below.length) :
    ∃ sums, (∀ fuel, nfile < fuel → getGroupcountBelowMinimumLen sys fs dir num fuel below =
        .ok (minlen, sums ++ below.drop minlen, ((List.range nfile).map (fun f => scalarInt (Cs f) "Nids".toList)).sum)) ∧
      sums.length = minlen ∧ ∀ i < minlen, sums[i]? = some ((List.range nfile).map (fun f => int32Value ((Cs f "Count".toList).getD i []))).sum := by
  refine ⟨_, fun fuel hf => below_ok T hs hf hb, by simp, ?_⟩
  intro i hi
  rw [List.getElem?_map, List.getElem?_range hi]
  simp only [Option.map_some]
  refine congrArg some (congrArg List.sum (List.map_congr_left fun f hf => ?_))
  have hl := count_length T (List.mem_range.1 hf)
  unfold counts
  rw [List.getD_eq_getElem?_getD, List.getElem?_map, List.getD_eq_getElem?_getD, List.getElem?_eq_getElem (by omega)]
  rfl

/-- C88: the catalogue has every group of every file once, with its number of particles, its file and its number in this file; the largest group is the first.
This holds for anything which `qsort` may return. -/
theorem C88_catalogue (T : GroupTabs Cs ng minlen nfile) (hs : TabsStored sys fs dir num Cs ng minlen nfile) {out : List CatData} (ho : pre ng nfile ≤ out.length)
    (qsort : List CatData → List CatData) (hq : ∀ l, QSorted idSortGroups l (qsort l)) :
    ∃ groups, (∀ fuel, nfile < fuel → getGroupCatalogue sys fs dir num fuel qsort out = .ok (pre ng nfile, groups ++ out.drop (pre ng nfile))) ∧
      groups.Perm (allGroups Cs ng nfile) ∧ groups.Pairwise (fun a b => b.len ≤ a.len) := by
  obtain ⟨h1, h2⟩ := hq (allGroups Cs ng nfile)
  refine ⟨_, fun fuel hf => catalogue_ok T hs hf ho (by rw [h1.length_eq, length_allGroups]), h1, ?_⟩
  refine h2.imp ?_
  intro a b h
  by_contra hc
  have : idSortGroups a b = 1 := by
    unfold idSortGroups
    rw [if_neg (by omega), if_pos (by omega)]
  omega

end tabs

section hash

variable {sys : Bool} {fs : ByteFS} {dir base : Name} {num : Nat} {Cs : Nat → Content} {n cells : Nat → Nat} {start : Nat → Nat → Nat} {nfile : Nat}

/-- C88: the sizes of the arrays, and the arrays with the first particle and the file of every cell, and with the last cell and the number of particles of every
file, whatever they contain before -/
theorem C88_hash_table (S : HashedSnapshot Cs n cells start nfile) (hs : SnapStored sys fs dir base num Cs n cells nfile) (hcell : ∀ f < nfile, CellsAround cells nfile f)
    {t : HashTab} (h1 : t.hashtable.length = pre cells nfile) (h2 : t.filetable.length = pre cells nfile) (h3 : t.lastcell.length = nfile) (h4 : t.ninfile.length = nfile) :
    getHashTableSize sys fs dir base num = .ok ((pre cells nfile : Int), (nfile : Int)) ∧
    ∀ fuel, nfile < fuel → getHashTable sys fs dir base num fuel t = .ok (wholeTable n cells start nfile) :=
  ⟨hashSize_ok S hs, fun _ hf => hashTable_ok S hs h1 h2 h3 h4 hcell hf⟩

/-- C88: if the first or the last file has no cells, the table cannot be loaded. -/
theorem C88_empty_file_defect (S : HashedSnapshot Cs n cells start nfile) (hs : SnapStored sys fs dir base num Cs n cells nfile) {f : Nat} (hf : f < nfile) (h0 : f = 0 ∨ f + 1 = nfile) (hcell : cells f = 0)
    {t : HashTab} (h1 : t.hashtable.length = pre cells nfile) (h2 : t.filetable.length = pre cells nfile) (h3 : t.lastcell.length = nfile) (h4 : t.ninfile.length = nfile) {fuel : Nat} (hfu : nfile < fuel) :
    getHashTable sys fs dir base num fuel t = .error .sanityCheck := by
  refine hashTable_bad S hs h1 h2 h3 h4 hf ?_ hfu
  rintro ⟨hc1, hc2⟩
  rcases h0 with h0 | h0
  · subst h0
    rw [pre_succ, hcell] at hc1
    simp at hc1
  · rw [← h0, pre_succ, hcell] at hc2
    omega

/-- C88: the numbers of particles in equal parts of the table of cells; cells which are left over at the end are not counted. -/
theorem C88_cubes (S : HashedSnapshot Cs n cells start nfile) {tab : List Int} {nf : Nat} (ht : nf ≤ tab.length)
    (hb : ((allCells Cs n cells start nfile).flatten.length : Int) < 2147483648) :
    ∃ counts, getParticlesInCubes (wholeTable n cells start nfile) (pre cells nfile) nf tab = .ok (counts ++ tab.drop nf) ∧ counts.length = nf ∧
      (∀ p < nf, counts[p]? = some (((((allCells Cs n cells start nfile).drop (p * (pre cells nfile / nf))).take (pre cells nfile / nf)).flatten.length : Nat) : Int)) ∧
      counts.sum = ((((allCells Cs n cells start nfile).take (nf * (pre cells nfile / nf))).flatten.length : Nat) : Int) := by
  have hle : ∀ p, ((slice (allCells Cs n cells start nfile) (p * (pre cells nfile / nf)) (pre cells nfile / nf)).flatten.length : Int) < 2147483648 := by
    intro p
    have e1 := congrArg (fun l => l.flatten.length) (List.take_append_drop (p * (pre cells nfile / nf)) (allCells Cs n cells start nfile))
    have e2 := congrArg (fun l => l.flatten.length) (List.take_append_drop (pre cells nfile / nf) ((allCells Cs n cells start nfile).drop (p * (pre cells nfile / nf))))
    rw [List.flatten_append, List.length_append] at e1 e2
    unfold slice
    omega
  refine ⟨_, cubes_ok S.toSnapshot ht (fun p _ => hle p), by simp, ?_, ?_⟩
  · intro p hp
    rw [List.getElem?_map, List.getElem?_range hp]
    rfl
  · generalize pre cells nfile / nf = q
    clear ht hle
    induction nf with
    | zero => simp
    | succ m ih =>
      rw [List.range_succ, List.map_append, List.sum_append, ih, Nat.succ_mul, List.take_add, List.flatten_append, List.length_append]
      simp [slice]

end hash

namespace ExGroupLib

/-- Two tables: groups with 5, 9 and 7 particles, and one group with 30 -/
def tables (f : Nat) : Content := fun name =>
  if name = "Ngroups".toList then [leBytes 4 (if f = 0 then 3 else 1)]
  else if name = "Nids".toList then [leBytes 4 (if f = 0 then 21 else 30)]
  else if name = "TotNgroups".toList then [leBytes 4 4]
  else if name = "NTask".toList ∨ name = "GroupMinLen".toList then [leBytes 4 2]
  else if name = "GroupLen".toList then (if f = 0 then [leBytes 4 5, leBytes 4 9, leBytes 4 7] else [leBytes 4 30])
  else if name = "GroupOffset".toList then (if f = 0 then [leBytes 4 0, leBytes 4 5, leBytes 4 14] else [leBytes 4 0])
  else if name = "Count".toList then [leBytes 4 100, leBytes 4 (40 + f)]
  else []

def number (f : Nat) : Nat := if f = 0 then 3 else 1

theorem tabs : GroupTabs tables number 2 2 where
  nonempty := by decide
  file := by
    have h : ∀ f < 2, ∀ sec ∈ Files.lgadget2GroupTab (number f) 2, (∀ r ∈ sec.rows, (tables f r.name).length = r.shape.prod ∧ ∀ v ∈ tables f r.name, v.length = r.width) ∧
        (sec.record = true → (sec.payload false (tables f)).length < 2147483648) := by decide +kernel
    exact fun f hf => ⟨fun sec hs => (h f hf sec hs).1, fun sec hs => (h f hf sec hs).2⟩
  ngroups := by decide +kernel
  total := by decide +kernel
  ntask := by decide +kernel
  minlen := by decide +kernel

/-- The catalogue before it is sorted -/
example : allGroups tables number 2 = [⟨5, 0, 0⟩, ⟨9, 0, 1⟩, ⟨7, 0, 2⟩, ⟨30, 1, 0⟩] := by decide +kernel

/-- The whole function with a sorting by insertion, on a little endian machine, with names of files like d/group_tab_063.1 -/
def store (name : Name) : Option (List Byte) :=
  if name = "d/group_tab_063.0".toList then some ((Files.lgadget2GroupTab 3 2).bytes false (tables 0))
  else if name = "d/group_tab_063.1".toList then some ((Files.lgadget2GroupTab 1 2).bytes false (tables 1))
  else none

def insertCat (a : CatData) : List CatData → List CatData
  | [] => [a]
  | b :: l => if idSortGroups a b ≤ 0 then a :: b :: l else b :: insertCat a l

example : getGroupCatalogue true store "d".toList 63 5 (List.foldr insertCat []) (List.replicate 4 ⟨0, 0, 0⟩) =
    .ok (4, [⟨30, 1, 0⟩, ⟨9, 0, 1⟩, ⟨7, 0, 2⟩, ⟨5, 0, 0⟩]) := by decide +kernel

example : getGroupcountBelowMinimumLen true store "d".toList 63 5 [8, 8, 8] = .ok (2, [200, 81, 8], 51) := by decide +kernel

example : getMinimumGroupLen true store "d".toList 62 = .error .ioError := by decide +kernel

/-- The snapshot of `ExReadRegion`, with the numbers of files and cells in its headers -/
def contents (f : Nat) : Content := fun name =>
  if name = "Header/NumFilesPerSnapshot".toList then [leBytes 4 2]
  else if name = "Header/HashTabSize".toList then [leBytes 4 5]
  else ExReadRegion.contents f name

theorem fits (f : Nat) (hf : f < 2) : SnapshotFile (contents f) (ExReadRegion.number f) (ExReadRegion.cellsIn f) := by
  refine ⟨⟨?_, ?_⟩, ?_⟩
  · have : ∀ f < 2, ∀ sec ∈ Files.lgadget2Snapshot (ExReadRegion.number f) (ExReadRegion.cellsIn f), ∀ r ∈ sec.rows,
        (contents f r.name).length = r.shape.prod ∧ ∀ v ∈ contents f r.name, v.length = r.width := by
      decide +kernel
    exact this f hf
  · revert f; decide +kernel
  · revert f; decide +kernel

theorem snapshot : HashedSnapshot contents ExReadRegion.number ExReadRegion.cellsIn ExReadRegion.starts 2 where
  file := fits
  size := by decide +kernel
  first := by decide +kernel
  last := by decide +kernel
  total := by decide +kernel
  table := by decide +kernel
  order := by
    intro f hf j hj
    unfold ExReadRegion.starts; split_ifs <;> omega
  bound := by decide +kernel
  nonempty := by decide
  numFiles := by decide +kernel
  hashTabSize := by decide +kernel

theorem cellsAround : ∀ f < 2, CellsAround ExReadRegion.cellsIn 2 f := by unfold CellsAround; decide +kernel

example : wholeTable ExReadRegion.number ExReadRegion.cellsIn ExReadRegion.starts 2 = ⟨[0, 2, 0, 0, 1], [0, 0, 1, 1, 1], [1, 4], [3, 2]⟩ := by decide +kernel

/-- Two parts of two cells each; the particle in the last cell is not counted. -/
example : getParticlesInCubes ⟨[0, 2, 0, 0, 1], [0, 0, 1, 1, 1], [1, 4], [3, 2]⟩ 5 2 [0, 0] = .ok [3, 1] := by decide +kernel

end ExGroupLib

end Verif
