import Verif.Proofs.DtreesTable

/-!
C67: types of table columns. C70: the table. C71: reading the trees.
-/

namespace Verif

/-- C67: exactly the supported types have an SQL type, and it has the same size. -/
theorem C67_supported (t : SqlDType) : ((∃ s, sqlType t = .ok s) ↔ SqlSupported t) ∧ ∀ s, sqlType t = .ok s → SqlSize s t.itemsize :=
  ⟨sqlType_ok_iff t, fun _ h => sqlType_size h⟩

/-- C67: if the module had the name `re`, `numpy_type` would invert `sql_type`. A string has no byte order. -/
theorem C67_inverse {t : SqlDType} {s : List Char} (ht : t.kind = 'S' → t.native = true) (h : sqlType t = .ok s) : numpyType true s = .ok t := by
  rcases sqlType_cases t with ⟨h', e⟩ | ⟨h', e⟩ | ⟨h', e⟩ | ⟨h', e⟩ | ⟨h', e⟩ | ⟨_, e⟩
  · rw [e] at h; injection h with h; rw [← h, h']; decide +kernel
  · rw [e] at h; injection h with h; rw [← h, h']; decide +kernel
  · rw [e] at h; injection h with h; rw [← h, h']; decide +kernel
  · rw [e] at h; injection h with h; rw [← h, h']; decide +kernel
  · rw [e] at h
    injection h with h
    rw [← h, numpyType_char]
    obtain ⟨k, n, b⟩ := t
    simp only at h' ht
    rw [h', ht h']
  · rw [e] at h; cases h

/-- C67: every type it could return has an SQL type, from which it would be returned again. -/
theorem C67_back {s : List Char} {t : SqlDType} (h : numpyType true s = .ok t) : ∃ s', sqlType t = .ok s' ∧ numpyType true s' = .ok t := by
  have key : SqlSupported t ∧ (t.kind = 'S' → t.native = true) := by
    unfold numpyType at h
    rw [if_neg (by decide)] at h
    split at h
    · injection h with h
      rw [← h]
      exact ⟨Or.inr (Or.inr (Or.inr (Or.inr rfl))), fun _ => rfl⟩
    · split at h
      · injection h with h; rw [← h]; exact ⟨Or.inl ⟨rfl, rfl, rfl⟩, fun _ => rfl⟩
      split at h
      · injection h with h; rw [← h]; exact ⟨Or.inr (Or.inl ⟨rfl, rfl, rfl⟩), fun _ => rfl⟩
      split at h
      · injection h with h; rw [← h]; exact ⟨Or.inr (Or.inr (Or.inl ⟨rfl, rfl, rfl⟩)), fun _ => rfl⟩
      split at h
      · injection h with h; rw [← h]; exact ⟨Or.inr (Or.inr (Or.inr (Or.inl ⟨rfl, rfl, rfl⟩))), fun _ => rfl⟩
      · cases h
  obtain ⟨s', hs⟩ := (sqlType_ok_iff t).2 key.1
  exact ⟨s', hs, C67_inverse key.2 hs⟩

/-- C67: as the code is, `numpy_type` raises a NameError whatever its argument. -/
theorem C67_defect (s : List Char) : numpyType false s = .error .nameError := rfl

/-- C70: the data file has one record for each row of the input. The records have the same size, and each contains the values of the columns in order without gaps, whatever was in memory. -/
theorem C70_table {n : Nat} {data : List (List Char × Arr)} (hne : data ≠ []) (hdata : ∀ c ∈ data, TableArray n c.2) (hnd : ((outColumns data).map OutColumn.name).Nodup)
    (memory : Nat → Nat → List Byte) (tablename : List Char) :
    ∃ file, (writeTable memory tablename data).dataFile = some file ∧ file.length = n * bytesBefore (outColumns data) (outColumns data).length ∧
      ∀ r < n, ∀ j c, (outColumns data)[j]? = some c →
        some (slice file (r * bytesBefore (outColumns data) (outColumns data).length + bytesBefore (outColumns data) j) c.dtype.itemsize) = c.values[r]? := by
  rw [writeTable_ok hne hdata hnd]
  refine ⟨_, rfl, ?_⟩
  have hsz := outColumns_sizes hdata
  generalize outColumns data = cols at hsz
  have hlen : ∀ r < n, ∀ k, (((cols.take k).map (fun c => c.values.getD r [])).map List.length).sum = bytesBefore cols k := by
    intro r hr k
    unfold bytesBefore
    rw [List.map_map]
    refine congrArg List.sum (List.map_congr_left (fun c hc => ?_))
    obtain ⟨h1, h2⟩ := hsz c (List.mem_of_mem_take hc)
    show (c.values.getD r []).length = _
    rw [List.getD_eq_getElem _ _ (by rw [h1]; exact hr)]
    exact h2 _ (List.getElem_mem _)
  have hrow : ∀ r < n, (cols.map (fun c => c.values.getD r [])).flatten.length = bytesBefore cols cols.length := by
    intro r hr
    rw [List.length_flatten]
    have := hlen r hr cols.length
    rw [List.take_length] at this
    exact this
  have hfile : ((List.range n).map (fun r => cols.map (fun c => c.values.getD r []))).flatMap List.flatten = ((List.range n).map (fun r => (cols.map (fun c => c.values.getD r [])).flatten)).flatten := by
    rw [List.flatMap_map, ← List.flatMap_def]
  rw [hfile]
  have hsum : ∀ k ≤ n, ((((List.range n).map (fun r => (cols.map (fun c => c.values.getD r [])).flatten)).take k).map List.length).sum = k * bytesBefore cols cols.length := by
    intro k hk
    rw [← List.map_take, List.map_map, List.take_range, Nat.min_eq_left hk]
    have : ∀ x ∈ List.range k, (List.length ∘ fun r => (cols.map (fun c => c.values.getD r [])).flatten) x = bytesBefore cols cols.length :=
      fun x hx => hrow x (by rw [List.mem_range] at hx; omega)
    rw [List.map_congr_left this, List.map_const', List.sum_replicate, List.length_range]
    rfl
  constructor
  · rw [List.length_flatten]
    have := hsum n le_rfl
    rw [List.take_of_length_le (by rw [List.length_map, List.length_range])] at this
    exact this
  · intro r hr j c hc
    obtain ⟨hj, hcj⟩ := List.getElem?_eq_some_iff.1 hc
    have hl : r < ((List.range n).map (fun r => (cols.map (fun c => c.values.getD r [])).flatten)).length := by rw [List.length_map, List.length_range]; exact hr
    have hs := slice_flatten _ hl
    rw [hsum r (le_of_lt hr), List.getElem_map, List.getElem_range, hrow r hr] at hs
    have hj' : j < (cols.map (fun c => c.values.getD r [])).length := by rw [List.length_map]; exact hj
    have hs2 := slice_flatten _ hj'
    rw [← List.map_take, hlen r hr j, List.getElem_map, hcj] at hs2
    obtain ⟨h1, h2⟩ := hsz c (List.mem_of_getElem? hc)
    have hv : c.values.getD r [] = c.values[r]'(by rw [h1]; exact hr) := List.getD_eq_getElem _ _ _
    rw [List.getElem?_eq_getElem (by rw [h1]; exact hr)]
    refine congrArg some ?_
    rw [← hv, ← hs2]
    have hcl : (c.values.getD r []).length = c.dtype.itemsize := by rw [hv]; exact h2 _ (List.getElem_mem _)
    rw [hcl]
    have hle : bytesBefore cols j + c.dtype.itemsize ≤ bytesBefore cols cols.length := by
      unfold bytesBefore
      have hd : cols = cols.take j ++ c :: cols.drop (j + 1) := by
        rw [← hcj, ← List.drop_eq_getElem_cons hj, List.take_append_drop]
      conv_rhs => rw [List.take_length, hd]
      rw [List.map_append, List.sum_append, List.map_cons, List.sum_cons]
      omega
    rw [← slice_slice _ _ _ _ _ hle, hs]

/-- C70: if all types are supported the script defines the columns in the same order, with types of the same sizes. -/
theorem C70_script {n : Nat} {data : List (List Char × Arr)} (hne : data ≠ []) (hdata : ∀ c ∈ data, TableArray n c.2) (hnd : ((outColumns data).map OutColumn.name).Nodup)
    (hs : ∀ c ∈ outColumns data, SqlSupported c.dtype) (memory : Nat → Nat → List Byte) (tablename : List Char) :
    ∃ parts : List (List Char), (writeTable memory tablename data).script = .ok ("create table ".toList ++ tablename ++ " (\n".toList ++ parts.flatten ++ ")\n".toList) ∧
      List.Forall₂ DefinesColumn (outColumns data) parts := by
  obtain ⟨parts, h1, h2⟩ := scriptLines_ok hs
  refine ⟨parts, ?_, h2⟩
  rw [writeTable_ok hne hdata hnd, h1]

/-- C70: a type which is not supported is a ValueError, after the data file was written. -/
theorem C70_unsupported {n : Nat} {data : List (List Char × Arr)} (hne : data ≠ []) (hdata : ∀ c ∈ data, TableArray n c.2) (hnd : ((outColumns data).map OutColumn.name).Nodup)
    (hs : ∃ c ∈ outColumns data, ¬ SqlSupported c.dtype) (memory : Nat → Nat → List Byte) (tablename : List Char) :
    (writeTable memory tablename data).dataFile ≠ none ∧ (writeTable memory tablename data).script = .error .valueError := by
  rw [writeTable_ok hne hdata hnd, scriptLines_error hs]
  exact ⟨Option.some_ne_none _, rfl⟩

/-- C70: arrays of different length or of other shapes, and columns with the same name, are ValueErrors and nothing is written; so is an IndexError if there are no arrays. -/
theorem C70_invalid (memory : Nat → Nat → List Byte) (tablename : List Char) :
    writeTable memory tablename [] = ⟨none, .error .indexError⟩ ∧
    (∀ (first : List Char × Arr) rest, (∃ c ∈ first :: rest, c.2.rows.length ≠ first.2.rows.length ∨ (c.2.rowShape ≠ [] ∧ c.2.rowShape ≠ [3])) →
      writeTable memory tablename (first :: rest) = ⟨none, .error .valueError⟩) ∧
    (∀ n (data : List (List Char × Arr)), data ≠ [] → (∀ c ∈ data, TableArray n c.2) → ¬ ((outColumns data).map OutColumn.name).Nodup →
      writeTable memory tablename data = ⟨none, .error .valueError⟩) := by
  refine ⟨rfl, ?_, ?_⟩
  · intro first rest h
    unfold writeTable
    simp only [typeList_error h]
  · intro n data hne hdata hnd
    cases data with
    | nil => exact absurd rfl hne
    | cons first rest =>
      have hn : first.2.rows.length = n := (hdata first List.mem_cons_self).1
      have hnames : ((outColumns (first :: rest)).map (fun c => (c.name, c.dtype))).map Prod.fst = (outColumns (first :: rest)).map OutColumn.name := by
        rw [List.map_map]; rfl
      unfold writeTable
      simp only [hn, typeList_ok hdata, hnames]
      rw [if_pos hnd]

/-- C71: the result has the datasets of the first file. Each has the values from all files in order; a later file which does not have a dataset adds nothing to it. -/
theorem C71_read {files : Nat → Option TreeFile} {f0 : TreeFile} (h0 : files 0 = some f0) (hnd : (f0.haloTrees.map Prod.fst).Nodup)
    (hlater : ∀ i, 0 < i → i < f0.numberOfFiles → ∃ f, files i = some f ∧ (f.haloTrees.map Prod.fst).Nodup ∧
      ∀ e ∈ f.haloTrees, ∃ a, f0.array e.1 = some a ∧ e.2.dtype = a.dtype ∧ e.2.rowShape = a.rowShape) :
    readDhaloTrees files = .ok (f0.haloTrees.map (fun e => (e.1, { e.2 with rows := (List.range (max 1 f0.numberOfFiles)).flatMap (valuesIn files e.1) }))) := by
  have harr : ∀ (f : TreeFile) m, f.array m = dget f.haloTrees m := by
    intro f m
    unfold TreeFile.array dget
    congr 1
    refine congrArg (fun p => List.find? p f.haloTrees) (funext fun e => ?_)
    rw [Bool.eq_iff_iff, decide_eq_true_iff, beq_iff_eq]
  have hmem : ∀ e ∈ f0.haloTrees, dget f0.haloTrees e.1 = some e.2 := by
    exact fun e he => dget_of_mem hnd he
  have hin : ∀ m a, dget f0.haloTrees m = some a → m ∈ f0.haloTrees.map Prod.fst := by
    intro m a h
    by_contra hn
    rw [dget_none hn] at h
    cases h
  unfold readDhaloTrees
  simp only [h0]
  have hfirst := readDatasets_first f0.haloTrees [] (by rw [List.nil_append]; exact hnd)
  rw [List.nil_append, List.map_nil] at hfirst
  simp only [hfirst]
  -- the dictionary as a function of the names
  have hdict := first_dict hnd
  rw [hdict, readFiles_ok files hnd (f0.numberOfFiles - 1) 1 (by omega) (by
    intro k hk
    obtain ⟨f, h1, h2, h3⟩ := hlater (1 + k) (by omega) (by omega)
    refine ⟨f, h1, h2, ?_⟩
    intro e he
    obtain ⟨a, ha, _⟩ := h3 e he
    rw [harr] at ha
    exact hin _ _ ha)]
  simp only []
  -- the arrays which are concatenated
  have hcol : ∀ m i n, (∀ k < n, 0 < i + k ∧ i + k < f0.numberOfFiles) →
      (∀ b ∈ collected files m i n, ∀ a, dget f0.haloTrees m = some a → b.dtype = a.dtype ∧ b.rowShape = a.rowShape) ∧
      (collected files m i n).flatMap Arr.rows = (List.range n).flatMap (fun k => valuesIn files m (i + k)) := by
    intro m i n
    induction n generalizing i with
    | zero => intro _; exact ⟨fun b hb => (by cases hb), rfl⟩
    | succ n ih =>
      intro hk
      obtain ⟨ih1, ih2⟩ := ih (i + 1) (fun k hk' => by have := hk (k + 1) (by omega); rw [show i + 1 + k = i + (k + 1) by omega]; exact this)
      have hi := hk 0 (by omega)
      rw [Nat.add_zero] at hi
      obtain ⟨f, h1, h2, h3⟩ := hlater i hi.1 hi.2
      rw [collected, h1]
      constructor
      · intro b hb a ha
        rcases List.mem_append.1 hb with hb | hb
        · unfold arraysIn at hb
          rw [Option.mem_toList] at hb
          obtain ⟨e, hfind, hb⟩ := Option.map_eq_some_iff.1 hb
          have he := List.mem_of_find?_eq_some hfind
          have hem : e.1 = m := by have := List.find?_some hfind; rwa [beq_iff_eq] at this
          obtain ⟨a', ha', hd, hs⟩ := h3 e he
          rw [harr, hem, ha] at ha'
          injection ha' with ha'
          rw [← hb, ha']
          exact ⟨hd, hs⟩
        · exact ih1 b hb a ha
      · rw [List.flatMap_append, ih2, List.range_succ_eq_map, List.flatMap_cons, Nat.add_zero, List.flatMap_map]
        have e1 : (arraysIn f.haloTrees m).flatMap Arr.rows = valuesIn files m i := by
          unfold valuesIn arraysIn
          rw [h1]
          simp only [harr]
          cases dget f.haloTrees m with
          | none => rfl
          | some a => show [a].flatMap Arr.rows = a.rows; simp
        rw [e1]
        congr 1
        refine congrArg (fun g => List.flatMap g (List.range n)) (funext fun k => ?_)
        rw [show i + 1 + k = i + (k + 1) by omega]
  have hres := concatAll_ok (f0.haloTrees.map Prod.fst) (fun m => arraysIn f0.haloTrees m ++ collected files m 1 (f0.numberOfFiles - 1))
    (fun m => { ((dget f0.haloTrees m).getD ⟨npInt32, [], []⟩) with rows := (List.range (max 1 f0.numberOfFiles)).flatMap (valuesIn files m) }) (by
      intro m hm
      obtain ⟨e, he, rfl⟩ := List.mem_map.1 hm
      have ha := hmem e he
      obtain ⟨c1, c2⟩ := hcol e.1 1 (f0.numberOfFiles - 1) (fun k hk => ⟨by omega, by omega⟩)
      unfold arraysIn
      rw [ha]
      show concatArrays (e.2 :: collected files e.1 1 (f0.numberOfFiles - 1)) = _
      unfold concatArrays
      simp only []
      rw [if_neg (by
        rw [Bool.not_eq_true, List.any_eq_false]
        intro b hb
        rw [bne_iff_ne, not_not]
        exact (c1 b hb _ ha).2), if_neg (by
        rw [Bool.not_eq_true, List.any_eq_false]
        intro b hb
        rw [decide_eq_true_iff, not_not]
        exact (c1 b hb _ ha).1)]
      refine congrArg Except.ok ?_
      refine congrArg (Arr.mk e.2.dtype e.2.rowShape) ?_
      rw [List.flatMap_cons, c2]
      have hmax : max 1 f0.numberOfFiles = (f0.numberOfFiles - 1) + 1 := by omega
      rw [hmax, List.range_succ_eq_map, List.flatMap_cons, List.flatMap_map]
      have e0 : valuesIn files e.1 0 = e.2.rows := by
        unfold valuesIn
        rw [h0]
        simp only [harr, ha]
      rw [e0]
      congr 1
      refine congrArg (fun g => List.flatMap g (List.range (f0.numberOfFiles - 1))) (funext fun k => ?_)
      rw [Nat.add_comm])
  rw [hres, List.map_map]
  refine congrArg Except.ok (List.map_congr_left (fun e he => ?_))
  show (e.1, _) = (e.1, _)
  rw [hmem e he]
  rfl

/-- C71: the first file which is missing is an IOError, and the first file with a dataset which is not in file 0 is a KeyError. -/
theorem C71_errors {files : Nat → Option TreeFile} :
    (files 0 = none → readDhaloTrees files = .error .ioError) ∧
    ∀ f0, files 0 = some f0 → (f0.haloTrees.map Prod.fst).Nodup → ∀ j, 0 < j → j < f0.numberOfFiles →
      (∀ i, 0 < i → i < j → ∃ f, files i = some f ∧ (f.haloTrees.map Prod.fst).Nodup ∧ ∀ e ∈ f.haloTrees, e.1 ∈ f0.haloTrees.map Prod.fst) →
      (files j = none → readDhaloTrees files = .error .ioError) ∧
      (∀ f, files j = some f → (∃ e ∈ f.haloTrees, e.1 ∉ f0.haloTrees.map Prod.fst) → readDhaloTrees files = .error .keyError) := by
  constructor
  · intro h
    unfold readDhaloTrees
    rw [h]
  · intro f0 h0 hnd j hj0 hj hb
    have hfirst := readDatasets_first f0.haloTrees [] (by rw [List.nil_append]; exact hnd)
    rw [List.nil_append, List.map_nil] at hfirst
    have hdict := first_dict hnd
    have hf := readFiles_fail files hnd (f0.numberOfFiles - 1) 1 (by omega) (j - 1) (by omega) (fun k hk => hb (1 + k) (by omega) (by omega)) (fun m => arraysIn f0.haloTrees m)
    rw [show 1 + (j - 1) = j by omega] at hf
    constructor
    · intro hn
      unfold readDhaloTrees
      simp only [h0, hfirst]
      rw [hdict, hf.1 hn]
    · intro f hfj he
      unfold readDhaloTrees
      simp only [h0, hfirst]
      rw [hdict, hf.2 f hfj he]

namespace ExDtrees

def i4 (b : Byte) : List Byte := [b, 0, 0, 0]

/-- C67 -/
example : sqlType npInt64 = .ok "bigint".toList ∧ numpyType true "bigint".toList = .ok npInt64 := ⟨by decide +kernel, C67_inverse (by decide) (by decide +kernel)⟩
example : numpyType true "char(12)".toList = .ok ⟨'S', 12, true⟩ := C67_inverse (t := ⟨'S', 12, true⟩) (fun _ => rfl) (by decide +kernel)
example : ∃ s', sqlType npInt32 = .ok s' ∧ numpyType true s' = .ok npInt32 := C67_back (s := "int".toList) (by decide +kernel)
example : ¬ SqlSupported ⟨'i', 4, false⟩ := by rintro (h | h | h | h | h) <;> revert h <;> decide

/-- Two rows of an identifier and a position -/
def data : List (List Char × Arr) :=
  [("nodeIndex".toList, ⟨npInt32, [], [[i4 1], [i4 2]]⟩),
   ("position".toList, ⟨npFloat32, [3], [[i4 10, i4 11, i4 12], [i4 20, i4 21, i4 22]]⟩)]

theorem data_ok : ∀ c ∈ data, TableArray 2 c.2 := by
  intro c hc
  unfold data at hc
  simp only [List.mem_cons, List.not_mem_nil, or_false] at hc
  rcases hc with rfl | rfl
  · exact ⟨rfl, Or.inl rfl, by decide +kernel⟩
  · exact ⟨rfl, Or.inr rfl, by decide +kernel⟩

theorem data_names : ((outColumns data).map OutColumn.name).Nodup := by decide +kernel

/-- C70_table: records of 16 bytes; the z coordinate is at byte 12. -/
example : ∃ file, (writeTable (fun _ _ => []) "trees".toList data).dataFile = some file ∧ file.length = 2 * 16 ∧
    some (slice file (1 * 16 + 12) 4) = some (i4 22) := by
  obtain ⟨file, h1, h2, h3⟩ := C70_table (by decide) data_ok data_names (fun _ _ => []) "trees".toList
  exact ⟨file, h1, h2, h3 1 (by decide) 3 _ rfl⟩

/-- C70_script -/
example : (writeTable (fun _ _ => []) "trees".toList data).script =
    .ok "create table trees (\n  nodeIndex integer NOT NULL,\n  position_x real NOT NULL,\n  position_y real NOT NULL,\n  position_z real NOT NULL,\n)\n".toList := by decide +kernel

example : ∃ parts : List (List Char), (writeTable (fun _ _ => []) "trees".toList data).script =
    .ok ("create table ".toList ++ "trees".toList ++ " (\n".toList ++ parts.flatten ++ ")\n".toList) ∧ List.Forall₂ DefinesColumn (outColumns data) parts :=
  C70_script (by decide) data_ok data_names (by
    have h : (outColumns data).map OutColumn.dtype = [npInt32, npFloat32, npFloat32, npFloat32] := rfl
    intro c hc
    have hm : c.dtype ∈ [npInt32, npFloat32, npFloat32, npFloat32] := by rw [← h]; exact List.mem_map_of_mem hc
    have hs : ∀ t ∈ [npInt32, npFloat32, npFloat32, npFloat32], ∃ s, sqlType t = .ok s := by
      intro t ht
      simp only [List.mem_cons, List.not_mem_nil, or_false] at ht
      rcases ht with rfl | rfl | rfl | rfl
      · exact ⟨_, rfl⟩
      · exact ⟨_, rfl⟩
      · exact ⟨_, rfl⟩
      · exact ⟨_, rfl⟩
    exact (sqlType_ok_iff _).1 (hs _ hm)) _ _

/-- C70_unsupported: a column of unsigned integers -/
example : (writeTable (fun _ _ => []) "t".toList [("n".toList, ⟨⟨'u', 4, true⟩, [], [[i4 1]]⟩)]).dataFile ≠ none ∧
    (writeTable (fun _ _ => []) "t".toList [("n".toList, ⟨⟨'u', 4, true⟩, [], [[i4 1]]⟩)]).script = .error .valueError :=
  C70_unsupported (n := 1) (by decide) (by
    intro c hc
    rw [List.mem_singleton] at hc
    subst hc
    exact ⟨rfl, Or.inl rfl, by decide +kernel⟩) (by decide +kernel)
    ⟨⟨"n".toList, ⟨'u', 4, true⟩, [i4 1]⟩, by simp [outColumns, columnsOf, Arr.component], by
      rintro (h | h | h | h | h) <;> revert h <;> decide⟩ _ _

/-- C70_invalid: a vector of length 2; a column `a_x` beside a vector `a` -/
example : writeTable (fun _ _ => []) "t".toList [("v".toList, ⟨npInt32, [2], [[i4 1, i4 2]]⟩)] = ⟨none, .error .valueError⟩ :=
  (C70_invalid (fun _ _ => []) "t".toList).2.1 _ _ ⟨_, List.mem_cons_self, Or.inr ⟨by decide, by decide⟩⟩
example : writeTable (fun _ _ => []) "t".toList [("a".toList, ⟨npInt32, [3], [[i4 1, i4 2, i4 3]]⟩), ("a_x".toList, ⟨npInt32, [], [[i4 1]]⟩)] = ⟨none, .error .valueError⟩ :=
  (C70_invalid (fun _ _ => []) "t".toList).2.2 1 _ (by decide) (by
    intro c hc
    simp only [List.mem_cons, List.not_mem_nil, or_false] at hc
    rcases hc with rfl | rfl
    · exact ⟨rfl, Or.inr rfl, by decide +kernel⟩
    · exact ⟨rfl, Or.inl rfl, by decide +kernel⟩) (by decide +kernel)

/-- Three files; the second does not have all datasets. -/
def files : Nat → Option TreeFile
  | 0 => some ⟨3, [("id".toList, ⟨npInt32, [], [[i4 1], [i4 2]]⟩), ("mass".toList, ⟨npFloat32, [], [[i4 7], [i4 8]]⟩)]⟩
  | 1 => some ⟨3, [("id".toList, ⟨npInt32, [], [[i4 3]]⟩)]⟩
  | 2 => some ⟨3, [("mass".toList, ⟨npFloat32, [], [[i4 9]]⟩), ("id".toList, ⟨npInt32, [], [[i4 4]]⟩)]⟩
  | _ => none

/-- C71_read -/
example : readDhaloTrees files = .ok [("id".toList, ⟨npInt32, [], [[i4 1], [i4 2], [i4 3], [i4 4]]⟩), ("mass".toList, ⟨npFloat32, [], [[i4 7], [i4 8], [i4 9]]⟩)] :=
  (C71_read (files := files) rfl (by decide +kernel) (by
    intro i h1 h2
    have h2' : i < 3 := h2
    have : i = 1 ∨ i = 2 := by omega
    rcases this with rfl | rfl
    · refine ⟨_, rfl, by decide +kernel, ?_⟩
      intro e he
      rw [List.mem_singleton] at he
      subst he
      exact ⟨_, rfl, rfl, rfl⟩
    · refine ⟨_, rfl, by decide +kernel, ?_⟩
      intro e he
      simp only [List.mem_cons, List.not_mem_nil, or_false] at he
      rcases he with rfl | rfl
      · exact ⟨_, rfl, rfl, rfl⟩
      · exact ⟨_, rfl, rfl, rfl⟩)).trans (by decide +kernel)

/-- C71_errors: file 1 has a dataset which file 0 does not have; then file 1 is missing. -/
example : readDhaloTrees (fun i => if i = 0 then some ⟨2, []⟩ else if i = 1 then some ⟨2, [("id".toList, ⟨npInt32, [], []⟩)]⟩ else none) = .error .keyError :=
  ((C71_errors.2 _ rfl (by decide +kernel) 1 (by decide) (by decide) (by intro i _ _; omega)).2 _ rfl ⟨_, List.mem_cons_self, by decide +kernel⟩)
example : readDhaloTrees (fun i => if i = 0 then some ⟨2, []⟩ else none) = .error .ioError :=
  ((C71_errors.2 _ rfl (by decide +kernel) 1 (by decide) (by decide) (by intro i _ _; omega)).1 rfl)

end ExDtrees

end Verif
