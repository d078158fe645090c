import Verif.Proofs.MultiFileRead

set_option linter.unusedSectionVars false

namespace Verif.MultiFileRead

variable {α β τ : Type*}

/-- C104: all ranks get a dict with the datasets asked for, and one with file numbers for those in `return_file_nr`: for any number of ranks and files, with or without a group and attributes, and also if
names are repeated. The values are as in `Expected`. -/
theorem C104_read [DecidableEq τ] [Inhabited α] {P F : Nat} (hP : 0 < P) (hF : 0 < F) (files : Nat → H5 τ α β) (idx : Nat → Nat) (itemsize : τ → Nat) (native : τ → τ)
    (buffer_size : Nat) (group : Option Name) (ra : Bool) (names : List Name) (t : Name → τ) (d : Name → List Nat)
    (hok : ∀ n ∈ names, SameType F (arrayAt files group n) (t n) (d n) ∧ (F < P → 0 < elementSize (itemsize (t n)) (d n) ∧ elementSize (itemsize (t n)) (d n) ≤ buffer_size))
    (ret : Option (List Name)) (hret : ∀ l, ret = some l → ∀ n ∈ l, n ∈ names) :
    ∃ out : Name → Nat → Option (AArr τ α β), ∃ nr : Name → Nat → Option (TypedArray Unit Nat), (∀ n ∈ names, Expected P F files idx group ra n (native (t n)) (d n) (out n) (nr n)) ∧
      ∃ D : Nat → List (Name × Option (AArr τ α β)), ∃ E : Nat → List (Name × Option (TypedArray Unit Nat)), multiRead P F files idx itemsize native buffer_size (.many names) group (ret.map .many) ra false = .ok ((List.range P).map (fun p => (.dict (D p), ret.map (fun _ => .dict (E p))))) ∧
        (∀ p < P, ∀ n, entry (D p) n = if n ∈ names then some (out n p) else none) ∧ ∀ l, ret = some l → ∀ p < P, ∀ n, entry (E p) n = if n ∈ l then some (nr n p) else none := by
  obtain ⟨out, nr, h1, -, h3⟩ := multiRead_core hP hF files idx itemsize native buffer_size group ra names t d hok
  refine ⟨out, nr, h1, fun p => (firsts names).map (fun n => (n, out n p)), fun p => match ret with
    | none => []
    | some l => (nrKeys P F names (.many l)).map (fun n => (n, nr n p)), ?_, ?_, ?_⟩
  · rw [h3 (.many names) (ret.map .many) false rfl]
    apply allRanks_ok
    intro p hp
    unfold returned
    simp only [pick, Bool.false_eq_true, if_false, Except.andThen]
    rw [onRank_map hp]
    cases ret with
    | none => rfl
    | some l =>
      simp only [Option.map_some]
      rw [onRank_map hp]
  · intro p hp n
    rw [entry_map]
    simp only [mem_firsts]
  · rintro l rfl p hp n
    simp only
    rw [entry_map]
    have : n ∈ nrKeys P F names (.many l) ↔ n ∈ l := by
      unfold nrKeys
      split
      · exact mem_firsts
      · rw [mem_firsts, List.mem_filter]
        simp only [NamesArg.contains, decide_eq_true_eq, and_iff_right_iff_imp]
        exact hret l rfl n
    simp only [this]

/-- C104: with `unpack=True` there are lists with the arrays in the order of the names. The file numbers must be asked for all of the datasets. -/
theorem C104_unpack [DecidableEq τ] [Inhabited α] {P F : Nat} (hP : 0 < P) (hF : 0 < F) (files : Nat → H5 τ α β) (idx : Nat → Nat) (itemsize : τ → Nat) (native : τ → τ)
    (buffer_size : Nat) (group : Option Name) (ra : Bool) (names : List Name) (t : Name → τ) (d : Name → List Nat)
    (hok : ∀ n ∈ names, SameType F (arrayAt files group n) (t n) (d n) ∧ (F < P → 0 < elementSize (itemsize (t n)) (d n) ∧ elementSize (itemsize (t n)) (d n) ≤ buffer_size))
    (ret : Option (List Name)) (hret : ∀ l, ret = some l → ∀ n ∈ names, n ∈ l) :
    ∃ out : Name → Nat → Option (AArr τ α β), ∃ nr : Name → Nat → Option (TypedArray Unit Nat), (∀ n ∈ names, Expected P F files idx group ra n (native (t n)) (d n) (out n) (nr n)) ∧
      multiRead P F files idx itemsize native buffer_size (.many names) group (ret.map .many) ra true =
        .ok ((List.range P).map (fun p => (.list (names.map (fun n => out n p)), ret.map (fun _ => .list (names.map (fun n => nr n p)))))) := by
  obtain ⟨out, nr, h1, -, h3⟩ := multiRead_core hP hF files idx itemsize native buffer_size group ra names t d hok
  refine ⟨out, nr, h1, ?_⟩
  rw [h3 (.many names) (ret.map .many) true rfl]
  apply allRanks_ok
  intro p hp
  unfold returned
  simp only [pick, if_true]
  rw [onRank_map hp, mapM_ok (g := fun n => out n p) (fun n hn => by rw [lookup_map, if_pos (mem_firsts.2 hn)])]
  simp only [Except.andThen]
  cases ret with
  | none => rfl
  | some l =>
    simp only [Option.map_some]
    rw [onRank_map hp, mapM_ok (g := fun n => nr n p) (fun n hn => by
      rw [lookup_map, if_pos]
      unfold nrKeys
      split
      · exact mem_firsts.2 (hret l rfl n hn)
      · rw [mem_firsts, List.mem_filter]
        exact ⟨hn, by simpa [NamesArg.contains] using hret l rfl n hn⟩)]

/-- C104: one name as a string gives one array. -/
theorem C104_single [DecidableEq τ] [Inhabited α] {P F : Nat} (hP : 0 < P) (hF : 0 < F) (files : Nat → H5 τ α β) (idx : Nat → Nat) (itemsize : τ → Nat) (native : τ → τ)
    (buffer_size : Nat) (group : Option Name) (ra unpack : Bool) (name : Name) {t : τ} {d : List Nat} (hc : SameType F (arrayAt files group name) t d)
    (hb : F < P → 0 < elementSize (itemsize t) d ∧ elementSize (itemsize t) d ≤ buffer_size) (ret : Option (List Name)) (hret : ∀ l, ret = some l → name ∈ l) :
    ∃ out : Nat → Option (AArr τ α β), ∃ nr : Nat → Option (TypedArray Unit Nat), Expected P F files idx group ra name (native t) d out nr ∧
      multiRead P F files idx itemsize native buffer_size (.one name) group (ret.map .many) ra unpack =
        .ok ((List.range P).map (fun p => (.single (out p), ret.map (fun _ => .single (nr p))))) := by
  obtain ⟨out, nr, h1, -, h3⟩ := multiRead_core hP hF files idx itemsize native buffer_size group ra [name] (fun _ => t) (fun _ => d)
    (fun n hn => by rw [List.mem_singleton] at hn; subst hn; exact ⟨hc, hb⟩)
  refine ⟨out name, nr name, h1 name (by simp), ?_⟩
  rw [h3 (.one name) (ret.map .many) unpack rfl]
  apply allRanks_ok
  intro p hp
  unfold returned
  simp only [pick]
  rw [onRank_map hp, lookup_map, if_pos (mem_firsts.2 (by simp))]
  simp only [Except.andThen]
  cases ret with
  | none => rfl
  | some l =>
    simp only [Option.map_some]
    rw [onRank_map hp, lookup_map, if_pos]
    unfold nrKeys
    split
    · exact mem_firsts.2 (hret l rfl)
    · rw [mem_firsts, List.mem_filter]
      exact ⟨by simp, by simpa [NamesArg.contains] using hret l rfl⟩

/-- C104: if the attributes of a dataset are the same in all files which have it, these are the attributes on all ranks. -/
theorem C104_attributes {P F : Nat} {files : Nat → H5 τ α β} {idx : Nat → Nat} {group : Option Name} {n : Name} {t : τ} {d : List Nat} {out : Nat → Option (AArr τ α β)}
    {nr : Nat → Option (TypedArray Unit Nat)} {a : List (Name × β)} (h : Expected P F files idx group true n t d out nr)
    (ha : ∀ f < F, ∀ D, datasetAt (files f) group n = some D → D.attrs = a) (hex : ∃ f < F, datasetAt (files f) group n ≠ none) {p : Nat} (hp : p < P) :
    ∃ x, out p = some ⟨x, some a⟩ := by
  rcases h with ⟨h1, -⟩ | ⟨-, rows, nrs, attrs, h1, -, -, -, -, h5⟩
  · obtain ⟨f, hf, hne⟩ := hex
    exact absurd (h1 f hf) hne
  · obtain ⟨b, hb, h6⟩ := h5 rfl p hp
    have : b = a := by
      rcases h6 with ⟨f, hf, -, h7, -⟩ | ⟨-, f, hf, -, h7, -⟩
      all_goals
        obtain ⟨D, hD, hDa⟩ := Option.map_eq_some_iff.1 h7
        rw [← hDa]
        exact ha f hf D hD
    rw [(h1 p hp).1, hb, this]
    exact ⟨_, rfl⟩

/-- `return_file_nr` is a sequence of names. If it is a string with at least two characters and there are at least as many files as ranks, reading this dataset fails. -/
theorem C104_string_defect [DecidableEq τ] [Inhabited α] {P F : Nat} (hP : 0 < P) (hF : P ≤ F) (files : Nat → H5 τ α β) (idx : Nat → Nat) (itemsize : τ → Nat) (native : τ → τ)
    (buffer_size : Nat) (group : Option Name) (ra unpack : Bool) (name : Name) {t : τ} {d : List Nat} (hc : SameType F (arrayAt files group name) t d) (hn : name.length ≠ 1) :
    multiRead P F files idx itemsize native buffer_size (.one name) group (some (.one name)) ra unpack = .error .keyError := by
  obtain ⟨out, nr, -, -, h3⟩ := multiRead_core (F := F) hP (by omega) files idx itemsize native buffer_size group ra [name] (fun _ => t) (fun _ => d)
    (fun n hn => by rw [List.mem_singleton] at hn; subst hn; exact ⟨hc, fun h => by omega⟩)
  rw [h3 (.one name) (some (.one name)) unpack rfl]
  have : ∀ p ∈ List.range P, returned (.one name) unpack ((firsts [name]).map (fun n => (n, (List.range P).map (out n))))
      ((some (NamesArg.one name)).map (fun r => (nrKeys P F [name] r).map (fun n => (n, (List.range P).map (nr n))))) p = .error .keyError := by
    intro p hp
    rw [List.mem_range] at hp
    unfold returned
    simp only [pick]
    rw [onRank_map hp, lookup_map, if_pos (mem_firsts.2 (by simp))]
    simp only [Except.andThen, Option.map_some]
    rw [onRank_map hp, lookup_map, if_neg]
    unfold nrKeys
    rw [if_pos hF, mem_firsts]
    simp only [NamesArg.iter, List.mem_map, not_exists, not_and]
    rintro c - rfl
    simp at hn
  exact mapM_error ⟨0, by simpa using hP, this 0 (by simpa using hP)⟩ (fun p hp => Or.inl (this p hp))

/-- With fewer files than ranks the same call works. -/
theorem C104_string_collective [DecidableEq τ] [Inhabited α] {P F : Nat} (hF : 0 < F) (hP : F < P) (files : Nat → H5 τ α β) (idx : Nat → Nat) (itemsize : τ → Nat) (native : τ → τ)
    (buffer_size : Nat) (group : Option Name) (ra unpack : Bool) (name : Name) {t : τ} {d : List Nat} (hc : SameType F (arrayAt files group name) t d)
    (hb : 0 < elementSize (itemsize t) d ∧ elementSize (itemsize t) d ≤ buffer_size) :
    ∃ out : Nat → Option (AArr τ α β), ∃ nr : Nat → Option (TypedArray Unit Nat), Expected P F files idx group ra name (native t) d out nr ∧
      multiRead P F files idx itemsize native buffer_size (.one name) group (some (.one name)) ra unpack = .ok ((List.range P).map (fun p => (.single (out p), some (.single (nr p))))) := by
  obtain ⟨out, nr, h1, -, h3⟩ := multiRead_core (P := P) (by omega) hF files idx itemsize native buffer_size group ra [name] (fun _ => t) (fun _ => d)
    (fun n hn => by rw [List.mem_singleton] at hn; subst hn; exact ⟨hc, fun _ => hb⟩)
  refine ⟨out name, nr name, h1 name (by simp), ?_⟩
  rw [h3 (.one name) (some (.one name)) unpack rfl]
  apply allRanks_ok
  intro p hp
  unfold returned
  simp only [pick]
  rw [onRank_map hp, lookup_map, if_pos (mem_firsts.2 (by simp))]
  simp only [Except.andThen, Option.map_some]
  rw [onRank_map hp, lookup_map, if_pos]
  unfold nrKeys
  rw [if_neg (by omega), mem_firsts, List.mem_filter]
  exact ⟨by simp, by simp [NamesArg.contains]⟩

/-- With `unpack=True`, file numbers of only some of the datasets cannot be returned. -/
theorem C104_unpack_defect [DecidableEq τ] [Inhabited α] {P F : Nat} (hP : 0 < P) (hF : 0 < F) (files : Nat → H5 τ α β) (idx : Nat → Nat) (itemsize : τ → Nat) (native : τ → τ)
    (buffer_size : Nat) (group : Option Name) (ra : Bool) (names : List Name) (t : Name → τ) (d : Name → List Nat)
    (hok : ∀ n ∈ names, SameType F (arrayAt files group n) (t n) (d n) ∧ (F < P → 0 < elementSize (itemsize (t n)) (d n) ∧ elementSize (itemsize (t n)) (d n) ≤ buffer_size))
    (l : List Name) (hl : ∃ n ∈ names, n ∉ l) :
    multiRead P F files idx itemsize native buffer_size (.many names) group (some (.many l)) ra true = .error .keyError := by
  obtain ⟨out, nr, -, -, h3⟩ := multiRead_core hP hF files idx itemsize native buffer_size group ra names t d hok
  rw [h3 (.many names) (some (.many l)) true rfl]
  have : ∀ p ∈ List.range P, returned (.many names) true ((firsts names).map (fun n => (n, (List.range P).map (out n))))
      ((some (NamesArg.many l)).map (fun r => (nrKeys P F names r).map (fun n => (n, (List.range P).map (nr n))))) p = .error .keyError := by
    intro p hp
    rw [List.mem_range] at hp
    unfold returned
    simp only [pick, if_true]
    rw [onRank_map hp, mapM_ok (g := fun n => out n p) (fun n hn => by rw [lookup_map, if_pos (mem_firsts.2 hn)])]
    simp only [Except.andThen, Option.map_some]
    rw [onRank_map hp, mapM_error (e := .keyError)]
    · obtain ⟨n, hn, hnl⟩ := hl
      refine ⟨n, hn, ?_⟩
      rw [lookup_map, if_neg]
      unfold nrKeys
      split
      · rw [mem_firsts]; exact hnl
      · rw [mem_firsts, List.mem_filter]
        simp [NamesArg.contains, hnl]
    · intro n _
      rw [lookup_map]
      split
      · exact Or.inr ⟨_, rfl⟩
      · exact Or.inl rfl
  exact mapM_error ⟨0, by simpa using hP, this 0 (by simpa using hP)⟩ (fun p hp => Or.inl (this p hp))

/-- Names in `return_file_nr` which are not among the datasets are keys of the dict of file numbers, with the value `None`, if there are at least as many files as ranks, and otherwise they are left out. -/
theorem C104_extra_names_defect [DecidableEq τ] [Inhabited α] {P F : Nat} (hP : 0 < P) (hF : 0 < F) (files : Nat → H5 τ α β) (idx : Nat → Nat) (itemsize : τ → Nat) (native : τ → τ)
    (buffer_size : Nat) (group : Option Name) (ra : Bool) (names : List Name) (t : Name → τ) (d : Name → List Nat)
    (hok : ∀ n ∈ names, SameType F (arrayAt files group n) (t n) (d n) ∧ (F < P → 0 < elementSize (itemsize (t n)) (d n) ∧ elementSize (itemsize (t n)) (d n) ≤ buffer_size))
    (l : List Name) {n : Name} (hn : n ∈ l) (hnn : n ∉ names) :
    ∃ D : Nat → List (Name × Option (AArr τ α β)), ∃ E : Nat → List (Name × Option (TypedArray Unit Nat)), multiRead P F files idx itemsize native buffer_size (.many names) group (some (.many l)) ra false = .ok ((List.range P).map (fun p => (.dict (D p), some (.dict (E p))))) ∧
      ∀ p < P, entry (E p) n = if P ≤ F then some none else none := by
  obtain ⟨out, nr, -, h2, h3⟩ := multiRead_core hP hF files idx itemsize native buffer_size group ra names t d hok
  refine ⟨fun p => (firsts names).map (fun n => (n, out n p)), fun p => (nrKeys P F names (.many l)).map (fun n => (n, nr n p)), ?_, ?_⟩
  · rw [h3 (.many names) (some (.many l)) false rfl]
    apply allRanks_ok
    intro p hp
    unfold returned
    simp only [pick, Bool.false_eq_true, if_false, Except.andThen, Option.map_some]
    rw [onRank_map hp, onRank_map hp]
  · intro p hp
    rw [entry_map, h2 n hnn]
    unfold nrKeys
    by_cases h : P ≤ F
    · rw [if_pos h, if_pos h]
      exact if_pos (mem_firsts.2 hn)
    · rw [if_neg h, if_neg h, if_neg]
      rw [mem_firsts, List.mem_filter]
      exact fun h => hnn h.1

namespace ExMultiFileRead

def ids : Name := "IDs".toList
def pos : Name := "Pos".toList
def grp : Name := "G".toList

/-- Three files with a group; the second file does not have `IDs`, and the third does not have the group. The attributes of `IDs` differ. -/
def files (f : Nat) : H5 Nat Nat Nat :=
  [⟨[], [(grp, [(ids, ⟨⟨8, [], [1, 2]⟩, [("a".toList, 10)]⟩), (pos, ⟨⟨4, [], [5]⟩, []⟩)])]⟩,
   ⟨[], [(grp, [(pos, ⟨⟨4, [], [6, 7]⟩, []⟩)])]⟩,
   ⟨[(ids, ⟨⟨8, [], [9]⟩, []⟩)], []⟩].getD f ⟨[], []⟩

theorem sameType : ∀ n ∈ [ids, pos], SameType 3 (arrayAt files (some grp) n) (if n = ids then 8 else 4) [] ∧
    (3 < 5 → 0 < elementSize (id (if n = ids then 8 else 4)) [] ∧ elementSize (id (if n = ids then 8 else 4)) [] ≤ 16) := by
  intro n hn
  have h0 : ∀ n ∈ [ids, pos], ∀ f < 3, ∀ x ∈ (arrayAt files (some grp) n f).toList, x.dtype = (if n = ids then 8 else 4) ∧ x.dims = [] := by decide +kernel
  refine ⟨fun f hf x hx => h0 n hn f hf x (by rw [hx]; simp), fun _ => ?_⟩
  rcases List.mem_cons.1 hn with rfl | hn
  · decide +kernel
  · rcases List.mem_cons.1 hn with rfl | hn
    · decide +kernel
    · simp at hn

example := C104_read (P := 5) (by omega) (by omega) files id id id 16 (some grp) true [ids, pos] (fun n => if n = ids then 8 else 4) (fun _ => [])
  (fun n hn => ⟨(sameType n hn).1, fun _ => (sameType n hn).2 (by omega)⟩) (some [pos]) (by rintro l hl; cases hl; intro n hn; simp at hn; simp [hn])

/-- Two ranks: the second one gets an array without elements, with the attributes of the first one. -/
example : multiRead 2 3 files (fun f => 5 + f) id id 16 (.many [ids, pos]) (some grp) (some (.many [pos])) true false =
    .ok [(.dict [(ids, some ⟨⟨8, [], [1, 2]⟩, some [("a".toList, 10)]⟩), (pos, some ⟨⟨4, [], [5, 6, 7]⟩, some []⟩)], some (.dict [(pos, some ⟨(), [], [5, 6, 6]⟩)])),
      (.dict [(ids, some ⟨⟨8, [], []⟩, some [("a".toList, 10)]⟩), (pos, some ⟨⟨4, [], []⟩, some []⟩)], some (.dict [(pos, some ⟨(), [], []⟩)]))] := by decide +kernel

example : multiRead 4 3 files (fun f => 5 + f) id id 16 (.many [pos, ids]) (some grp) (some (.many [ids, pos])) false true =
    .ok [(.list [some ⟨⟨4, [], [5]⟩, none⟩, some ⟨⟨8, [], [1]⟩, none⟩], some (.list [some ⟨(), [], [5]⟩, some ⟨(), [], [5]⟩])),
      (.list [some ⟨⟨4, [], []⟩, none⟩, some ⟨⟨8, [], [2]⟩, none⟩], some (.list [some ⟨(), [], []⟩, some ⟨(), [], [5]⟩])),
      (.list [some ⟨⟨4, [], [6, 7]⟩, none⟩, some ⟨⟨8, [], []⟩, none⟩], some (.list [some ⟨(), [], [6, 6]⟩, some ⟨(), [], []⟩])),
      (.list [some ⟨⟨4, [], []⟩, none⟩, some ⟨⟨8, [], []⟩, none⟩], some (.list [some ⟨(), [], []⟩, some ⟨(), [], []⟩]))] := by decide +kernel

example : multiRead 1 3 files id id id 16 (.one ids) none none true false = .ok [(.single (some ⟨⟨8, [], [9]⟩, some []⟩), none)] := by decide +kernel

example : multiRead 2 3 files id id id 16 (.one ids) (some grp) (some (.one ids)) false false = .error .keyError := by decide +kernel

end ExMultiFileRead

end Verif.MultiFileRead
