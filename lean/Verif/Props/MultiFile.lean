import Verif.Proofs.MultiFileWrite
import Verif.Proofs.ReduceElements

set_option linter.unusedSectionVars false

namespace Verif

variable {α τ : Type*}

/-- C26: `assign_files` does not raise; all files are handed out and every rank gets at least the rounded down average. -/
theorem C26_assign_files (nr_files : Nat) {nr_ranks : Nat} (h : 0 < nr_ranks) :
    ∃ l, assignFiles nr_files nr_ranks = .ok l ∧ l.length = nr_ranks ∧ l.sum = nr_files ∧ (∀ x ∈ l, nr_files / nr_ranks ≤ x) ∧
      ∀ x ∈ l, x ≤ nr_files / nr_ranks + nr_files % nr_ranks := assignFiles_ok nr_files h

/-- The upper bound is attained: the files left over are not spread evenly. -/
theorem C26_assign_files_unbalanced : assignFiles 14 4 = .ok [5, 3, 3, 3] := by decide +kernel

example : assignFiles 10 4 = .ok [3, 2, 2, 3] := by decide +kernel

/-- C27: at least as many files as ranks. The ranges of files are consecutive, not empty and cover all files. -/
theorem C27_layout_independent {F P : Nat} (hP : 0 < P) (hF : P ≤ F) : ∃ num : Nat → Nat, pre num P = F ∧ (∀ p < P, 0 < num p) ∧
    ∀ p < P, multiFileLayout F P p = .ok (.independent (pre num p) (num p)) := layout_independent hP hF

/-- C27: every file is read by exactly one rank. -/
theorem C27_independent_unique {F P : Nat} (hP : 0 < P) (hF : P ≤ F) {f : Nat} (hf : f < F) :
    ∃! p, p < P ∧ ∃ first num, multiFileLayout F P p = .ok (.independent first num) ∧ first ≤ f ∧ f < first + num := by
  obtain ⟨num, h1, h2, h3⟩ := layout_independent hP hF
  obtain ⟨p, hp, h4, h5⟩ := exists_block (f := num) (show f < pre num P by omega)
  refine ⟨p, ⟨hp, _, _, h3 p hp, h4, h5⟩, ?_⟩
  rintro q ⟨hq, first, n, h6, h7, h8⟩
  rw [h3 q hq] at h6
  simp only [Except.ok.injEq, FileLayout.independent.injEq] at h6
  obtain ⟨rfl, rfl⟩ := h6
  exact block_unique (f := num) h7 h8 h4 h5

/-- C27: fewer files than ranks. Each file has at least one rank, its ranks are consecutive and numbered in order. -/
theorem C27_layout_collective {F P : Nat} (hF : 0 < F) (hP : F < P) : ∃ n : Nat → Nat, pre n F = P ∧ (∀ f < F, 0 < n f) ∧
    ∀ f < F, ∀ k < n f, multiFileLayout F P (pre n f + k) = .ok (.collective f k (n f)) := by
  obtain ⟨l, -, -, h3, h4, h5⟩ := layout_collective hF hP
  exact ⟨fun j => l.getD j 0, h3, h4, h5⟩

/-- C27: with fewer files than ranks every rank belongs to a file, and has a number below the number of ranks of this file. -/
theorem C27_collective_total {F P : Nat} (hF : 0 < F) (hP : F < P) {p : Nat} (hp : p < P) :
    ∃ f k n, multiFileLayout F P p = .ok (.collective f k n) ∧ f < F ∧ k < n := by
  obtain ⟨n, h3, h4, h5⟩ := C27_layout_collective hF hP
  obtain ⟨f, hf, h6, h7⟩ := exists_block (f := n) (show p < pre n F by omega)
  have := h5 f hf (p - pre n f) (by omega)
  rw [show pre n f + (p - pre n f) = p by omega] at this
  exact ⟨f, _, _, this, hf, by omega⟩

example : (List.range 3).map (multiFileLayout 7 3) = [.ok (.independent 0 3), .ok (.independent 3 2), .ok (.independent 5 2)] := by decide +kernel
example : (List.range 5).map (multiFileLayout 2 5) = [.ok (.collective 0 0 3), .ok (.collective 0 1 3), .ok (.collective 0 2 3), .ok (.collective 1 0 2), .ok (.collective 1 1 2)] := by
  decide +kernel

/-- No files: the constructor fails. -/
theorem C27_no_files {P p : Nat} (hP : 0 < P) : multiFileLayout 0 P p = .error .zeroDivision := by
  unfold multiFileLayout
  rw [if_neg (by omega)]
  simp [assignFiles]

theorem readLocal_ok [DecidableEq τ] [Inhabited α] {P F : Nat} (hP : 0 < P) (hF : 0 < F) {files : Nat → Option (TypedArray τ α)} (idx : Nat → Nat) {itemsize : τ → Nat}
    {buffer_size : Nat} {t : τ} {d : List Nat} (hc : SameType F files t d)
    (hb : F < P → 0 < elementSize (itemsize t) d ∧ elementSize (itemsize t) d ≤ buffer_size) :
    ∃ has rows nr, ReadLocalOk P F files idx t d has rows nr ∧ (∀ p < P, readLocal P F files idx itemsize buffer_size p =
      .ok (if has p then some ⟨t, d, rows p⟩ else none, false, if has p then some (nr p) else none)) := by
  by_cases h : F < P
  · exact readLocal_collective hF h idx hc (hb h).1 (hb h).2
  · exact readLocal_independent hP (by omega) idx itemsize buffer_size hc

/-- C28, C29: all ranks get an array of the native type, unless no file has the dataset. Together they are the contents of the files in file order, and each row comes
with the number of its file. This does not depend on the number of ranks. -/
theorem C28_C29_read [DecidableEq τ] [Inhabited α] {P F : Nat} (hP : 0 < P) (hF : 0 < F) {files : Nat → Option (TypedArray τ α)} (idx : Nat → Nat) {itemsize : τ → Nat}
    (native : τ → τ) {buffer_size : Nat} {t : τ} {d : List Nat} (hc : SameType F files t d)
    (hb : F < P → 0 < elementSize (itemsize t) d ∧ elementSize (itemsize t) d ≤ buffer_size) (hex : ∃ f < F, files f ≠ none) :
    ∃ rows : Nat → List α, ∃ nr : Nat → List Nat, multiFileRead P F files idx itemsize native buffer_size =
        .ok ((List.range P).map (fun p => (some ⟨native t, d, rows p⟩, some ⟨(), [], nr p⟩))) ∧
      (∀ p < P, (nr p).length = (rows p).length) ∧ gcat P rows = gcat F (fileRows files) ∧
      gcat P (fun p => (rows p).zip (nr p)) = filesWithNr F files idx := by
  obtain ⟨has, rows, nr, h1, h2⟩ := readLocal_ok hP hF idx hc hb
  obtain ⟨h3, -⟩ | ⟨-, h3⟩ := multiFileRead_of_local (native := native) h1 h2
  · obtain ⟨f, hf, hne⟩ := hex
    exact absurd (h3 f hf) hne
  · refine ⟨rows, nr, h3, h1.len_eq, h1.rows_eq, ?_⟩
    rw [← zip_gcat (fun p hp => (h1.len_eq p hp).symm), h1.rows_eq, h1.nr_eq, zip_gcat (fun p hp => by simp [fileNrs])]
    unfold filesWithNr
    rw [← gcat_eq_flatMap]
    apply gcat_congr
    intro f hf
    unfold fileNrs
    generalize fileRows files f = l
    induction l with
    | nil => rfl
    | cons x l ih => rw [List.length_cons, List.replicate_succ, List.zip_cons_cons, ih]; rfl

/-- C28: a dataset which is in no file gives `None` on all ranks. -/
theorem C28_read_missing [DecidableEq τ] [Inhabited α] {P F : Nat} (hP : 0 < P) (hF : 0 < F) {files : Nat → Option (TypedArray τ α)} (idx : Nat → Nat) (itemsize : τ → Nat)
    (native : τ → τ) (buffer_size : Nat) (hno : ∀ f < F, files f = none) :
    multiFileRead P F files idx itemsize native buffer_size = .ok ((List.range P).map (fun _ => (none, none))) := by
  have key : ∀ p < P, readLocal P F files idx itemsize buffer_size p = .ok (none, false, none) := by
    intro p hp
    unfold readLocal
    by_cases h : F < P
    · obtain ⟨f, k, n, h1, h2, -⟩ := C27_collective_total hF h hp
      rw [h1]
      simp only [readCollective, hno f h2]
    · obtain ⟨num, h1, h2, h3⟩ := layout_independent hP (show P ≤ F by omega)
      rw [h3 p hp]
      simp only [readIndependent]
      have hlt := pre_lt_total (f := num) hp
      have e1 : (List.range' (pre num p) (num p)).filterMap files = [] := by
        rw [List.filterMap_eq_nil_iff]
        intro i hi
        rw [List.mem_range'_1] at hi
        exact hno i (by omega)
      have e2 : (List.range' (pre num p) (num p)).filterMap (fun i => (files i).map (fun a => List.replicate a.rows.length (idx i))) = [] := by
        rw [List.filterMap_eq_nil_iff]
        intro i hi
        rw [List.mem_range'_1] at hi
        rw [hno i (by omega)]; rfl
      rw [e1, e2]
      rfl
  unfold multiFileRead
  rw [allRanks_ok key]
  simp only [Except.andThen]
  rw [if_neg (by simp)]
  have hget : ∀ p, p < P → ((List.range P).map (fun _ => ((none : Option (TypedArray τ α)), false, (none : Option (List Nat)))))[p]? = some (none, false, none) := by
    intro p hp
    rw [List.getElem?_map, List.getElem?_range hp]; rfl
  rw [allRanks_ok (g := fun _ => none) (fun p hp => replaceNone_all hp (fun q hq => by rw [hget q hq]; rfl))]
  simp only
  rw [allRanks_ok (g := fun _ => none) (fun p hp => replaceNone_all hp (fun q hq => by rw [hget q hq]; rfl))]
  simp only
  rw [if_neg (by simp [List.filterMap_map]), List.zip_map']

/-- C30: reading and writing back with the numbers of elements of the input files gives files with the same rows; in files which do not have the dataset it becomes an empty one.
Files with the same number (for example with the same file number given twice) must have the same length. -/
theorem C30_round_trip [DecidableEq τ] [Inhabited α] {P F : Nat} (hP : 0 < P) (hF : 0 < F) {files : Nat → Option (TypedArray τ α)} {idx : Nat → Nat}
    (hidx : ∀ i < F, ∀ j < F, idx i = idx j → (fileRows files i).length = (fileRows files j).length) {itemsize : τ → Nat} {native : τ → τ}
    {buffer_size fuel : Nat} {t : τ} {d : List Nat} (hc : SameType F files t d) (hnat : itemsize (native t) = itemsize t)
    (hb : F < P → 0 < elementSize (itemsize t) d ∧ elementSize (itemsize t) d ≤ buffer_size) (hex : ∃ f < F, files f ≠ none)
    (hfuel : (gcat F (fileRows files)).length ≤ fuel) :
    ∃ data : Nat → TypedArray τ α, ∃ epf : Nat → List (Nat × Nat), (∃ out, multiFileRead P F files idx itemsize native buffer_size = .ok out ∧
        out.map Prod.fst = (List.range P).map (fun p => some (data p))) ∧
      (∀ p < P, elementsPerFile P F files idx p = .ok (epf p)) ∧
      ∀ f < F, multiFileWrite P F data epf idx itemsize buffer_size fuel f = .ok (some ⟨native t, d, fileRows files f⟩) := by
  obtain ⟨has, rows, nr, h1, h2⟩ := readLocal_ok hP hF idx hc hb
  obtain ⟨h3, -⟩ | ⟨-, h3⟩ := multiFileRead_of_local (native := native) h1 h2
  · obtain ⟨f, hf, hne⟩ := hex
    exact absurd (h3 f hf) hne
  · have h4 := h1.epf
    choose! epf h5 h6 using h4
    refine ⟨fun p => ⟨native t, d, rows p⟩, epf, ⟨_, h3, ?_⟩, h5, ?_⟩
    · rw [List.map_map]; rfl
    · intro f hf
      have hrow : slice (gcat P rows) (pre (fun f => (fileRows files f).length) f) (fileRows files f).length = fileRows files f := by
        rw [h1.rows_eq]
        exact slice_gcat hf
      rw [← hrow]
      by_cases h : F < P
      · refine multiFileWrite_collective (files := files) (data := fun p => ⟨native t, d, rows p⟩) hF h (fun p hp => ⟨rfl, rfl⟩) h5 h6
          (by rw [hnat]; exact (hb h).1) (by rw [hnat]; exact (hb h).2) (fun p hp => ?_) hf
        refine Nat.le_trans ?_ hfuel
        rw [← h1.rows_eq, length_gcat]
        have := pre_lt_total (f := sizes rows) hp
        simp only [sizes] at *
        omega
      · exact multiFileWrite_independent (files := files) (data := fun p => ⟨native t, d, rows p⟩) hP (by omega) hidx (fun p hp => ⟨rfl, rfl⟩) h5 h6 itemsize buffer_size fuel hf

/-- Three files, the second without the dataset, the others of different lengths. -/
def exampleFiles (f : Nat) : Option (TypedArray Nat Nat) := [some ⟨8, [], [10, 11, 12]⟩, none, some ⟨8, [], [20, 21, 22, 23, 24]⟩].getD f none

example : SameType 3 exampleFiles 8 [] ∧ (∃ f < 3, exampleFiles f ≠ none) ∧ 0 < elementSize 8 [] ∧ elementSize 8 [] ≤ 16 := by
  refine ⟨?_, ⟨0, by omega, by decide⟩, by decide, by decide⟩
  intro f hf a ha
  match f, hf with
  | 0, _ => simp [exampleFiles] at ha; subst ha; exact ⟨rfl, rfl⟩
  | 1, _ => simp [exampleFiles] at ha
  | 2, _ => simp [exampleFiles] at ha; subst ha; exact ⟨rfl, rfl⟩

example : multiFileRead 2 3 exampleFiles (fun f => 5 + f) id id 16 =
    .ok [(some ⟨8, [], [10, 11, 12]⟩, some ⟨(), [], [5, 5, 5]⟩), (some ⟨8, [], [20, 21, 22, 23, 24]⟩, some ⟨(), [], [7, 7, 7, 7, 7]⟩)] := by decide +kernel

example : multiFileRead 5 3 exampleFiles (fun f => 5 + f) id id 16 =
    .ok [(some ⟨8, [], [10, 11]⟩, some ⟨(), [], [5, 5]⟩), (some ⟨8, [], [12]⟩, some ⟨(), [], [5]⟩), (some ⟨8, [], []⟩, some ⟨(), [], []⟩), (some ⟨8, [], []⟩, some ⟨(), [], []⟩),
      (some ⟨8, [], [20, 21, 22, 23, 24]⟩, some ⟨(), [], [7, 7, 7, 7, 7]⟩)] := by decide +kernel

/-- Whether files of different byte order can be read depends on the number of ranks: the types are compared as they are in the file within a rank, but in native order between ranks. -/
theorem C28_byte_order_depends_on_ranks :
    multiFileRead 1 2 (fun f => some (⟨f, [], [f]⟩ : TypedArray Nat Nat)) id (fun _ => 8) (fun _ => 0) 16 = .error .other ∧
    multiFileRead 2 2 (fun f => some (⟨f, [], [f]⟩ : TypedArray Nat Nat)) id (fun _ => 8) (fun _ => 0) 16 =
      .ok [(some ⟨0, [], [0]⟩, some ⟨(), [], [0]⟩), (some ⟨0, [], [1]⟩, some ⟨(), [], [1]⟩)] := by constructor <;> decide +kernel

end Verif
