import Verif.Proofs.ParallelHdf5Tests

/-! C125: the tests of `virgo.mpi.parallel_hdf5` (python/virgo/mpi/test_parallel_hdf5.py), for every array and every set of files which they could make -/

namespace Verif.ParallelHdf5Tests

open Verif.SortTests

variable {α τ : Type}

/-- C125. The check of `do_collective_read` decides correctness if the dataset and what was read have the same number of rows, or neither has exactly one. -/
theorem C125_read_iff [DecidableEq α] (P : Nat) (arr : List α) (arr_coll : Nat → List α)
    (h : arr.length = (gcat P arr_coll).length ∨ arr.length ≠ 1 ∧ (gcat P arr_coll).length ≠ 1) :
    checkCollectiveRead P arr arr_coll = .ok () ↔ gcat P arr_coll = arr := (assertAllEqual_iff h).trans eq_comm

/-- C125. `do_collective_read` passes with `collective_read`, for every dataset and number of ranks, if a row fits into the buffer. -/
theorem C125_read [DecidableEq α] [Inhabited α] {P : Nat} (hP : 0 < P) (arr : List α) {itemsize : Nat} {dims : List Nat} {buffer_size : Nat}
    (h0 : 0 < elementSize itemsize dims) (hb : elementSize itemsize dims ≤ buffer_size) : doCollectiveRead P arr itemsize dims buffer_size = .ok () := by
  obtain ⟨out, h1, h2, -⟩ := C31_collective_read hP arr h0 hb
  unfold doCollectiveRead
  rw [bind_ok_iff]
  refine ⟨out, h1, ?_⟩
  unfold checkCollectiveRead
  rw [h2]
  exact assertAllEqual_self _

/-- C125. The check of `do_collective_write` decides correctness in the same way. -/
theorem C125_write_iff [DecidableEq α] (P : Nat) (arr_local : Nat → List α) (arr_check : List α)
    (h : (gcat P arr_local).length = arr_check.length ∨ (gcat P arr_local).length ≠ 1 ∧ arr_check.length ≠ 1) :
    checkCollectiveWrite P arr_local arr_check = .ok () ↔ arr_check = gcat P arr_local := (assertAllEqual_iff h).trans eq_comm

/-- C125. `do_collective_write` passes with `collective_write`. -/
theorem C125_write [DecidableEq α] [DecidableEq τ] {P : Nat} (arr_local : Nat → List α) {t : τ} {dims : List Nat} {itemsize : τ → Nat} {buffer_size fuel : Nat} {old : List α}
    (h0 : 0 < elementSize (itemsize t) dims) (hb : elementSize (itemsize t) dims ≤ buffer_size) (hold : old.length = (gcat P arr_local).length) (hfuel : old.length ≤ fuel) :
    doCollectiveWrite P (fun p => ⟨t, dims, arr_local p⟩) itemsize buffer_size fuel old = .ok () := by
  obtain ⟨calls, h1, -⟩ := C32_collective_write (P := P) (data := fun p => (⟨t, dims, arr_local p⟩ : TypedArray τ α)) (itemsize := itemsize) (buffer_size := buffer_size) (fuel := fuel)
    (old := old) (fun _ _ => rfl) (fun _ _ => rfl) h0 hb (by rw [hold, length_gcat]; rfl) (fun r hr => by
      rw [hold, length_gcat] at hfuel
      have := pre_lt_total (f := sizes arr_local) hr
      simp only [sizes] at *
      omega)
  unfold doCollectiveWrite
  rw [bind_ok_iff]
  exact ⟨_, h1, assertAllEqual_self _⟩

/-- C125. The check of `read_multi_file_output` decides correctness: whatever arrays the ranks have, it passes if and only if they are together the rows of all files, provided that both
numbers of rows are the same or neither is one. -/
theorem C125_multi_file_iff [DecidableEq α] {P F : Nat} (hP : 0 < P) {files : Nat → Option (TypedArray τ α)} (hex : ∃ f < F, files f ≠ none) (rows : Nat → List α)
    (h : (gcat P rows).length = (gcat F (fileRows files)).length ∨ (gcat P rows).length ≠ 1 ∧ (gcat F (fileRows files)).length ≠ 1) :
    checkMultiFile F files ((List.range P).map (fun p => some (rows p))) = .ok () ↔ gcat P rows = gcat F (fileRows files) := by
  have e : (List.range P).map (fun p => some (rows p)) = ((List.range P).map rows).map some := by rw [List.map_map]; rfl
  have hne : (List.range P).map rows ≠ [] := by
    intro hn
    have := congrArg List.length hn
    simp at this
    omega
  unfold checkMultiFile
  rw [bind_ok_iff, e, concatenate_ok _ hne]
  have hg : ((List.range P).map rows).flatten = gcat P rows := by rw [gcat_eq_flatMap, List.flatMap_def]
  rw [← assertAllEqual_iff h]
  constructor
  · rintro ⟨a, h1, h2⟩
    injection h1 with h1
    subst h1
    rw [bind_ok_iff, concatenate_files hex] at h2
    obtain ⟨b, h3, h4⟩ := h2
    injection h3 with h3
    subst h3
    rwa [hg] at h4
  · intro h1
    refine ⟨_, rfl, ?_⟩
    rw [bind_ok_iff]
    exact ⟨_, concatenate_files hex, by rw [hg]; exact h1⟩

/-- C125. `read_multi_file_output` passes with `MultiFile.read`, for every set of files made by `create_multi_file_output` in which at least one file has the dataset. -/
theorem C125_multi_file [DecidableEq α] [DecidableEq τ] [Inhabited α] {P F : Nat} (hP : 0 < P) (double single : τ) (have_data : Nat → Bool) (arr : Nat → List α) {itemsize : τ → Nat}
    (native : τ → τ) {buffer_size : Nat} (h0 : 0 < itemsize double) (hb : itemsize double ≤ buffer_size) (hex : ∃ f < F, have_data f = true) :
    readMultiFileOutput P F (createMultiFile double single have_data (fun _ => false) arr) itemsize native buffer_size = .ok () := by
  have hc : SameType F (createMultiFile double single have_data (fun _ => false) arr) double [] := by
    intro f _ a ha
    unfold createMultiFile at ha
    split at ha
    · simp at ha; subst ha; exact ⟨rfl, rfl⟩
    · cases ha
  have hex' : ∃ f < F, createMultiFile double single have_data (fun _ => false) arr f ≠ none := by
    obtain ⟨f, hf, hh⟩ := hex
    exact ⟨f, hf, by simp [createMultiFile, hh]⟩
  obtain ⟨rows, nr, h1, -, h3, -⟩ := C28_C29_read hP (by obtain ⟨f, hf, -⟩ := hex; omega) id native hc (itemsize := itemsize) (buffer_size := buffer_size) (fun _ => ⟨h0, hb⟩) hex'
  unfold readMultiFileOutput
  rw [bind_ok_iff]
  refine ⟨_, h1, ?_⟩
  rw [List.map_map]
  exact (C125_multi_file_iff hP hex' rows (Or.inl (by rw [h3]))).2 h3

/-- C125. If no file has the dataset the test ends with `ValueError`, whatever the file set: `create_multi_file_output` draws again in this case. -/
theorem C125_no_data [DecidableEq α] [DecidableEq τ] [Inhabited α] {P F : Nat} (hP : 0 < P) (hF : 0 < F) {files : Nat → Option (TypedArray τ α)} (itemsize : τ → Nat)
    (native : τ → τ) (buffer_size : Nat) (hno : ∀ f < F, files f = none) : readMultiFileOutput P F files itemsize native buffer_size = .error .valueError := by
  unfold readMultiFileOutput
  rw [C28_read_missing hP hF id itemsize native buffer_size hno]
  show checkMultiFile F files _ = _
  unfold checkMultiFile
  have : concatenate (((List.range P).map (fun _ => ((none : Option (TypedArray τ α)), (none : Option (TypedArray Unit Nat))))).map (fun e => e.1.map TypedArray.rows)) =
      (.error .valueError : Except Err (List α)) := by
    unfold concatenate
    rw [if_pos]
    simp only [List.map_map, Bool.or_eq_true, List.any_eq_true]
    exact Or.inr ⟨none, List.mem_map.2 ⟨0, List.mem_range.2 hP, rfl⟩, rfl⟩
  rw [this]
  rfl

/-- C125. `MultiFile.read` raises `RuntimeError` on all ranks if two files have the dataset with different types, for all numbers of files and ranks and whether or not other files have the
dataset, if the types differ in more than byte order. -/
theorem C125_types_differ [DecidableEq τ] [Inhabited α] {P F : Nat} (hP : 0 < P) {files : Nat → Option (TypedArray τ α)} (idx : Nat → Nat) {itemsize : τ → Nat}
    (native : τ → τ) (buffer_size : Nat) {d : List Nat} (hd : ∀ f < F, ∀ a, files f = some a → a.dims = d)
    (he : ∀ f < F, ∀ a, files f = some a → 0 < elementSize (itemsize a.dtype) d) {f g : Nat} (hf : f < F) (hg : g < F) {a b : TypedArray τ α} (ha : files f = some a) (hb : files g = some b)
    (hne : native a.dtype ≠ native b.dtype) : multiFileRead P F files idx itemsize native buffer_size = .error .other := by
  have hF : 0 < F := by omega
  have hl : ∀ p, p < P → ∃ D b n, readLocal P F files idx itemsize buffer_size p = .ok (D, b, n) ∧
      (b = false → ∀ f, MultiFileRead.ReadsFile F P p f → ∀ a, files f = some a → ∃ c, D = some c ∧ c.dtype = a.dtype) :=
    fun p hp => readLocal_types hP hF idx buffer_size hd (fun _ => he) hp
  choose! D bb n h1 h2 using hl
  apply multiFileRead_inconsistent h1
  by_cases hbb : ∃ p < P, bb p = true
  · exact Or.inl hbb
  · right
    have hfalse : ∀ p < P, bb p = false := fun p hp => by
      cases hc : bb p with
      | false => rfl
      | true => exact absurd ⟨p, hp, hc⟩ hbb
    obtain ⟨p, hp, hrp⟩ := (MultiFileRead.readsFile_order hP hF).1 f hf
    obtain ⟨q, hq, hrq⟩ := (MultiFileRead.readsFile_order hP hF).1 g hg
    obtain ⟨x, hx, hxt⟩ := h2 p hp (hfalse p hp) f hrp a ha
    obtain ⟨y, hy, hyt⟩ := h2 q hq (hfalse q hq) g hrq b hb
    exact ⟨p, hp, q, hq, x, y, hx, hy, by rw [hxt, hyt]; exact hne⟩

/-- C125. The tests with inconsistent types pass in both modes: whichever files are float32, at least one but not all of them, reading raises `RuntimeError`. -/
theorem C125_inconsistent [DecidableEq α] [DecidableEq τ] [Inhabited α] {P F : Nat} (hP : 0 < P) {double single : τ} (hds : double ≠ single) (inconsistent : Nat → Bool) (arr : Nat → List α)
    {itemsize : τ → Nat} (h0 : 0 < itemsize double) (h1 : 0 < itemsize single) (buffer_size : Nat) (hi : ∃ f < F, inconsistent f = true) (hn : ∃ f < F, inconsistent f = false) :
    raisesRuntimeError (readMultiFileOutput P F (createMultiFile double single (fun _ => true) inconsistent arr) itemsize id buffer_size) = true := by
  obtain ⟨f, hf, hfi⟩ := hi
  obtain ⟨g, hg, hgi⟩ := hn
  have hcr : ∀ f, createMultiFile double single (fun _ => true) inconsistent arr f = some ⟨if inconsistent f then single else double, [], arr f⟩ := fun f => rfl
  unfold readMultiFileOutput
  rw [C125_types_differ hP id id buffer_size (d := []) (f := f) (g := g) _ _ hf hg (hcr f) (hcr g)]
  · rfl
  · simp [hfi, hgi, hds.symm]
  · intro f _ a ha; rw [hcr f] at ha; cases ha; rfl
  · intro f _ a ha
    rw [hcr f] at ha; cases ha
    show 0 < itemsize _
    simp only
    split
    · exact h1
    · exact h0

/-- C125. The check of `multi_file_round_trip` is exact: it passes if and only if every file of the new set has the rows of the old one, where no dataset is as good as an empty one. -/
theorem C125_round_trip_iff [DecidableEq α] (F : Nat) (old new : Nat → Option (List α)) :
    checkRoundTrip F old new = .ok () ↔ ∀ f < F, (new f).getD [] = (old f).getD [] := by
  unfold checkRoundTrip
  rw [bind_ok_iff]
  have key := sameFiles_iff old new (List.range F)
  constructor
  · rintro ⟨c, h1, h2⟩ f hf
    rw [assertRankZero_iff] at h2
    rw [h2] at h1
    exact (key.1 h1 f (List.mem_range.2 hf)).symm
  · intro h
    exact ⟨true, key.2 (fun f hf => (h f (List.mem_range.1 hf)).symm), rfl⟩

/-- C125. `multi_file_round_trip` passes, for every set of files made by `create_multi_file_output` in which at least one file has the dataset. -/
theorem C125_round_trip [DecidableEq α] [DecidableEq τ] [Inhabited α] {P F : Nat} (hP : 0 < P) (double single : τ) (have_data : Nat → Bool) (arr : Nat → List α) {itemsize : τ → Nat}
    {native : τ → τ} {buffer_size fuel : Nat} (empty : TypedArray τ α) (hnat : itemsize (native double) = itemsize double) (h0 : 0 < itemsize double) (hb : itemsize double ≤ buffer_size)
    (hex : ∃ f < F, have_data f = true) (hfuel : (gcat F arr).length ≤ fuel) :
    multiFileRoundTrip P F (createMultiFile double single have_data (fun _ => false) arr) itemsize native buffer_size fuel empty = .ok () := by
  have hc : SameType F (createMultiFile double single have_data (fun _ => false) arr) double [] := by
    intro f _ a ha
    unfold createMultiFile at ha
    split at ha
    · simp at ha; subst ha; exact ⟨rfl, rfl⟩
    · cases ha
  have hlen : (gcat F (fileRows (createMultiFile double single have_data (fun _ => false) arr))).length ≤ fuel := by
    refine Nat.le_trans ?_ hfuel
    rw [length_gcat, length_gcat]
    have : ∀ n, pre (sizes (fileRows (createMultiFile double single have_data (fun _ => false) arr))) n ≤ pre (sizes arr) n := by
      intro n
      induction n with
      | zero => simp [pre]
      | succ n ih =>
        rw [pre_succ, pre_succ]
        have : sizes (fileRows (createMultiFile double single have_data (fun _ => false) arr)) n ≤ sizes arr n := by
          unfold sizes fileRows createMultiFile
          split <;> simp
        omega
    exact this F
  have hex' : ∃ f < F, createMultiFile double single have_data (fun _ => false) arr f ≠ none := by
    obtain ⟨f, hf, hh⟩ := hex
    exact ⟨f, hf, by simp [createMultiFile, hh]⟩
  generalize createMultiFile double single have_data (fun _ => false) arr = files at *
  obtain ⟨rows, nr, epf, h1, h2, h3⟩ := round_trip_ranks hP (by obtain ⟨f, hf, -⟩ := hex; omega) hc hnat (buffer_size := buffer_size) (fun _ => ⟨h0, hb⟩) hex' hlen
  unfold multiFileRoundTrip
  rw [bind_ok_iff]
  refine ⟨_, h1, ?_⟩
  rw [bind_ok_iff, List.map_map]
  obtain ⟨g, h4, h5⟩ := arraysOf_ok (P := P) (fun p => (⟨native double, [], rows p⟩ : TypedArray τ α))
  refine ⟨g, h4, ?_⟩
  rw [bind_ok_iff]
  refine ⟨_, allRanks_ok h2, ?_⟩
  rw [bind_ok_iff]
  refine ⟨_, allRanks_ok (h3 _ _ (fun p hp => by rw [h5 p hp]; rfl) (fun p hp => ?_)), ?_⟩
  · rw [List.getD_eq_getElem?_getD, List.getElem?_map, List.getElem?_range hp]; rfl
  · rw [C125_round_trip_iff]
    intro f hf
    rw [List.getElem?_map, List.getElem?_range hf]
    show fileRows files f = _
    unfold fileRows
    cases files f <;> rfl

/-- C125, a defect of the tests: NumPy repeats an array of one element in the comparison. If the files have one element in total, the test passes whatever number of copies of it the ranks
have read, among them none at all. With `elements_per_file=1` and one file there is never more than one element. -/
theorem C125_one_element_defect [DecidableEq α] {P F : Nat} (hP : 0 < P) {files : Nat → Option (TypedArray τ α)} {x : α} (hx : gcat F (fileRows files) = [x]) (copies : Nat → Nat) :
    checkMultiFile F files ((List.range P).map (fun p => some (List.replicate (copies p) x))) = .ok () := by
  have hex : ∃ f < F, files f ≠ none := by
    by_contra hno
    have : ∀ f < F, fileRows files f = [] := by
      intro f hf
      unfold fileRows
      cases h : files f with
      | none => rfl
      | some a => exact absurd ⟨f, hf, by simp [h]⟩ hno
    have h2 : gcat F (fileRows files) = gcat F (fun _ => []) := gcat_congr this
    have h3 : gcat F (fun _ => ([] : List α)) = [] := by rw [gcat_eq_flatMap]; simp
    rw [h2, h3] at hx
    cases hx
  have e : (List.range P).map (fun p => some (List.replicate (copies p) x)) = ((List.range P).map (fun p => List.replicate (copies p) x)).map some := by rw [List.map_map]; rfl
  have hne : (List.range P).map (fun p => List.replicate (copies p) x) ≠ [] := by
    intro hn
    have := congrArg List.length hn
    simp at this
    omega
  have hg : ((List.range P).map (fun p => List.replicate (copies p) x)).flatten = List.replicate (pre copies P) x := by
    rw [← gcat_replicate, gcat_eq_flatMap, List.flatMap_def]
  unfold checkMultiFile
  rw [bind_ok_iff, e, concatenate_ok _ hne]
  refine ⟨_, rfl, ?_⟩
  rw [bind_ok_iff]
  refine ⟨_, concatenate_files hex, ?_⟩
  unfold assertAllEqual
  rw [hg, hx, bind_ok_iff]
  exact ⟨true, allEqual_replicate x _, rfl⟩

/-- C125, the same for a dataset of one row in the tests of `collective_read` and `collective_write`: the element may be lost. -/
theorem C125_lost_defect [DecidableEq α] (P : Nat) (x : α) :
    checkCollectiveRead P [x] (fun _ => []) = .ok () ∧ ∀ arr_local : Nat → List α, gcat P arr_local = [x] → checkCollectiveWrite P arr_local [] = .ok () := by
  have h0 : gcat P (fun _ => ([] : List α)) = [] := by rw [gcat_eq_flatMap]; simp
  refine ⟨?_, fun arr_local h => ?_⟩
  · unfold checkCollectiveRead
    rw [h0]; rfl
  · unfold checkCollectiveWrite
    rw [h]; rfl

namespace ExParallelHdf5Tests

-- three files, the second without data, on two and on five ranks
example : readMultiFileOutput 2 3 (createMultiFile 8 4 (fun f => f != 1) (fun _ => false) (fun f => [10 * f, 10 * f + 1, 10 * f + 2])) id id 256 = .ok () := by decide +kernel
example : multiFileRoundTrip 5 3 (createMultiFile 8 4 (fun f => f != 1) (fun _ => false) (fun f => [10 * f, 10 * f + 1, 10 * f + 2])) id id 256 9 ⟨8, [], []⟩ = .ok () := by decide +kernel
-- the last file is float32
example : readMultiFileOutput 2 4 (createMultiFile 8 4 (fun _ => true) (fun f => f == 3) (fun f => [f])) id id 256 = .error .other := by decide +kernel
example : readMultiFileOutput 4 2 (createMultiFile 8 4 (fun _ => true) (fun f => f == 1) (fun f => [f])) id id 256 = .error .other := by decide +kernel
-- a wrong result is found, a lost single element is not
example : checkCollectiveRead 2 [1, 2, 3] (fun p => [[1], [2, 4]].getD p []) = .error .assertion := by decide +kernel
example : checkCollectiveRead 2 [1, 2, 3] (fun p => [[1], [2]].getD p []) = .error .valueError := by decide +kernel
example : checkMultiFile 1 (fun _ => some (⟨8, [], [7]⟩ : TypedArray Nat Nat)) [some [], some []] = .ok () := by decide +kernel

end ExParallelHdf5Tests

end Verif.ParallelHdf5Tests
