import Verif.Proofs.MultiFileWriteAll
import Verif.Proofs.MultiFileWrite

set_option linter.unusedSectionVars false

namespace Verif.MultiFileWrite

open Verif.MultiFileRead

variable {α β τ : Type*}

theorem outputNames_ok {substitute : Name → Nat → Except Err Name} {F : Nat} {idx : Nat → Nat} {out : Nat → Name} {filenames : NamesArg} (h : OutNames substitute F idx out filenames) :
    outputNames substitute F idx filenames = .ok ((List.range F).map out) := by
  unfold OutNames at h
  cases filenames with
  | one fmt => exact mapM_ok (fun i hi => h i (List.mem_range.1 hi))
  | many l => subst h; simp [outputNames]

/-- The part of file `i` of the rows of all ranks -/
theorem rank_slice {P F : Nat} (hP : 0 < P) (hF : P ≤ F) {files : Nat → Option (TypedArray τ α)} {idx : Nat → Nat} {num : Nat → Nat} 
    (h3 : ∀ p < P, multiFileLayout F P p = .ok (.independent (pre num p) (num p))) {epf : Nat → List (Nat × Nat)} (he : ∀ p < P, elementsPerFile P F files idx p = .ok (epf p)) :
    (∀ p < P, epf p = (List.range' (pre num p) (num p)).map (fun i => (idx i, (fileRows files i).length))) ∧
    ∀ rows : Nat → List α, (∀ p < P, (rows p).length = ((epf p).map Prod.snd).sum) → ∀ p < P, (rows p).length = pre (fun k => (fileRows files (pre num p + k)).length) (num p) ∧
      ∀ k < num p, slice (rows p) (0 + pre (fun k => (fileRows files (pre num p + k)).length) k) (fileRows files (pre num p + k)).length =
        slice (gcat P rows) (pre (fun f => (fileRows files f).length) (pre num p + k)) (fileRows files (pre num p + k)).length := by
  have hlen : ∀ i, (files i).elim 0 (fun a => a.rows.length) = (fileRows files i).length := by
    intro i; unfold fileRows; cases files i <;> rfl
  have hepf : ∀ p < P, epf p = (List.range' (pre num p) (num p)).map (fun i => (idx i, (fileRows files i).length)) := by
    intro p hp
    have := he p hp
    unfold elementsPerFile at this
    rw [h3 p hp] at this
    simp only [hlen, Except.ok.injEq] at this
    exact this.symm
  refine ⟨hepf, ?_⟩
  intro rows hl
  have hrows : ∀ p < P, (rows p).length = pre (fun k => (fileRows files (pre num p + k)).length) (num p) := by
    intro p hp
    rw [hl p hp, hepf p hp, List.map_map, List.range'_eq_map_range, List.map_map]
    exact sum_map_range _ _
  intro p hp
  refine ⟨hrows p hp, ?_⟩
  intro k hk
  have hpr : pre (sizes rows) p = pre (fun f => (fileRows files f).length) (pre num p) := by
    rw [pre_blocks]
    exact pre_congr (fun i hi => hrows i (by omega))
  have hsl := slice_gcat (P := P) (r := p) (a := rows) hp
  have hin : pre (fun k => (fileRows files (pre num p + k)).length) k + (fileRows files (pre num p + k)).length ≤ (rows p).length := by
    rw [hrows p hp]
    exact pre_lt_total (f := fun k => (fileRows files (pre num p + k)).length) hk
  rw [Nat.zero_add, pre_shift, ← hpr]
  conv_lhs => rw [← hsl]
  rw [slice_slice _ _ _ _ _ hin]

/-- C105: each output file gets its part of each of the arrays, with its attributes; everything else in it is as it was when it was opened, and no other file changes. For any number of ranks and files,
if the names of the files are different and the datasets do not exist yet. -/
theorem C105_write [DecidableEq τ] [Inhabited α] {P F : Nat} (hP : 0 < P) (hF : 0 < F) {files : Nat → Option (TypedArray τ α)} {idx : Nat → Nat}
    (hidx : ∀ i < F, ∀ j < F, idx i = idx j → (fileRows files i).length = (fileRows files j).length) {epf : Nat → List (Nat × Nat)}
    (he : ∀ p < P, elementsPerFile P F files idx p = .ok (epf p)) {names : List Name} (hn : names.Nodup) {data : Name → Nat → TypedArray τ α} {t : Name → τ} {d : Name → List Nat}
    (hc : ∀ n ∈ names, ∀ p < P, (data n p).dtype = t n ∧ (data n p).dims = d n) (hl : ∀ n ∈ names, ∀ p < P, (data n p).rows.length = ((epf p).map Prod.snd).sum)
    {itemsize : τ → Nat} {buffer_size fuel : Nat} (hb : F < P → ∀ n ∈ names, 0 < elementSize (itemsize (t n)) (d n) ∧ elementSize (itemsize (t n)) (d n) ≤ buffer_size ∧
      ∀ p < P, (data n p).rows.length ≤ fuel)
    {substitute : Name → Nat → Except Err Name} {filenames : NamesArg} {out : Nat → Name} (hout : OutNames substitute F idx out filenames)
    (hinj : ∀ i < F, ∀ j < F, out i = out j → i = j) {mode : Mode} {group : Option Name} {fs : FS τ α β} {start : Nat → H5 τ α β} (hstart : ∀ i < F, Opened mode (fs (out i)) (start i))
    (hg : ∀ i < F, ∀ g, group = some g → entry (start i).root g = none)
    (hfree : ∀ i < F, ∀ n ∈ names, datasetAt (start i) group n = none ∧ (group = none → entry (start i).groups n = none)) (attrs : Option (List (Name × List (Name × β)))) :
    ∃ fs', multiWrite P F substitute names data epf idx filenames mode group attrs itemsize buffer_size fuel fs = .ok fs' ∧
      (∀ i < F, ∃ h, fs' (out i) = some h ∧
        (∀ n ∈ names, datasetAt h group n = some ⟨⟨t n, d n, slice (gcat P (fun p => (data n p).rows)) (pre (fun f => (fileRows files f).length) i) (fileRows files i).length⟩,
          (attrs.bind (fun a => entry a n)).getD []⟩) ∧
        ∀ group' n, group' ≠ group ∨ n ∉ names → datasetAt h group' n = datasetAt (start i) group' n) ∧
      ∀ x, (∀ i < F, out i ≠ x) → fs' x = fs x := by
  let w : Nat → Name → TypedArray τ α := fun i n => ⟨t n, d n, slice (gcat P (fun p => (data n p).rows)) (pre (fun f => (fileRows files f).length) i) (fileRows files i).length⟩
  have hfile : ∀ i, ∃ h1 h2, i < F → requireGroup group (start i) = .ok h1 ∧ putAll group (names.map (fun n => (n, (⟨w i n, attrsFor attrs n⟩ : Dset τ α β)))) h1 = .ok h2 ∧
      (∀ n, datasetAt h2 group n = if n ∈ names then some ⟨w i n, attrsFor attrs n⟩ else datasetAt (start i) group n) ∧
      ∀ group' n, group' ≠ group → datasetAt h2 group' n = datasetAt (start i) group' n := by
    intro i
    by_cases hi : i < F
    · obtain ⟨h1, h2, h⟩ := fileWrite_ok hn (fun n => (⟨w i n, attrsFor attrs n⟩ : Dset τ α β)) (start i) (fun n hnn => (hfree i hi n hnn).1) (fun hx n hnn => (hfree i hi n hnn).2 hx)
        (fun g hgg _ => hg i hi g hgg)
      exact ⟨h1, h2, fun _ => h⟩
    · exact ⟨start i, start i, fun h => absurd h hi⟩
  choose mid res hres using hfile
  have hname : ∀ i < F, ((List.range F).map out).getD i [] = out i := by
    intro i hi
    simp [List.getD, List.getElem?_range hi]
  have hmain : multiWrite P F substitute names data epf idx filenames mode group attrs itemsize buffer_size fuel fs =
      .ok ((List.range F).foldl (fun fs i => setFile fs (((List.range F).map out).getD i []) (res i)) fs) := by
    unfold multiWrite
    rw [outputNames_ok hout]
    simp only [Except.andThen]
    by_cases hPF : P ≤ F
    · rw [if_pos hPF]
      obtain ⟨num, h1, h2, h3⟩ := layout_independent hP hPF
      have hlt : ∀ p < P, ∀ i, i < pre num p + num p → i < F := by
        intro p hp i hi
        have := pre_lt_total (f := num) hp
        omega
      obtain ⟨hepf, hsl⟩ := rank_slice hP hPF h3 he
      have hgo : ∀ q m, q + m = P → ∀ fs1 : FS τ α β, (∀ i, pre num q ≤ i → i < F → fs1 (out i) = fs (out i)) →
          writeRanks P F names data epf idx (fun i => ((List.range F).map out).getD i []) mode group attrs (List.range' q m) fs1 =
            .ok ((List.range' q m).foldl (fun fs p => (List.range' (pre num p) (num p)).foldl (fun fs i => setFile fs (((List.range F).map out).getD i []) (res i)) fs) fs1) := by
        intro q m
        induction m generalizing q with
        | zero => intro _ fs1 _; rfl
        | succ m ih =>
          intro hq fs1 hfs1
          have hqP : q < P := by omega
          rw [List.range'_succ, writeRanks, h3 q hqP]
          simp only
          rw [writeRank_ok (v := fun i n => ⟨w i n, attrsFor attrs n⟩) (start := start) (mid := mid) (res := res) (len := fun i => (fileRows files i).length)]
          · simp only [Except.andThen, List.foldl_cons]
            apply ih (q + 1) (by omega)
            intro i hi1 hi2
            rw [pre_succ] at hi1
            rw [foldl_setFile_ne, hfs1 i (by omega) hi2]
            intro j hj he
            rw [List.mem_range'_1] at hj
            rw [hname j (hlt q hqP j hj.2)] at he
            have := hinj j (hlt q hqP j hj.2) i hi2 he
            omega
          · intro i hi1 hi2
            rw [hepf q hqP]
            apply dictGet_ok
            · exact List.mem_map.2 ⟨i, by rw [List.mem_range'_1]; omega, rfl⟩
            · intro x hx
              obtain ⟨j, hj, hjw⟩ := List.mem_map.1 hx
              rw [List.mem_range'_1] at hj
              simp only [Prod.mk.injEq] at hjw
              rw [← hjw.2]
              exact hidx j (hlt q hqP j hj.2) i (hlt q hqP i hi2) hjw.1
          · intro n hnn
            have := (hsl (fun p => (data n p).rows) (hl n hnn) q hqP).1

            omega
          · intro k hk n hnn
            have := (hsl (fun p => (data n p).rows) (hl n hnn) q hqP).2 k hk
            have hcc := hc n hnn q hqP
            obtain ⟨e1, e2⟩ := hcc
            simp only [w]
            rw [this, ← e1, ← e2]
          · intro i hi1 hi2
            have hi := hlt q hqP i hi2
            rw [hname i hi, hfs1 i (by omega) hi]
            exact opened_ok (hstart i hi)
          · intro i hi1 hi2
            exact (hres i (hlt q hqP i hi2)).1
          · intro i hi1 hi2
            exact (hres i (hlt q hqP i hi2)).2.1
          · intro i hi1 hi2 j hj1 hj2 he
            rw [hname i (hlt q hqP i hi2), hname j (hlt q hqP j hj2)] at he
            exact hinj i (hlt q hqP i hi2) j (hlt q hqP j hj2) he
      have := hgo 0 P (by omega) fs (fun _ _ _ => rfl)
      rw [← List.range_eq_range'] at this
      rw [this, foldl_range'_blocks num P (fun fs i => setFile fs (((List.range F).map out).getD i []) (res i)), h1]
    · rw [if_neg hPF]
      apply writeCollective_ok (w := w) (start := start) (mid := mid)
      · exact List.nodup_range
      · intro f hf n hnn
        obtain ⟨b1, b2, b3⟩ := hb (by omega) n hnn
        exact multiFileWrite_collective hF (by omega) (hc n hnn) he (hl n hnn) b1 b2 b3 (List.mem_range.1 hf)
      · intro i hi
        have hi := List.mem_range.1 hi
        rw [hname i hi]
        exact opened_ok (hstart i hi)
      · intro i hi
        exact (hres i (List.mem_range.1 hi)).1
      · intro i hi
        exact (hres i (List.mem_range.1 hi)).2.1
      · intro i hi j hj he
        have hi := List.mem_range.1 hi
        have hj := List.mem_range.1 hj
        rw [hname i hi, hname j hj] at he
        exact hinj i hi j hj he
  refine ⟨_, hmain, ?_, ?_⟩
  · intro i hi
    refine ⟨res i, ?_, ?_, ?_⟩
    · have := foldl_setFile_mem (fun i => ((List.range F).map out).getD i []) res (List.range F) List.nodup_range (by
        intro a ha b hb he
        have ha := List.mem_range.1 ha
        have hb := List.mem_range.1 hb

        rw [hname a ha, hname b hb] at he
        exact hinj a ha b hb he) fs (List.mem_range.2 hi)

      rw [hname i hi] at this
      exact this
    · intro n hnn
      rw [(hres i hi).2.2.1 n, if_pos hnn]
      simp only [attrsFor, w]
      congr 2
      cases attrs with
      | none => rfl
      | some a => simp [entry_eq]
    · intro group' n hor
      by_cases hgg : group' = group
      · subst hgg
        rw [(hres i hi).2.2.1 n, if_neg (by tauto)]
      · exact (hres i hi).2.2.2 group' n hgg
  · intro x hx
    apply foldl_setFile_ne
    intro i hi
    rw [hname i (List.mem_range.1 hi)]
    exact hx i (List.mem_range.1 hi)

/-- The numbers of elements only depend on the lengths of the datasets, where a missing dataset has length zero. -/
theorem elementsPerFile_congr {P F : Nat} (hP : 0 < P) (hF : 0 < F) {files files' : Nat → Option (TypedArray τ α)} {idx : Nat → Nat} (h : ∀ i < F, (fileRows files i).length = (fileRows files' i).length)
    {p : Nat} (hp : p < P) : elementsPerFile P F files idx p = elementsPerFile P F files' idx p := by
  have h1 : ∀ f : Nat → Option (TypedArray τ α), ∀ i, (f i).elim 0 (fun a => a.rows.length) = (fileRows f i).length := by
    intro f i; unfold fileRows; cases f i <;> rfl
  have h2 : ∀ f : Nat → Option (TypedArray τ α), ∀ i n k, (f i).elim 0 (fun a => numOnTask a.rows.length n k) = numOnTask (fileRows f i).length n k := by
    intro f i n k; unfold fileRows
    cases f i with
    | none => simp [numOnTask]
    | some a => rfl
  have hin := (readsFile_order hP hF).2.1 p hp
  unfold elementsPerFile
  unfold ReadsFile at hin
  cases hl : multiFileLayout F P p with
  | error e => rfl
  | ok l =>
    cases l with
    | independent first num =>
      simp only [h1]
      congr 1
      apply List.map_congr_left
      intro i hi
      rw [List.mem_range'_1] at hi
      rw [h i (hin i (Or.inl ⟨first, num, hl, hi.1, hi.2⟩))]
    | collective f k n =>
      simp only [h2]
      rw [h f (hin f (Or.inr ⟨k, n, hl⟩))]

/-- C105: writing what `read` returned (`Expected`) with the numbers of elements of one of the datasets gives files with the same rows: a copy with the same layout. The datasets must have the same lengths
in each file. Where a dataset is missing there is an empty one. -/
theorem C105_copy [DecidableEq τ] [Inhabited α] {P F : Nat} (hP : 0 < P) (hF : 0 < F) {infiles : Nat → H5 τ α β} {idx : Nat → Nat} {ingroup : Option Name} {ra : Bool} {names : List Name}
    (hn : names.Nodup) {n₀ : Name} (hn₀ : n₀ ∈ names) (hlen : ∀ n ∈ names, ∀ i < F, (fileRows (arrayAt infiles ingroup n) i).length = (fileRows (arrayAt infiles ingroup n₀) i).length)
    (hidx : ∀ i < F, ∀ j < F, idx i = idx j → i = j) {t : Name → τ} {d : Name → List Nat} {data : Name → Nat → AArr τ α β} {nr : Name → Nat → Option (TypedArray Unit Nat)}
    (hread : ∀ n ∈ names, Expected P F infiles idx ingroup ra n (t n) (d n) (fun p => some (data n p)) (nr n)) {epf : Nat → List (Nat × Nat)}
    (he : ∀ p < P, elementsPerFile P F (arrayAt infiles ingroup n₀) idx p = .ok (epf p)) {itemsize : τ → Nat} {buffer_size fuel : Nat}
    (hb : F < P → ∀ n ∈ names, 0 < elementSize (itemsize (t n)) (d n) ∧ elementSize (itemsize (t n)) (d n) ≤ buffer_size ∧ ∀ p < P, (data n p).arr.rows.length ≤ fuel)
    {substitute : Name → Nat → Except Err Name} {filenames : NamesArg} {out : Nat → Name} (hout : OutNames substitute F idx out filenames)
    (hinj : ∀ i < F, ∀ j < F, out i = out j → i = j) {group : Option Name} {fs : FS τ α β} (attrs : Option (List (Name × List (Name × β)))) :
    ∃ fs', multiWrite P F substitute names (fun n p => (data n p).arr) epf idx filenames .w group attrs itemsize buffer_size fuel fs = .ok fs' ∧
      ∀ i < F, ∃ h, fs' (out i) = some h ∧ ∀ n ∈ names, datasetAt h group n = some ⟨⟨t n, d n, fileRows (arrayAt infiles ingroup n) i⟩, (attrs.bind (fun a => entry a n)).getD []⟩ := by
  have hx : ∀ n ∈ names, (∀ p < P, (data n p).arr.dtype = t n ∧ (data n p).arr.dims = d n) ∧ gcat P (fun p => (data n p).arr.rows) = gcat F (fileRows (arrayAt infiles ingroup n)) ∧
      ∀ p < P, (data n p).arr.rows.length = ((epf p).map Prod.snd).sum := by
    intro n hnn
    rcases hread n hnn with ⟨-, h⟩ | ⟨-, rows, nrs, at', h1, h2, -, h3, -⟩
    · have := (h 0 hP).1
      cases this
    · have hd : ∀ p < P, data n p = ⟨⟨t n, d n, rows p⟩, at' p⟩ := fun p hp => by simpa using (h1 p hp).1
      refine ⟨fun p hp => by rw [hd p hp]; exact ⟨rfl, rfl⟩, ?_, ?_⟩
      · rw [← h2]
        exact gcat_congr (fun p hp => by rw [hd p hp])
      · intro p hp
        obtain ⟨e, e1, e2⟩ := h3 p hp
        rw [elementsPerFile_congr hP hF (hlen n hnn) hp, he p hp] at e1
        cases e1
        rw [hd p hp]
        exact e2
  obtain ⟨fs', h1, h2, -⟩ := C105_write (β := β) hP hF (files := arrayAt infiles ingroup n₀) (idx := idx) (fun i hi j hj h => by rw [hidx i hi j hj h]) he hn
    (data := fun n p => (data n p).arr) (fun n hnn => (hx n hnn).1) (fun n hnn => (hx n hnn).2.2) hb hout hinj (mode := .w) (group := group) (fs := fs) (start := fun _ => ⟨[], []⟩)
    (fun _ _ => rfl) (fun _ _ _ _ => rfl) (fun _ _ n _ => ⟨by cases group <;> rfl, fun _ => rfl⟩) attrs
  refine ⟨fs', h1, ?_⟩
  intro i hi
  obtain ⟨h, e1, e2, -⟩ := h2 i hi
  refine ⟨h, e1, ?_⟩
  intro n hnn
  rw [e2 n hnn, (hx n hnn).2.1]
  congr 3
  rw [pre_congr (f := fun f => (fileRows (arrayAt infiles ingroup n₀) f).length) (g := sizes (fileRows (arrayAt infiles ingroup n))) (fun j hj => (hlen n hnn j (by omega)).symm), ← hlen n hnn i hi]
  exact slice_gcat hi

/-- C105: a list of names of the wrong length is refused before any file is opened. -/
theorem C105_wrong_number [DecidableEq τ] [Inhabited α] {P F : Nat} {l : List Name} (hl : l.length ≠ F) (substitute : Name → Nat → Except Err Name) (names : List Name)
    (data : Name → Nat → TypedArray τ α) (epf : Nat → List (Nat × Nat)) (idx : Nat → Nat) (mode : Mode) (group : Option Name) (attrs : Option (List (Name × List (Name × β))))
    (itemsize : τ → Nat) (buffer_size fuel : Nat) (fs : FS τ α β) :
    multiWrite P F substitute names data epf idx (.many l) mode group attrs itemsize buffer_size fuel fs = .error .valueError := by
  simp [multiWrite, outputNames, hl, Except.andThen]

/-! ### compress_dcpl -/

theorem foldl_mul_prod (l : List Nat) (x : Nat) : l.foldl (fun m n => m * n) x = x * l.prod := by
  induction l generalizing x with
  | nil => simp
  | cons a l ih => rw [List.foldl_cons, ih, List.prod_cons, Nat.mul_assoc]

theorem prod_ne_zero {l : List Nat} (h : ∀ n ∈ l, 0 < n) : l.prod ≠ 0 := by
  induction l with
  | nil => simp
  | cons a l ih =>
    have h1 := h a (by simp)
    have h2 := ih (fun n hn => h n (by simp [hn]))
    rw [List.prod_cons]
    exact Nat.mul_ne_zero (by omega) h2

theorem prod_zero {l : List Nat} (h : 0 ∈ l) : l.prod = 0 := by
  induction l with
  | nil => cases h
  | cons a l ih =>
    rw [List.prod_cons]
    rcases List.mem_cons.1 h with h | h
    · rw [← h, Nat.zero_mul]
    · rw [ih h, Nat.mul_zero]

variable {ρ : Type*}

/-- C106: with compression or the shuffle filter, a property list without chunks and filters gets chunks of at most `chunk` rows and exactly the filters asked for, and keeps its other properties. HDF5 accepts
it exactly if a chunk has less than 4 GB. -/
theorem C106_compress {dcpl : Dcpl ρ} (h1 : dcpl.chunk = none) (h2 : dcpl.shuffle = false) (h3 : dcpl.deflate = none) {n : Nat} {rest : List Nat} (hpos : ∀ m ∈ n :: rest, 0 < m) {gzip : Option Nat}
    {shuffle : Bool} (hf : gzip ≠ none ∨ shuffle = true) (hz : ∀ l, gzip = some l → l ≤ 9) {chunk : Option Nat} {c : Nat} (hc : c = chunk.getD (8 * 1024 * 1024)) (hc0 : 0 < c) (itemsize : Nat) :
    ∃ D, compressDcpl false dcpl (n :: rest) gzip shuffle chunk = .ok (some D) ∧ D.chunk = some (min n c :: rest) ∧ D.shuffle = shuffle ∧ D.deflate = gzip ∧ D.other = dcpl.other ∧
      (Creates D (n :: rest) itemsize ↔ min n c * rest.prod * itemsize < 2 ^ 32) := by
  have hne := prod_ne_zero hpos
  have hmin : (if n > c then c else n) = min n c := by split <;> omega
  have hff : (gzip.isSome || shuffle) = true := by
    rcases hf with h | h
    · cases gzip with
      | none => exact absurd rfl h
      | some _ => rfl
    · simp [h]
  refine ⟨⟨some (min n c :: rest), shuffle, gzip, dcpl.other⟩, ?_, rfl, rfl, rfl, rfl, ?_⟩
  · unfold compressDcpl
    rw [if_neg (by simp)]
    simp only
    rw [foldl_mul_prod, Nat.one_mul, if_neg hne, hff, if_pos rfl, h1]
    simp only [Except.andThen]
    obtain ⟨a, b, e, f⟩ := dcpl
    simp only at h1 h2 h3
    subst h1 h2 h3
    rw [← hmin, hc]
    cases chunk <;> cases gzip <;> cases shuffle <;> rfl
  · unfold Creates
    constructor
    · rintro ⟨h, -⟩
      have := (h _ rfl).2.2
      rwa [List.prod_cons] at this
    · intro h
      refine ⟨?_, fun _ => by simp, fun l hl => hz l hl⟩
      intro c' hc'
      cases hc'
      refine ⟨rfl, ?_, by rwa [List.prod_cons]⟩
      intro i hi
      have hn0 := hpos n (by simp)
      cases i with
      | zero => simp only [List.getD_cons_zero]; omega
      | succ i =>
        simp only [List.getD_cons_succ]
        simp only [List.length_cons] at hi
        refine ⟨?_, le_refl _⟩
        have : rest.getD i 0 = rest[i]'(by omega) := by simp [List.getD, List.getElem?_eq_getElem (show i < rest.length by omega)]
        rw [this]
        exact hpos _ (by simp)

/-- C106: without compression and filter, or with a version of HDF5 before 1.12.0, the property list is that of the caller. -/
theorem C106_unchanged {old : Bool} (dcpl : Dcpl ρ) {shape : List Nat} (gzip : Option Nat) (shuffle : Bool) (chunk : Option Nat) (h : old = true ∨ (gzip = none ∧ shuffle = false ∧ ∀ n ∈ shape, 0 < n)) :
    compressDcpl old dcpl shape gzip shuffle chunk = .ok (some dcpl) := by
  unfold compressDcpl
  rcases h with rfl | ⟨rfl, rfl, h⟩
  · rfl
  · cases old with
    | true => rfl
    | false =>
      rw [if_neg (by simp)]
      simp only
      rw [foldl_mul_prod, Nat.one_mul, if_neg (prod_ne_zero h)]
      rfl

/-- With the default size of chunks, a dataset with many rows of 512 bytes or more cannot be written with compression: a chunk would have 4 GB. -/
theorem C106_wide_rows_defect {dcpl : Dcpl ρ} (h1 : dcpl.chunk = none) (h2 : dcpl.shuffle = false) (h3 : dcpl.deflate = none) {n : Nat} (hn : 8388608 ≤ n) {rest : List Nat} (hpos : ∀ m ∈ rest, 0 < m)
    {itemsize : Nat} (hrow : 512 ≤ rest.prod * itemsize) {gzip : Option Nat} {shuffle : Bool} (hf : gzip ≠ none ∨ shuffle = true) (hz : ∀ l, gzip = some l → l ≤ 9) :
    ∃ D, compressDcpl false dcpl (n :: rest) gzip shuffle none = .ok (some D) ∧ ¬ Creates D (n :: rest) itemsize := by
  obtain ⟨D, e1, -, -, -, -, e6⟩ := C106_compress h1 h2 h3 (n := n) (rest := rest) (by
    intro m hm
    rcases List.mem_cons.1 hm with rfl | hm
    · omega
    · exact hpos m hm) hf hz (chunk := none) (c := 8 * 1024 * 1024) rfl (by omega) itemsize
  refine ⟨D, e1, ?_⟩
  rw [e6, show min n (8 * 1024 * 1024) = 8388608 by omega, Nat.mul_assoc]
  omega

/-- The property list of the caller is not used for a dataset without elements. -/
theorem C106_empty_defect (dcpl : Dcpl ρ) {shape : List Nat} (h : 0 ∈ shape) (gzip : Option Nat) (shuffle : Bool) (chunk : Option Nat) :
    compressDcpl false dcpl shape gzip shuffle chunk = .ok none := by
  unfold compressDcpl
  rw [if_neg (by simp)]
  simp only
  rw [foldl_mul_prod, Nat.one_mul, if_pos (prod_zero h)]

/-- Chunks given in the property list are kept also if they are larger than the dataset, which HDF5 refuses. (With several files the datasets of some may be small.) -/
theorem C106_chunks_defect {dcpl : Dcpl ρ} {c : List Nat} (hc : dcpl.chunk = some c) {n : Nat} {rest : List Nat} (hpos : ∀ m ∈ n :: rest, 0 < m) (hbig : n < c.getD 0 0) (gzip : Option Nat)
    (shuffle : Bool) (chunk : Option Nat) (itemsize : Nat) :
    ∃ D, compressDcpl false dcpl (n :: rest) gzip shuffle chunk = .ok (some D) ∧ D.chunk = some c ∧ ¬ Creates D (n :: rest) itemsize := by
  have key : ∃ D, compressDcpl false dcpl (n :: rest) gzip shuffle chunk = .ok (some D) ∧ D.chunk = some c := by
    unfold compressDcpl
    rw [if_neg (by simp)]
    simp only
    rw [foldl_mul_prod, Nat.one_mul, if_neg (prod_ne_zero hpos), hc]
    simp only [Except.andThen, ite_self]
    cases gzip <;> cases shuffle <;> exact ⟨_, rfl, hc⟩
  obtain ⟨D, e1, e2⟩ := key
  refine ⟨D, e1, e2, ?_⟩
  rintro ⟨h, -⟩
  obtain ⟨h3, h4, -⟩ := h c e2
  have := (h4 0 (by rw [h3]; simp)).2
  simp only [List.getD_cons_zero] at this
  omega

/-- Chunks of zero rows are refused by HDF5. -/
theorem C106_zero_defect {dcpl : Dcpl ρ} (h1 : dcpl.chunk = none) {n : Nat} {rest : List Nat} (hpos : ∀ m ∈ n :: rest, 0 < m) {gzip : Option Nat} {shuffle : Bool} (hf : gzip ≠ none ∨ shuffle = true)
    (itemsize : Nat) : ∃ D, compressDcpl false dcpl (n :: rest) gzip shuffle (some 0) = .ok (some D) ∧ ¬ Creates D (n :: rest) itemsize := by
  have hff : (gzip.isSome || shuffle) = true := by
    rcases hf with h | h
    · cases gzip with
      | none => exact absurd rfl h
      | some _ => rfl
    · simp [h]
  have key : ∃ D, compressDcpl false dcpl (n :: rest) gzip shuffle (some 0) = .ok (some D) ∧ D.chunk = some (0 :: rest) := by
    unfold compressDcpl
    rw [if_neg (by simp)]
    simp only
    rw [foldl_mul_prod, Nat.one_mul, if_neg (prod_ne_zero hpos), hff, if_pos rfl, h1]
    simp only [Except.andThen]
    rw [if_pos (hpos n (by simp))]
    cases gzip <;> cases shuffle <;> exact ⟨_, rfl, rfl⟩
  obtain ⟨D, e1, e2⟩ := key
  refine ⟨D, e1, ?_⟩
  rintro ⟨h, -⟩
  have := ((h _ e2).2.1 0 (by simp)).1
  simp at this

namespace ExMultiFileWrite

set_option synthInstance.maxSize 1000

def a : Name := ['a']
def b : Name := ['b']

/-- The second file has no rows of the datasets -/
def files : Nat → Option (TypedArray Nat Nat) := fun i => some ⟨4, [], if i = 0 then [1, 2] else if i = 1 then [] else [3]⟩
def data : Name → Nat → TypedArray Nat Nat := fun n p => if n = a then ⟨4, [], if p = 0 then [1, 2] else [3]⟩ else ⟨8, [2], if p = 0 then [10, 20] else [30]⟩
def epf : Nat → List (Nat × Nat) := fun p => if p = 0 then [(0, 2), (1, 0)] else [(2, 1)]
def epf4 : Nat → List (Nat × Nat) := fun p => if p = 0 then [(0, 1)] else if p = 1 then [(0, 1)] else if p = 2 then [(1, 0)] else [(2, 1)]
def subst : Name → Nat → Except Err Name := fun _ i => .ok [if i = 0 then '0' else if i = 1 then '1' else '2']
def fs : FS Nat Nat Nat := fun x => if x = ['0'] then some ⟨[(['z'], ⟨⟨4, [], [7]⟩, []⟩)], [(['g'], [(['y'], ⟨⟨4, [], [8]⟩, []⟩)])]⟩ else none

/-- Hypotheses of `C105_write` for two ranks and three files, with a group and mode "a" -/
example : (∀ p < 2, elementsPerFile 2 3 files id p = .ok (epf p)) ∧ (∀ n ∈ [a, b], ∀ p < 2, (data n p).rows.length = ((epf p).map Prod.snd).sum) := by decide +kernel
example : ∀ n ∈ [a, b], ∀ p < 2, (data n p).dtype = (if n = a then 4 else 8) ∧ (data n p).dims = if n = a then [] else [2] := by decide +kernel
example : ∀ i < 3, ∀ j < 3, subst [] i = subst [] j → i = j := by decide +kernel

def written (mode : Mode) (x : Name) : Option (List (Name × List Nat × Nat) × List (Name × List (Name × List Nat × Nat))) :=
  match multiWrite 2 3 subst [a, b] data epf id (.one []) mode (some ['g']) (some [(b, [(['u'], 5)])]) id 100 100 fs with
  | .error _ => none
  | .ok fs' => (fs' x).map (fun h => (h.root.map (fun e => (e.1, e.2.arr.rows, e.2.attrs.length)), h.groups.map (fun g => (g.1, g.2.map (fun e => (e.1, e.2.arr.rows, e.2.attrs.length))))))

/-- The datasets which were in the first file are still there. -/
example : written .a ['0'] = some ([(['z'], [7], 0)], [(['g'], [(['y'], [8], 0), (a, [1, 2], 0), (b, [10, 20], 1)])]) := by decide +kernel
example : written .a ['1'] = some ([], [(['g'], [(a, [], 0), (b, [], 1)])]) := by decide +kernel
example : written .a ['2'] = some ([], [(['g'], [(a, [3], 0), (b, [30], 1)])]) := by decide +kernel
/-- In mode "w" they are gone, and in modes "x" and "r+" there is an error as one of the files exists, or one does not. -/
example : written .w ['0'] = some ([], [(['g'], [(a, [1, 2], 0), (b, [10, 20], 1)])]) := by decide +kernel
example : written .x ['0'] = none ∧ written .rplus ['0'] = none := by decide +kernel

/-- Four ranks and three files: two of the ranks write the first file together. -/
def data4 : Name → Nat → TypedArray Nat Nat := fun _ p => ⟨4, [], if p = 0 then [1] else if p = 1 then [2] else if p = 2 then [] else [3]⟩
example : ∀ p < 4, elementsPerFile 4 3 files id p = .ok (epf4 p) := by decide +kernel
example : (match multiWrite 4 3 subst [a] data4 epf4 id (.one []) .w none none id 100 100 fs with
  | .error _ => none
  | .ok fs' => some ((List.range 3).map (fun i => match subst [] i with
    | .error _ => none
    | .ok x => (fs' x).map (fun h => h.root.map (fun e => e.2.arr.rows))))) = some [some [[1, 2]], some [[]], some [[3]]] := by decide +kernel

/-- 100 rows of 3 elements with chunks of 64 rows, in `C106_compress` -/
example : compressDcpl false ⟨none, false, none, 7⟩ [100, 3] (some 4) true (some 64) = .ok (some ⟨some [64, 3], true, some 4, 7⟩) := by decide +kernel
/-- Rows of 64 doubles, in `C106_wide_rows_defect` -/
example : 512 ≤ [64].prod * 8 := by decide

end ExMultiFileWrite

end Verif.MultiFileWrite
