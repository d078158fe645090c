import Verif.Spec.GroupCatalogue
import Verif.Props.ReadMulti
import Verif.Props.Formats

/-! Proofs for `GroupCatalogue`. -/

namespace Verif

theorem percentDict_cons (i : Nat) {c : Char} (hc : c ≠ '%') (q : Name) : percentDict i (c :: q) = (percentDict i q).map (fun t => c :: t) := by
  conv => lhs; unfold percentDict
  rw [if_neg hc]

theorem percentDict_plain (i : Nat) {p : Name} (hp : '%' ∉ p) (q : Name) : percentDict i (p ++ q) = (percentDict i q).map (fun t => p ++ t) := by
  induction p with
  | nil => cases h : percentDict i q <;> simp [Except.map, h]
  | cons c p ih =>
    simp only [List.mem_cons, not_or] at hp
    rw [List.cons_append, percentDict_cons i (fun h => hp.1 h.symm), ih hp.2]
    cases percentDict i q <;> rfl

theorem percent_not_digits {n : Nat} : '%' ∉ decimal n := by
  intro h
  have := Nat.isDigit_of_mem_toDigits (b := 10) (by omega) (by omega) h
  revert this; decide

theorem percent_not_decimal3 {n : Nat} : '%' ∉ decimal3 n := by
  intro h
  rw [decimal3, List.mem_append] at h
  rcases h with h | h
  · have := List.eq_of_mem_replicate h
    revert this; decide
  · exact percent_not_digits h

theorem percentDict_end (i : Nat) : percentDict i ".%(i)d".toList = .ok (".".toList ++ decimal i) := by
  have : ".%(i)d".toList = ['.', '%', '(', 'i', ')', 'd'] := by decide
  rw [this, percentDict, if_neg (by decide), percentDict, if_pos rfl]
  simp [percentDict, Except.map]

theorem percentDict_name (stem : String) (hs : '%' ∉ stem.toList) {basedir : Name} (hb : '%' ∉ basedir) (isnap i : Nat) :
    percentDict i (basedir ++ "/groups_".toList ++ decimal3 isnap ++ '/' :: stem.toList ++ decimal3 isnap ++ ".%(i)d".toList) = .ok (catalogueFile stem basedir isnap i) := by
  have h : basedir ++ "/groups_".toList ++ decimal3 isnap ++ '/' :: stem.toList ++ decimal3 isnap ++ ".%(i)d".toList =
    (basedir ++ "/groups_".toList ++ decimal3 isnap ++ "/".toList ++ stem.toList ++ decimal3 isnap) ++ ".%(i)d".toList := by
    simp only [List.append_assoc, show "/".toList = ['/'] from by decide, List.cons_append, List.nil_append]
  rw [h, percentDict_plain i, percentDict_end]
  · simp only [Except.map, catalogueFile, List.append_assoc]
  · simp only [List.mem_append, not_or]
    exact ⟨⟨⟨⟨⟨hb, by decide⟩, percent_not_decimal3⟩, by decide⟩, hs⟩, percent_not_decimal3⟩

/-- The rows of an array with all its values -/
theorem flatten_slices {α : Type*} (m : Nat) : ∀ (n : Nat) (data : List α), data.length = n * m → ((List.range n).map (fun k => slice data (k * m) m)).flatten = data ∧
    ∀ r ∈ (List.range n).map (fun k => slice data (k * m) m), r.length = m := by
  intro n
  induction n with
  | zero => intro data h; simp at h; simp [h]
  | succ n ih =>
    intro data h
    rw [Nat.succ_mul] at h
    obtain ⟨h1, h2⟩ := ih (data.take (n * m)) (by simp; omega)
    have hs : (List.range n).map (fun k => slice data (k * m) m) = (List.range n).map (fun k => slice (data.take (n * m)) (k * m) m) := by
      apply List.map_congr_left
      intro k hk
      have hk := List.mem_range.1 hk
      have hkm : k * m + m ≤ n * m := by
        have := Nat.mul_le_mul_right m (show k + 1 ≤ n from hk)
        rw [Nat.succ_mul] at this; exact this
      unfold slice
      rw [List.drop_take, List.take_take]
      congr 1
      omega
    have hlast : slice data (n * m) m = data.drop (n * m) := by
      unfold slice
      apply List.take_of_length_le
      simp; omega
    rw [List.range_succ, List.map_append, List.flatten_append, hs, h1]
    constructor
    · simp only [List.map_cons, List.map_nil, List.flatten_cons, List.flatten_nil, List.append_nil, hlast, List.take_append_drop]
    · intro r hr
      rw [List.mem_append] at hr
      rcases hr with hr | hr
      · exact h2 r hr
      · simp only [List.map_cons, List.map_nil, List.mem_singleton] at hr
        rw [hr, hlast]
        simp; omega

/-- The array with these values -/
def arrayOf (C : Content) (name : Name) (width n : Nat) (dims : List Nat) : TypedArray Nat (List (List Byte)) :=
  ⟨width, dims, (List.range n).map (fun k => slice (C name) (k * dims.prod) dims.prod)⟩

theorem array_present {s : Bool} {file : List Byte} {C : Content} {f : BFile} {name : Name} {width n : Nat} {dims : List Nat}
    (h : (⟨name, width, n :: dims, true, none⟩ : Row).ReadBack s file C f) : f.array s file name = .ok (some (arrayOf C name width n dims)) := by
  obtain ⟨h1, id, attrs, b, h2, h3, h4, h5⟩ := h
  simp only [BFile.dataset] at h1
  dsimp only at h2 h4 h5
  rw [h2] at h1
  simp only [h3] at h1
  simp only [BFile.array, h2, h3, h1, h4, h5, arrayOf]

theorem array_absent {s : Bool} {file : List Byte} {f : BFile} {name : Name} (h : f.dataset s file name = .error .keyError) (hr : ∀ (b : Block) e, b.readAll s file = .error e → e ≠ .keyError) :
    f.array s file name = .ok none := by
  simp only [BFile.dataset] at h
  unfold BFile.array
  cases hq : BGroup.getItem (name.length + 1) f.root name with
  | error e => rw [hq] at h; simp only [Except.error.injEq] at h; subst h; rfl
  | ok x =>
    rw [hq] at h
    cases x with
    | group g => cases h
    | dataset id attrs =>
      simp only at h
      cases hb : f.blocks[id]? with
      | none => rw [hb] at h; cases h
      | some b => rw [hb] at h; exact absurd rfl (hr b _ h)

theorem readAll_err (s : Bool) (file : List Byte) (b : Block) (e : Err) (h : b.readAll s file = .error e) : e ≠ .keyError := by
  rintro rfl
  unfold Block.readAll Block.read at h
  split at h
  · cases h
  · split at h
    · cases h
    · split at h
      · cases h
      · split at h
        · rename_i e' hq
          cases h
          unfold needByteswap at hq
          split at hq
          · cases hq
          · split at hq <;> cases hq
        · split at h
          · cases h
          · split at h <;> cases h

theorem arrays_ok {s : Bool} {file : List Byte} {f : BFile} (g : Name → Option (TypedArray Nat (List (List Byte)))) : ∀ (datasets : List Name), (∀ n ∈ datasets, f.array s file n = .ok (g n)) →
    f.arrays s file datasets = .ok (datasets.map (fun n => (n, g n))) := by
  intro datasets
  induction datasets with
  | nil => intro _; rfl
  | cons n ds ih =>
    intro h
    simp only [BFile.arrays, h n (by simp), ih (fun m hm => h m (by simp [hm])), List.map_cons]

theorem catalogue_dget_map {β : Type*} (g : Name → β) (n : Name) : ∀ (l : List Name), n ∈ l → dget (l.map (fun n => (n, g n))) n = some (g n) := by
  intro l
  induction l with
  | nil => intro h; cases h
  | cons m l ih =>
    intro h
    unfold dget
    rw [List.map_cons, List.find?_cons]
    by_cases hm : m = n
    · subst hm; simp
    · simp only [beq_eq_false_iff_ne.2 hm]
      exact ih ((List.mem_cons.1 h).resolve_left (fun h => hm h.symm))

variable {ν α ι : Type*} [DecidableEq ν]

/-- An exception when a file is opened -/
theorem rmFiles_error (openFile : ι → Except Err (ν → Option α)) (datasets : List ν) (e : Err) (pre : List ι) (i : ι) (post : List ι) (hp : ∀ j ∈ pre, ∃ f, openFile j = .ok f)
    (hi : openFile i = .error e) (d : RmDict ν α) : rmFiles openFile datasets (pre ++ i :: post) d = .error e := by
  induction pre generalizing d with
  | nil => simp [rmFiles, hi]
  | cons j pre ih =>
    obtain ⟨f, hf⟩ := hp j (by simp)
    simp only [List.cons_append, rmFiles, hf]
    exact ih (fun k hk => hp k (by simp [hk])) _

theorem readMulti_error (concatenate : List α → Except Err α) (rows : α → Except Err α) (openFile : ι → Except Err (ν → Option α)) (datasets : List ν) (e : Err) (pre : List ι) (i : ι) (post : List ι)
    (hp : ∀ j ∈ pre, ∃ f, openFile j = .ok f) (hi : openFile i = .error e) : readMulti concatenate rows openFile (pre ++ i :: post) datasets = .error e := by
  simp only [readMulti, rmFiles_error openFile datasets e pre i post hp hi]

theorem rmConcat_nowhere {τ β : Type*} (rows : TypedArray τ β → Except Err (TypedArray τ β)) (datasets : List ν) (hd : datasets.Nodup) (d : RmDict ν (TypedArray τ β)) (l : ν → List (TypedArray τ β))
    (h : ∀ m ∈ datasets, d.get m = some (.parts (l m))) (hn : ∃ m ∈ datasets, l m = []) : rmConcat npConcatenate rows datasets d = .error .valueError := by
  induction datasets generalizing d with
  | nil => obtain ⟨m, hm, -⟩ := hn; cases hm
  | cons n ds ih =>
    obtain ⟨hnn, hds⟩ := List.nodup_cons.1 hd
    rw [rmConcat, h n (by simp)]
    dsimp only
    cases hc : npConcatenate (l n) with
    | error e =>
      unfold npConcatenate concatParts at hc
      cases hl : l n with
      | nil => rw [hl] at hc; cases hc; rfl
      | cons a rest =>
        rw [hl] at hc
        dsimp only at hc
        split at hc
        · rename_i e' he'
          split at he'
          · cases he'
          · cases he'; cases hc; rfl
        · cases hc; rfl
        · cases hc
    | ok a =>
      dsimp only
      apply ih hds
      · intro m hm
        have hne : n ≠ m := fun he => hnn (he ▸ hm)
        rw [RmDict.get_set, if_neg hne]
        exact h m (by simp [hm])
      · obtain ⟨m, hm, hl⟩ := hn
        rcases List.mem_cons.1 hm with rfl | hm
        · rw [hl] at hc; cases hc
        · exact ⟨m, hm, hl⟩

theorem readMulti_nowhere {τ β : Type*} (rows : TypedArray τ β → Except Err (TypedArray τ β)) (openFile : ι → Except Err (ν → Option (TypedArray τ β))) (idx : List ι) {datasets : List ν}
    (hd : datasets.Nodup) (ho : ∀ i ∈ idx, ∃ f, openFile i = .ok f) (hn : ∃ m ∈ datasets, found openFile idx m = []) : readMulti npConcatenate rows openFile idx datasets = .error .valueError := by
  obtain ⟨i1, i2⟩ := init_ok (α := TypedArray τ β) datasets hd [] (by simp)
  obtain ⟨d1, e1, e2, e3⟩ := rmFiles_ok openFile datasets hd idx ho _ (fun _ => []) (fun m hm => by rw [i2, if_pos hm])
  unfold readMulti
  simp only [e1]
  exact rmConcat_nowhere rows datasets hd d1 (fun m => found openFile idx m) (fun m hm => by rw [e3 m hm, List.nil_append]) hn

/-! ### Catalogues in general -/

/-- What is needed of a class: it reads the files; arrays of groups or subhalos are in the file if there are any, and otherwise if `keep`; `count` is in the header. -/
structure CatClass (F : Format) (L : Nat → Nat → Layout) (keep : Bool) (count : String) (ok : CatFile → Prop) : Prop where
  reads : ∀ c, ok c → (L c.ngroups c.nsubs).ReadBy c.content (fun s file => F.parse s file)
  fits : ∀ c, ok c → (L c.ngroups c.nsubs).Fits c.content
  present : ∀ sub name width dims, IsArray L sub name width dims → ∀ c : CatFile, (keep = true ∨ 0 < c.count sub) →
    ∃ sec ∈ L c.ngroups c.nsubs, (⟨name, width, c.count sub :: dims, true, none⟩ : Row) ∈ sec.rows
  absent : ∀ sub name width dims, IsArray L sub name width dims → ∀ c : CatFile, keep = false → c.count sub = 0 →
    ∀ sec ∈ L c.ngroups c.nsubs, ∀ r ∈ sec.rows, ¬comps name <+: comps r.name
  header : ∀ ng ns, ∃ sec ∈ L ng ns, Files.one 4 count ∈ sec.rows

section
variable {F : Format} {L : Nat → Nat → Layout} {keep : Bool} {count : String} {ok : CatFile → Prop} (hC : CatClass F L keep count ok)
include hC

theorem CatClass.array_eq {c : CatFile} (hc : ok c) {sub : Bool} {name : Name} {width : Nat} {dims : List Nat} (ha : IsArray L sub name width dims) {s : Bool} {f : BFile}
    (hf : F.parse s ((L c.ngroups c.nsubs).bytes c.big c.content ++ c.rest) = .ok f) : f.array s ((L c.ngroups c.nsubs).bytes c.big c.content ++ c.rest) name =
      .ok (if keep = true ∨ 0 < c.count sub then some (arrayOf c.content name width (c.count sub) dims) else none) := by
  obtain ⟨f', h1, h2, h3, -⟩ := hC.reads c hc s c.big c.rest
  dsimp only at h1
  rw [h1] at hf
  cases hf
  split
  · rename_i h
    obtain ⟨sec, hsec, hr⟩ := hC.present sub name width dims ha c h
    exact array_present (h2 sec hsec _ hr)
  · rename_i h
    rw [not_or] at h
    exact array_absent (h3 name (hC.absent sub name width dims ha c (by simpa using h.1) (by omega))) (readAll_err s _)

omit hC in
theorem openNumbered_ok {s : Bool} {fs : ByteFS} {fmt fname : Name} {i : Nat} {file : List Byte} {f : BFile} (h1 : percentDict i fmt = .ok fname) (h2 : fs fname = some file)
    (h3 : F.parse s file = .ok f) : openNumbered s fs F fmt i = .ok (file, f) := by
  simp only [openNumbered, h1, h2, h3]

theorem CatClass.numbered {s : Bool} {fs : ByteFS} {fmt fname : Name} {i : Nat} {c : CatFile} (hc : ok c) (h1 : percentDict i fmt = .ok fname)
    (h2 : fs fname = some ((L c.ngroups c.nsubs).bytes c.big c.content ++ c.rest)) (datasets : List Name) (sub : Name → Bool) (width : Name → Nat) (dims : Name → List Nat)
    (ha : ∀ n ∈ datasets, IsArray L (sub n) n (width n) (dims n)) :
    ∃ g, numberedArrays s fs F fmt datasets i = .ok g ∧ ∀ n ∈ datasets, g n = if keep = true ∨ 0 < c.count (sub n) then some (arrayOf c.content n (width n) (c.count (sub n)) (dims n)) else none := by
  obtain ⟨f, h3, -⟩ := hC.reads c hc s c.big c.rest
  dsimp only at h3
  refine ⟨fun n => (dget (datasets.map (fun n => (n, if keep = true ∨ 0 < c.count (sub n) then some (arrayOf c.content n (width n) (c.count (sub n)) (dims n)) else none))) n).join, ?_, ?_⟩
  · unfold numberedArrays
    rw [openNumbered_ok h1 h2 h3]
    dsimp only
    rw [arrays_ok (fun n => if keep = true ∨ 0 < c.count (sub n) then some (arrayOf c.content n (width n) (c.count (sub n)) (dims n)) else none) datasets
      (fun n hn => hC.array_eq hc (ha n hn) h3)]
  · intro n hn
    dsimp only
    rw [catalogue_dget_map _ n datasets hn]
    rfl

theorem CatClass.int {s : Bool} {c : CatFile} (hc : ok c) {f : BFile} (hf : F.parse s ((L c.ngroups c.nsubs).bytes c.big c.content ++ c.rest) = .ok f) :
    f.int s ((L c.ngroups c.nsubs).bytes c.big c.content ++ c.rest) count.toList = .ok (scalarInt c.content count.toList) := by
  obtain ⟨f', h1, h2, -⟩ := hC.reads c hc s c.big c.rest
  dsimp only at h1
  rw [h1] at hf
  cases hf
  obtain ⟨sec, hsec, hr⟩ := hC.header c.ngroups c.nsubs
  have := (h2 sec hsec _ hr).1
  dsimp only [Files.one] at this
  simp only [BFile.int, this, scalarInt]

variable {s : Bool} {fs : ByteFS} {stem : String} (hs : '%' ∉ stem.toList) {basedir : Name} (hb : '%' ∉ basedir) (isnap : Nat) {files : List CatFile} (hst : Stored fs L stem basedir isnap files)
  (rows : TypedArray Nat (List (List Byte)) → Except Err (TypedArray Nat (List (List Byte)))) {datasets : List Name} (hd : datasets.Nodup)
  (hok : ∀ c ∈ files, ok c) (sub : Name → Bool) (width : Name → Nat) (dims : Name → List Nat) (ha : ∀ n ∈ datasets, IsArray L (sub n) n (width n) (dims n))
include hs hb hst hok ha

theorem CatClass.found_eq (n : Name) (hn : n ∈ datasets) : (∀ i ∈ List.range files.length, ∃ f, numberedArrays s fs F (basedir ++ "/groups_".toList ++ decimal3 isnap ++ '/' :: stem.toList ++ decimal3 isnap ++ ".%(i)d".toList) datasets i = .ok f) ∧
    found (numberedArrays s fs F (basedir ++ "/groups_".toList ++ decimal3 isnap ++ '/' :: stem.toList ++ decimal3 isnap ++ ".%(i)d".toList) datasets) (List.range files.length) n =
      (files.filter (fun c => decide (keep = true ∨ 0 < c.count (sub n)))).map (fun c => arrayOf c.content n (width n) (c.count (sub n)) (dims n)) := by
  set openFile := numberedArrays s fs F (basedir ++ "/groups_".toList ++ decimal3 isnap ++ '/' :: stem.toList ++ decimal3 isnap ++ ".%(i)d".toList) datasets with hopen
  have key : ∀ i c, files[i]? = some c → ∃ g, openFile i = .ok g ∧ ∀ n ∈ datasets, g n = if keep = true ∨ 0 < c.count (sub n) then some (arrayOf c.content n (width n) (c.count (sub n)) (dims n)) else none := by
    intro i c hic
    exact hC.numbered (hok c (List.mem_of_getElem? hic)) (percentDict_name stem hs hb isnap i) (hst i c hic) datasets sub width dims ha
  constructor
  · intro i hi
    obtain ⟨g, h1, -⟩ := key i (files[i]'(List.mem_range.1 hi)) (List.getElem?_eq_getElem _)
    exact ⟨g, h1⟩
  · clear_value openFile
    clear hopen hst hok
    have gen : ∀ k, (∀ i c, files[i]? = some c → ∃ g, openFile (k + i) = .ok g ∧ ∀ n ∈ datasets, g n = if keep = true ∨ 0 < c.count (sub n) then some (arrayOf c.content n (width n) (c.count (sub n)) (dims n)) else none) →
        found openFile (List.range' k files.length) n = (files.filter (fun c => decide (keep = true ∨ 0 < c.count (sub n)))).map (fun c => arrayOf c.content n (width n) (c.count (sub n)) (dims n)) := by
      clear key
      induction files with
      | nil => intro k _; rfl
      | cons c files ih =>
        intro k h
        obtain ⟨g, h1, h2⟩ := h 0 c rfl
        have h3 := ih (k + 1) (fun i c hic => by have := h (i + 1) c (by simpa using hic); rwa [show k + 1 + i = k + (i + 1) from by omega])
        rw [List.length_cons, List.range'_succ]
        unfold found at h3 ⊢
        rw [List.filterMap_cons]
        rw [Nat.add_zero] at h1
        simp only [h1, h2 n hn]
        by_cases hp : keep = true ∨ 0 < c.count (sub n)
        · rw [if_pos hp, List.filter_cons_of_pos (by simpa using hp), List.map_cons, h3]
        · rw [if_neg hp, List.filter_cons_of_neg (by simpa using hp), h3]
    rw [List.range_eq_range']
    exact gen 0 (fun i c hic => by rw [Nat.zero_add]; exact key i c hic)

omit hb hst hok ha hC hs in
theorem isCatalogue_arrays (n : Name) (l : List CatFile) (hl : ∀ c ∈ l, (keep = true ∨ 0 < c.count (sub n)) → (c.content n).length = c.count (sub n) * (dims n).prod) :
    IsCatalogue l (sub n) n (width n) (dims n) ⟨width n, dims n, ((l.filter (fun c => decide (keep = true ∨ 0 < c.count (sub n)))).map (fun c => arrayOf c.content n (width n) (c.count (sub n)) (dims n))).flatMap TypedArray.rows⟩ := by
  refine ⟨rfl, rfl, ?_, ?_, ?_⟩ <;> dsimp only
  · induction l with
    | nil => rfl
    | cons c l ih =>
      have ih := ih (fun c hc => hl c (List.mem_cons_of_mem _ hc))
      by_cases hp : keep = true ∨ 0 < c.count (sub n)
      · rw [List.filter_cons_of_pos (by simpa using hp), List.map_cons, List.flatMap_cons, List.length_append, ih, List.map_cons, List.sum_cons]
        simp [arrayOf]
      · rw [List.filter_cons_of_neg (by simpa using hp), ih, List.map_cons, List.sum_cons]
        omega
  · intro r hr
    rw [List.mem_flatMap] at hr
    obtain ⟨a, ha, hr⟩ := hr
    rw [List.mem_map] at ha
    obtain ⟨c, hc, rfl⟩ := ha
    rw [List.mem_filter] at hc
    exact (flatten_slices _ _ _ (hl c hc.1 (by simpa using hc.2))).2 r hr
  · induction l with
    | nil => rfl
    | cons c l ih =>
      have ih := ih (fun c hc => hl c (List.mem_cons_of_mem _ hc))
      have h0 := hl c List.mem_cons_self
      by_cases hp : keep = true ∨ 0 < c.count (sub n)
      · rw [List.filter_cons_of_pos (by simpa using hp), List.map_cons, List.flatMap_cons, List.flatten_append, ih, List.flatMap_cons]
        congr 1
        have := (flatten_slices _ _ _ (h0 hp)).1
        dsimp only [arrayOf]
        rw [this]
        split
        · rename_i hz
          have h0 := h0 hp
          rw [hz, Nat.zero_mul] at h0
          exact List.length_eq_zero_iff.1 h0
        · rfl
      · rw [List.filter_cons_of_neg (by simpa using hp), ih, List.flatMap_cons, if_pos (by omega)]
        rfl

include hd

theorem CatClass.catalogue (hne : files ≠ []) (hn : ∀ c ∈ files.head?, scalarInt c.content count.toList = files.length)
    (hp : ∀ n ∈ datasets, keep = true ∨ ∃ c ∈ files, 0 < c.count (sub n)) :
    ∃ d, groupCatalogue s fs F stem count rows basedir isnap datasets = .ok d ∧ d.map Prod.fst = datasets ∧
      ∀ n ∈ datasets, ∃ a, d.get n = some (.array a) ∧ IsCatalogue files (sub n) n (width n) (dims n) a := by
  obtain ⟨c0, rest, rfl⟩ := List.exists_cons_of_ne_nil hne
  have hc0 := hok c0 List.mem_cons_self
  obtain ⟨f, h3, -⟩ := hC.reads c0 hc0 s c0.big c0.rest
  have hcount : scalarInt c0.content count.toList = (c0 :: rest).length := hn c0 rfl
  have hlen : ∀ n ∈ datasets, ∀ c ∈ c0 :: rest, (keep = true ∨ 0 < c.count (sub n)) → (c.content n).length = c.count (sub n) * (dims n).prod := by
    intro n hn c hc hq
    obtain ⟨sec, hsec, hr⟩ := hC.present _ _ _ _ (ha n hn) c hq
    have := ((hC.fits c (hok c hc)).rows sec hsec _ hr).1
    simpa using this
  have hfound := fun n hn => hC.found_eq (s := s) hs hb isnap hst hok sub width dims ha n hn
  unfold groupCatalogue
  dsimp only
  rw [openNumbered_ok (percentDict_name stem hs hb isnap 0) (hst 0 c0 rfl) h3]
  dsimp only
  rw [hC.int hc0 h3, hcount]
  dsimp only
  rw [Int.toNat_natCast]
  by_cases hds : datasets = []
  · subst hds
    refine ⟨[], ?_, rfl, by simp⟩
    have ho : ∀ l : List Nat, (∀ i ∈ l, i < (c0 :: rest).length) → ∀ d, rmFiles (numberedArrays s fs F (basedir ++ "/groups_".toList ++ decimal3 isnap ++ '/' :: stem.toList ++ decimal3 isnap ++ ".%(i)d".toList) []) [] l d = .ok d := by
      intro l
      induction l with
      | nil => intro _ d; rfl
      | cons i l ih =>
        intro hl d
        obtain ⟨g, h1, -⟩ := hC.numbered (s := s) (c := (c0 :: rest)[i]'(hl i (by simp))) (hok _ (List.getElem_mem _)) (percentDict_name stem hs hb isnap i) (hst i _ (List.getElem?_eq_getElem _)) [] sub width dims (by simp)
        rw [rmFiles, h1]
        exact ih (fun j hj => hl j (by simp [hj])) d
    unfold readMulti
    dsimp only
    rw [ho _ (fun i hi => List.mem_range.1 hi)]
    rfl
  · obtain ⟨m, hm⟩ := List.exists_mem_of_ne_nil _ hds
    obtain ⟨d, e1, e2, e3⟩ := C43_rows rows _ (List.range (c0 :: rest).length) hd (hfound m hm).1 dims width (by
      intro n hn
      rw [(hfound n hn).2]
      constructor
      · intro h
        rw [List.map_eq_nil_iff, List.filter_eq_nil_iff] at h
        rcases hp n hn with hk | ⟨c, hc, h0⟩
        · exact h c0 List.mem_cons_self (by simp [hk])
        · exact h c hc (by simp [h0])
      · intro a ha
        rw [List.mem_map] at ha
        obtain ⟨c, -, rfl⟩ := ha
        exact ⟨rfl, rfl⟩)
    refine ⟨d, e1, e2, fun n hn => ⟨_, e3 n hn, ?_⟩⟩
    rw [(hfound n hn).2]
    exact isCatalogue_arrays sub width dims n _ (hlen n hn)

theorem CatClass.nowhere (hne : files ≠ []) (hn : ∀ c ∈ files.head?, scalarInt c.content count.toList = files.length) (hk : keep = false)
    (hp : ∃ n ∈ datasets, ∀ c ∈ files, c.count (sub n) = 0) : groupCatalogue s fs F stem count rows basedir isnap datasets = .error .valueError := by
  obtain ⟨c0, rest, rfl⟩ := List.exists_cons_of_ne_nil hne
  have hc0 := hok c0 List.mem_cons_self
  obtain ⟨f, h3, -⟩ := hC.reads c0 hc0 s c0.big c0.rest
  have hcount : scalarInt c0.content count.toList = (c0 :: rest).length := hn c0 rfl
  obtain ⟨n, hn, hp⟩ := hp
  have hfound := hC.found_eq (s := s) hs hb isnap hst hok sub width dims ha n hn
  unfold groupCatalogue
  dsimp only
  rw [openNumbered_ok (percentDict_name stem hs hb isnap 0) (hst 0 c0 rfl) h3]
  dsimp only
  rw [hC.int hc0 h3, hcount]
  dsimp only
  rw [Int.toNat_natCast]
  refine readMulti_nowhere rows _ _ hd hfound.1 ⟨n, hn, ?_⟩
  rw [hfound.2, List.map_eq_nil_iff, List.filter_eq_nil_iff]
  intro c hc
  simp [hk, hp c hc]

omit hd in
theorem CatClass.missing (hn : ∀ c ∈ files.head?, (files.length : Int) < scalarInt c.content count.toList) (hm : fs (catalogueFile stem basedir isnap files.length) = none) :
    groupCatalogue s fs F stem count rows basedir isnap datasets = .error .ioError := by
  have hmiss : openNumbered s fs F (basedir ++ "/groups_".toList ++ decimal3 isnap ++ '/' :: stem.toList ++ decimal3 isnap ++ ".%(i)d".toList) files.length = .error .ioError := by
    simp only [openNumbered, percentDict_name stem hs hb isnap, hm]
  cases files with
  | nil =>
    unfold groupCatalogue
    dsimp only
    rw [show openNumbered s fs F _ 0 = .error .ioError from hmiss]
  | cons c0 rest =>
    have hc0 := hok c0 List.mem_cons_self
    obtain ⟨f, h3, -⟩ := hC.reads c0 hc0 s c0.big c0.rest
    have hcount := hn c0 rfl
    unfold groupCatalogue
    dsimp only
    rw [openNumbered_ok (percentDict_name stem hs hb isnap 0) (hst 0 c0 rfl) h3]
    dsimp only
    rw [hC.int hc0 h3]
    dsimp only
    obtain ⟨N, hN⟩ : ∃ N : Nat, (scalarInt c0.content count.toList).toNat = (c0 :: rest).length + (N + 1) := ⟨(scalarInt c0.content count.toList).toNat - (c0 :: rest).length - 1, by omega⟩
    rw [hN, List.range_eq_range', ← List.range'_append_1, Nat.zero_add, List.range'_succ]
    apply readMulti_error
    · intro j hj
      have hj := (List.mem_range'_1.1 hj).2
      rw [Nat.zero_add] at hj
      obtain ⟨g, h1, -⟩ := hC.numbered (s := s) (c := (c0 :: rest)[j]) (hok _ (List.getElem_mem _)) (percentDict_name stem hs hb isnap j) (hst j _ (List.getElem?_eq_getElem hj)) datasets sub width dims ha
      exact ⟨g, h1⟩
    · simp only [numberedArrays, hmiss]

end

end Verif
