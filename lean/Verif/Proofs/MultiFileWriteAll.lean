import Verif.Proofs.MultiFileRead
import Verif.Spec.MultiFileWrite

set_option linter.unusedSectionVars false

namespace Verif.MultiFileWrite

open Verif.MultiFileRead

variable {α β τ γ : Type*}

/-! ### One file -/

theorem entry_dset (l : List (Name × γ)) (k : Name) (v : γ) (n : Name) : entry (dset l k v) n = if n = k then some v else entry l n := by
  induction l with
  | nil =>
    rw [dset, entry, entry]
    by_cases h : n = k
    · simp [h]
    · simp [h, Ne.symm h, entry]
  | cons e l ih =>
    obtain ⟨m, w⟩ := e
    rw [dset]
    by_cases hm : m = k
    · rw [if_pos hm, entry, entry]
      subst hm
      by_cases h : n = m
      · simp [h]
      · simp [h, Ne.symm h]
    · rw [if_neg hm, entry, ih, entry]
      by_cases h : m = n
      · subst h; simp [hm]
      · simp [h]

theorem opened_ok {mode : Mode} {old : Option (H5 τ α β)} {start : H5 τ α β} (h : Opened mode old start) : openOut mode old = .ok start := by
  unfold Opened at h
  cases mode with
  | w => simp only at h; subst h; cases old <;> rfl
  | x => obtain ⟨rfl, rfl⟩ := h; rfl
  | rplus => simp only at h; subst h; rfl
  | a => simp only at h; subst h; cases old <;> rfl

theorem requireGroup_ok {group : Option Name} {h : H5 τ α β} (hg : ∀ g, group = some g → entry h.groups g = none → entry h.root g = none) :
    ∃ h', requireGroup group h = .ok h' ∧ (∀ group' n, datasetAt h' group' n = datasetAt h group' n) ∧ (∀ g, group = some g → entry h'.groups g ≠ none) ∧ (group = none → h' = h) := by
  unfold requireGroup
  cases group with
  | none => exact ⟨h, rfl, fun _ _ => rfl, (fun g hg => by cases hg), fun _ => rfl⟩
  | some g =>
    simp only [← entry_eq]
    cases he : entry h.groups g with
    | some l =>
      refine ⟨h, by simp, fun _ _ => rfl, ?_, (fun h => by cases h)⟩
      intro g' hg'
      cases hg'
      simp [he]
    | none =>
      refine ⟨{ h with groups := dset h.groups g [] }, ?_, ?_, ?_, (fun h => by cases h)⟩
      · rw [hg g rfl he]; simp
      · intro group' n
        unfold datasetAt
        cases group' with
        | none => rfl
        | some g' =>
          simp only [entry_dset]
          by_cases h' : g' = g
          · subst h'; simp [he, entry]
          · simp [h']
      · intro g' hg'
        cases hg'
        simp [entry_dset]

theorem putDataset_ok {group : Option Name} {h : H5 τ α β} {m : Name} (d : Dset τ α β) (hfree : datasetAt h group m = none) (hgr : group = none → entry h.groups m = none)
    (hg : ∀ g, group = some g → entry h.groups g ≠ none) :
    ∃ h', putDataset group h m d = .ok h' ∧ (∀ n, datasetAt h' group n = if n = m then some d else datasetAt h group n) ∧
      (∀ group' n, group' ≠ group → datasetAt h' group' n = datasetAt h group' n) ∧ (∀ g, group = some g → entry h'.groups g ≠ none) ∧ (group = none → h'.groups = h.groups) := by
  unfold putDataset
  cases group with
  | none =>
    have h1 : entry h.root m = none := hfree
    refine ⟨{ h with root := dset h.root m d }, ?_, ?_, ?_, (fun g hg => by cases hg), fun _ => rfl⟩
    · simp only [← entry_eq, h1, hgr rfl]; rfl
    · intro n
      simp only [datasetAt, entry_dset]
    · intro group' n hne
      cases group' with
      | none => exact absurd rfl hne
      | some g => rfl
  | some g =>
    simp only [← entry_eq]
    cases he : entry h.groups g with
    | none => exact absurd he (hg g rfl)
    | some l =>
      have h1 : entry l m = none := by
        unfold datasetAt at hfree
        simpa [he] using hfree
      refine ⟨{ h with groups := dset h.groups g (dset l m d) }, ?_, ?_, ?_, ?_, (fun h => by cases h)⟩
      · simp only [h1]; rfl
      · intro n
        simp only [datasetAt, entry_dset, if_true, he]
      · intro group' n hne
        cases group' with
        | none => rfl
        | some g' =>
          have : g' ≠ g := fun h => hne (by rw [h])
          simp only [datasetAt, entry_dset, this, if_false]
      · intro g' hg'
        cases hg'
        simp [entry_dset]

theorem putAll_ok {group : Option Name} (names : List Name) (hn : names.Nodup) (v : Name → Dset τ α β) (h : H5 τ α β) (hfree : ∀ n ∈ names, datasetAt h group n = none)
    (hgr : group = none → ∀ n ∈ names, entry h.groups n = none) (hg : ∀ g, group = some g → entry h.groups g ≠ none) :
    ∃ h', putAll group (names.map (fun n => (n, v n))) h = .ok h' ∧ (∀ n, datasetAt h' group n = if n ∈ names then some (v n) else datasetAt h group n) ∧
      ∀ group' n, group' ≠ group → datasetAt h' group' n = datasetAt h group' n := by
  induction names generalizing h with
  | nil => exact ⟨h, rfl, fun n => by simp, fun _ _ _ => rfl⟩
  | cons m names ih =>
    rw [List.nodup_cons] at hn
    obtain ⟨h1, e1, e2, e3, e4, e5⟩ := putDataset_ok (v m) (hfree m (by simp)) (fun hx => hgr hx m (by simp)) hg
    obtain ⟨h2, f1, f2, f3⟩ := ih hn.2 h1 (fun n hnn => by
        rw [e2, if_neg]
        · exact hfree n (by simp [hnn])
        · rintro rfl; exact hn.1 hnn) (fun hx n hnn => by rw [e5 hx]; exact hgr hx n (by simp [hnn])) e4
    refine ⟨h2, ?_, ?_, ?_⟩
    · rw [List.map_cons, putAll, e1]
      exact f1
    · intro n
      rw [f2, e2]
      by_cases hnm : n = m
      · subst hnm; simp [hn.1]
      · simp [hnm]
    · intro group' n hne
      rw [f3 group' n hne, e3 group' n hne]

/-- The file with new datasets -/
theorem fileWrite_ok {group : Option Name} {names : List Name} (hn : names.Nodup) (v : Name → Dset τ α β) (h : H5 τ α β) (hfree : ∀ n ∈ names, datasetAt h group n = none)
    (hgr : group = none → ∀ n ∈ names, entry h.groups n = none) (hg : ∀ g, group = some g → entry h.groups g = none → entry h.root g = none) :
    ∃ h1 h', requireGroup group h = .ok h1 ∧ putAll group (names.map (fun n => (n, v n))) h1 = .ok h' ∧ (∀ n, datasetAt h' group n = if n ∈ names then some (v n) else datasetAt h group n) ∧
      ∀ group' n, group' ≠ group → datasetAt h' group' n = datasetAt h group' n := by
  obtain ⟨h1, e1, e2, e3, e4⟩ := requireGroup_ok hg
  obtain ⟨h2, f1, f2, f3⟩ := putAll_ok names hn v h1 (fun n hnn => by rw [e2]; exact hfree n hnn) (fun hx n hnn => by rw [e4 hx]; exact hgr hx n hnn) e3
  refine ⟨h1, h2, e1, f1, fun n => by rw [f2, e2], fun group' n hne => by rw [f3 group' n hne, e2]⟩

/-! ### All files -/

theorem foldl_setFile_ne (out : Nat → Name) (res : Nat → H5 τ α β) (l : List Nat) (fs : FS τ α β) {x : Name} (hx : ∀ i ∈ l, out i ≠ x) :
    l.foldl (fun fs i => setFile fs (out i) (res i)) fs x = fs x := by
  induction l generalizing fs with
  | nil => rfl
  | cons i l ih =>
    rw [List.foldl_cons, ih _ (fun j hj => hx j (by simp [hj]))]
    unfold setFile
    rw [if_neg (Ne.symm (hx i (by simp)))]

theorem foldl_setFile_mem (out : Nat → Name) (res : Nat → H5 τ α β) (l : List Nat) (hd : l.Nodup) (hinj : ∀ i ∈ l, ∀ j ∈ l, out i = out j → i = j) (fs : FS τ α β) {i : Nat} (hi : i ∈ l) :
    l.foldl (fun fs i => setFile fs (out i) (res i)) fs (out i) = some (res i) := by
  induction l generalizing fs with
  | nil => cases hi
  | cons j l ih =>
    rw [List.nodup_cons] at hd
    rw [List.foldl_cons]
    by_cases hij : i ∈ l
    · exact ih hd.2 (fun a ha b hb => hinj a (by simp [ha]) b (by simp [hb])) _ hij
    · have : i = j := by simpa [hij] using hi
      subst this
      rw [foldl_setFile_ne]
      · unfold setFile; simp
      · intro k hk he
        have := hinj k (by simp [hk]) i (by simp) he
        subst this
        exact hij hk

theorem fileParts_ok {data : Name → TypedArray τ α} (attrs : Option (List (Name × List (Name × β)))) {offset length : Nat} (names : List Name)
    (h : ∀ n ∈ names, offset + length ≤ (data n).rows.length) :
    fileParts data attrs offset length names = .ok (names.map (fun n => (n, ⟨{ data n with rows := slice (data n).rows offset length }, attrsFor attrs n⟩))) := by
  induction names with
  | nil => rfl
  | cons m names ih =>
    rw [fileParts]
    simp only
    rw [if_neg (by rw [length_slice_of_le (h m (by simp))]; simp), ih (fun n hn => h n (by simp [hn]))]
    rfl

/-- Files written by one rank. `v i n` is what should be in file `i`, and `res i` the file afterwards. -/
theorem writeRank_ok {names : List Name} {data : Name → TypedArray τ α} {epf : List (Nat × Nat)} {idx len : Nat → Nat} {out : Nat → Name} {mode : Mode} {group : Option Name}
    {attrs : Option (List (Name × List (Name × β)))} {v : Nat → Name → Dset τ α β} {start mid res : Nat → H5 τ α β} (m s o : Nat) (fs : FS τ α β)
    (hd : ∀ i, s ≤ i → i < s + m → dictGet epf (idx i) = .ok (len i)) (ho : ∀ n ∈ names, o + pre (fun k => len (s + k)) m ≤ (data n).rows.length)
    (hv : ∀ k < m, ∀ n ∈ names, v (s + k) n = ⟨{ data n with rows := slice (data n).rows (o + pre (fun k => len (s + k)) k) (len (s + k)) }, attrsFor attrs n⟩)
    (hopen : ∀ i, s ≤ i → i < s + m → openOut mode (fs (out i)) = .ok (start i)) (hreq : ∀ i, s ≤ i → i < s + m → requireGroup group (start i) = .ok (mid i))
    (hput : ∀ i, s ≤ i → i < s + m → putAll group (names.map (fun n => (n, v i n))) (mid i) = .ok (res i))
    (hinj : ∀ i, s ≤ i → i < s + m → ∀ j, s ≤ j → j < s + m → out i = out j → i = j) :
    writeRank names data epf idx out mode group attrs (List.range' s m) o fs = .ok ((List.range' s m).foldl (fun fs i => setFile fs (out i) (res i)) fs) := by
  induction m generalizing s o fs with
  | zero => rfl
  | succ m ih =>
    have hpre : ∀ k, pre (fun k => len (s + k)) (k + 1) = len s + pre (fun k => len (s + 1 + k)) k := by
      intro k
      induction k with
      | zero => simp [pre_succ]
      | succ k ihk => rw [pre_succ, ihk, pre_succ, show s + (k + 1) = s + 1 + k by omega]; omega
    rw [List.range'_succ, writeRank, hopen s (by omega) (by omega)]
    simp only [Except.andThen]
    rw [hreq s (by omega) (by omega)]
    simp only
    rw [hd s (by omega) (by omega)]
    simp only
    rw [fileParts_ok attrs names (fun n hn => by have := ho n hn; rw [hpre] at this; omega)]
    simp only
    have hparts : names.map (fun n => (n, (⟨{ data n with rows := slice (data n).rows o (len s) }, attrsFor attrs n⟩ : Dset τ α β))) = names.map (fun n => (n, v s n)) := by
      apply List.map_congr_left
      intro n hn
      have := hv 0 (by omega) n hn
      simp only [Nat.add_zero, pre_zero] at this
      rw [this]
    rw [hparts, hput s (by omega) (by omega)]
    simp only
    rw [ih (s + 1) (o + len s) (setFile fs (out s) (res s)) (fun i h1 h2 => hd i (by omega) (by omega)) (fun n hn => by have := ho n hn; rw [hpre] at this; omega) ?_ ?_
      (fun i h1 h2 => hreq i (by omega) (by omega)) (fun i h1 h2 => hput i (by omega) (by omega)) (fun i h1 h2 j h3 h4 => hinj i (by omega) (by omega) j (by omega) (by omega))]
    · rfl
    · intro k hk n hn
      have := hv (k + 1) (by omega) n hn
      rw [hpre, show s + (k + 1) = s + 1 + k by omega] at this
      rw [this, Nat.add_assoc o]
    · intro i h1 h2
      rw [← hopen i (by omega) (by omega)]
      congr 1
      unfold setFile
      rw [if_neg]
      intro he
      have := hinj i (by omega) (by omega) s (by omega) (by omega) he
      omega

theorem collectiveParts_ok [DecidableEq τ] [Inhabited α] {P F : Nat} {data : Name → Nat → TypedArray τ α} {epf : Nat → List (Nat × Nat)} {idx : Nat → Nat} {itemsize : τ → Nat}
    {buffer_size fuel : Nat} (attrs : Option (List (Name × List (Name × β)))) {f : Nat} (names : List Name) {w : Name → TypedArray τ α}
    (h : ∀ n ∈ names, multiFileWrite P F (data n) epf idx itemsize buffer_size fuel f = .ok (some (w n))) :
    collectiveParts P F data epf idx itemsize buffer_size fuel attrs f names = .ok (names.map (fun n => (n, ⟨w n, attrsFor attrs n⟩))) := by
  induction names with
  | nil => rfl
  | cons m names ih =>
    rw [collectiveParts, h m (by simp)]
    simp only [Except.andThen]
    rw [ih (fun n hn => h n (by simp [hn]))]
    rfl

theorem writeCollective_ok [DecidableEq τ] [Inhabited α] {P F : Nat} {names : List Name} {data : Name → Nat → TypedArray τ α} {epf : Nat → List (Nat × Nat)} {idx : Nat → Nat} {out : Nat → Name}
    {mode : Mode} {group : Option Name} {attrs : Option (List (Name × List (Name × β)))} {itemsize : τ → Nat} {buffer_size fuel : Nat} {w : Nat → Name → TypedArray τ α}
    {start mid res : Nat → H5 τ α β} (l : List Nat) (hl : l.Nodup) (fs : FS τ α β)
    (hw : ∀ f ∈ l, ∀ n ∈ names, multiFileWrite P F (data n) epf idx itemsize buffer_size fuel f = .ok (some (w f n)))
    (hopen : ∀ i ∈ l, openOut mode (fs (out i)) = .ok (start i)) (hreq : ∀ i ∈ l, requireGroup group (start i) = .ok (mid i))
    (hput : ∀ i ∈ l, putAll group (names.map (fun n => (n, ⟨w i n, attrsFor attrs n⟩))) (mid i) = .ok (res i)) (hinj : ∀ i ∈ l, ∀ j ∈ l, out i = out j → i = j) :
    writeCollective P F names data epf idx out mode group attrs itemsize buffer_size fuel l fs = .ok (l.foldl (fun fs i => setFile fs (out i) (res i)) fs) := by
  induction l generalizing fs with
  | nil => rfl
  | cons f l ih =>
    rw [List.nodup_cons] at hl
    rw [writeCollective, hopen f (by simp)]
    simp only [Except.andThen]
    rw [hreq f (by simp)]
    simp only
    rw [collectiveParts_ok attrs names (hw f (by simp))]
    simp only
    rw [hput f (by simp)]
    simp only
    rw [ih hl.2 _ (fun g hg => hw g (by simp [hg])) ?_ (fun i hi => hreq i (by simp [hi])) (fun i hi => hput i (by simp [hi])) (fun i hi j hj => hinj i (by simp [hi]) j (by simp [hj]))]
    · rfl
    · intro i hi
      rw [← hopen i (by simp [hi])]
      congr 1
      unfold setFile
      rw [if_neg]
      intro he
      have := hinj i (by simp [hi]) f (by simp) he
      subst this
      exact hl.1 hi

theorem foldl_range'_blocks (num : Nat → Nat) (P : Nat) (g : γ → Nat → γ) (x : γ) :
    (List.range P).foldl (fun a p => (List.range' (pre num p) (num p)).foldl g a) x = (List.range (pre num P)).foldl g x := by
  induction P with
  | zero => rfl
  | succ P ih =>
    rw [List.range_succ, List.foldl_append, ih, List.foldl_cons, List.foldl_nil, pre_succ, List.range_add, List.foldl_append, List.range'_eq_map_range]

theorem writeRanks_ok {P F : Nat} {names : List Name} {data : Name → Nat → TypedArray τ α} {epf : Nat → List (Nat × Nat)} {idx : Nat → Nat} {out : Nat → Name} {mode : Mode}
    {group : Option Name} {attrs : Option (List (Name × List (Name × β)))} {num : Nat → Nat} {res : Nat → H5 τ α β} (l : List Nat)
    (hlay : ∀ p ∈ l, multiFileLayout F P p = .ok (.independent (pre num p) (num p))) (fs : FS τ α β) (good : FS τ α β → List Nat → Prop)
    (hstep : ∀ p rest fs, p ∈ l → good fs (p :: rest) → writeRank names (fun n => data n p) (epf p) idx out mode group attrs (List.range' (pre num p) (num p)) 0 fs =
      .ok ((List.range' (pre num p) (num p)).foldl (fun fs i => setFile fs (out i) (res i)) fs) ∧ good ((List.range' (pre num p) (num p)).foldl (fun fs i => setFile fs (out i) (res i)) fs) rest)
    (hgood : good fs l) :
    writeRanks P F names data epf idx out mode group attrs l fs = .ok (l.foldl (fun fs p => (List.range' (pre num p) (num p)).foldl (fun fs i => setFile fs (out i) (res i)) fs) fs) := by
  induction l generalizing fs with
  | nil => rfl
  | cons p l ih =>
    obtain ⟨h1, h2⟩ := hstep p l fs (by simp) hgood
    rw [writeRanks, hlay p (by simp)]
    simp only
    rw [h1]
    simp only [Except.andThen, List.foldl_cons]
    exact ih (fun q hq => hlay q (by simp [hq])) _ (fun q rest fs hq hg => hstep q rest fs (by simp [hq]) hg) h2

end Verif.MultiFileWrite
