import Verif.Proofs.EagleFilename

/-!
C63: names of EAGLE output files. Each call is made with the file system as it is at that time, so that outputs may appear and vanish between calls; the label of an output is always the
same.
-/

namespace Verif

/-- C63: whatever calls were made before, the name of a file which is present is its path. -/
theorem C63_present {label : List Char → String → Nat → List Char} {calls : List (EagleFS × EagleCall)} {fs : EagleFS}
    (hcalls : ∀ c ∈ calls, OneLabel c.1 label ∧ '\n' ∉ c.2.basedir) (hfs : OneLabel fs label)
    {b : List Char} {n dir : String} {s i : Nat} (hb : '\n' ∉ b) (hd : eagleDirectory n = some dir)
    (hp : (eagleDirFor dir s (label b n s), eagleFileFor n s i (label b n s)) ∈ fs b) :
    (eagleFilename fs (eagleCacheAfter calls) ⟨b, n.toList, s, i⟩).1 = .ok (eaglePath b dir n s i (label b n s)) := by
  have hc := cache_right (fun c h => (hcalls c h).1) (fun c h => (hcalls c h).2) b n s
  obtain ⟨st1, st2, st3⟩ := eagleFilename_step (i := i) hfs hd hb (eagleCacheAfter calls) (s := s)
  split at hc
  · rw [st3 hc]
  · rw [st1 hc ⟨dir, hd, hp⟩]

/-- C63: for a file which is not present there is an IOError only if no file of the same output was found by an earlier call. Otherwise the result is the path the file would have. -/
theorem C63_missing {label : List Char → String → Nat → List Char} {calls : List (EagleFS × EagleCall)} {fs : EagleFS}
    (hcalls : ∀ c ∈ calls, OneLabel c.1 label ∧ '\n' ∉ c.2.basedir) (hfs : OneLabel fs label)
    {b : List Char} {n dir : String} {s i : Nat} (hb : '\n' ∉ b) (hd : eagleDirectory n = some dir)
    (hp : (eagleDirFor dir s (label b n s), eagleFileFor n s i (label b n s)) ∉ fs b) :
    ((¬ ∃ c ∈ calls, c.2.basedir = b ∧ c.2.basename = n.toList ∧ c.2.isnap = s ∧ EaglePresent c.1 label b n s c.2.ifile) →
      (eagleFilename fs (eagleCacheAfter calls) ⟨b, n.toList, s, i⟩).1 = .error .ioError) ∧
    ((∃ c ∈ calls, c.2.basedir = b ∧ c.2.basename = n.toList ∧ c.2.isnap = s ∧ EaglePresent c.1 label b n s c.2.ifile) →
      (eagleFilename fs (eagleCacheAfter calls) ⟨b, n.toList, s, i⟩).1 = .ok (eaglePath b dir n s i (label b n s))) := by
  have hc := cache_right (fun c h => (hcalls c h).1) (fun c h => (hcalls c h).2) b n s
  obtain ⟨st1, st2, st3⟩ := eagleFilename_step (i := i) hfs hd hb (eagleCacheAfter calls) (s := s)
  constructor
  · intro h
    rw [if_neg h] at hc
    rw [st2 hc]
    rintro ⟨dir', hd', h'⟩
    rw [hd] at hd'
    injection hd' with hd'
    rw [← hd'] at h'
    exact hp h'
  · intro h
    rw [if_pos h] at hc
    rw [st3 hc]

/-- C63: a type of file which is not known is a KeyError, whatever is in the file system and in the cache. -/
theorem C63_unknown (fs : EagleFS) (cache : EagleCache) (b : List Char) {n : String} (s i : Nat) (hd : eagleDirectory n = none) :
    eagleFilename fs cache ⟨b, n.toList, s, i⟩ = (.error .keyError, cache) :=
  eagleFilename_unknown rfl hd

/-- C63: in any file system, whatever its labels, a name found without the cache is that of a file which is present, with a redshift label, and no other file fits the arguments. -/
theorem C63_found {fs : EagleFS} {b : List Char} {n : String} {s i : Nat} {p : List Char}
    (h : (eagleFilename fs [] ⟨b, n.toList, s, i⟩).1 = .ok p) :
    ∃ dir z z', eagleDirectory n = some dir ∧ LooksLikeLabel z ∧ IsRedshiftLabel z' ∧
      (eagleDirFor dir s z, eagleFileFor n s i z') ∈ fs b ∧ p = b ++ ['/'] ++ eagleDirFor dir s z ++ ['/'] ++ eagleFileFor n s i z' ∧
      ∀ w w', LooksLikeLabel w → LooksLikeLabel w' → (eagleDirFor dir s w, eagleFileFor n s i w') ∈ fs b → w = z ∧ w' = z' := by
  unfold eagleFilename at h
  simp only [dirNames_eq] at h
  cases hd : eagleDirectory n with
  | none => rw [hd] at h; cases h
  | some dir =>
    rw [hd] at h
    simp only [Option.map_some] at h
    have hget : EagleCache.get [] (b, n.toList, s) = none := rfl
    rw [hget] at h
    simp only [] at h
    unfold globFiles at h
    generalize hl : (fs b).filter (fun e => globMatch (dirPattern dir.toList s) e.1 && globMatch (filePattern n.toList s i) e.2) = l at h
    match l, hl, h with
    | [], _, h => cases h
    | [e], hl, h =>
      simp only [List.map_cons, List.map_nil] at h
      have he : e ∈ fs b ∧ (globMatch (dirPattern dir.toList s) e.1 && globMatch (filePattern n.toList s i) e.2) = true := by
        have hm : e ∈ (fs b).filter (fun e => globMatch (dirPattern dir.toList s) e.1 && globMatch (filePattern n.toList s i) e.2) := by
          rw [hl]; exact List.mem_singleton_self e
        exact List.mem_filter.1 hm
      obtain ⟨he1, he2⟩ := he
      rw [Bool.and_eq_true, globMatch_dir, globMatch_file] at he2
      obtain ⟨⟨z, hz, e1⟩, z', hz', e2⟩ := he2
      rw [e1, e2, path_split] at h
      cases hr : reMatch (pathStem b dir n s z ++ z' ++ '.' :: digitsOf i ++ ".hdf5".toList) with
      | none => rw [hr] at h; cases h
      | some g =>
        rw [hr] at h
        injection h with h
        obtain ⟨_, hlab⟩ := reMatch_label hz'.length (fun c hc => digitsOf_digit hc) hr
        have hee : e = (eagleDirFor dir s z, eagleFileFor n s i z') := Prod.ext e1 e2
        refine ⟨dir, z, z', rfl, hz, hlab, by rw [← hee]; exact he1, ?_, ?_⟩
        · rw [← h, ← path_split]
          simp only [List.append_assoc, List.cons_append, List.nil_append]
        · intro w w' hw hw' hm
          have hin : (eagleDirFor dir s w, eagleFileFor n s i w') ∈ [e] := by
            rw [← hl, List.mem_filter]
            refine ⟨hm, ?_⟩
            rw [Bool.and_eq_true, globMatch_dir, globMatch_file]
            exact ⟨⟨w, hw, rfl⟩, w', hw', rfl⟩
          rw [List.mem_singleton, hee] at hin
          have h1 : eagleDirFor dir s w = eagleDirFor dir s z := congrArg Prod.fst hin
          have h2 : eagleFileFor n s i w' = eagleFileFor n s i z' := congrArg Prod.snd hin
          constructor
          · unfold eagleDirFor at h1
            exact List.append_cancel_left h1
          · unfold eagleFileFor at h2
            simp only [List.append_assoc] at h2
            have h3 := List.append_cancel_left (List.append_cancel_left (List.append_cancel_left (List.append_cancel_left h2)))
            exact List.append_cancel_right h3
    | e :: e' :: l, _, h => cases h

namespace ExEagle

/-- Two files of snapshot 28, of which the second is added later -/
def before : EagleFS := fun b =>
  if b = "run".toList then [("groups_028_z000p000".toList, "eagle_subfind_tab_028_z000p000.0.hdf5".toList), ("groups_028_z000p000".toList, "notes.txt".toList)] else []

def after : EagleFS := fun b =>
  if b = "run".toList then [("groups_028_z000p000".toList, "eagle_subfind_tab_028_z000p000.0.hdf5".toList), ("groups_028_z000p000".toList, "notes.txt".toList),
    ("groups_028_z000p000".toList, "eagle_subfind_tab_028_z000p000.12.hdf5".toList)] else []

def label : List Char → String → Nat → List Char := fun _ _ _ => "z000p000".toList

theorem label_ok : IsRedshiftLabel "z000p000".toList := ⟨"000".toList, "000".toList, rfl, rfl, rfl, by decide +kernel, by decide +kernel⟩

theorem dir_label {dir : String} {s : Nat} {z x : List Char} (hz : LooksLikeLabel z) (h : eagleDirFor dir s z = x ++ "z000p000".toList) : z = "z000p000".toList :=
  (List.append_inj' h (by rw [hz.length]; rfl)).2

theorem file_label {n : String} {s i : Nat} {z x ds : List Char} (hz : LooksLikeLabel z) (hds : ∀ c ∈ ds, c.isDigit = true)
    (h : eagleFileFor n s i z = x ++ "z000p000".toList ++ '.' :: ds ++ ".hdf5".toList) : z = "z000p000".toList := by
  unfold eagleFileFor at h
  have h' := List.append_cancel_right h
  rw [List.append_assoc _ ['.'], List.singleton_append] at h'
  exact (label_inj (fun c hc => digitsOf_digit hc) hds (by rw [hz.length]; rfl) h').2.1

theorem not_notes {n : String} {s i : Nat} {z : List Char} : eagleFileFor n s i z ≠ "notes.txt".toList := by
  intro h
  have := congrArg List.getLast? h
  unfold eagleFileFor at this
  rw [show ".hdf5".toList = ".hdf".toList ++ ['5'] from rfl, ← List.append_assoc, List.getLast?_concat] at this
  exact absurd this (by decide +kernel)

theorem after_ok : OneLabel after label where
  nodup := by
    intro b
    unfold after
    split
    · decide +kernel
    · exact List.nodup_nil
  isLabel := fun _ _ _ => label_ok
  only := by
    intro b n dir s i z z' _ hz hz' h
    unfold after at h
    split at h
    · simp only [List.mem_cons, List.not_mem_nil, or_false, Prod.mk.injEq] at h
      rcases h with ⟨h1, h2⟩ | ⟨_, h2⟩ | ⟨h1, h2⟩
      · exact ⟨dir_label (x := "groups_028_".toList) hz h1, file_label (x := "eagle_subfind_tab_028_".toList) (ds := "0".toList) hz' (by decide +kernel) h2⟩
      · exact absurd h2 not_notes
      · exact ⟨dir_label (x := "groups_028_".toList) hz h1, file_label (x := "eagle_subfind_tab_028_".toList) (ds := "12".toList) hz' (by decide +kernel) h2⟩
    · cases h

theorem before_ok : OneLabel before label where
  nodup := by
    intro b
    unfold before
    split
    · decide +kernel
    · exact List.nodup_nil
  isLabel := fun _ _ _ => label_ok
  only := by
    intro b n dir s i z z' hd hz hz' h
    refine after_ok.only b n dir s i z z' hd hz hz' ?_
    unfold before at h
    unfold after
    split at h
    · next hb =>
      rw [if_pos hb]
      simp only [List.mem_cons, List.not_mem_nil, or_false] at h ⊢
      rcases h with h | h
      · exact Or.inl h
      · exact Or.inr (Or.inl h)
    · cases h

def ask (i : Nat) : EagleCall := ⟨"run".toList, "eagle_subfind_tab".toList, 28, i⟩

/-- C63_present: file 12 is found after file 0 was found and files 1 and 12 were asked for in vain -/
example : (eagleFilename after (eagleCacheAfter [(before, ask 12), (before, ask 0), (before, ask 1)]) (ask 12)).1 =
    .ok (eaglePath "run".toList "groups" "eagle_subfind_tab" 28 12 "z000p000".toList) :=
  C63_present (label := label) (n := "eagle_subfind_tab") (dir := "groups")
    (by
      intro c hc
      simp only [List.mem_cons, List.not_mem_nil, or_false] at hc
      rcases hc with rfl | rfl | rfl <;> exact ⟨before_ok, by decide +kernel⟩)
    after_ok (by decide +kernel) (by decide +kernel) (by decide +kernel)

example : (eaglePath "run".toList "groups" "eagle_subfind_tab" 28 12 "z000p000".toList) = "run/groups_028_z000p000/eagle_subfind_tab_028_z000p000.12.hdf5".toList := by decide +kernel

/-- C63_missing: before file 0 was found, file 12 is an IOError -/
example : (eagleFilename before (eagleCacheAfter [(before, ask 1)]) (ask 12)).1 = .error .ioError :=
  (C63_missing (label := label) (n := "eagle_subfind_tab") (dir := "groups") (calls := [(before, ask 1)])
    (by
      intro c hc
      rw [List.mem_singleton] at hc
      subst hc
      exact ⟨before_ok, by decide +kernel⟩)
    before_ok (by decide +kernel) (by decide +kernel) (by decide +kernel)).1 (by
      rintro ⟨c, hc, _, _, _, dir, hd, h⟩
      rw [List.mem_singleton] at hc
      subst hc
      have e : eagleDirectory "eagle_subfind_tab" = some "groups" := by decide +kernel
      rw [e] at hd
      injection hd with hd
      subst hd
      revert h
      decide +kernel)

/-- C63_missing: afterwards the name of a file which does not exist is returned -/
example : (eagleFilename before (eagleCacheAfter [(before, ask 0)]) (ask 12)).1 =
    .ok "run/groups_028_z000p000/eagle_subfind_tab_028_z000p000.12.hdf5".toList := by
  have h := (C63_missing (label := label) (n := "eagle_subfind_tab") (dir := "groups") (calls := [(before, ask 0)]) (fs := before) (b := "run".toList) (s := 28) (i := 12)
    (by
      intro c hc
      rw [List.mem_singleton] at hc
      subst hc
      exact ⟨before_ok, by decide +kernel⟩)
    before_ok (by decide +kernel) (by decide +kernel) (by decide +kernel)).2
    ⟨(before, ask 0), by simp, rfl, rfl, rfl, "groups", by decide +kernel, by decide +kernel⟩
  exact h.trans (by decide +kernel)

/-- C63_unknown -/
example : eagleFilename after [] ⟨"run".toList, "snap".toList, 28, 0⟩ = (.error .keyError, []) := C63_unknown after [] _ (n := "snap") 28 0 (by decide +kernel)

/-- C63_found: the conclusion holds for file 0 -/
example : ∃ dir z z', eagleDirectory "eagle_subfind_tab" = some dir ∧ LooksLikeLabel z ∧ IsRedshiftLabel z' ∧
    (eagleDirFor dir 28 z, eagleFileFor "eagle_subfind_tab" 28 0 z') ∈ before "run".toList ∧
    "run/groups_028_z000p000/eagle_subfind_tab_028_z000p000.0.hdf5".toList = "run".toList ++ ['/'] ++ eagleDirFor dir 28 z ++ ['/'] ++ eagleFileFor "eagle_subfind_tab" 28 0 z' ∧
    ∀ w w', LooksLikeLabel w → LooksLikeLabel w' → (eagleDirFor dir 28 w, eagleFileFor "eagle_subfind_tab" 28 0 w') ∈ before "run".toList → w = z ∧ w' = z' :=
  C63_found (by decide +kernel)

end ExEagle

end Verif
