import Verif.Spec.FilePresence
import Verif.Proofs.EagleFilename

/-! Proofs for the scripts which look for missing files. -/

namespace Verif

/-! ### Counting -/

theorem countOf_cons (k : Name) (n : Nat) (d : List (Name × Nat)) (key : Name) : countOf ((k, n) :: d) key = if k = key then n else countOf d key := by
  unfold countOf dget
  rw [List.find?_cons]
  by_cases h : k = key
  · subst h; simp
  · rw [beq_eq_false_iff_ne.2 h, if_neg h]

theorem countOf_bump (d : List (Name × Nat)) (k key : Name) : countOf (bump d k) key = countOf d key + if k = key then 1 else 0 := by
  induction d with
  | nil =>
    rw [bump, countOf_cons]
    split <;> simp [countOf, dget]
  | cons e d ih =>
    obtain ⟨k', n⟩ := e
    unfold bump
    split
    · rename_i h
      subst h
      rw [countOf_cons, countOf_cons]
      split <;> simp
    · rename_i h
      rw [countOf_cons, countOf_cons]
      split
      · rename_i h2
        subst h2
        rw [if_neg (fun h3 => h h3.symm), Nat.add_zero]
      · exact ih

theorem keys_bump (d : List (Name × Nat)) (k key : Name) : key ∈ (bump d k).map Prod.fst ↔ key = k ∨ key ∈ d.map Prod.fst := by
  induction d with
  | nil => simp [bump]
  | cons e d ih =>
    obtain ⟨k', n⟩ := e
    unfold bump
    split
    · rename_i h
      subst h
      simp
    · simp only [List.map_cons, List.mem_cons, ih]
      tauto

/-- What the loop does if no check raises an exception: `b` are the results. -/
theorem presenceLoop_ok {σ : Type*} (check : σ → PresenceItem → Except Err (Bool × σ)) (Inv : σ → Prop) (b : PresenceItem → Bool) (items : List PresenceItem)
    (h : ∀ st, Inv st → ∀ item ∈ items, ∃ st', check st item = .ok (b item, st') ∧ Inv st') (st : σ) (hst : Inv st) (m0 e0 : List (Name × Nat)) (he0 : ∀ key, key ∈ e0.map Prod.fst ↔ 0 < countOf e0 key) :
    ∃ missing expected st', presenceLoop check items st m0 e0 = .ok (missing, expected, st') ∧
      (∀ key, countOf missing key = countOf m0 key + items.countP (fun it => decide (it.key = key) && !b it)) ∧
      (∀ key, countOf expected key = countOf e0 key + items.countP (fun it => decide (it.key = key))) ∧ ∀ key, key ∈ expected.map Prod.fst ↔ 0 < countOf expected key := by
  induction items generalizing st m0 e0 with
  | nil => exact ⟨m0, e0, st, rfl, by simp, by simp, he0⟩
  | cons item items ih =>
    obtain ⟨st', h1, h2⟩ := h st hst item List.mem_cons_self
    obtain ⟨missing, expected, st'', i1, i2, i3, i4⟩ := ih (fun st hst it hit => h st hst it (List.mem_cons_of_mem _ hit)) st' h2 (if b item then m0 else bump m0 item.key) (bump e0 item.key) (by
      intro key
      rw [keys_bump, countOf_bump, he0]
      by_cases hk : item.key = key
      · simp [hk]
      · rw [if_neg hk]
        constructor
        · rintro (h | h)
          · exact absurd h.symm hk
          · omega
        · intro h; exact Or.inr (by omega))
    refine ⟨missing, expected, st'', by rw [presenceLoop, h1]; exact i1, ?_, ?_, i4⟩
    · intro key
      rw [i2, List.countP_cons]
      by_cases hb : b item = true
      · simp [hb]
      · simp only [hb, Bool.false_eq_true, if_false, countOf_bump]
        by_cases hk : item.key = key <;> simp [hk]; omega
    · intro key
      rw [i3, List.countP_cons, countOf_bump]
      by_cases hk : item.key = key <;> simp [hk]; omega

theorem mem_summary {missing expected : List (Name × Nat)} (he : ∀ key, key ∈ expected.map Prod.fst ↔ 0 < countOf expected key) (hle : ∀ key, countOf missing key ≤ countOf expected key) (key : Name) (m t : Nat) :
    (key, m, t) ∈ presenceSummary missing expected ↔ m = countOf missing key ∧ 0 < m ∧ t = countOf expected key := by
  unfold presenceSummary
  simp only [List.mem_map, List.mem_filter, decide_eq_true_eq, Prod.mk.injEq]
  constructor
  · rintro ⟨e, ⟨-, h2⟩, rfl, rfl, rfl⟩
    exact ⟨rfl, h2, rfl⟩
  · rintro ⟨rfl, h1, rfl⟩
    have h3 : key ∈ expected.map Prod.fst := (he key).2 (by have := hle key; omega)
    obtain ⟨e, he1, rfl⟩ := List.mem_map.1 h3
    exact ⟨e, ⟨he1, h1⟩, rfl, rfl, rfl⟩

variable {ω : Type*}

theorem countP_types (types : List ω) (key : ω → Name) (item : ω → PresenceItem) (hkey : ∀ o, (item o).key = key o) (hnd : (types.map key).Nodup) (p : PresenceItem → Bool) {o : ω} (ho : o ∈ types) :
    (types.map item).countP (fun it => decide (it.key = key o) && p it) = if p (item o) then 1 else 0 := by
  induction types with
  | nil => cases ho
  | cons a types ih =>
    rw [List.map_cons, List.nodup_cons] at hnd
    rw [List.map_cons, List.countP_cons]
    rcases List.mem_cons.1 ho with rfl | ho
    · have : (types.map item).countP (fun it => decide (it.key = key o) && p it) = 0 := by
        rw [List.countP_eq_zero]
        intro it hit
        obtain ⟨o', ho', rfl⟩ := List.mem_map.1 hit
        have : (item o').key ≠ key o := by
          rw [hkey]
          intro h
          exact hnd.1 (h ▸ List.mem_map_of_mem ho')
        simp [this]
      rw [this]
      simp [hkey]
    · have hne : (item a).key ≠ key o := by
        rw [hkey]
        intro h
        exact hnd.1 (h ▸ List.mem_map_of_mem ho)
      rw [ih hnd.2 ho]
      simp [hne]

theorem countP_flatMap_types (types : List ω) (key : ω → Name) (item : Nat → ω → PresenceItem) (hkey : ∀ i o, (item i o).key = key o) (hnd : (types.map key).Nodup) (p : PresenceItem → Bool) {o : ω} (ho : o ∈ types)
    (isnaps : List Nat) : (isnaps.flatMap (fun i => types.map (item i))).countP (fun it => decide (it.key = key o) && p it) = (isnaps.filter (fun i => p (item i o))).length := by
  induction isnaps with
  | nil => rfl
  | cons i isnaps ih =>
    rw [List.flatMap_cons, List.countP_append, ih, countP_types types key (item i) (hkey i) hnd p ho]
    by_cases hp : p (item i o) = true
    · rw [if_pos hp, List.filter_cons, if_pos hp, List.length_cons, Nat.add_comm]
    · rw [if_neg hp, List.filter_cons, if_neg hp, Nat.zero_add]

theorem countP_flatMap_other (types : List ω) (key : ω → Name) (item : Nat → ω → PresenceItem) (hkey : ∀ i o, (item i o).key = key o) (p : PresenceItem → Bool) {k : Name} (ho : k ∉ types.map key)
    (isnaps : List Nat) : (isnaps.flatMap (fun i => types.map (item i))).countP (fun it => decide (it.key = k) && p it) = 0 := by
  rw [List.countP_eq_zero]
  intro it hit
  obtain ⟨i, -, hit⟩ := List.mem_flatMap.1 hit
  obtain ⟨o, h1, rfl⟩ := List.mem_map.1 hit
  have : (item i o).key ≠ k := by
    rw [hkey]
    rintro rfl
    exact ho (List.mem_map_of_mem h1)
  simp [this]

/-- The list of numbers which satisfy a condition -/
theorem sublist_filter {isnaps : List Nat} (hnd : isnaps.Nodup) (q : Nat → Bool) (P : Nat → Prop) (hq : ∀ k ∈ isnaps, q k = true ↔ P k) (m : Nat) :
    (∃ bad : List Nat, bad.Sublist isnaps ∧ (∀ k ∈ isnaps, k ∈ bad ↔ P k) ∧ m = bad.length) ↔ m = (isnaps.filter q).length := by
  constructor
  · rintro ⟨bad, h1, h2, rfl⟩
    apply List.Perm.length_eq
    rw [List.perm_ext_iff_of_nodup (h1.nodup hnd) (hnd.filter _)]
    intro k
    rw [List.mem_filter]
    constructor
    · intro hk
      exact ⟨h1.subset hk, (hq k (h1.subset hk)).2 ((h2 k (h1.subset hk)).1 hk)⟩
    · rintro ⟨hk, h3⟩
      exact (h2 k hk).2 ((hq k hk).1 h3)
  · rintro rfl
    exact ⟨isnaps.filter q, List.filter_sublist, fun k hk => by rw [List.mem_filter, hq k hk]; simp [hk], rfl⟩

/-! ### Paths -/

theorem splitLast_append (a : Name) {b : Name} (hb : '/' ∉ b) : splitLast (a ++ '/' :: b) = (a ++ ['/'], b) := by
  unfold splitLast
  have h1 : (a ++ '/' :: b).reverse = b.reverse ++ '/' :: a.reverse := by simp
  have h2 : ∀ c ∈ b.reverse, (c != '/') = true := by
    intro c hc
    simp only [bne_iff_ne, ne_eq]
    rintro rfl
    exact hb (List.mem_reverse.1 hc)
  rw [h1, List.dropWhile_append_of_pos h2, List.takeWhile_append_of_pos h2]
  simp

theorem baseName_append (a : Name) {b : Name} (hb : '/' ∉ b) : baseName (a ++ '/' :: b) = b := by rw [baseName, splitLast_append a hb]

theorem dirName_append (a : Name) (c : Char) {b : Name} (hc : c ≠ '/') (hb : '/' ∉ b) : dirName (a ++ [c] ++ '/' :: b) = a ++ [c] := by
  unfold dirName
  rw [splitLast_append _ hb]
  dsimp only
  rw [if_neg]
  · simp [hc]
  · simp [hc]

theorem slash_not_digits (n : Nat) : '/' ∉ digitsOf n := by
  intro h
  have := digitsOf_digit h
  revert this; decide

theorem slash_not_three (n : Nat) : '/' ∉ threeDigits n := by
  intro h
  have := threeDigits_digit h
  revert this; decide

/-- Numbers end with a character which is not a slash. -/
theorem three_last (n : Nat) : ∃ a c, threeDigits n = a ++ [c] ∧ c ≠ '/' := by
  have hne : threeDigits n ≠ [] := by
    unfold threeDigits
    split
    · simp
    · split
      · simp
      · exact digitsOf_ne_nil n
  refine ⟨_, _, (List.dropLast_append_getLast hne).symm, ?_⟩
  intro h
  exact slash_not_three n (h ▸ List.getLast_mem hne)

/-- Files which are counted -/
theorem foldl_count (P : Nat → Bool) (l : List Nat) (k : Int) : l.foldl (fun files_ok i => if P i = true then files_ok + 1 else files_ok) k = k + (l.countP P : Nat) := by
  induction l generalizing k with
  | nil => simp
  | cons i l ih =>
    rw [List.foldl_cons, ih, List.countP_cons]
    split <;> simp <;> omega

theorem count_all (P : Nat → Bool) (nfiles : Int) : (((List.range nfiles.toNat).countP P : Nat) : Int) = nfiles ↔ ∃ n : Nat, nfiles = n ∧ ∀ i < n, P i = true := by
  constructor
  · intro h
    refine ⟨nfiles.toNat, by omega, ?_⟩
    have h2 : (List.range nfiles.toNat).countP P = (List.range nfiles.toNat).length := by rw [List.length_range]; omega
    rw [List.countP_eq_length] at h2
    intro i hi
    exact h2 i (List.mem_range.2 hi)
  · rintro ⟨n, rfl, h⟩
    rw [Int.toNat_natCast, List.countP_eq_length.2 (fun i hi => h i (List.mem_range.1 hi)), List.length_range]

/-! ### P-Gadget3 -/

theorem pgadget3Filename_eq (basedir : Name) (o : OutputType) (isnap i : Nat) :
    pgadget3Filename basedir o.dir.toList o.file isnap i = pgadget3Dir basedir o isnap ++ '/' :: pgadget3File o isnap i := by
  have e1 : "/".toList = ['/'] := by decide
  have e2 : "_".toList = ['_'] := by decide
  have e3 : ".".toList = ['.'] := by decide
  unfold pgadget3Filename pgadget3Dir pgadget3File
  rw [decimal3_eq, decimal_eq, e1, e2, e3]
  dsimp only
  split <;> simp only [List.append_assoc, List.cons_append, List.nil_append, List.append_nil]

theorem pgadget3File_slash {o : OutputType} (ho : '/' ∉ o.file) (isnap i : Nat) : '/' ∉ pgadget3File o isnap i := by
  unfold pgadget3File
  simp only [List.mem_append, not_or]
  refine ⟨⟨⟨⟨⟨ho, by decide⟩, slash_not_three _⟩, by decide⟩, slash_not_digits _⟩, ?_⟩
  split
  · decide
  · simp

theorem pgadget3CheckDir_eq (nfilesOf : Name → Name → Except Err Int) (listdir : ListDir) (basedir : Name) {o : OutputType} (ho : '/' ∉ o.file) (isnap : Nat) :
    pgadget3CheckDir nfilesOf listdir basedir o.dir.toList o.file o.attr.toList isnap = true ↔ Pgadget3Complete nfilesOf listdir basedir o isnap := by
  have e1 : "/".toList = ['/'] := by decide
  unfold pgadget3CheckDir Pgadget3Complete AllFiles
  simp only [pgadget3Filename_eq, e1, List.append_assoc, List.cons_append, List.nil_append, baseName_append _ (pgadget3File_slash ho isnap _)]
  have hdir : dirName (pgadget3Dir basedir o isnap ++ '/' :: pgadget3File o isnap 0) = pgadget3Dir basedir o isnap := by
    obtain ⟨a, c, h1, h2⟩ := three_last isnap
    have h3 : pgadget3Dir basedir o isnap = (basedir ++ "/".toList ++ o.dir.toList ++ "_".toList ++ a) ++ [c] := by
      unfold pgadget3Dir
      rw [h1]
      simp only [List.append_assoc]
    rw [h3, dirName_append _ c h2 (pgadget3File_slash ho isnap 0)]
  rw [hdir]
  cases hn : nfilesOf (pgadget3Dir basedir o isnap ++ '/' :: pgadget3File o isnap 0) o.attr.toList with
  | error e => simp
  | ok nfiles =>
    cases hl : listdir (pgadget3Dir basedir o isnap) with
    | none =>
      simp only [decide_eq_true_eq, Except.ok.injEq, reduceCtorEq, false_and, exists_false, or_false]
      constructor
      · intro h; exact ⟨0, by simpa using h.symm, rfl⟩
      · rintro ⟨n, rfl, rfl⟩; rfl
    | some l =>
      have hc := foldl_count (fun i => decide (pgadget3File o isnap i ∈ l)) (List.range nfiles.toNat) 0
      simp only [decide_eq_true_eq, Int.zero_add] at hc
      simp only [hc, decide_eq_true_eq, count_all, Except.ok.injEq, Option.some.injEq, exists_eq_left']
      constructor
      · rintro ⟨n, h1, h2⟩; exact ⟨n, h1, Or.inr h2⟩
      · rintro ⟨n, h1, rfl | h2⟩
        · exact ⟨0, h1, fun i hi => absurd hi (by omega)⟩
        · exact ⟨n, h1, h2⟩

theorem presenceRange_mem {first max step : Nat} (hs : 0 < step) {isnaps : List Nat} (h : presenceRange first max step = .ok isnaps) :
    isnaps.Nodup ∧ ∀ k, k ∈ isnaps ↔ first ≤ k ∧ k ≤ max ∧ ∃ j, k = first + j * step := by
  unfold presenceRange at h
  rw [if_neg (by omega)] at h
  cases h
  constructor
  · apply List.Nodup.map _ List.nodup_range
    intro a b hab
    have : a * step = b * step := by simpa using hab
    exact Nat.eq_of_mul_eq_mul_right hs this
  · intro k
    simp only [List.mem_map, List.mem_range]
    constructor
    · rintro ⟨j, hj, rfl⟩
      refine ⟨by omega, ?_, j, rfl⟩
      rw [Nat.lt_div_iff_mul_lt hs] at hj
      have : j * step = step * j := Nat.mul_comm _ _
      omega
    · rintro ⟨h1, h2, j, rfl⟩
      refine ⟨j, ?_, rfl⟩
      rw [Nat.lt_div_iff_mul_lt hs]
      have : j * step = step * j := Nat.mul_comm _ _
      omega

/-! ### EAGLE -/

/-- The only directory of this type for this snapshot has label `z`. -/
def OnlyLabel (listdir : ListDir) (basedir : Name) (dir : String) (isnap : Nat) (z : Name) : Prop :=
  ∃ dirs, listdir basedir = some dirs ∧ LooksLikeLabel z ∧ eagleDirFor dir isnap z ∈ dirs ∧ ∀ z', LooksLikeLabel z' → eagleDirFor dir isnap z' ∈ dirs → z' = z

theorem OnlyLabel.unique {listdir : ListDir} {basedir : Name} {dir : String} {isnap : Nat} {z z' : Name} (h : OnlyLabel listdir basedir dir isnap z) (h' : OnlyLabel listdir basedir dir isnap z') : z' = z := by
  obtain ⟨d, h1, -, -, h4⟩ := h
  obtain ⟨d', k1, k2, k3, -⟩ := h'
  rw [h1] at k1
  cases k1
  exact h4 z' k2 k3

/-- The cache agrees with the directories. -/
def PresenceCacheRight (listdir : ListDir) (basedir : Name) (cache : PresenceCache) : Prop :=
  ∀ (dir : String) isnap z, cache.get (basedir, dir.toList, isnap) = some z → OnlyLabel listdir basedir dir isnap z

theorem glob_only {listdir : ListDir} {basedir : Name} (hnd : ∀ dirs, listdir basedir = some dirs → dirs.Nodup) (dir : String) (isnap : Nat) (d : Name) :
    ((listdir basedir).getD []).filter (globMatch (dirPattern dir.toList isnap)) = [d] ↔ ∃ z, OnlyLabel listdir basedir dir isnap z ∧ d = eagleDirFor dir isnap z := by
  constructor
  · intro h
    cases hl : listdir basedir with
    | none => rw [hl] at h; simp at h
    | some dirs =>
      rw [hl, Option.getD_some] at h
      have hd : d ∈ dirs.filter (globMatch (dirPattern dir.toList isnap)) := by rw [h]; simp
      rw [List.mem_filter, globMatch_dir] at hd
      obtain ⟨h1, z, hz, rfl⟩ := hd
      refine ⟨z, ⟨dirs, hl, hz, h1, ?_⟩, rfl⟩
      intro z' hz' h2
      have h3 : eagleDirFor dir isnap z' ∈ dirs.filter (globMatch (dirPattern dir.toList isnap)) := by
        rw [List.mem_filter, globMatch_dir]
        exact ⟨h2, z', hz', rfl⟩
      rw [h, List.mem_singleton] at h3
      unfold eagleDirFor at h3
      exact List.append_cancel_left h3
  · rintro ⟨z, ⟨dirs, hl, hz, h1, h2⟩, rfl⟩
    rw [hl, Option.getD_some]
    have hn := (hnd dirs hl).filter (globMatch (dirPattern dir.toList isnap))
    have hmem : ∀ x, x ∈ dirs.filter (globMatch (dirPattern dir.toList isnap)) ↔ x = eagleDirFor dir isnap z := by
      intro x
      rw [List.mem_filter, globMatch_dir]
      constructor
      · rintro ⟨hx, z', hz', rfl⟩
        rw [h2 z' hz' hx]
      · rintro rfl
        exact ⟨h1, z, hz, rfl⟩
    exact List.perm_singleton.1 ((List.perm_ext_iff_of_nodup hn (List.nodup_singleton _)).2 (fun x => by rw [hmem, List.mem_singleton]))

def presencePath (basedir : Name) (o : OutputType) (isnap i : Nat) (z : Name) : Name := basedir ++ '/' :: eagleDirFor o.dir isnap z ++ '/' :: eagleFileFor (String.ofList o.file) isnap i z

theorem presencePath_eq (basedir : Name) (o : OutputType) (isnap i : Nat) (z : Name) :
    basedir ++ '/' :: o.dir.toList ++ '_' :: decimal3 isnap ++ '_' :: z ++ '/' :: o.file ++ '_' :: decimal3 isnap ++ '_' :: z ++ '.' :: decimal i ++ ".hdf5".toList = presencePath basedir o isnap i z := by
  unfold presencePath eagleDirFor eagleFileFor
  rw [decimal3_eq, decimal_eq]
  simp only [String.toList_ofList, List.append_assoc, List.cons_append, List.nil_append]

set_option linter.unusedSectionVars false

section
variable {listdir : ListDir} {basedir : Name} (hnd : ∀ dirs, listdir basedir = some dirs → dirs.Nodup) (hsl : ∀ dirs, listdir basedir = some dirs → ∀ d ∈ dirs, '/' ∉ d)
include hnd

theorem filename_found {cache : PresenceCache} (hc : PresenceCacheRight listdir basedir cache) {o : OutputType} {isnap : Nat} {z : Name} (hz : OnlyLabel listdir basedir o.dir isnap z) (i : Nat) :
    ∃ cache', presenceFilename listdir cache basedir o.dir.toList o.file isnap i = (.ok (presencePath basedir o isnap i z), cache') ∧ PresenceCacheRight listdir basedir cache' := by
  unfold presenceFilename
  dsimp only
  cases hg : cache.get (basedir, o.dir.toList, isnap) with
  | some z' =>
    obtain rfl := hz.unique (hc _ _ _ hg)
    exact ⟨cache, by dsimp only; rw [presencePath_eq], hc⟩
  | none =>
    dsimp only
    rw [(glob_only hnd o.dir isnap _).2 ⟨z, hz, rfl⟩]
    have hlen : z.length = 8 := by obtain ⟨_, _, h, _⟩ := hz; exact h.length
    have hdrop : (basedir ++ '/' :: eagleDirFor o.dir isnap z).drop ((basedir ++ '/' :: eagleDirFor o.dir isnap z).length - 8) = z := by
      have : basedir ++ '/' :: eagleDirFor o.dir isnap z = (basedir ++ '/' :: (o.dir.toList ++ ['_'] ++ threeDigits isnap ++ ['_'])) ++ z := by
        simp only [eagleDirFor, List.append_assoc, List.cons_append]
      rw [this, List.drop_left' (by rw [List.length_append (bs := z)]; omega)]
    simp only [List.map_cons, List.map_nil, hdrop, presencePath_eq]
    refine ⟨_, rfl, ?_⟩
    intro dir' isnap' z' h
    unfold PresenceCache.get at h
    rw [List.find?_cons] at h
    split at h
    · rename_i hk
      simp only [beq_iff_eq, Prod.mk.injEq, true_and] at hk
      obtain ⟨h1, rfl⟩ := hk
      obtain rfl := String.toList_inj.1 h1
      simp only [Option.map_some, Option.some.injEq] at h
      subst h
      exact hz
    · exact hc dir' isnap' z' h

theorem filename_missing {cache : PresenceCache} (hc : PresenceCacheRight listdir basedir cache) {o : OutputType} {isnap : Nat} (hz : ∀ z, ¬OnlyLabel listdir basedir o.dir isnap z) (i : Nat) :
    presenceFilename listdir cache basedir o.dir.toList o.file isnap i = (.error .ioError, cache) := by
  unfold presenceFilename
  dsimp only
  cases hg : cache.get (basedir, o.dir.toList, isnap) with
  | some z' => exact absurd (hc _ _ _ hg) (hz z')
  | none =>
    dsimp only
    cases hf : ((listdir basedir).getD []).filter (globMatch (dirPattern o.dir.toList isnap)) with
    | nil => rfl
    | cons d rest =>
      cases rest with
      | nil =>
        obtain ⟨z, h1, -⟩ := (glob_only hnd o.dir isnap d).1 hf
        exact absurd h1 (hz z)
      | cons d' rest => rfl

theorem count_found {cache : PresenceCache} (hc : PresenceCacheRight listdir basedir cache) {o : OutputType} {isnap : Nat} {z : Name} (hz : OnlyLabel listdir basedir o.dir isnap z) (fnames : List Name) (l : List Nat) (k : Int) :
    ∃ cache', presenceCount listdir basedir o.dir.toList o.file isnap fnames l cache k = .ok (k + (l.countP (fun i => decide (baseName (presencePath basedir o isnap i z) ∈ fnames)) : Nat), cache') ∧ PresenceCacheRight listdir basedir cache' := by
  induction l generalizing cache k with
  | nil => exact ⟨cache, by simp [presenceCount], hc⟩
  | cons i l ih =>
    obtain ⟨c1, h1, h2⟩ := filename_found hnd hc hz i
    obtain ⟨c2, h3, h4⟩ := ih h2 (if baseName (presencePath basedir o isnap i z) ∈ fnames then k + 1 else k)
    refine ⟨c2, ?_, h4⟩
    rw [presenceCount, h1]
    dsimp only
    rw [h3, List.countP_cons]
    by_cases hm : baseName (presencePath basedir o isnap i z) ∈ fnames
    · simp only [hm, if_true, decide_true]
      congr 2
      push_cast
      omega
    · simp [hm]

/-- The cache is right after `check_dir`. -/
theorem eagleCheckDir_inv {nfilesOf : Name → Name → Except Err Int} {cache : PresenceCache} (hc : PresenceCacheRight listdir basedir cache) {o : OutputType} {key : Name} {isnap : Nat} {b : Bool} {cache' : PresenceCache}
    (h : eagleCheckDir nfilesOf listdir basedir cache ⟨key, o.dir.toList, o.file, o.attr.toList, isnap⟩ = .ok (b, cache')) : PresenceCacheRight listdir basedir cache' := by
  unfold eagleCheckDir at h
  dsimp only at h
  by_cases hz : ∃ z, OnlyLabel listdir basedir o.dir isnap z
  · obtain ⟨z, hz⟩ := hz
    obtain ⟨c1, h1, h2⟩ := filename_found hnd hc hz 0
    rw [h1] at h
    dsimp only at h
    split at h
    · cases h; exact h2
    · cases h
    · rename_i nfiles _
      split at h
      · cases h; exact h2
      · rename_i fnames _
        obtain ⟨c2, h3, h4⟩ := count_found hnd h2 hz fnames (List.range nfiles.toNat) 0
        rw [h3] at h
        cases h; exact h4
  · rw [filename_missing hnd hc (fun z h => hz ⟨z, h⟩)] at h
    cases h
    exact hc

include hsl

theorem label_slash {o : OutputType} {isnap : Nat} {z : Name} (hz : OnlyLabel listdir basedir o.dir isnap z) : '/' ∉ z ∧ ∃ a c, z = a ++ [c] ∧ c ≠ '/' := by
  obtain ⟨dirs, h1, h2, h3, -⟩ := hz
  have h4 : '/' ∉ z := by
    intro h
    apply hsl dirs h1 _ h3
    unfold eagleDirFor
    exact List.mem_append_right _ h
  refine ⟨h4, ?_⟩
  have hne : z ≠ [] := by rintro rfl; have := h2.length; simp at this
  exact ⟨_, _, (List.dropLast_append_getLast hne).symm, fun h => h4 (h ▸ List.getLast_mem hne)⟩

omit hnd in
theorem eagleFile_slash {o : OutputType} (ho : '/' ∉ o.file) {isnap i : Nat} {z : Name} (hz : '/' ∉ z) : '/' ∉ eagleFileFor (String.ofList o.file) isnap i z := by
  unfold eagleFileFor
  rw [String.toList_ofList]
  simp only [List.mem_append, not_or]
  exact ⟨⟨⟨⟨⟨⟨⟨ho, by decide⟩, slash_not_three _⟩, by decide⟩, hz⟩, by decide⟩, slash_not_digits _⟩, by decide⟩

/-- Result of `check_dir` if the header can be read or there is an `IOError` -/
theorem eagleCheckDir_eq {nfilesOf : Name → Name → Except Err Int} {cache : PresenceCache} (hc : PresenceCacheRight listdir basedir cache) {o : OutputType} (ho : '/' ∉ o.file) (key : Name) (isnap : Nat)
    (hio : ∀ z, OnlyLabel listdir basedir o.dir isnap z → ∀ e, nfilesOf (presencePath basedir o isnap 0 z) o.attr.toList = .error e → e = .ioError) :
    ∃ b cache', eagleCheckDir nfilesOf listdir basedir cache ⟨key, o.dir.toList, o.file, o.attr.toList, isnap⟩ = .ok (b, cache') ∧ PresenceCacheRight listdir basedir cache' ∧
      (b = true ↔ EagleComplete nfilesOf listdir basedir o isnap) := by
  have hcomp : EagleComplete nfilesOf listdir basedir o isnap ↔ ∃ z, OnlyLabel listdir basedir o.dir isnap z ∧
      AllFiles (nfilesOf (presencePath basedir o isnap 0 z) o.attr.toList) (listdir (basedir ++ '/' :: eagleDirFor o.dir isnap z)) (fun i => eagleFileFor (String.ofList o.file) isnap i z) := by
    have e1 : "/".toList = ['/'] := by decide
    unfold EagleComplete OnlyLabel presencePath
    simp only [e1, List.append_assoc, List.cons_append, List.nil_append]
    constructor
    · rintro ⟨dirs, z, h1, h2, h3, h4, h5⟩; exact ⟨z, ⟨dirs, h1, h2, h3, h4⟩, h5⟩
    · rintro ⟨z, ⟨dirs, h1, h2, h3, h4⟩, h5⟩; exact ⟨dirs, z, h1, h2, h3, h4, h5⟩
  rw [hcomp]
  unfold eagleCheckDir
  dsimp only
  by_cases hz : ∃ z, OnlyLabel listdir basedir o.dir isnap z
  · obtain ⟨z, hz⟩ := hz
    have hsimp : (∃ z, OnlyLabel listdir basedir o.dir isnap z ∧ AllFiles (nfilesOf (presencePath basedir o isnap 0 z) o.attr.toList) (listdir (basedir ++ '/' :: eagleDirFor o.dir isnap z)) (fun i => eagleFileFor (String.ofList o.file) isnap i z)) ↔
        AllFiles (nfilesOf (presencePath basedir o isnap 0 z) o.attr.toList) (listdir (basedir ++ '/' :: eagleDirFor o.dir isnap z)) (fun i => eagleFileFor (String.ofList o.file) isnap i z) := by
      constructor
      · rintro ⟨z', h1, h2⟩
        rw [hz.unique h1] at h2
        exact h2
      · intro h; exact ⟨z, hz, h⟩
    rw [hsimp]
    obtain ⟨s1, a, c, hac, hcs⟩ := label_slash hnd hsl hz
    have hfs := fun i => eagleFile_slash hsl (o := o) (isnap := isnap) (i := i) ho s1
    have hbase : ∀ i, baseName (presencePath basedir o isnap i z) = eagleFileFor (String.ofList o.file) isnap i z := by
      intro i
      unfold presencePath
      exact baseName_append _ (hfs i)
    have hdir : dirName (presencePath basedir o isnap 0 z) = basedir ++ '/' :: eagleDirFor o.dir isnap z := by
      unfold presencePath
      have h3 : basedir ++ '/' :: eagleDirFor o.dir isnap z = (basedir ++ '/' :: (o.dir.toList ++ ['_'] ++ threeDigits isnap ++ ['_'] ++ a)) ++ [c] := by
        rw [eagleDirFor, hac]
        simp only [List.append_assoc, List.cons_append]
      rw [h3, dirName_append _ c hcs (hfs 0)]
    obtain ⟨c1, h1, h2⟩ := filename_found hnd hc hz 0
    rw [h1]
    dsimp only
    unfold AllFiles
    cases hn : nfilesOf (presencePath basedir o isnap 0 z) o.attr.toList with
    | error e =>
      obtain rfl := hio z hz e hn
      exact ⟨false, c1, rfl, h2, by simp⟩
    | ok nfiles =>
      dsimp only
      rw [hdir]
      cases hl : listdir (basedir ++ '/' :: eagleDirFor o.dir isnap z) with
      | none =>
        refine ⟨_, c1, rfl, h2, ?_⟩
        simp only [decide_eq_true_eq, Except.ok.injEq, reduceCtorEq, false_and, exists_false, or_false]
        constructor
        · intro h; exact ⟨0, by simpa using h.symm, rfl⟩
        · rintro ⟨n, rfl, rfl⟩; rfl
      | some fnames =>
        obtain ⟨c2, h3, h4⟩ := count_found hnd h2 hz fnames (List.range nfiles.toNat) 0
        dsimp only
        rw [h3]
        refine ⟨_, c2, rfl, h4, ?_⟩
        simp only [Int.zero_add, decide_eq_true_eq, count_all, Except.ok.injEq, Option.some.injEq, exists_eq_left', hbase]
        constructor
        · rintro ⟨n, h1, h2⟩; exact ⟨n, h1, Or.inr h2⟩
        · rintro ⟨n, h1, rfl | h2⟩
          · exact ⟨0, h1, fun i hi => absurd hi (by omega)⟩
          · exact ⟨n, h1, h2⟩
  · rw [filename_missing hnd hc (fun z h => hz ⟨z, h⟩)]
    refine ⟨false, cache, rfl, hc, ?_⟩
    simp only [Bool.false_eq_true, false_iff]
    rintro ⟨z, h, -⟩
    exact hz ⟨z, h⟩

end

/-! ### The summary -/

theorem nodup_bump {d : List (Name × Nat)} (h : (d.map Prod.fst).Nodup) (k : Name) : ((bump d k).map Prod.fst).Nodup := by
  induction d with
  | nil => simp [bump]
  | cons e d ih =>
    obtain ⟨k', n⟩ := e
    rw [List.map_cons, List.nodup_cons] at h
    unfold bump
    split
    · rw [List.map_cons, List.nodup_cons]; exact h
    · rename_i hk
      rw [List.map_cons, List.nodup_cons, keys_bump]
      exact ⟨by rintro (h1 | h1); exacts [hk h1, h.1 h1], ih h.2⟩

theorem presenceLoop_nodup {σ : Type*} (check : σ → PresenceItem → Except Err (Bool × σ)) (items : List PresenceItem) {st : σ} {m0 e0 : List (Name × Nat)} (h0 : (e0.map Prod.fst).Nodup)
    {missing expected : List (Name × Nat)} {st' : σ} (h : presenceLoop check items st m0 e0 = .ok (missing, expected, st')) : (expected.map Prod.fst).Nodup := by
  induction items generalizing st m0 e0 with
  | nil => rw [presenceLoop] at h; cases h; exact h0
  | cons item items ih =>
    rw [presenceLoop] at h
    split at h
    · cases h
    · exact ih (nodup_bump h0 _) h

theorem nodup_summary {missing expected : List (Name × Nat)} (h : (expected.map Prod.fst).Nodup) : ((presenceSummary missing expected).map Prod.fst).Nodup := by
  unfold presenceSummary
  rw [List.map_map]
  exact h.sublist (List.filter_sublist.map Prod.fst)

theorem presenceLoop_error {σ : Type*} (check : σ → PresenceItem → Except Err (Bool × σ)) (Inv : σ → Prop) (items : List PresenceItem) (hinv : ∀ st, Inv st → ∀ item ∈ items, ∀ b st', check st item = .ok (b, st') → Inv st')
    {item : PresenceItem} (hi : item ∈ items) (herr : ∀ st, Inv st → ∃ e, check st item = .error e) (st : σ) (hst : Inv st) (m0 e0 : List (Name × Nat)) : ∃ e, presenceLoop check items st m0 e0 = .error e := by
  induction items generalizing st m0 e0 with
  | nil => cases hi
  | cons a items ih =>
    rw [presenceLoop]
    cases hc : check st a with
    | error e => exact ⟨e, rfl⟩
    | ok r =>
      obtain ⟨b, st'⟩ := r
      rcases List.mem_cons.1 hi with rfl | hi
      · obtain ⟨e, he⟩ := herr st hst
        rw [he] at hc; cases hc
      · exact ih (fun st hst it hit => hinv st hst it (List.mem_cons_of_mem _ hit)) hi st' (hinv st hst a List.mem_cons_self b st' hc) _ _

/-- What is checked for an output -/
def itemFor (o : OutputType) (isnap : Nat) : PresenceItem := ⟨o.key.toList, o.dir.toList, o.file, o.attr.toList, isnap⟩

/-- The output for which something is checked -/
def outputFor (it : PresenceItem) : OutputType := ⟨String.ofList it.key, String.ofList it.dirbase, it.filebase, String.ofList it.attr⟩

theorem outputFor_itemFor (o : OutputType) (isnap : Nat) : outputFor (itemFor o isnap) = o := by
  obtain ⟨a, b, c, d⟩ := o
  simp [outputFor, itemFor]

theorem pgadget3Items_eq (snapbase : Name) (isnap : Nat) : pgadget3Items snapbase isnap = (pgadget3Outputs snapbase).map (fun o => itemFor o isnap) := rfl

theorem eagleItems_eq (snip : Bool) (isnap : Nat) : eagleItems snip isnap = (eagleOutputs.filter (fun o => o.1 == snip)).map (fun o => itemFor o.2 isnap) := by
  cases snip <;> rfl

end Verif
