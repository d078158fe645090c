import Verif.Proofs.FilePresence

/-!
C85: the scripts which look for missing files report exactly the outputs which are not complete.
-/

namespace Verif

open Classical in
/-- The summary of a P-Gadget3 run counts the snapshots `first, first + step, ...` up to `max` for which files are missing. Files whose header can't be read for whatever reason count as missing. -/
theorem C85_pgadget3 (nfilesOf : Name → Name → Except Err Int) (listdir : ListDir) (basedir : Name) {snapbase : Name} (hs : '/' ∉ snapbase) (first max : Nat) {step : Nat} (hstep : 0 < step) :
    ∃ isnaps lines, isnaps.Nodup ∧ (∀ k, k ∈ isnaps ↔ first ≤ k ∧ k ≤ max ∧ ∃ j, k = first + j * step) ∧ checkPgadget3Run nfilesOf listdir basedir snapbase max first step = .ok lines ∧
      IsSummary (pgadget3Outputs snapbase) OutputType.key (fun _ => isnaps) (Pgadget3Complete nfilesOf listdir basedir) lines := by
  have hr : ∃ isnaps, presenceRange first max step = .ok isnaps := by
    unfold presenceRange
    rw [if_neg (by omega)]
    exact ⟨_, rfl⟩
  obtain ⟨isnaps, hr⟩ := hr
  obtain ⟨hnd, hmem⟩ := presenceRange_mem hstep hr
  have hitems : isnaps.flatMap (pgadget3Items snapbase) = isnaps.flatMap (fun i => (pgadget3Outputs snapbase).map (fun o => itemFor o i)) := by
    congr 1
  have hfile : ∀ o ∈ pgadget3Outputs snapbase, '/' ∉ o.file := by
    intro o ho
    simp only [pgadget3Outputs, List.mem_cons, List.not_mem_nil, or_false] at ho
    rcases ho with rfl | rfl | rfl | rfl | rfl
    · exact hs
    all_goals decide
  have hkeys : ((pgadget3Outputs snapbase).map (fun o => o.key.toList)).Nodup := by
    simp only [pgadget3Outputs, List.map_cons, List.map_nil]
    decide
  obtain ⟨missing, expected, st', h1, h2, h3, h4⟩ := presenceLoop_ok (fun (_ : Unit) (item : PresenceItem) => .ok (pgadget3CheckDir nfilesOf listdir basedir item.dirbase item.filebase item.attr item.isnap, ()))
    (fun _ => True) (fun it => decide (Pgadget3Complete nfilesOf listdir basedir (outputFor it) it.isnap)) (isnaps.flatMap (pgadget3Items snapbase)) (by
      intro st _ item hit
      rw [hitems] at hit
      obtain ⟨i, hi, hit⟩ := List.mem_flatMap.1 hit
      obtain ⟨o, ho, rfl⟩ := List.mem_map.1 hit
      refine ⟨(), ?_, trivial⟩
      rw [outputFor_itemFor]
      congr 2
      have := pgadget3CheckDir_eq nfilesOf listdir basedir (hfile o ho) i
      rw [Bool.eq_iff_iff, decide_eq_true_eq]
      exact this) () trivial [] [] (by simp [countOf, dget])
  have hle : ∀ key, countOf missing key ≤ countOf expected key := by
    intro key
    rw [h2, h3]
    apply Nat.add_le_add_left
    apply List.countP_mono_left
    intro it _ h
    simp only [Bool.and_eq_true] at h
    exact h.1
  have h0 : ∀ key, countOf ([] : List (Name × Nat)) key = 0 := fun key => rfl
  refine ⟨isnaps, presenceSummary missing expected, hnd, hmem, ?_, ?_, ?_, ?_⟩
  · unfold checkPgadget3Run
    rw [hr]
    dsimp only
    rw [h1]
  · intro o ho m t
    rw [mem_summary h4 hle, h2, h3, hitems, h0, Nat.zero_add, Nat.zero_add,
      countP_flatMap_types (pgadget3Outputs snapbase) (fun o => o.key.toList) (fun i o => itemFor o i) (fun _ _ => rfl) hkeys _ ho]
    have h6 := countP_flatMap_types (pgadget3Outputs snapbase) (fun o => o.key.toList) (fun i o => itemFor o i) (fun _ _ => rfl) hkeys (fun _ => true) ho isnaps
    simp only [Bool.and_true, List.filter_true] at h6
    rw [h6]
    have h5 := sublist_filter hnd (fun i => !decide (Pgadget3Complete nfilesOf listdir basedir (outputFor (itemFor o i)) (itemFor o i).isnap)) (fun k => ¬Pgadget3Complete nfilesOf listdir basedir o k) (by
      intro k _
      rw [outputFor_itemFor]
      rw [Bool.not_eq_true', decide_eq_false_iff_not]
      rfl) m
    rw [← h5]
    constructor
    · rintro ⟨⟨bad, a1, a2, a3⟩, a4, a5⟩; exact ⟨bad, a1, a2, a3, a4, a5⟩
    · rintro ⟨bad, a1, a2, a3, a4, a5⟩; exact ⟨⟨bad, a1, a2, a3⟩, a4, a5⟩
  · rintro ⟨key, m, t⟩ hline
    rw [mem_summary h4 hle] at hline
    by_contra hk
    have : key ∉ (pgadget3Outputs snapbase).map (fun o => o.key.toList) := by
      intro h
      obtain ⟨o, ho, h⟩ := List.mem_map.1 h
      exact hk ⟨o, ho, h.symm⟩
    have h6 := countP_flatMap_other (pgadget3Outputs snapbase) (fun o => o.key.toList) (fun i o => itemFor o i) (fun _ _ => rfl) (fun it => !decide (Pgadget3Complete nfilesOf listdir basedir (outputFor it) it.isnap)) this isnaps
    rw [h2, hitems, h0, h6] at hline
    omega
  · exact nodup_summary (presenceLoop_nodup _ _ (by simp) h1)

theorem C85_pgadget3_step (nfilesOf : Name → Name → Except Err Int) (listdir : ListDir) (basedir snapbase : Name) (first max : Nat) : checkPgadget3Run nfilesOf listdir basedir snapbase max first 0 = .error .valueError := by
  unfold checkPgadget3Run presenceRange
  rfl

section
variable {nfilesOf : Name → Name → Except Err Int} {listdir : ListDir} {basedir : Name}

theorem eagleOutputs_file : ∀ o ∈ eagleOutputs, '/' ∉ o.2.file := by decide +kernel

open Classical in
/-- The summary of an EAGLE run counts the snapshots and snipshots for which files are missing, if reading the header of a first file either works or gives an `IOError`. -/
theorem C85_eagle (hnd : ∀ dirs, listdir basedir = some dirs → dirs.Nodup) (hsl : ∀ dirs, listdir basedir = some dirs → ∀ d ∈ dirs, '/' ∉ d) (num_snaps num_snips : Nat)
    (hio : ∀ fname attr e, nfilesOf fname attr = .error e → e = .ioError) :
    ∃ lines, checkEagleRun nfilesOf listdir basedir num_snaps num_snips = .ok lines ∧
      IsSummary eagleOutputs (fun o => o.2.key) (fun o => List.range (if o.1 then num_snips else num_snaps)) (fun o => EagleComplete nfilesOf listdir basedir o.2) lines := by
  have hitems : (List.range num_snaps).flatMap (eagleItems false) ++ (List.range num_snips).flatMap (eagleItems true) =
      (List.range num_snaps).flatMap (fun i => (eagleOutputs.filter (fun o => o.1 == false)).map (fun o => itemFor o.2 i)) ++
      (List.range num_snips).flatMap (fun i => (eagleOutputs.filter (fun o => o.1 == true)).map (fun o => itemFor o.2 i)) := by
    congr 2
  have hkeys : (eagleOutputs.map (fun o => o.2.key.toList)).Nodup := by decide +kernel
  obtain ⟨missing, expected, st', h1, h2, h3, h4⟩ := presenceLoop_ok (eagleCheckDir nfilesOf listdir basedir) (PresenceCacheRight listdir basedir)
    (fun it => decide (EagleComplete nfilesOf listdir basedir (outputFor it) it.isnap)) ((List.range num_snaps).flatMap (eagleItems false) ++ (List.range num_snips).flatMap (eagleItems true)) (by
      intro st hst item hit
      rw [hitems] at hit
      have : ∃ o ∈ eagleOutputs, ∃ i, item = itemFor o.2 i := by
        rcases List.mem_append.1 hit with hit | hit
        all_goals
          obtain ⟨i, hi, hit⟩ := List.mem_flatMap.1 hit
          obtain ⟨o, ho, rfl⟩ := List.mem_map.1 hit
          exact ⟨o, (List.mem_filter.1 ho).1, i, rfl⟩
      obtain ⟨o, ho, i, rfl⟩ := this
      obtain ⟨b, c', e1, e2, e3⟩ := eagleCheckDir_eq hnd hsl hst (eagleOutputs_file o ho) o.2.key.toList i (fun z _ e he => hio _ _ e he)
      refine ⟨c', ?_, e2⟩
      rw [outputFor_itemFor]
      unfold itemFor
      rw [e1]
      congr 2
      rw [Bool.eq_iff_iff, decide_eq_true_eq]
      exact e3) [] (by intro dir isnap z h; simp [PresenceCache.get] at h) [] [] (by simp [countOf, dget])
  have hle : ∀ key, countOf missing key ≤ countOf expected key := by
    intro key
    rw [h2, h3]
    apply Nat.add_le_add_left
    apply List.countP_mono_left
    intro it _ h
    simp only [Bool.and_eq_true] at h
    exact h.1
  have h0 : ∀ key, countOf ([] : List (Name × Nat)) key = 0 := fun key => rfl
  -- how often something is counted
  have hcount : ∀ o ∈ eagleOutputs, ∀ p : PresenceItem → Bool, ((List.range num_snaps).flatMap (eagleItems false) ++ (List.range num_snips).flatMap (eagleItems true)).countP (fun it => decide (it.key = o.2.key.toList) && p it) =
      ((List.range (if o.1 then num_snips else num_snaps)).filter (fun i => p (itemFor o.2 i))).length := by
    intro o ho p
    rw [hitems, List.countP_append]
    have hsub : ∀ s, ((eagleOutputs.filter (fun o => o.1 == s)).map (fun o => o.2.key.toList)).Nodup := fun s => hkeys.sublist (List.filter_sublist.map _)
    have hin : o ∈ eagleOutputs.filter (fun o' => o'.1 == o.1) := by rw [List.mem_filter]; exact ⟨ho, by simp⟩
    have hout : ∀ s, s ≠ o.1 → o.2.key.toList ∉ (eagleOutputs.filter (fun o => o.1 == s)).map (fun o => o.2.key.toList) := by
      intro s hs h
      obtain ⟨o', ho', h⟩ := List.mem_map.1 h
      rw [List.mem_filter] at ho'
      have := List.inj_on_of_nodup_map hkeys ho'.1 ho h
      subst this
      exact hs (eq_of_beq ho'.2).symm
    cases hs : o.1 with
    | false =>
      rw [hs] at hin hout
      rw [countP_flatMap_types _ (fun o : Bool × OutputType => o.2.key.toList) (fun i o => itemFor o.2 i) (fun _ _ => rfl) (hsub false) p hin,
        countP_flatMap_other _ (fun o : Bool × OutputType => o.2.key.toList) (fun i o => itemFor o.2 i) (fun _ _ => rfl) p (hout true (by decide))]
      rfl
    | true =>
      rw [hs] at hin hout
      rw [countP_flatMap_types _ (fun o : Bool × OutputType => o.2.key.toList) (fun i o => itemFor o.2 i) (fun _ _ => rfl) (hsub true) p hin,
        countP_flatMap_other _ (fun o : Bool × OutputType => o.2.key.toList) (fun i o => itemFor o.2 i) (fun _ _ => rfl) p (hout false (by decide)), Nat.zero_add]
      rfl
  refine ⟨presenceSummary missing expected, ?_, ?_, ?_, ?_⟩
  · unfold checkEagleRun
    rw [h1]
  · intro o ho m t
    have h6 := hcount o ho (fun _ => true)
    simp only [Bool.and_true, List.filter_true] at h6
    rw [mem_summary h4 hle, h2, h3, h0, Nat.zero_add, Nat.zero_add, hcount o ho, h6]
    have h5 := sublist_filter (List.nodup_range (n := if o.1 then num_snips else num_snaps)) (fun i => !decide (EagleComplete nfilesOf listdir basedir (outputFor (itemFor o.2 i)) (itemFor o.2 i).isnap)) (fun k => ¬EagleComplete nfilesOf listdir basedir o.2 k) (by
      intro k _
      rw [outputFor_itemFor]
      rw [Bool.not_eq_true', decide_eq_false_iff_not]
      rfl) m
    rw [← h5]
    constructor
    · rintro ⟨⟨bad, a1, a2, a3⟩, a4, a5⟩; exact ⟨bad, a1, a2, a3, a4, a5⟩
    · rintro ⟨bad, a1, a2, a3, a4, a5⟩; exact ⟨⟨bad, a1, a2, a3⟩, a4, a5⟩
  · rintro ⟨key, m, t⟩ hline
    rw [mem_summary h4 hle] at hline
    by_contra hk
    have : ∀ s, key ∉ (eagleOutputs.filter (fun o => o.1 == s)).map (fun o => o.2.key.toList) := by
      intro s h
      obtain ⟨o, ho, h⟩ := List.mem_map.1 h
      exact hk ⟨o, (List.mem_filter.1 ho).1, h.symm⟩
    have h6 := fun s => countP_flatMap_other _ (fun o : Bool × OutputType => o.2.key.toList) (fun i o => itemFor o.2 i) (fun _ _ => rfl) (fun it => !decide (EagleComplete nfilesOf listdir basedir (outputFor it) it.isnap)) (this s)
    rw [h2, hitems, h0, List.countP_append, h6, h6] at hline
    omega
  · exact nodup_summary (presenceLoop_nodup _ _ (by simp) h1)

/-- **Defect.** Only an `IOError` is caught. If the header of one first file lacks the attribute (a `KeyError`), the script stops without a summary, although the comment says that files which can't be opened count as missing. -/
theorem C85_eagle_defect (hnd : ∀ dirs, listdir basedir = some dirs → dirs.Nodup) (num_snaps num_snips : Nat) {o : Bool × OutputType} (ho : o ∈ eagleOutputs) {isnap : Nat} (hi : isnap < if o.1 then num_snips else num_snaps)
    {dirs : List Name} (hdirs : listdir basedir = some dirs) {z : Name} (hz : LooksLikeLabel z) (h1 : eagleDirFor o.2.dir isnap z ∈ dirs) (h2 : ∀ z', LooksLikeLabel z' → eagleDirFor o.2.dir isnap z' ∈ dirs → z' = z)
    {e : Err} (he : nfilesOf (basedir ++ "/".toList ++ eagleDirFor o.2.dir isnap z ++ "/".toList ++ eagleFileFor (String.ofList o.2.file) isnap 0 z) o.2.attr.toList = .error e) (hne : e ≠ .ioError) :
    ∃ e', checkEagleRun nfilesOf listdir basedir num_snaps num_snips = .error e' := by
  have hon : OnlyLabel listdir basedir o.2.dir isnap z := ⟨dirs, hdirs, hz, h1, h2⟩
  have e1 : "/".toList = ['/'] := by decide
  have hpath : nfilesOf (presencePath basedir o.2 isnap 0 z) o.2.attr.toList = .error e := by
    rw [← he, e1]
    unfold presencePath
    simp only [List.append_assoc, List.cons_append, List.nil_append]
  have hmem : itemFor o.2 isnap ∈ (List.range num_snaps).flatMap (eagleItems false) ++ (List.range num_snips).flatMap (eagleItems true) := by
    rw [List.mem_append, List.mem_flatMap, List.mem_flatMap]
    cases hs : o.1 with
    | false =>
      rw [hs] at hi
      refine Or.inl ⟨isnap, List.mem_range.2 hi, ?_⟩
      rw [eagleItems_eq, List.mem_map]
      exact ⟨o, List.mem_filter.2 ⟨ho, by simp [hs]⟩, rfl⟩
    | true =>
      rw [hs] at hi
      refine Or.inr ⟨isnap, List.mem_range.2 hi, ?_⟩
      rw [eagleItems_eq, List.mem_map]
      exact ⟨o, List.mem_filter.2 ⟨ho, by simp [hs]⟩, rfl⟩
  obtain ⟨e', he'⟩ := presenceLoop_error (eagleCheckDir nfilesOf listdir basedir) (PresenceCacheRight listdir basedir) _ (by
      intro st hst item hit b st' h
      have : ∃ o : OutputType, ∃ i, item = itemFor o i := by
        rcases List.mem_append.1 hit with hit | hit
        all_goals
          obtain ⟨i, hi, hit⟩ := List.mem_flatMap.1 hit
          rw [eagleItems_eq] at hit
          obtain ⟨o, ho, rfl⟩ := List.mem_map.1 hit
          exact ⟨o.2, i, rfl⟩
      obtain ⟨o, i, rfl⟩ := this
      exact eagleCheckDir_inv hnd hst h) hmem (by
      intro st hst
      obtain ⟨c', f1, f2⟩ := filename_found hnd hst hon 0
      unfold eagleCheckDir itemFor
      dsimp only
      rw [f1]
      dsimp only
      rw [hpath]
      cases e <;> first | exact absurd rfl hne | exact ⟨_, rfl⟩) [] (by intro dir isnap z h; simp [PresenceCache.get] at h) [] []
  refine ⟨e', ?_⟩
  unfold checkEagleRun
  rw [he']

end

end Verif
