import Mathlib.Data.Nat.Log
import Verif.Proofs.FindSplittingPoints

/-! The number of passes of the loop in `find_splitting_points` grows only with the logarithm of the number of elements. -/

namespace Verif

section
variable {α : Type*} [LinearOrder α] [Inhabited α] {P nranks : Nat} {arr : Nat → List α} {s : Nat → FspRank α} {i : Nat} {v : α}
  {r : Int}

theorem sum_range_pre (c : Nat → Prop) [DecidablePred c] (n : Nat → Nat) (T : ℚ) (P : Nat) :
    ((((List.range P).filter (fun q => decide (c q))).map (fun q => (n q : ℚ) / T)).sum) = (pre (fun q => if c q then n q else 0) P : ℚ) / T := by
  induction P with
  | zero => simp
  | succ P ih =>
    rw [List.range_succ, List.filter_append, List.map_append, List.sum_append, ih, pre_succ]
    by_cases h : c P
    · simp [h]; ring
    · simp [h]

theorem pre_two (f : Nat → Nat) (P : Nat) : pre (fun q => 2 * f q) P = 2 * pre f P := by
  induction P with
  | zero => simp
  | succ P ih => simp only [pre_succ, ih]; ring

theorem pre_sum (f g : Nat → Nat) (P : Nat) : pre (fun q => f q + g q) P = pre f P + pre g P := by
  induction P with
  | zero => simp
  | succ P ih => simp only [pre_succ, ih]; omega

/-- The local median of an active request -/
def medAt (arr : Nat → List α) (s : Nat → FspRank α) (i q : Nat) : α := (arr q).getD ((s q).imin i + (fspNlocal s q i / 2 : Nat)).toNat default

/-- Ranks whose local median is below (above) the estimate have at most half of the active elements. -/
theorem Active.balanced (h : Active P arr v s i) (hact : 0 < pre (fun q => fspNlocal s q i) P) (hi : i < nranks) {m : α} {p : Nat} (hp : p < P) (hm : fspEst P nranks arr s p i = .ok m) :
    2 * pre (fun q => if medAt arr s i q < m then fspNlocal s q i else 0) P ≤ pre (fun q => fspNlocal s q i) P ∧
      2 * pre (fun q => if m < medAt arr s i q then fspNlocal s q i else 0) P ≤ pre (fun q => fspNlocal s q i) P := by
  set T := pre (fun q => fspNlocal s q i) P with hT
  have hTq : (0 : ℚ) < (T : ℚ) := by exact_mod_cast hact
  have hw : ∀ q < P, (fspLocal P arr s q i).2 = (fspNlocal s q i : ℚ) / T := by
    intro q hq
    unfold fspLocal
    simp only
    split
    · rfl
    · next hc =>
      have : fspNlocal s q i = 0 := by
        by_contra h0
        exact hc ⟨Nat.pos_of_ne_zero h0, h.done q hq⟩
      rw [this]; simp
  have hmed : ∀ q < P, fspNlocal s q i ≠ 0 → (fspLocal P arr s q i).1 = medAt arr s i q := by
    intro q hq h0
    unfold fspLocal medAt
    simp only
    rw [if_pos ⟨Nat.pos_of_ne_zero h0, h.done q hq⟩]
  have hsum : ((List.range P).map (fun q => (fspLocal P arr s q i).2)).sum = 1 := by
    have := sum_range_pre (fun _ => True) (fun q => fspNlocal s q i) (T : ℚ) P
    simp only [decide_true, List.filter_true, if_true] at this
    rw [List.map_congr_left (fun q hq => hw q (List.mem_range.1 hq)), this, ← hT]
    exact div_self (ne_of_gt hTq)
  have hnn : ∀ w ∈ (List.range P).map (fun q => (fspLocal P arr s q i).2), (0 : ℚ) ≤ w := by
    intro w hw'
    obtain ⟨q, hq, rfl⟩ := List.mem_map.1 hw'
    rw [hw q (List.mem_range.1 hq)]
    exact div_nonneg (by exact_mod_cast Nat.zero_le _) (le_of_lt hTq)
  have hest : weightedMedian ((List.range P).map (fun q => (fspLocal P arr s q i).1)) ((List.range P).map (fun q => (fspLocal P arr s q i).2)) = .ok m := by
    rw [← hm]
    unfold fspEst
    simp only
    split
    · rw [h.done p hp]; rfl
    · rw [if_pos ⟨hi, h.done i (by omega)⟩]
  obtain ⟨m', k, w, hm', -, -, -, hb, ha⟩ := C04_weighted_median
    ((List.range P).map (fun q => (fspLocal P arr s q i).1))
    ((List.range P).map (fun q => (fspLocal P arr s q i).2)) (by simp) hnn (by rw [hsum]; norm_num)
  rw [hest] at hm'
  have : m' = m := by injection hm' with e; exact e.symm
  subst this
  rw [hsum] at hb ha
  have hgen : ∀ (c : α → Bool), (((((List.range P).map (fun q => (fspLocal P arr s q i).1)).zip ((List.range P).map (fun q => (fspLocal P arr s q i).2))).filter (fun e => c e.1)).map Prod.snd).sum =
      (pre (fun q => if c (medAt arr s i q) = true then fspNlocal s q i else 0) P : ℚ) / T := by
    intro c
    rw [List.zip_map', List.filter_map, List.map_map]
    have h1 : (List.map (Prod.snd ∘ fun q => ((fspLocal P arr s q i).1, (fspLocal P arr s q i).2)) (List.filter ((fun e : α × ℚ => c e.1) ∘ fun q => ((fspLocal P arr s q i).1, (fspLocal P arr s q i).2)) (List.range P))) =
        List.map (fun q => (fspNlocal s q i : ℚ) / T) (List.filter (fun q => decide (c (fspLocal P arr s q i).1 = true)) (List.range P)) := by
      rw [show ((fun e : α × ℚ => c e.1) ∘ fun q => ((fspLocal P arr s q i).1, (fspLocal P arr s q i).2)) = (fun q => decide (c (fspLocal P arr s q i).1 = true)) by funext q; simp]
      refine List.map_congr_left (fun q hq => ?_)
      exact hw q (List.mem_range.1 (List.mem_filter.1 hq).1)
    rw [h1, sum_range_pre (fun q => c (fspLocal P arr s q i).1 = true) (fun q => fspNlocal s q i)]
    congr 2
    refine pre_congr (fun q hq => ?_)
    by_cases h0 : fspNlocal s q i = 0
    · rw [h0]; simp
    · rw [hmed q hq h0]
  have hb' := hgen (fun x => decide (x < m'))
  have ha' := hgen (fun x => decide (m' < x))
  simp only [decide_eq_true_eq] at hb' ha'
  unfold Spec.weightBelow at hb
  unfold Spec.weightAbove at ha
  rw [hb', div_le_iff₀ hTq] at hb
  rw [ha', div_le_iff₀ hTq] at ha
  constructor
  · have : (2 * (pre (fun q => if medAt arr s i q < m' then fspNlocal s q i else 0) P : Nat) : ℚ) ≤ (T : ℚ) := by linarith
    exact_mod_cast this
  · have : (2 * (pre (fun q => if m' < medAt arr s i q then fspNlocal s q i else 0) P : Nat) : ℚ) ≤ (T : ℚ) := by linarith
    exact_mod_cast this

theorem Active.med_get (h : Active P arr v s i) {q : Nat} (hq : q < P) (h0 : fspNlocal s q i ≠ 0) :
    (arr q)[((s q).imin i + (fspNlocal s q i / 2 : Nat)).toNat]? = some (medAt arr s i q) := by
  have h1 := h.nonneg q hq
  have h4 := h.len q hq
  have hb : ((s q).imin i + (fspNlocal s q i / 2 : Nat)).toNat < (arr q).length := by
    unfold fspNlocal at h0 ⊢
    omega
  unfold medAt
  rw [List.getD_eq_getElem?_getD, List.getElem?_eq_getElem hb]
  rfl

/-- After each pass at least a quarter of the active elements is gone. -/
theorem Active.step_log {r : Nat → Int} {s' : Nat → FspRank α} (hs : ∀ p < P, Sorted (arr p))
    (h : Active P arr v s i) (hv1 : (pre (fun p => ssLeft (arr p) v) P : Int) ≤ r i)
    (hv2 : r i < pre (fun p => ssRight (arr p) v) P) (hi : i < nranks)
    (hstep : fspStep P nranks r arr s = .ok s') :
    Finished P arr (r i) s' i ∨
      (Active P arr v s' i ∧ 4 * pre (fun q => fspNlocal s' q i) P ≤ 3 * pre (fun q => fspNlocal s q i) P) := by
  rcases h.step hs hv1 hv2 hi hstep with hf | ⟨ha, -⟩
  · exact Or.inl hf
  right
  refine ⟨ha, ?_⟩
  obtain ⟨m, k, hm, hk, hloc, hmk⟩ := h.median hs hv1 hv2 hi (nranks := nranks)
  obtain ⟨hbelow, habove⟩ := h.balanced (h.nactive_pos hs hv1 hv2) hi hk (hm k hk)
  generalize hF : pre (fun q => ssLeft (arr q) m) P = F at *
  generalize hL : pre (fun q => ssRight (arr q) m) P = L at *
  have hreq : ∀ p < P, (s' p).req i = reqUpdate (r i) m (ssLeft (arr p) m) (ssRight (arr p) m) F L ((s p).req i) := by
    intro p hp
    rw [fspStep_req hstep hi hp hm, hF, hL]
  have hdone : ∀ p < P, ((s p).req i).done = false := h.done
  have hle : F ≤ L := by
    rw [← hF, ← hL]
    exact pre_le_pre (fun q hq => ssLeft_le_ssRight (hs q hq) m)
  by_cases h1 : r i ≥ F ∧ r i ≤ (L : Int) - 1
  · exfalso
    have hu : reqUpdate (r i) m (ssLeft (arr k) m) (ssRight (arr k) m) F L ((s k).req i) =
        { (s k).req i with med := m, mn := F, mx := (L : Int) - 1, done := true } := by
      unfold reqUpdate
      rw [hdone k hk]
      simp only [Bool.false_eq_true, if_false]
      rw [if_pos h1, if_neg (by omega), if_neg (by omega)]
    have h2 := (FspReq.ext' ((hreq k hk).trans hu)).2.2.1
    rw [ha.done k hk] at h2
    cases h2
  have finish : ∀ (c : Nat → Prop) [DecidablePred c], 2 * pre (fun q => if c q then fspNlocal s q i else 0) P ≤ pre (fun q => fspNlocal s q i) P →
      (∀ q < P, fspNlocal s' q i ≤ fspNlocal s q i) → (∀ q < P, ¬c q → 2 * fspNlocal s' q i ≤ fspNlocal s q i) →
      4 * pre (fun q => fspNlocal s' q i) P ≤ 3 * pre (fun q => fspNlocal s q i) P := by
    intro c _ hc h2 h3
    have : pre (fun q => 2 * fspNlocal s' q i) P ≤ pre (fun q => fspNlocal s q i + if c q then fspNlocal s q i else 0) P := by
      refine pre_le_pre (fun q hq => ?_)
      by_cases hcq : c q
      · rw [if_pos hcq]; have := h2 q hq; omega
      · rw [if_neg hcq]; have := h3 q hq hcq; omega
    rw [pre_two, pre_sum] at this
    omega
  by_cases h2 : (L : Int) - 1 < r i
  · have hu : ∀ p < P, reqUpdate (r i) m (ssLeft (arr p) m) (ssRight (arr p) m) F L ((s p).req i) =
        { (s p).req i with imin := max ((s p).imin i) (ssRight (arr p) m : Nat) } := by
      intro p hp
      unfold reqUpdate
      rw [hdone p hp]
      simp only [Bool.false_eq_true, if_false]
      rw [if_neg h1, if_pos h2, if_neg (by omega)]
      rw [show ((s p).req i).imin = (s p).imin i from rfl]
    have hx := fun p hp => FspReq.ext' ((hreq p hp).trans (hu p hp))
    have hmin : ∀ p < P, (s' p).imin i = max ((s p).imin i) (ssRight (arr p) m : Nat) := fun p hp => (hx p hp).1
    have hmax : ∀ p < P, (s' p).imax i = (s p).imax i := fun p hp => (hx p hp).2.1
    refine finish (fun q => m < medAt arr s i q) habove (fun q hq => ?_) (fun q hq hc => ?_)
    · unfold fspNlocal
      rw [hmin q hq, hmax q hq]
      omega
    · by_cases h0 : fspNlocal s q i = 0
      · unfold fspNlocal at h0 ⊢
        rw [hmin q hq, hmax q hq]
        omega
      · have h5 := (le_iff_lt_ssRight (hs q hq) (h.med_get hq h0)).1 (not_lt.1 hc)
        have h6 := h.nonneg q hq
        unfold fspNlocal at h0 h5 ⊢
        rw [hmin q hq, hmax q hq]
        omega
  · have h3 : (F : Int) > r i := by omega
    have hu : ∀ p < P, reqUpdate (r i) m (ssLeft (arr p) m) (ssRight (arr p) m) F L ((s p).req i) =
        { (s p).req i with imax := min ((s p).imax i) ((ssLeft (arr p) m : Int) - 1) } := by
      intro p hp
      unfold reqUpdate
      rw [hdone p hp]
      simp only [Bool.false_eq_true, if_false]
      rw [if_neg h1, if_neg h2, if_pos h3]
      rw [show ((s p).req i).imax = (s p).imax i from rfl]
    have hx := fun p hp => FspReq.ext' ((hreq p hp).trans (hu p hp))
    have hmin : ∀ p < P, (s' p).imin i = (s p).imin i := fun p hp => (hx p hp).1
    have hmax : ∀ p < P, (s' p).imax i = min ((s p).imax i) ((ssLeft (arr p) m : Int) - 1) := fun p hp => (hx p hp).2.1
    refine finish (fun q => medAt arr s i q < m) hbelow (fun q hq => ?_) (fun q hq hc => ?_)
    · unfold fspNlocal
      rw [hmin q hq, hmax q hq]
      omega
    · by_cases h0 : fspNlocal s q i = 0
      · unfold fspNlocal at h0 ⊢
        rw [hmin q hq, hmax q hq]
        omega
      · have h5 := (lt_iff_lt_ssLeft (hs q hq) (h.med_get hq h0)).not.1 hc
        have h6 := h.nonneg q hq
        unfold fspNlocal at h0 h5 ⊢
        rw [hmin q hq, hmax q hq]
        omega

theorem shrink {fuel n n' : Nat} (h : 3 ^ (fuel + 1) * n < 4 ^ (fuel + 1)) (h' : 4 * n' ≤ 3 * n) : 3 ^ fuel * n' < 4 ^ fuel := by
  have h1 : 3 ^ fuel * (4 * n') ≤ 3 ^ fuel * (3 * n) := Nat.mul_le_mul_left _ h'
  rw [pow_succ, pow_succ] at h
  nlinarith

theorem fspLoop_log {r : Nat → Int} (hP : 0 < P) (hs : ∀ p < P, Sorted (arr p)) (v : Nat → α)
    (hv1 : ∀ i < nranks, (pre (fun p => ssLeft (arr p) (v i)) P : Int) ≤ r i)
    (hv2 : ∀ i < nranks, r i < pre (fun p => ssRight (arr p) (v i)) P) (fuel : Nat) :
    ∀ s, (∀ i < nranks, Finished P arr (r i) s i ∨
        (Active P arr (v i) s i ∧ 3 ^ fuel * pre (fun q => fspNlocal s q i) P < 4 ^ fuel)) →
      ∃ s', fspLoop P nranks r arr fuel s = .ok s' ∧ ∀ i < nranks, Finished P arr (r i) s' i := by
  induction fuel with
  | zero =>
    intro s h
    have hall : ∀ i < nranks, Finished P arr (r i) s i := by
      intro i hi
      rcases h i hi with h | ⟨h1, h2⟩
      · exact h
      · have := h1.nactive_pos hs (hv1 i hi) (hv2 i hi); simp only [pow_zero, one_mul] at h2; omega
    refine ⟨s, ?_, hall⟩
    unfold fspLoop
    rw [if_pos]
    rw [List.all_eq_true]
    intro p hp
    unfold fspWantsMore
    rw [Bool.not_eq_true', List.any_eq_false]
    intro i hi
    obtain ⟨q, _, _, hq⟩ := hall i (List.mem_range.1 hi)
    simp [(hq p (List.mem_range.1 hp)).1]
  | succ fuel ih =>
    intro s h
    by_cases hall : ∀ i < nranks, Finished P arr (r i) s i
    · refine ⟨s, ?_, hall⟩
      unfold fspLoop
      rw [if_pos]
      rw [List.all_eq_true]
      intro p hp
      unfold fspWantsMore
      rw [Bool.not_eq_true', List.any_eq_false]
      intro i hi
      obtain ⟨q, _, _, hq⟩ := hall i (List.mem_range.1 hi)
      simp [(hq p (List.mem_range.1 hp)).1]
    · have hact : ∃ i < nranks, Active P arr (v i) s i := by
        by_contra hc
        apply hall
        intro i hi
        rcases h i hi with h | ⟨h1, _⟩
        · exact h
        · exact (hc ⟨i, hi, h1⟩).elim
      obtain ⟨i0, hi0, ha0⟩ := hact
      have hw : ∀ p < P, fspWantsMore nranks s p = true := by
        intro p hp
        unfold fspWantsMore
        rw [List.any_eq_true]
        exact ⟨i0, List.mem_range.2 hi0, by simp [ha0.done p hp]⟩
      obtain ⟨s1, hstep⟩ : ∃ s1, fspStep P nranks r arr s = .ok s1 := by
        have hok : (List.range P).all (fun p => (List.range nranks).all
            (fun i => (fspEst P nranks arr s p i).isOk)) = true := by
          rw [List.all_eq_true]
          intro p hp
          rw [List.all_eq_true]
          intro i hi
          have hi := List.mem_range.1 hi
          have hp := List.mem_range.1 hp
          rcases h i hi with ⟨q, _, _, hq⟩ | ⟨h1, _⟩
          · exact fspEst_done P nranks hi (fun p hp => (hq p hp).1) hp
          · obtain ⟨m, k, hm, _⟩ := h1.median hs (hv1 i hi) (hv2 i hi) hi (nranks := nranks)
            rw [hm p hp]; rfl
        unfold fspStep
        simp only
        rw [if_pos hok]
        exact ⟨_, rfl⟩
      obtain ⟨s', hl, hf⟩ := ih s1 (by
        intro i hi
        rcases h i hi with h | ⟨h1, h2⟩
        · exact Or.inl (h.step hstep)
        · rcases h1.step_log hs (hv1 i hi) (hv2 i hi) hi hstep with h3 | ⟨h3, h4⟩
          · exact Or.inl h3
          · exact Or.inr ⟨h3, shrink h2 h4⟩)
      refine ⟨s', ?_, hf⟩
      unfold fspLoop
      rw [if_neg, if_pos]
      · simp only [hstep]; exact hl
      · rw [List.all_eq_true]
        intro p hp
        exact hw p (List.mem_range.1 hp)
      · rw [List.all_eq_true]
        intro hc
        have := hc 0 (List.mem_range.2 hP)
        rw [hw 0 hP] at this
        simp at this

theorem findSplittingPoints_log {r : Nat → Int} {fuel : Nat} (hP : 0 < P) (hs : ∀ p < P, Sorted (arr p))
    (hr : ∀ i < nranks, 0 ≤ r i ∧ r i < (gcat P arr).length) (hfuel : 3 ^ fuel * (gcat P arr).length < 4 ^ fuel) :
    ∃ out, findSplittingPoints fuel P nranks r arr = .ok out ∧
      ∀ i < nranks, ∃ (v : α) (mn mx : Int), (∀ p < P, out p i = (v, mn, mx)) ∧ v ∈ gcat P arr ∧
        mn = ((gcat P arr).countP (fun x => decide (x < v)) : Nat) ∧
        mx = ((gcat P arr).countP (fun x => decide (x ≤ v)) : Nat) - 1 ∧ mn ≤ r i ∧ r i ≤ mx := by
  have htar : ∀ i, ∃ v : α, i < nranks → (pre (fun p => ssLeft (arr p) v) P : Int) ≤ r i ∧
      r i < pre (fun p => ssRight (arr p) v) P := by
    intro i
    by_cases hi : i < nranks
    · have := hr i hi
      obtain ⟨v, h1, h2⟩ := exists_target (gcat P arr) (r := (r i).toNat) (by omega)
      refine ⟨v, fun _ => ?_⟩
      rw [countP_gcat] at h1 h2
      rw [pre_congr (fun q hq => ssLeft_eq (hs q hq) v), pre_congr (fun q hq => ssRight_eq (hs q hq) v)]
      omega
    · exact ⟨default, fun h => (hi h).elim⟩
  choose v hv using htar
  obtain ⟨s', hl, hf⟩ := fspLoop_log (r := r) hP hs v (fun i hi => (hv i hi).1) (fun i hi => (hv i hi).2) fuel
    (fspInit arr) (by
      intro i hi
      refine Or.inr ⟨⟨fun p hp => rfl, fun p hp => ?_, fun p hp => ?_, fun p hp => ?_, fun p hp => ?_⟩, ?_⟩
      · exact le_refl _
      · exact Int.natCast_nonneg _
      · have := ssRight_le_length (hs p hp) (v i)
        show _ ≤ ((arr p).length : Int) - 1
        omega
      · exact le_refl _
      · rw [length_gcat] at hfuel
        refine lt_of_le_of_lt (Nat.mul_le_mul_left _ (pre_le_pre ?_)) hfuel
        intro p hp
        unfold fspNlocal fspInit sizes
        simp only
        omega)
  refine ⟨_, by unfold findSplittingPoints; rw [hl], ?_⟩
  intro i hi
  obtain ⟨q, _, hok, hq⟩ := hf i hi
  refine ⟨q.med, q.mn, q.mx, fun p hp => ?_, hok.mem, hok.mn_eq, hok.mx_eq, hok.le_r, hok.r_le⟩
  obtain ⟨_, h2, h3, h4⟩ := hq p hp
  simp only [h2, h3, h4]

/-- Either bound on the passes is enough. -/
theorem findSplittingPoints_any {r : Nat → Int} {fuel : Nat} (hP : 0 < P) (hs : ∀ p < P, Sorted (arr p))
    (hr : ∀ i < nranks, 0 ≤ r i ∧ r i < (gcat P arr).length)
    (hfuel : (gcat P arr).length ≤ fuel ∨ 3 ^ fuel * (gcat P arr).length < 4 ^ fuel) :
    ∃ out, findSplittingPoints fuel P nranks r arr = .ok out ∧
      ∀ i < nranks, ∃ (v : α) (mn mx : Int), (∀ p < P, out p i = (v, mn, mx)) ∧ v ∈ gcat P arr ∧
        mn = ((gcat P arr).countP (fun x => decide (x < v)) : Nat) ∧
        mx = ((gcat P arr).countP (fun x => decide (x ≤ v)) : Nat) - 1 ∧ mn ≤ r i ∧ r i ≤ mx :=
  hfuel.elim (findSplittingPoints_ok hP hs hr) (findSplittingPoints_log hP hs hr)

end

/-- `3 * (log2 n + 1)` passes leave fewer than one of `n` elements. -/
theorem fsp_log_fuel {n fuel : Nat} (hfuel : 3 * (Nat.log 2 n + 1) ≤ fuel) : 3 ^ fuel * n < 4 ^ fuel := by
  have h1 : n < 2 ^ (Nat.log 2 n + 1) := Nat.lt_pow_succ_log_self (by decide) _
  generalize Nat.log 2 n + 1 = k at *
  obtain ⟨d, rfl⟩ : ∃ d, fuel = 3 * k + d := ⟨fuel - 3 * k, by omega⟩
  have h2 : 27 ^ k * 2 ^ k ≤ 64 ^ k := by rw [← Nat.mul_pow]; exact Nat.pow_le_pow_left (by decide) k
  have h3 : 3 ^ d ≤ 4 ^ d := Nat.pow_le_pow_left (by decide) d
  rw [pow_add, pow_add, pow_mul, pow_mul, show 3 ^ 3 = 27 from rfl, show 4 ^ 3 = 64 from rfl]
  have h4 : 27 ^ k * n < 64 ^ k := lt_of_lt_of_le (Nat.mul_lt_mul_of_pos_left h1 (by positivity)) h2
  calc 27 ^ k * 3 ^ d * n = 27 ^ k * n * 3 ^ d := by ring
    _ < 64 ^ k * 3 ^ d := Nat.mul_lt_mul_of_pos_right h4 (by positivity)
    _ ≤ 64 ^ k * 4 ^ d := Nat.mul_le_mul_left _ h3

end Verif
