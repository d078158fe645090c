import Verif.Model.FindSplittingPoints
import Verif.Props.WeightedMedian

namespace Verif

variable {α : Type*}

theorem pre_le_pre {f g : Nat → Nat} {P : Nat} (h : ∀ i < P, f i ≤ g i) : pre f P ≤ pre g P := by
  induction P with
  | zero => simp
  | succ P ih =>
    have := ih (fun i hi => h i (by omega))
    have := h P (by omega)
    simp only [pre_succ]; omega

theorem pre_lt_pre {f g : Nat → Nat} {P k : Nat} (h : ∀ i < P, f i ≤ g i) (hk : k < P) (hlt : f k < g k) :
    pre f P < pre g P := by
  induction P with
  | zero => omega
  | succ P ih =>
    simp only [pre_succ]
    have hP := h P (by omega)
    have hle := pre_le_pre (P := P) (fun i hi => h i (by omega))
    by_cases hkP : k = P
    · subst hkP; omega
    · have := ih (fun i hi => h i (by omega)) (by omega); omega

theorem exists_of_pre_pos {f : Nat → Nat} {P : Nat} (h : 0 < pre f P) : ∃ k < P, 0 < f k := by
  induction P with
  | zero => simp at h
  | succ P ih =>
    rw [pre_succ] at h
    by_cases h0 : 0 < f P
    · exact ⟨P, by omega, h0⟩
    · obtain ⟨k, hk, h1⟩ := ih (by omega)
      exact ⟨k, by omega, h1⟩

theorem countP_gcat (p : α → Bool) (P : Nat) (a : Nat → List α) :
    (gcat P a).countP p = pre (fun r => (a r).countP p) P := by
  induction P with
  | zero => rfl
  | succ P ih => rw [gcat_succ, List.countP_append, ih, pre_succ]

section
variable [LinearOrder α] [Inhabited α]

/-- The value with a given rank in sorted order. -/
theorem exists_target (l : List α) {r : Nat} (hr : r < l.length) :
    ∃ v, l.countP (fun x => decide (x < v)) ≤ r ∧ r < l.countP (fun x => decide (x ≤ v)) := by
  have hs := fancy_argsort_sorted l
  have hp := fancy_argsort_perm l
  have hr' : r < (fancy l (argsort l)).length := by simpa using hr
  have hx : (fancy l (argsort l))[r]? = some (fancy l (argsort l))[r] := List.getElem?_eq_getElem hr'
  refine ⟨(fancy l (argsort l))[r], ?_, ?_⟩
  · rw [← hp.countP_eq, ← ssLeft_eq hs]
    have := (lt_iff_lt_ssLeft hs (v := (fancy l (argsort l))[r]) hx).not.1 (lt_irrefl _)
    omega
  · rw [← hp.countP_eq, ← ssRight_eq hs]
    exact (le_iff_lt_ssRight hs hx).1 (le_refl _)

end

/-- The variables belonging to one request. -/
structure FspReq (α : Type*) where
  imin : Int
  imax : Int
  done : Bool
  med : α
  mn : Int
  mx : Int

def FspRank.req (st : FspRank α) (i : Nat) : FspReq α :=
  ⟨st.imin i, st.imax i, st.done i, st.resMedian i, st.resMinRank i, st.resMaxRank i⟩

/-- `fspUpdate` on the variables of the request. -/
def reqUpdate (r : Int) (est : α) (ifirst ilast fsum lsum : Nat) (st : FspReq α) : FspReq α :=
  if st.done then st
  else
    let st := if r ≥ fsum ∧ r ≤ (lsum : Int) - 1 then
        { st with med := est, mn := fsum, mx := (lsum : Int) - 1, done := true } else st
    let st := if (lsum : Int) - 1 < r then { st with imin := max st.imin ilast } else st
    if (fsum : Int) > r then { st with imax := min st.imax ((ifirst : Int) - 1) } else st

theorem fspUpdate_req_self (r : Int) (est : α) (a b c d : Nat) (st : FspRank α) (i : Nat) :
    (fspUpdate r est a b c d st i).req i = reqUpdate r est a b c d (st.req i) := by
  unfold fspUpdate reqUpdate FspRank.req
  dsimp only
  split
  · rfl
  · by_cases h1 : r ≥ (c : Int) ∧ r ≤ (d : Int) - 1 <;> by_cases h2 : (d : Int) - 1 < r <;>
      by_cases h3 : (c : Int) > r <;> simp [h1, h2, h3]

theorem fspUpdate_req_ne (r : Int) (est : α) (a b c d : Nat) (st : FspRank α) {i j : Nat} (h : j ≠ i) :
    (fspUpdate r est a b c d st i).req j = st.req j := by
  unfold fspUpdate FspRank.req
  dsimp only
  split
  · rfl
  · by_cases h1 : r ≥ (c : Int) ∧ r ≤ (d : Int) - 1 <;> by_cases h2 : (d : Int) - 1 < r <;>
      by_cases h3 : (c : Int) > r <;> simp [h1, h2, h3, Function.update, h]

theorem fold_req (r : Nat → Int) (est : Nat → α) (a b c d : Nat → Nat) (st : FspRank α) (n j : Nat) :
    ((List.range n).foldl (fun st i => fspUpdate (r i) (est i) (a i) (b i) (c i) (d i) st i) st).req j =
      if j < n then reqUpdate (r j) (est j) (a j) (b j) (c j) (d j) (st.req j) else st.req j := by
  induction n with
  | zero => simp
  | succ n ih =>
    rw [List.range_succ, List.foldl_append]
    simp only [List.foldl_cons, List.foldl_nil]
    by_cases hj : j = n
    · subst hj
      rw [fspUpdate_req_self, ih]
      simp
    · rw [fspUpdate_req_ne _ _ _ _ _ _ _ hj, ih]
      by_cases h : j < n
      · rw [if_pos h, if_pos (by omega)]
      · rw [if_neg h, if_neg (by omega)]

section
variable [LinearOrder α]

/-- What a finished request has to satisfy. -/
structure ReqOk (P : Nat) (arr : Nat → List α) (r : Int) (q : FspReq α) : Prop where
  mem : q.med ∈ gcat P arr
  mn_eq : q.mn = ((gcat P arr).countP (fun x => decide (x < q.med)) : Nat)
  mx_eq : q.mx = ((gcat P arr).countP (fun x => decide (x ≤ q.med)) : Nat) - 1
  le_r : q.mn ≤ r
  r_le : r ≤ q.mx

/-- Invariant of a request which is still active, with `v` the value of the requested rank. -/
structure Active (P : Nat) (arr : Nat → List α) (v : α) (s : Nat → FspRank α) (i : Nat) : Prop where
  done : ∀ p < P, (s p).done i = false
  nonneg : ∀ p < P, 0 ≤ (s p).imin i
  lower : ∀ p < P, (s p).imin i ≤ (ssLeft (arr p) v : Nat)
  upper : ∀ p < P, (ssRight (arr p) v : Int) - 1 ≤ (s p).imax i
  len : ∀ p < P, (s p).imax i ≤ ((arr p).length : Int) - 1

/-- Invariant of a finished request. -/
def Finished (P : Nat) (arr : Nat → List α) (r : Int) (s : Nat → FspRank α) (i : Nat) : Prop :=
  ∃ q : FspReq α, q.done = true ∧ ReqOk P arr r q ∧
    ∀ p < P, (s p).done i = true ∧ (s p).resMedian i = q.med ∧ (s p).resMinRank i = q.mn ∧ (s p).resMaxRank i = q.mx

variable [Inhabited α] {P nranks : Nat} {arr : Nat → List α} {s : Nat → FspRank α} {i : Nat} {v : α}
  {r : Int}

theorem Active.nactive_pos (hs : ∀ p < P, Sorted (arr p)) (h : Active P arr v s i)
    (hv1 : (pre (fun p => ssLeft (arr p) v) P : Int) ≤ r)
    (hv2 : r < pre (fun p => ssRight (arr p) v) P) : 0 < pre (fun q => fspNlocal s q i) P := by
  have hlt : pre (fun p => ssLeft (arr p) v) P < pre (fun p => ssRight (arr p) v) P := by omega
  by_contra hc
  have hz : ∀ q < P, fspNlocal s q i = 0 := by
    intro q hq
    have := pre_lt_total (f := fun q => fspNlocal s q i) hq
    omega
  have : pre (fun p => ssRight (arr p) v) P ≤ pre (fun p => ssLeft (arr p) v) P := by
    apply pre_le_pre
    intro q hq
    have h0 := hz q hq
    have h1 := h.lower q hq
    have h2 := h.upper q hq
    unfold fspNlocal at h0
    omega
  omega

theorem Active.median (hs : ∀ p < P, Sorted (arr p)) (h : Active P arr v s i)
    (hv1 : (pre (fun p => ssLeft (arr p) v) P : Int) ≤ r)
    (hv2 : r < pre (fun p => ssRight (arr p) v) P) (hi : i < nranks) :
    ∃ m k, (∀ p < P, fspEst P nranks arr s p i = .ok m) ∧ k < P ∧ 0 < fspNlocal s k i ∧
      (arr k)[((s k).imin i + (fspNlocal s k i / 2 : Nat)).toNat]? = some m := by
  have hact := h.nactive_pos hs hv1 hv2
  set T := pre (fun q => fspNlocal s q i) P with hT
  have hTq : (0 : ℚ) < (T : ℚ) := by exact_mod_cast hact
  have hnn : ∀ w ∈ (List.range P).map (fun q => (fspLocal P arr s q i).2), (0 : ℚ) ≤ w := by
    intro w hw
    obtain ⟨q, _, rfl⟩ := List.mem_map.1 hw
    unfold fspLocal
    simp only
    split
    · exact div_nonneg (by exact_mod_cast Nat.zero_le _) (by exact_mod_cast Nat.zero_le _)
    · exact le_refl _
  have hpos : 0 < ((List.range P).map (fun q => (fspLocal P arr s q i).2)).sum := by
    obtain ⟨k, hk, hk0⟩ := exists_of_pre_pos hact
    refine lt_of_lt_of_le ?_ (List.single_le_sum hnn _ (List.mem_map.2 ⟨k, List.mem_range.2 hk, rfl⟩))
    unfold fspLocal
    simp only
    rw [if_pos ⟨hk0, h.done k hk⟩]
    exact div_pos (by exact_mod_cast hk0) hTq
  obtain ⟨m, k, w, hm, hmk, hwk, hw, -, -⟩ := C04_weighted_median
    ((List.range P).map (fun q => (fspLocal P arr s q i).1))
    ((List.range P).map (fun q => (fspLocal P arr s q i).2)) (by simp) hnn hpos
  have hk : k < P := by
    have := (List.getElem?_eq_some_iff.1 hmk).1
    simpa using this
  have hmk' : (fspLocal P arr s k i).1 = m := by
    rw [List.getElem?_map, List.getElem?_range hk] at hmk
    simpa using hmk
  have hwk' : (fspLocal P arr s k i).2 = w := by
    rw [List.getElem?_map, List.getElem?_range hk] at hwk
    simpa using hwk
  have hloc : 0 < fspNlocal s k i := by
    by_contra hc
    unfold fspLocal at hwk'
    simp only at hwk'
    rw [if_neg (fun hh => hc hh.1)] at hwk'
    simp only at hwk'
    rw [← hwk'] at hw
    exact lt_irrefl _ hw
  refine ⟨m, k, ?_, hk, hloc, ?_⟩
  · intro p hp
    unfold fspEst
    simp only
    split
    · rw [h.done p hp]; simpa using hm
    · rw [if_pos ⟨hi, h.done i (by omega)⟩]; exact hm
  · unfold fspLocal at hmk'
    simp only at hmk'
    rw [if_pos ⟨hloc, h.done k hk⟩] at hmk'
    simp only at hmk'
    have h0 := h.nonneg k hk
    have h4 := h.len k hk
    have hb : ((s k).imin i + (fspNlocal s k i / 2 : Nat)).toNat < (arr k).length := by
      unfold fspNlocal at hloc ⊢
      omega
    rw [List.getElem?_eq_getElem hb]
    rw [List.getD_eq_getElem?_getD, List.getElem?_eq_getElem hb] at hmk'
    simpa using hmk'

theorem FspReq.ext' {st : FspRank α} {q : FspReq α} (h : st.req i = q) :
    st.imin i = q.imin ∧ st.imax i = q.imax ∧ st.done i = q.done ∧ st.resMedian i = q.med ∧
      st.resMinRank i = q.mn ∧ st.resMaxRank i = q.mx := by
  subst h; exact ⟨rfl, rfl, rfl, rfl, rfl, rfl⟩

/-- The state after one pass, for one request. -/
theorem fspStep_req {r : Nat → Int} {s' : Nat → FspRank α} (h : fspStep P nranks r arr s = .ok s')
    (hi : i < nranks) {m : α} {p : Nat} (hp : p < P) (hm : ∀ q < P, fspEst P nranks arr s q i = .ok m) :
    (s' p).req i = reqUpdate (r i) m (ssLeft (arr p) m) (ssRight (arr p) m)
      (pre (fun q => ssLeft (arr q) m) P) (pre (fun q => ssRight (arr q) m) P) ((s p).req i) := by
  unfold fspStep at h
  simp only at h
  split at h
  · injection h with h
    subst h
    simp only
    rw [fold_req, if_pos hi]
    have h1 : ∀ q < P, (fspEst P nranks arr s q i).toOption.getD default = m := by
      intro q hq; rw [hm q hq]; rfl
    have h2 : pre (fun q => ssLeft (arr q) ((fspEst P nranks arr s q i).toOption.getD default)) P =
        pre (fun q => ssLeft (arr q) m) P := pre_congr (fun q hq => by rw [h1 q hq])
    have h3 : pre (fun q => ssRight (arr q) ((fspEst P nranks arr s q i).toOption.getD default)) P =
        pre (fun q => ssRight (arr q) m) P := pre_congr (fun q hq => by rw [h1 q hq])
    rw [h1 p hp, h2, h3]
  · cases h

theorem fspStep_done {r : Nat → Int} {s' : Nat → FspRank α} (h : fspStep P nranks r arr s = .ok s')
    {p : Nat} (hd : (s p).done i = true) : (s' p).req i = (s p).req i := by
  unfold fspStep at h
  simp only at h
  split at h
  · injection h with h
    subst h
    simp only
    rw [fold_req]
    split
    · unfold reqUpdate
      rw [if_pos (by exact hd)]
    · rfl
  · cases h

theorem Active.step {r : Nat → Int} {s' : Nat → FspRank α} (hs : ∀ p < P, Sorted (arr p))
    (h : Active P arr v s i) (hv1 : (pre (fun p => ssLeft (arr p) v) P : Int) ≤ r i)
    (hv2 : r i < pre (fun p => ssRight (arr p) v) P) (hi : i < nranks)
    (hstep : fspStep P nranks r arr s = .ok s') :
    Finished P arr (r i) s' i ∨
      (Active P arr v s' i ∧ pre (fun q => fspNlocal s' q i) P < pre (fun q => fspNlocal s q i) P) := by
  obtain ⟨m, k, hm, hk, hloc, hmk⟩ := h.median hs hv1 hv2 hi (nranks := nranks)
  have hreq := fun p hp => FspReq.ext' (fspStep_req hstep hi (p := p) hp hm)
  have hle : pre (fun q => ssLeft (arr q) m) P ≤ pre (fun q => ssRight (arr q) m) P :=
    pre_le_pre (fun q hq => ssLeft_le_ssRight (hs q hq) m)
  generalize hF : pre (fun q => ssLeft (arr q) m) P = F at *
  generalize hL : pre (fun q => ssRight (arr q) m) P = L at *
  have hmem : m ∈ arr k := List.mem_of_getElem? hmk
  have hreq' : ∀ p < P, (s' p).req i = reqUpdate (r i) m (ssLeft (arr p) m) (ssRight (arr p) m) F L ((s p).req i) := by
    intro p hp
    rw [fspStep_req hstep hi hp hm, hF, hL]
  clear hreq
  have hdone : ∀ p < P, ((s p).req i).done = false := h.done
  by_cases h1 : r i ≥ F ∧ r i ≤ (L : Int) - 1
  · left
    refine ⟨⟨0, 0, true, m, F, (L : Int) - 1⟩, rfl, ⟨mem_gcat.2 ⟨k, hk, hmem⟩, ?_, ?_, h1.1, h1.2⟩, ?_⟩
    · simp only [countP_gcat, ← hF]
      rw [pre_congr (fun q hq => ssLeft_eq (hs q hq) m)]
    · simp only [countP_gcat, ← hL]
      rw [pre_congr (fun q hq => ssRight_eq (hs q hq) m)]
    · intro p hp
      have hu : reqUpdate (r i) m (ssLeft (arr p) m) (ssRight (arr p) m) F L ((s p).req i) =
          { (s p).req i with med := m, mn := F, mx := (L : Int) - 1, done := true } := by
        unfold reqUpdate
        rw [hdone p hp]
        simp only [Bool.false_eq_true, if_false]
        rw [if_pos h1, if_neg (by omega), if_neg (by omega)]
      have := FspReq.ext' ((hreq' p hp).trans hu)
      exact ⟨this.2.2.1, this.2.2.2.1, this.2.2.2.2.1, this.2.2.2.2.2⟩
  · right
    by_cases h2 : (L : Int) - 1 < r i
    · have hmv : m < v := by
        by_contra hc
        have : pre (fun q => ssRight (arr q) v) P ≤ pre (fun q => ssRight (arr q) m) P :=
          pre_le_pre (fun q hq => ssRight_mono (hs q hq) (not_lt.1 hc))
        omega
      have hu : ∀ p < P, reqUpdate (r i) m (ssLeft (arr p) m) (ssRight (arr p) m) F L ((s p).req i) =
          { (s p).req i with imin := max ((s p).imin i) (ssRight (arr p) m : Nat) } := by
        intro p hp
        unfold reqUpdate
        rw [hdone p hp]
        simp only [Bool.false_eq_true, if_false]
        rw [if_neg h1, if_pos h2, if_neg (by omega)]
        rw [show ((s p).req i).imin = (s p).imin i from rfl]
      have hx := fun p hp => FspReq.ext' ((hreq' p hp).trans (hu p hp))
      have hmin : ∀ p < P, (s' p).imin i = max ((s p).imin i) (ssRight (arr p) m : Nat) := fun p hp => (hx p hp).1
      have hmax : ∀ p < P, (s' p).imax i = (s p).imax i := fun p hp => (hx p hp).2.1
      refine ⟨⟨fun p hp => ?_, fun p hp => ?_, fun p hp => ?_, fun p hp => ?_, fun p hp => ?_⟩, ?_⟩
      · rw [(hx p hp).2.2.1]; exact hdone p hp
      · rw [hmin p hp]; have := h.nonneg p hp; omega
      · rw [hmin p hp]
        have := h.lower p hp
        have := ssRight_le_ssLeft (hs p hp) hmv
        omega
      · rw [hmax p hp]; exact h.upper p hp
      · rw [hmax p hp]; exact h.len p hp
      · apply pre_lt_pre (k := k) _ hk
        · have h5 := (le_iff_lt_ssRight (hs k hk) hmk).1 (le_refl m)
          have h6 := h.nonneg k hk
          unfold fspNlocal at hloc h5 ⊢
          rw [hmin k hk, hmax k hk]
          omega
        · intro p hp
          unfold fspNlocal
          rw [hmin p hp, hmax p hp]
          omega
    · have h3 : (F : Int) > r i := by omega
      have hmv : v < m := by
        by_contra hc
        have : pre (fun q => ssLeft (arr q) m) P ≤ pre (fun q => ssLeft (arr q) v) P :=
          pre_le_pre (fun q hq => ssLeft_mono (hs q hq) (not_lt.1 hc))
        omega
      have hu : ∀ p < P, reqUpdate (r i) m (ssLeft (arr p) m) (ssRight (arr p) m) F L ((s p).req i) =
          { (s p).req i with imax := min ((s p).imax i) ((ssLeft (arr p) m : Int) - 1) } := by
        intro p hp
        unfold reqUpdate
        rw [hdone p hp]
        simp only [Bool.false_eq_true, if_false]
        rw [if_neg h1, if_neg h2, if_pos h3]
        rw [show ((s p).req i).imax = (s p).imax i from rfl]
      have hx := fun p hp => FspReq.ext' ((hreq' p hp).trans (hu p hp))
      have hmin : ∀ p < P, (s' p).imin i = (s p).imin i := fun p hp => (hx p hp).1
      have hmax : ∀ p < P, (s' p).imax i = min ((s p).imax i) ((ssLeft (arr p) m : Int) - 1) :=
        fun p hp => (hx p hp).2.1
      refine ⟨⟨fun p hp => ?_, fun p hp => ?_, fun p hp => ?_, fun p hp => ?_, fun p hp => ?_⟩, ?_⟩
      · rw [(hx p hp).2.2.1]; exact hdone p hp
      · rw [hmin p hp]; exact h.nonneg p hp
      · rw [hmin p hp]; exact h.lower p hp
      · rw [hmax p hp]
        have := h.upper p hp
        have := ssRight_le_ssLeft (hs p hp) hmv
        omega
      · rw [hmax p hp]; have := h.len p hp; omega
      · apply pre_lt_pre (k := k) _ hk
        · have h5 := (lt_iff_lt_ssLeft (hs k hk) hmk).not.1 (lt_irrefl m)
          have h6 := h.nonneg k hk
          unfold fspNlocal at hloc h5 ⊢
          rw [hmin k hk, hmax k hk]
          omega
        · intro p hp
          unfold fspNlocal
          rw [hmin p hp, hmax p hp]
          omega

theorem Finished.step {r : Nat → Int} {s' : Nat → FspRank α} (h : Finished P arr (r i) s i)
    (hstep : fspStep P nranks r arr s = .ok s') : Finished P arr (r i) s' i := by
  obtain ⟨q, hq, hok, hp⟩ := h
  refine ⟨q, hq, hok, fun p hpP => ?_⟩
  have := FspReq.ext' (fspStep_done hstep (hp p hpP).1)
  obtain ⟨h1, h2, h3, h4⟩ := hp p hpP
  exact ⟨this.2.2.1.trans h1, this.2.2.2.1.trans h2, this.2.2.2.2.1.trans h3, this.2.2.2.2.2.trans h4⟩

theorem fspEst_done (P nranks : Nat) (hi : i < nranks) (hd : ∀ p < P, (s p).done i = true) {p : Nat}
    (hp : p < P) : (fspEst P nranks arr s p i).isOk = true := by
  unfold fspEst
  simp only
  split
  · rw [if_pos (hd p hp)]; rfl
  · rw [if_neg (fun hh => by rw [hd i (by omega)] at hh; simp at hh)]; rfl

theorem fspLoop_ok {r : Nat → Int} (hP : 0 < P) (hs : ∀ p < P, Sorted (arr p)) (v : Nat → α)
    (hv1 : ∀ i < nranks, (pre (fun p => ssLeft (arr p) (v i)) P : Int) ≤ r i)
    (hv2 : ∀ i < nranks, r i < pre (fun p => ssRight (arr p) (v i)) P) (fuel : Nat) :
    ∀ s, (∀ i < nranks, Finished P arr (r i) s i ∨
        (Active P arr (v i) s i ∧ pre (fun q => fspNlocal s q i) P ≤ fuel)) →
      ∃ s', fspLoop P nranks r arr fuel s = .ok s' ∧ ∀ i < nranks, Finished P arr (r i) s' i := by
  induction fuel with
  | zero =>
    intro s h
    have hall : ∀ i < nranks, Finished P arr (r i) s i := by
      intro i hi
      rcases h i hi with h | ⟨h1, h2⟩
      · exact h
      · have := h1.nactive_pos hs (hv1 i hi) (hv2 i hi); omega
    refine ⟨s, ?_, hall⟩
    unfold fspLoop
    rw [if_pos]
    rw [List.all_eq_true]
    intro p hp
    unfold fspWantsMore
    rw [Bool.not_eq_true', List.any_eq_false]
    intro i hi
    obtain ⟨q, _, _, hq⟩ := hall i (List.mem_range.1 hi)
    simp [(hq p (List.mem_range.1 hp)).1]
  | succ fuel ih =>
    intro s h
    by_cases hall : ∀ i < nranks, Finished P arr (r i) s i
    · refine ⟨s, ?_, hall⟩
      unfold fspLoop
      rw [if_pos]
      rw [List.all_eq_true]
      intro p hp
      unfold fspWantsMore
      rw [Bool.not_eq_true', List.any_eq_false]
      intro i hi
      obtain ⟨q, _, _, hq⟩ := hall i (List.mem_range.1 hi)
      simp [(hq p (List.mem_range.1 hp)).1]
    · have hact : ∃ i < nranks, Active P arr (v i) s i := by
        by_contra hc
        apply hall
        intro i hi
        rcases h i hi with h | ⟨h1, _⟩
        · exact h
        · exact (hc ⟨i, hi, h1⟩).elim
      obtain ⟨i0, hi0, ha0⟩ := hact
      have hw : ∀ p < P, fspWantsMore nranks s p = true := by
        intro p hp
        unfold fspWantsMore
        rw [List.any_eq_true]
        exact ⟨i0, List.mem_range.2 hi0, by simp [ha0.done p hp]⟩
      obtain ⟨s1, hstep⟩ : ∃ s1, fspStep P nranks r arr s = .ok s1 := by
        have hok : (List.range P).all (fun p => (List.range nranks).all
            (fun i => (fspEst P nranks arr s p i).isOk)) = true := by
          rw [List.all_eq_true]
          intro p hp
          rw [List.all_eq_true]
          intro i hi
          have hi := List.mem_range.1 hi
          have hp := List.mem_range.1 hp
          rcases h i hi with ⟨q, _, _, hq⟩ | ⟨h1, _⟩
          · exact fspEst_done P nranks hi (fun p hp => (hq p hp).1) hp
          · obtain ⟨m, k, hm, _⟩ := h1.median hs (hv1 i hi) (hv2 i hi) hi (nranks := nranks)
            rw [hm p hp]; rfl
        unfold fspStep
        simp only
        rw [if_pos hok]
        exact ⟨_, rfl⟩
      obtain ⟨s', hl, hf⟩ := ih s1 (by
        intro i hi
        rcases h i hi with h | ⟨h1, h2⟩
        · exact Or.inl (h.step hstep)
        · rcases h1.step hs (hv1 i hi) (hv2 i hi) hi hstep with h3 | ⟨h3, h4⟩
          · exact Or.inl h3
          · exact Or.inr ⟨h3, by omega⟩)
      refine ⟨s', ?_, hf⟩
      unfold fspLoop
      rw [if_neg, if_pos]
      · simp only [hstep]; exact hl
      · rw [List.all_eq_true]
        intro p hp
        exact hw p (List.mem_range.1 hp)
      · rw [List.all_eq_true]
        intro hc
        have := hc 0 (List.mem_range.2 hP)
        rw [hw 0 hP] at this
        simp at this

theorem findSplittingPoints_ok {r : Nat → Int} {fuel : Nat} (hP : 0 < P) (hs : ∀ p < P, Sorted (arr p))
    (hr : ∀ i < nranks, 0 ≤ r i ∧ r i < (gcat P arr).length) (hfuel : (gcat P arr).length ≤ fuel) :
    ∃ out, findSplittingPoints fuel P nranks r arr = .ok out ∧
      ∀ i < nranks, ∃ (v : α) (mn mx : Int), (∀ p < P, out p i = (v, mn, mx)) ∧ v ∈ gcat P arr ∧
        mn = ((gcat P arr).countP (fun x => decide (x < v)) : Nat) ∧
        mx = ((gcat P arr).countP (fun x => decide (x ≤ v)) : Nat) - 1 ∧ mn ≤ r i ∧ r i ≤ mx := by
  have htar : ∀ i, ∃ v : α, i < nranks → (pre (fun p => ssLeft (arr p) v) P : Int) ≤ r i ∧
      r i < pre (fun p => ssRight (arr p) v) P := by
    intro i
    by_cases hi : i < nranks
    · have := hr i hi
      obtain ⟨v, h1, h2⟩ := exists_target (gcat P arr) (r := (r i).toNat) (by omega)
      refine ⟨v, fun _ => ?_⟩
      rw [countP_gcat] at h1 h2
      rw [pre_congr (fun q hq => ssLeft_eq (hs q hq) v), pre_congr (fun q hq => ssRight_eq (hs q hq) v)]
      omega
    · exact ⟨default, fun h => (hi h).elim⟩
  choose v hv using htar
  obtain ⟨s', hl, hf⟩ := fspLoop_ok (r := r) hP hs v (fun i hi => (hv i hi).1) (fun i hi => (hv i hi).2) fuel
    (fspInit arr) (by
      intro i hi
      refine Or.inr ⟨⟨fun p hp => rfl, fun p hp => ?_, fun p hp => ?_, fun p hp => ?_, fun p hp => ?_⟩, ?_⟩
      · exact le_refl _
      · exact Int.natCast_nonneg _
      · have := ssRight_le_length (hs p hp) (v i)
        show _ ≤ ((arr p).length : Int) - 1
        omega
      · exact le_refl _
      · rw [length_gcat] at hfuel
        refine le_trans (pre_le_pre ?_) hfuel
        intro p hp
        unfold fspNlocal fspInit sizes
        simp only
        omega)
  refine ⟨_, by unfold findSplittingPoints; rw [hl], ?_⟩
  intro i hi
  obtain ⟨q, _, hok, hq⟩ := hf i hi
  refine ⟨q.med, q.mn, q.mx, fun p hp => ?_, hok.mem, hok.mn_eq, hok.mx_eq, hok.le_r, hok.r_le⟩
  obtain ⟨_, h2, h3, h4⟩ := hq p hp
  simp only [h2, h3, h4]

end

end Verif
