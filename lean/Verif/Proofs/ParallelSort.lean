import Verif.Model.ParallelSort
import Verif.Proofs.FspLog
import Verif.Lib.Scatter

namespace Verif

set_option linter.unusedSectionVars false

variable {α : Type*}

section cut
variable [LinearOrder α] [Inhabited α]

theorem psNvalLocal_eq {S : List α} (hs : Sorted S) (v : α) : psNvalLocal S v = ssRight S v - ssLeft S v := by
  unfold psNvalLocal
  have h1 := ssLeft_le_ssRight hs v
  have h2 := ssRight_le_length hs v
  by_cases hl : S.length > 0
  · rw [if_pos hl]
    simp only
    by_cases hf : ssLeft S v ≥ S.length
    · rw [if_pos hf]; split <;> omega
    · rw [if_neg hf]
      have hb : ssLeft S v < S.length := by omega
      have hx : S[ssLeft S v]? = some S[ssLeft S v] := List.getElem?_eq_getElem hb
      split
      · rename_i hne
        rw [List.getD_eq_getElem?_getD, hx] at hne
        simp only [Option.getD_some] at hne
        have h3 := (lt_iff_lt_ssLeft hs (v := v) hx).not.2 (lt_irrefl _)
        have h4 : ¬ S[ssLeft S v] ≤ v := fun h => hne (le_antisymm h (not_lt.1 h3))
        have h5 := (le_iff_lt_ssRight hs (v := v) hx).not.1 h4
        omega
      · omega
  · rw [if_neg hl]; omega

/-- Position in the sorted local array at which the elements for the ranks from the one with splitting value `v` on start. -/
def psCut (S : List α) (v : α) (lower s : Nat) : Nat :=
  ssLeft S v + min (s - lower) (ssRight S v - ssLeft S v)

theorem psLastToSend_eq {S : List α} (hs : Sorted S) (v : α) (lower s : Nat) :
    psLastToSend S v lower (s : Int) + 1 = psCut S v lower s := by
  have h1 := ssLeft_le_ssRight hs v
  have h2 := ssRight_le_length hs v
  unfold psLastToSend psCut
  simp only
  by_cases hf : ssLeft S v < S.length
  · rw [if_neg (by omega)]
    have hx : S[ssLeft S v]? = some S[ssLeft S v] := List.getElem?_eq_getElem hf
    split
    · rename_i hne
      rw [List.getD_eq_getElem?_getD, hx] at hne
      simp only [Option.getD_some] at hne
      have h3 := (lt_iff_lt_ssLeft hs (v := v) hx).not.2 (lt_irrefl _)
      have h4 : ¬ S[ssLeft S v] ≤ v := fun h => hne (le_antisymm h (not_lt.1 h3))
      have h5 := (le_iff_lt_ssRight hs (v := v) hx).not.1 h4
      omega
    · split
      · omega
      · split <;> omega
  · rw [if_pos (by omega)]; omega

theorem psCut_le {S : List α} (hs : Sorted S) (v : α) (lower s : Nat) : psCut S v lower s ≤ S.length := by
  have h1 := ssLeft_le_ssRight hs v
  have h2 := ssRight_le_length hs v
  unfold psCut; omega

end cut

/-- The loop over destinations, given the positions `cut 0 = 0 ≤ cut 1 ≤ ... ≤ cut Q = length`. -/
theorem psSendCount_eq [LinearOrder α] [Inhabited α] {Q : Nat} {nperproc : Nat → Nat} {S : List α} (hs : Sorted S)
    {val : Nat → α} {lower : Nat → Nat} {split_instance : Nat → Int} (hn : ∀ d < Q, nperproc d ≠ 0)
    (cut : Nat → Nat) (h0 : cut 0 = 0) (hQ : cut Q = S.length) (hmono : ∀ d < Q, cut d ≤ cut (d + 1))
    (hcut : ∀ d, 0 < d → d < Q → 0 ≤ split_instance d ∧
      cut d = psCut S (val d) (lower d) (split_instance d).toNat) :
    ∀ d < Q, psSendCount Q nperproc S val lower split_instance d = cut (d + 1) - cut d := by
  have hle : ∀ a b, a ≤ b → b ≤ Q → cut a ≤ cut b := by
    intro a b hab
    induction b with
    | zero => intro _; have : a = 0 := by omega
              subst this; exact Nat.le_refl _
    | succ b ih =>
      intro hb
      rcases Nat.eq_or_lt_of_le hab with h | h
      · subst h; exact Nat.le_refl _
      · exact Nat.le_trans (ih (by omega) (by omega)) (hmono b (by omega))
  have key : ∀ k ≤ Q, ∃ f, (List.range k).foldl (psSendStep Q nperproc S val lower split_instance) (0, fun _ => 0)
      = ((cut k : Int), f) ∧ (∀ d < k, f d = cut (d + 1) - cut d) ∧ ∀ d ≥ k, f d = 0 := by
    intro k
    induction k with
    | zero => intro _; exact ⟨fun _ => 0, by simp [h0], by simp, by simp⟩
    | succ k ih =>
      intro hk
      obtain ⟨f, hf, hf1, hf2⟩ := ih (by omega)
      rw [List.range_succ, List.foldl_append, hf]
      simp only [List.foldl_cons, List.foldl_nil]
      unfold psSendStep
      simp only
      have hkQ := hle (k + 1) Q hk (Nat.le_refl _)
      have hkk := hmono k (by omega)
      by_cases hskip : nperproc k = 0 ∨ (cut k : Int) ≥ S.length
      · rw [if_pos hskip]
        rcases hskip with h | h
        · exact (hn k (by omega) h).elim
        · have : cut (k + 1) = cut k := by omega
          refine ⟨f, by rw [this], ?_, fun d hd => hf2 d (by omega)⟩
          intro d hd
          by_cases hdk : d = k
          · subst hdk; rw [hf2 d (Nat.le_refl _)]; omega
          · exact hf1 d (by omega)
      · rw [if_neg hskip]
        have hlast : (if (k : Int) < (Q : Int) - 1 then
            psLastToSend S (val (k + 1)) (lower (k + 1)) (split_instance (k + 1))
            else (S.length : Int) - 1) + 1 = (cut (k + 1) : Int) := by
          split
          · obtain ⟨hnn, hc⟩ := hcut (k + 1) (by omega) (by omega)
            rw [hc, ← psLastToSend_eq hs, Int.toNat_of_nonneg hnn]
          · have : k + 1 = Q := by omega
            rw [this, hQ]; omega
        generalize hL : (if (k : Int) < (Q : Int) - 1 then
            psLastToSend S (val (k + 1)) (lower (k + 1)) (split_instance (k + 1))
            else (S.length : Int) - 1) = last at hlast
        refine ⟨_, by rw [hlast, show max (cut k : Int) (cut (k + 1) : Int) = (cut (k + 1) : Int) by omega], ?_, ?_⟩
        · intro d hd
          by_cases hdk : d = k
          · subst hdk; rw [Function.update_self]; omega
          · rw [Function.update_of_ne hdk]; exact hf1 d (by omega)
        · intro d hd
          rw [Function.update_of_ne (by omega)]; exact hf2 d (by omega)
  intro d hd
  obtain ⟨f, hf, hf1, _⟩ := key Q (Nat.le_refl _)
  unfold psSendCount
  rw [hf]; exact hf1 d hd

/-- Taking `s` items from blocks of sizes `c`, in order. -/
theorem pre_min (c : Nat → Nat) (s Q : Nat) : pre (fun p => min (s - pre c p) (c p)) Q = min s (pre c Q) := by
  induction Q with
  | zero => simp
  | succ Q ih => simp only [pre_succ, ih]; omega

theorem pre_eq_zero {c : Nat → Nat} {Q p : Nat} (h : pre c Q = 0) (hp : p < Q) : c p = 0 := by
  have := pre_lt_total (f := c) hp; omega

/-! ### Sorting tagged elements -/

section tags
variable [LinearOrder α] [Inhabited α]

/-- If equal values have increasing tags, then stable sorting by value gives the lexicographic order of (value, tag). -/
theorem fancy_argsort_lex (T : List (α × Nat)) (h : T.Pairwise (fun a b => a.1 = b.1 → a.2 < b.2)) :
    (fancy T (argsort (T.map Prod.fst))).Pairwise LexLt := by
  unfold fancy
  rw [argsort_eq, List.map_map]
  refine List.Pairwise.map _ (R := fun a b => LexLt a b ∧ (T.map Prod.fst)[a.2]? = some a.1 ∧
    (T.map Prod.fst)[b.2]? = some b.1) ?_ ?_
  · rintro ⟨x, i⟩ ⟨y, j⟩ ⟨hl, hi, hj⟩
    rw [List.getElem?_map, Option.map_eq_some_iff] at hi hj
    obtain ⟨a, ha, hax⟩ := hi
    obtain ⟨b, hb, hbx⟩ := hj
    simp only at hax hbx ha hb hl
    simp only [Function.comp, List.getD_eq_getElem?_getD, ha, hb, Option.getD_some]
    subst hax hbx
    rcases hl with hl | ⟨hl1, hl2⟩
    · exact Or.inl hl
    · refine Or.inr ⟨hl1, ?_⟩
      simp only at hl1 hl2
      obtain ⟨hi', hia⟩ := List.getElem?_eq_some_iff.1 ha
      obtain ⟨hj', hjb⟩ := List.getElem?_eq_some_iff.1 hb
      have := List.pairwise_iff_getElem.1 h i j hi' hj' hl2
      rw [hia, hjb] at this
      exact this hl1
  · refine List.Pairwise.imp_of_mem ?_ (sortedPairs_lex _)
    intro a b ha hb hl
    exact ⟨hl, mem_sortedPairs.1 ha, mem_sortedPairs.1 hb⟩

theorem fancy_perm_of_perm {β : Type*} [Inhabited β] {T : List β} {idx : List Nat} (h : idx.Perm (List.range T.length)) :
    (fancy T idx).Perm T := by
  unfold fancy
  refine (h.map _).trans ?_
  rw [show (List.range T.length).map (fun i => T.getD i default) = T from ?_]
  apply List.ext_getElem
  · simp
  · intro i h1 h2
    simp [h2]

theorem map_fancy {β γ : Type*} [Inhabited β] [Inhabited γ] (f : β → γ) {T : List β} {idx : List Nat}
    (h : ∀ i ∈ idx, i < T.length) : (fancy T idx).map f = fancy (T.map f) idx := by
  unfold fancy
  rw [List.map_map]
  apply List.map_congr_left
  intro i hi
  have := h i hi
  simp [this]

theorem zipIdx_gcat (a : Nat → List α) (P : Nat) :
    (gcat P a).zipIdx = gcat P (fun p => (a p).zipIdx (pre (sizes a) p)) := by
  induction P with
  | zero => rfl
  | succ P ih => rw [gcat_succ, gcat_succ, List.zipIdx_append, ih, length_gcat]; simp

/-- Locally sorted array with global positions as tags. -/
def tagged (arr : Nat → List α) (p : Nat) : List (α × Nat) :=
  (sortedPairs (arr p)).map (fun e => (e.1, e.2 + pre (sizes arr) p))

theorem tagged_perm (arr : Nat → List α) (p : Nat) :
    (tagged arr p).Perm ((arr p).zipIdx (pre (sizes arr) p)) := by
  unfold tagged
  refine ((sortedPairs_perm (arr p)).map _).trans ?_
  rw [List.zipIdx_eq_map_add (i := pre (sizes arr) p)]
  apply List.Perm.of_eq
  apply List.map_congr_left
  rintro ⟨x, i⟩ _
  simp [Nat.add_comm]

theorem tagged_lex (arr : Nat → List α) (p : Nat) : (tagged arr p).Pairwise LexLt := by
  unfold tagged
  refine List.Pairwise.map _ ?_ (sortedPairs_lex (arr p))
  rintro ⟨x, i⟩ ⟨y, j⟩ (h | ⟨h1, h2⟩)
  · exact Or.inl h
  · exact Or.inr ⟨h1, by simp only at h2 ⊢; omega⟩

theorem tagged_tag {arr : Nat → List α} {p : Nat} {e : α × Nat} (h : e ∈ tagged arr p) :
    pre (sizes arr) p ≤ e.2 ∧ e.2 < pre (sizes arr) (p + 1) := by
  rw [(tagged_perm arr p).mem_iff] at h
  have := List.le_snd_of_mem_zipIdx h
  have h2 := List.snd_lt_add_of_mem_zipIdx h
  rw [pre_succ]; simp only [sizes] at *; omega

theorem tagged_fst (arr : Nat → List α) (p : Nat) :
    (tagged arr p).map Prod.fst = fancy (arr p) (argsort (arr p)) := by
  rw [fancy_argsort]; unfold tagged; rw [List.map_map]; rfl

theorem tagged_snd (arr : Nat → List α) (p : Nat) :
    (tagged arr p).map Prod.snd =
      fancy ((List.range (arr p).length).map (fun k => k + pre (sizes arr) p)) (argsort (arr p)) := by
  unfold tagged fancy
  rw [List.map_map, argsort_eq, List.map_map]
  apply List.map_congr_left
  rintro ⟨x, i⟩ h
  have := argsort_lt (l := arr p) (i := i) (by rw [argsort_eq]; exact List.mem_map.2 ⟨_, h, rfl⟩)
  simp [this]

@[simp] theorem length_tagged (arr : Nat → List α) (p : Nat) : (tagged arr p).length = (arr p).length := by
  have := (tagged_perm arr p).length_eq
  simpa using this

end tags


/-! ### The sort on ranks with data -/

section sub
variable [LinearOrder α] [Inhabited α]

theorem mem_slice_iff {β : Type*} {l : List β} {o n : Nat} {x : β} :
    x ∈ slice l o n ↔ ∃ i, o ≤ i ∧ i < o + n ∧ l[i]? = some x := by
  rw [List.mem_iff_getElem?]
  constructor
  · rintro ⟨i, hi⟩
    rw [getElem?_slice] at hi
    split at hi
    · exact ⟨o + i, by omega, by omega, hi⟩
    · cases hi
  · rintro ⟨i, h1, h2, h3⟩
    refine ⟨i - o, ?_⟩
    rw [getElem?_slice, if_pos (by omega), show o + (i - o) = i by omega]; exact h3

theorem gcat_pairwise {β : Type*} {R : β → β → Prop} {P : Nat} {a : Nat → List β}
    (h1 : ∀ p < P, (a p).Pairwise R)
    (h2 : ∀ p q, p < q → q < P → ∀ x ∈ a p, ∀ y ∈ a q, R x y) : (gcat P a).Pairwise R := by
  induction P with
  | zero => simp
  | succ P ih =>
    rw [gcat_succ, List.pairwise_append]
    refine ⟨ih (fun p hp => h1 p (by omega)) (fun p q hpq hq => h2 p q hpq (by omega)), h1 P (by omega), ?_⟩
    intro x hx y hy
    obtain ⟨p, hp, hxp⟩ := mem_gcat.1 hx
    exact h2 p P hp (by omega) x hxp y hy

theorem slice_sublist {β : Type*} (l : List β) (o n : Nat) : (slice l o n).Sublist l :=
  (List.take_sublist _ _).trans (List.drop_sublist _ _)

theorem tagged_get {arr : Nat → List α} {p i : Nat} {e : α × Nat} (h : (tagged arr p)[i]? = some e) :
    (fancy (arr p) (argsort (arr p)))[i]? = some e.1 := by
  rw [← tagged_fst, List.getElem?_map, h]; rfl

/-- Elements before the cut for destination `e` come before the elements after it, in (value, position) order. -/
theorem cut_lex {arr : Nat → List α} {Q : Nat} {v : α} {s : Nat} {p p' i j : Nat} {x y : α × Nat}
    (S : Nat → List α) (hS : ∀ p, S p = fancy (arr p) (argsort (arr p)))
    (lower : Nat → Nat) (hlow : ∀ p, lower p = pre (fun q => ssRight (S q) v - ssLeft (S q) v) p)
    (hx : (tagged arr p)[i]? = some x) (hy : (tagged arr p')[j]? = some y) (hp : p < Q) (hp' : p' < Q)
    (hi : i < psCut (S p) v (lower p) s) (hj : psCut (S p') v (lower p') s ≤ j) : LexLt x y := by
  have hsort : ∀ q, Sorted (S q) := fun q => by rw [hS]; exact fancy_argsort_sorted _
  have hxS := tagged_get hx
  have hyS := tagged_get hy
  rw [← hS] at hxS hyS
  have hx1 := lt_iff_lt_ssLeft (hsort p) (v := v) hxS
  have hx2 := le_iff_lt_ssRight (hsort p) (v := v) hxS
  have hy1 := lt_iff_lt_ssLeft (hsort p') (v := v) hyS
  have hy2 := le_iff_lt_ssRight (hsort p') (v := v) hyS
  have hlr := ssLeft_le_ssRight (hsort p) v
  have hlr' := ssLeft_le_ssRight (hsort p') v
  unfold psCut at hi hj
  have hxv : x.1 ≤ v := hx2.2 (by omega)
  have hyv : v ≤ y.1 := not_lt.1 (hy1.not.2 (by omega))
  rcases lt_or_eq_of_le (le_trans hxv hyv) with hlt | heq
  · exact Or.inl hlt
  · refine Or.inr ⟨heq, ?_⟩
    have hxv' : x.1 = v := le_antisymm hxv (heq ▸ hyv)
    have hyv' : y.1 = v := heq ▸ hxv'
    have a1 := hx1.not.1 (by rw [hxv']; exact lt_irrefl _)
    have a2 := hy2.1 (le_of_eq hyv')
    rcases Nat.lt_trichotomy p p' with h | h | h
    · have t1 := tagged_tag (List.mem_of_getElem? hx)
      have t2 := tagged_tag (List.mem_of_getElem? hy)
      have := pre_mono (sizes arr) (show p + 1 ≤ p' by omega)
      omega
    · subst h
      have hij : i < j := by omega
      obtain ⟨hi', hia⟩ := List.getElem?_eq_some_iff.1 hx
      obtain ⟨hj', hjb⟩ := List.getElem?_eq_some_iff.1 hy
      have := List.pairwise_iff_getElem.1 (tagged_lex arr p) i j hi' hj' hij
      rw [hia, hjb] at this
      rcases this with h | ⟨_, h⟩
      · exact (lt_irrefl _ (heq ▸ h)).elim
      · exact h
    · exfalso
      have hm := pre_mono (fun q => ssRight (S q) v - ssLeft (S q) v) (show p' + 1 ≤ p by omega)
      rw [pre_succ, ← hlow, ← hlow] at hm
      omega

theorem parallelSortSub_ok {fuel Q : Nat} {arr : Nat → List α} (hQ : 0 < Q)
    (hne : ∀ p < Q, 0 < (arr p).length)
    (hfuel : (gcat Q arr).length ≤ fuel ∨ 3 ^ fuel * (gcat Q arr).length < 4 ^ fuel) :
    ∃ out, parallelSortSub fuel Q arr = .ok out ∧ ∃ O : Nat → List (α × Nat),
      (∀ p < Q, out p = ((O p).map Prod.fst, (O p).map Prod.snd) ∧ (O p).length = (arr p).length) ∧
      gcat Q O = sortedPairs (gcat Q arr) := by
  set S : Nat → List α := fun p => fancy (arr p) (argsort (arr p)) with hSdef
  have hsort : ∀ q, Sorted (S q) := fun q => fancy_argsort_sorted _
  have hSlen : ∀ q, (S q).length = (arr q).length := by intro q; simp [hSdef]
  set n := sizes arr with hn
  have hSperm : (gcat Q S).Perm (gcat Q arr) := perm_gcat (fun p _ => fancy_argsort_perm (arr p))
  have hN : (gcat Q S).length = pre n Q := by rw [hSperm.length_eq, length_gcat]
  obtain ⟨fsp, hfsp, hspec⟩ := findSplittingPoints_any (P := Q) (nranks := Q) (arr := S)
    (r := fun i => (pre n i : Int)) (fuel := fuel) hQ (fun p _ => hsort p) (by
      intro i hi
      refine ⟨Int.natCast_nonneg _, ?_⟩
      rw [hN]
      have h1 := pre_lt_total (f := n) hi
      have h2 : 0 < n i := hne i hi
      omega) (by rw [hN, ← length_gcat]; exact hfuel)
  -- values and counts which are the same on all ranks
  have hspec' : ∀ i, ∃ (v : α) (mn : Nat), i < Q → (∀ p < Q, (fsp p i).1 = v ∧ (fsp p i).2.1 = (mn : Int)) ∧
      mn = pre (fun q => ssLeft (S q) v) Q ∧ mn ≤ pre n i ∧
      pre n i < pre (fun q => ssRight (S q) v) Q := by
    intro i
    by_cases hi : i < Q
    · obtain ⟨v, mn, mx, h1, h2, h3, h4, h5, h6⟩ := hspec i hi
      rw [countP_gcat, ← pre_congr (fun q hq => ssLeft_eq (hsort q) v)] at h3
      rw [countP_gcat, ← pre_congr (fun q hq => ssRight_eq (hsort q) v)] at h4
      refine ⟨v, pre (fun q => ssLeft (S q) v) Q, fun _ => ⟨fun p hp => ?_, rfl, by omega, by omega⟩⟩
      rw [h1 p hp]; exact ⟨rfl, h3⟩
    · exact ⟨default, 0, fun h => (hi h).elim⟩
  choose v mn hv using hspec'
  set sI : Nat → Nat := fun i => pre n i - mn i with hsI
  set c : Nat → Nat → Nat := fun i q => ssRight (S q) (v i) - ssLeft (S q) (v i) with hc
  set low : Nat → Nat → Nat := fun i p => pre (c i) p with hlow
  set cut : Nat → Nat → Nat := fun p d => if d < Q then psCut (S p) (v d) (low d p) (sI d) else (S p).length
    with hcut
  have hsum : ∀ i < Q, pre (fun q => ssRight (S q) (v i)) Q = mn i + pre (c i) Q := by
    intro i hi
    rw [(hv i hi).2.1, ← pre_add]
    apply pre_congr
    intro q hq
    have := ssLeft_le_ssRight (hsort q) (v i)
    simp only [hc]; omega
  have hsIlt : ∀ i < Q, sI i < pre (c i) Q := by
    intro i hi
    have h1 := (hv i hi).2.2
    have h2 := hsum i hi
    simp only [hsI]; omega
  have hcutle : ∀ p d, cut p d ≤ (S p).length := by
    intro p d
    simp only [hcut]
    split
    · exact psCut_le (hsort p) _ _ _
    · exact Nat.le_refl _
  have hcut0 : ∀ p < Q, cut p 0 = 0 := by
    intro p hp
    have h1 := (hv 0 hQ).2
    simp only [pre_zero] at h1
    have h0 : pre (fun q => ssLeft (S q) (v 0)) Q = 0 := by omega
    have h2 := pre_eq_zero h0 hp
    simp only [hcut, if_pos hQ, psCut, hsI, pre_zero]
    omega
  have hvmono : ∀ d, d + 1 < Q → v d ≤ v (d + 1) := by
    intro d hd
    by_contra hcon
    have h1 := (hv d (by omega)).2
    have h2 := (hv (d + 1) hd).2
    have h3 : pre (fun q => ssRight (S q) (v (d + 1))) Q ≤ pre (fun q => ssLeft (S q) (v d)) Q :=
      pre_le_pre (fun q _ => ssRight_le_ssLeft (hsort q) (not_le.1 hcon))
    have h4 := pre_mono n (show d ≤ d + 1 by omega)
    omega
  have hcutmono : ∀ p d, d < Q → cut p d ≤ cut p (d + 1) := by
    intro p d hd
    by_cases hd1 : d + 1 < Q
    · simp only [hcut, if_pos hd, if_pos hd1]
      rcases lt_or_eq_of_le (hvmono d hd1) with h | h
      · have h1 := ssRight_le_ssLeft (hsort p) h
        have h2 := ssLeft_le_ssRight (hsort p) (v d)
        unfold psCut; omega
      · have h1 := (hv d (by omega)).2
        have h2 := (hv (d + 1) hd1).2
        have h4 := pre_mono n (show d ≤ d + 1 by omega)
        have h5 : mn d = mn (d + 1) := by rw [h1.1, h2.1, h]
        have h6 : low d p = low (d + 1) p := by simp only [hlow, hc, h]
        have h7 : sI d ≤ sI (d + 1) := by simp only [hsI]; omega
        unfold psCut
        rw [← h, h6]; omega
    · have : cut p (d + 1) = (S p).length := by simp only [hcut, if_neg hd1]
      rw [this]; exact hcutle p d
  have hcutsum : ∀ d ≤ Q, pre (fun p => cut p d) Q = pre n d := by
    intro d hd
    by_cases hdQ : d < Q
    · have h1 : pre (fun p => cut p d) Q =
          pre (fun q => ssLeft (S q) (v d)) Q + pre (fun p => min (sI d - pre (c d) p) (c d p)) Q := by
        rw [← pre_add]
        apply pre_congr
        intro p _
        simp only [hcut, if_pos hdQ, psCut, hlow, hc]
      rw [h1, pre_min, ← (hv d hdQ).2.1]
      have := hsIlt d hdQ
      have := (hv d hdQ).2.2.1
      simp only [hsI] at *
      omega
    · have : d = Q := by omega
      subst this
      apply pre_congr
      intro p _
      simp only [hcut, if_neg hdQ, hSlen]; rfl
  -- the counts computed by the code
  have hnval : ∀ p i, p < Q → i < Q →
      pre (fun q => psNvalLocal (S q) (fsp q i).1) p = low i p := by
    intro p i hp hi
    apply pre_congr
    intro q hq
    rw [psNvalLocal_eq (hsort q), ((hv i hi).1 q (by omega)).1]
  set send_count := fun p => psSendCount Q n (S p) (fun i => (fsp p i).1)
    (fun i => pre (fun q => psNvalLocal (S q) (fsp q i).1) p)
    (fun i => (pre n i : Int) - (fsp p i).2.1) with hsc
  have hcount : ∀ p < Q, ∀ d < Q, send_count p d = cut p (d + 1) - cut p d := by
    intro p hp
    apply psSendCount_eq (hsort p) (fun d hd => Nat.ne_of_gt (hne d hd)) (cut p) (hcut0 p hp)
    · simp only [hcut, if_neg (Nat.lt_irrefl Q)]
    · exact fun d hd => hcutmono p d hd
    · intro d _ hd
      have h1 := (hv d hd).1 p hp
      have h2 := (hv d hd).2.2.1
      rw [h1.2, h1.1, hnval p d hp hd]
      refine ⟨by omega, ?_⟩
      simp only [hcut, if_pos hd, hsI]
      congr 1; omega
  have hdispl : ∀ p < Q, ∀ d ≤ Q, pre (send_count p) d = cut p d := by
    intro p hp d
    induction d with
    | zero => intro _; simp [hcut0 p hp]
    | succ d ih =>
      intro hd
      rw [pre_succ, ih (by omega), hcount p hp d (by omega)]
      have := hcutmono p d (by omega)
      omega
  -- the exchanged, tagged elements
  set T : Nat → List (α × Nat) := fun d => gcat Q (fun p => slice (tagged arr p) (cut p d) (cut p (d + 1) - cut p d))
    with hT
  have hin : ∀ p < Q, ∀ d < Q, pre (send_count p) d + send_count p d ≤ (arr p).length := by
    intro p hp d hd
    rw [hdispl p hp d (by omega), hcount p hp d hd, ← hSlen]
    have := hcutmono p d hd
    have := hcutle p (d + 1)
    omega
  have htmp : ∀ d < Q, a2av Q S send_count (fun p => pre (send_count p)) d = (T d).map Prod.fst := by
    intro d hd
    rw [a2av_eq (fun s hs => by rw [hSlen]; exact hin s hs d hd), hT, map_gcat]
    apply gcat_congr
    intro p hp
    rw [hdispl p hp d (by omega), hcount p hp d hd, slice_map, tagged_fst]
  have htmpi : ∀ d < Q, a2av Q (fun p => fancy ((List.range (S p).length).map (fun k => k + pre n p)) (argsort (arr p)))
      send_count (fun p => pre (send_count p)) d = (T d).map Prod.snd := by
    intro d hd
    rw [a2av_eq (fun s hs => by simpa using hin s hs d hd), hT, map_gcat]
    apply gcat_congr
    intro p hp
    rw [hdispl p hp d (by omega), hcount p hp d hd, slice_map, tagged_snd, hSlen]
  have hTlen : ∀ d < Q, (T d).length = (arr d).length := by
    intro d hd
    have h1 : (T d).length = pre (fun p => cut p (d + 1) - cut p d) Q := by
      rw [hT, length_gcat]
      apply pre_congr
      intro p hp
      apply length_slice_of_le
      have := hcutmono p d hd
      have := hcutle p (d + 1)
      have := hSlen p
      simp only [length_tagged]
      omega
    have h2 : pre (fun p => cut p (d + 1)) Q = pre (fun p => (cut p (d + 1) - cut p d)) Q + pre (fun p => cut p d) Q := by
      rw [← pre_add]
      apply pre_congr
      intro p hp
      have := hcutmono p d hd
      omega
    rw [hcutsum (d + 1) (by omega), hcutsum d (by omega), pre_succ] at h2
    have : n d = (arr d).length := rfl
    omega
  set O : Nat → List (α × Nat) := fun d => fancy (T d) (argsort ((T d).map Prod.fst)) with hO
  have hOperm : ∀ d, (O d).Perm (T d) := by
    intro d
    apply fancy_perm_of_perm
    have := argsort_perm ((T d).map Prod.fst)
    rwa [List.length_map] at this
  have hOfst : ∀ d, (O d).map Prod.fst = fancy ((T d).map Prod.fst) (argsort ((T d).map Prod.fst)) := by
    intro d
    exact map_fancy _ (fun i hi => by simpa using argsort_lt hi)
  have hOsnd : ∀ d, (O d).map Prod.snd = fancy ((T d).map Prod.snd) (argsort ((T d).map Prod.fst)) := by
    intro d
    exact map_fancy _ (fun i hi => by simpa using argsort_lt hi)
  have hout : ∀ d < Q, assignAll (S d) (fancy (a2av Q S send_count (fun p => pre (send_count p)) d)
      (argsort (a2av Q S send_count (fun p => pre (send_count p)) d))) = .ok ((O d).map Prod.fst) := by
    intro d hd
    rw [htmp d hd, hOfst d]
    unfold assignAll
    rw [if_pos (by simp [hTlen d hd, hSlen])]
  have houti : ∀ d < Q, assignAll (fancy ((List.range (S d).length).map (fun k => k + pre n d)) (argsort (arr d)))
      (fancy (a2av Q (fun p => fancy ((List.range (S p).length).map (fun k => k + pre n p)) (argsort (arr p)))
        send_count (fun p => pre (send_count p)) d)
      (argsort (a2av Q S send_count (fun p => pre (send_count p)) d))) = .ok ((O d).map Prod.snd) := by
    intro d hd
    rw [htmp d hd, htmpi d hd, hOsnd d]
    unfold assignAll
    rw [if_pos (by simp [hTlen d hd])]
  refine ⟨fun p => (((assignAll (S p) (fancy (a2av Q S send_count (fun p => pre (send_count p)) p)
      (argsort (a2av Q S send_count (fun p => pre (send_count p)) p)))).toOption.getD []),
      ((assignAll (fancy ((List.range (S p).length).map (fun k => k + pre n p)) (argsort (arr p)))
      (fancy (a2av Q (fun p => fancy ((List.range (S p).length).map (fun k => k + pre n p)) (argsort (arr p)))
        send_count (fun p => pre (send_count p)) p)
      (argsort (a2av Q S send_count (fun p => pre (send_count p)) p)))).toOption.getD [])), ?_, O, ?_, ?_⟩
  · unfold parallelSortSub
    simp only
    rw [hfsp]
    simp only
    rw [if_pos]
    rw [List.all_eq_true]
    intro p hp
    have hp := List.mem_range.1 hp
    have h1 := hout p hp
    have h2 := houti p hp
    rw [Bool.and_eq_true]
    constructor
    · exact (congrArg Except.isOk h1).trans rfl
    · exact (congrArg Except.isOk h2).trans rfl
  · intro p hp
    beta_reduce
    rw [hout p hp, houti p hp]
    refine ⟨rfl, ?_⟩
    rw [(hOperm p).length_eq, hTlen p hp]
  · apply eq_of_perm_lex
    · refine (perm_gcat (fun p _ => hOperm p)).trans ?_
      refine (gcat_comm_perm _ Q Q).trans ?_
      refine List.Perm.trans ?_ (sortedPairs_perm _).symm
      rw [zipIdx_gcat]
      apply perm_gcat
      intro p hp
      refine List.Perm.trans (List.Perm.of_eq ?_) (tagged_perm arr p)
      have h1 := gcat_slice (tagged arr p) (send_count p) 0 Q
      rw [hdispl p hp Q (Nat.le_refl _)] at h1
      have h2 : cut p Q = (tagged arr p).length := by
        simp only [hcut, if_neg (Nat.lt_irrefl Q), length_tagged, hSlen]
      rw [h2, slice_all] at h1
      refine Eq.trans ?_ h1
      apply gcat_congr
      intro d hd
      rw [Nat.zero_add, hdispl p hp d (by omega), hcount p hp d hd]
    · apply gcat_pairwise
      · intro d hd
        apply fancy_argsort_lex
        apply gcat_pairwise
        · intro p hp
          refine List.Pairwise.imp ?_ ((tagged_lex arr p).sublist (slice_sublist _ _ _))
          rintro a b (h | ⟨_, h⟩) hab
          · exact (lt_irrefl _ (hab ▸ h)).elim
          · exact h
        · intro p q hpq hq x hx y hy _
          have t1 := tagged_tag ((slice_sublist _ _ _).subset hx)
          have t2 := tagged_tag ((slice_sublist _ _ _).subset hy)
          have := pre_mono (sizes arr) (show p + 1 ≤ q by omega)
          omega
      · intro d d' hdd hd' x hx y hy
        rw [(hOperm d).mem_iff] at hx
        rw [(hOperm d').mem_iff] at hy
        obtain ⟨p, hp, hx⟩ := mem_gcat.1 hx
        obtain ⟨p', hp', hy⟩ := mem_gcat.1 hy
        obtain ⟨i, _, hi2, hxi⟩ := mem_slice_iff.1 hx
        obtain ⟨j, hj1, _, hyj⟩ := mem_slice_iff.1 hy
        have hle : ∀ b, d + 1 ≤ b → b ≤ Q → cut p' (d + 1) ≤ cut p' b := by
          intro b hb
          induction b with
          | zero => omega
          | succ b ih =>
            intro hbQ
            rcases Nat.eq_or_lt_of_le hb with h | h
            · rw [h]
            · exact Nat.le_trans (ih (by omega) (by omega)) (hcutmono p' b (by omega))
        have h1 := hle d' hdd (by omega)
        have h2 := hcutmono p d (by omega)
        have hd1 : d + 1 < Q := by omega
        have e1 : cut p (d + 1) = psCut (S p) (v (d + 1)) (low (d + 1) p) (sI (d + 1)) := by
          simp only [hcut, if_pos hd1]
        have e2 : cut p' (d + 1) = psCut (S p') (v (d + 1)) (low (d + 1) p') (sI (d + 1)) := by
          simp only [hcut, if_pos hd1]
        exact cut_lex (arr := arr) (Q := Q) S (fun _ => rfl) (low (d + 1)) (fun _ => rfl) hxi hyj hp hp'
          (by rw [← e1]; omega) (by rw [← e2]; omega)
    · exact sortedPairs_lex _

end sub

/-! ### All ranks -/

theorem range_map_getD (l : List Nat) : (List.range l.length).map (fun q => l.getD q 0) = l := by
  apply List.ext_getElem
  · simp
  · intro i h1 h2; simp [h2]

/-- Concatenation over the ranks with data. -/
theorem gcat_members {β γ : Type*} (P : Nat) (arr : Nat → List γ) (a : Nat → List β)
    (h : ∀ p < P, (arr p).length = 0 → a p = []) :
    gcat (psMembers P arr).length (fun q => a ((psMembers P arr).getD q 0)) = gcat P a := by
  have h1 : gcat (psMembers P arr).length (fun q => a ((psMembers P arr).getD q 0)) =
      (psMembers P arr).flatMap a := by
    unfold gcat
    conv_rhs => rw [← range_map_getD (psMembers P arr)]
    rw [List.flatMap_map]
  rw [h1]
  unfold psMembers gcat
  have : ∀ l : List Nat, (∀ p ∈ l, p < P) →
      (l.filter (fun p => decide ((arr p).length > 0))).flatMap a = l.flatMap a := by
    intro l
    induction l with
    | nil => simp
    | cons x l ih =>
      intro hl
      rw [List.filter_cons]
      split
      · simp [ih (fun p hp => hl p (by simp [hp]))]
      · rename_i hx
        have hx0 : (arr x).length = 0 := by
          have : ¬ (arr x).length > 0 := by simpa using hx
          omega
        rw [ih (fun p hp => hl p (by simp [hp])), List.flatMap_cons, h x (hl x (by simp)) hx0, List.nil_append]
  exact this _ (fun p hp => List.mem_range.1 hp)

theorem psMembers_nodup (P : Nat) (arr : Nat → List α) : (psMembers P arr).Nodup :=
  List.nodup_range.filter _

theorem mem_psMembers {P : Nat} {arr : Nat → List α} {p : Nat} :
    p ∈ psMembers P arr ↔ p < P ∧ 0 < (arr p).length := by
  simp [psMembers]

theorem psMembers_idxOf {P : Nat} {arr : Nat → List α} {p : Nat} (hp : p < P) (h : 0 < (arr p).length) :
    (psMembers P arr).idxOf p < (psMembers P arr).length ∧
      (psMembers P arr).getD ((psMembers P arr).idxOf p) 0 = p := by
  have hm := mem_psMembers.2 ⟨hp, h⟩
  have hlt := List.idxOf_lt_length_of_mem hm
  refine ⟨hlt, ?_⟩
  rw [List.getD_eq_getElem?_getD, List.getElem?_eq_getElem hlt]
  simp

section all
variable [LinearOrder α] [Inhabited α]

theorem parallelSortSub_zero (fuel : Nat) (arr : Nat → List α) :
    ∃ out, parallelSortSub fuel 0 arr = .ok out := by
  unfold parallelSortSub findSplittingPoints
  have : fspLoop 0 0 (fun i => (pre (sizes arr) i : Int)) (fun p => fancy (arr p) (argsort (arr p))) fuel
      (fspInit (fun p => fancy (arr p) (argsort (arr p)))) =
      .ok (fspInit (fun p => fancy (arr p) (argsort (arr p)))) := by
    unfold fspLoop
    rw [if_pos (by simp)]
  simp only [this]
  rw [if_pos (by simp)]
  exact ⟨_, rfl⟩

theorem parallelSort_any {fuel P : Nat} {arr : Nat → List α}
    (hfuel : (gcat P arr).length ≤ fuel ∨ 3 ^ fuel * (gcat P arr).length < 4 ^ fuel) :
    ∃ out, parallelSort fuel P arr = .ok out ∧ ∃ O : Nat → List (α × Nat),
      (∀ p < P, out p = ((O p).map Prod.fst, (O p).map Prod.snd) ∧ (O p).length = (arr p).length) ∧
      gcat P O = sortedPairs (gcat P arr) := by
  unfold parallelSort
  simp only
  set M := psMembers P arr with hM
  have hg : gcat M.length (fun q => arr (M.getD q 0)) = gcat P arr :=
    gcat_members P arr arr (fun p _ h => List.eq_nil_of_length_eq_zero h)
  by_cases hQ : 0 < M.length
  · obtain ⟨out, ho, O, hO, hcat⟩ := parallelSortSub_ok (fuel := fuel) (Q := M.length)
      (arr := fun q => arr (M.getD q 0)) hQ (by
        intro q hq
        have : M.getD q 0 ∈ psMembers P arr := by
          rw [List.getD_eq_getElem?_getD, List.getElem?_eq_getElem hq]
          exact List.getElem_mem hq
        exact (mem_psMembers.1 this).2) (by rw [hg]; exact hfuel)
    rw [ho]
    refine ⟨_, rfl, fun p => if (arr p).length > 0 then O (M.idxOf p) else [], ?_, ?_⟩
    · intro p hp
      beta_reduce
      by_cases hl : (arr p).length > 0
      · rw [if_pos hl, if_pos hl]
        obtain ⟨h1, h2⟩ := psMembers_idxOf hp hl
        obtain ⟨h3, h4⟩ := hO _ h1
        rw [h2] at h4
        exact ⟨h3, h4⟩
      · rw [if_neg hl, if_neg hl]
        exact ⟨rfl, by simp only [List.length_nil]; omega⟩
    · rw [← hg, ← hcat, ← gcat_members P arr]
      · apply gcat_congr
        intro q hq
        have hq' : M.getD q 0 = M[q] := by
          rw [List.getD_eq_getElem?_getD, List.getElem?_eq_getElem hq]; rfl
        have hmem : M.getD q 0 ∈ psMembers P arr := by rw [hq']; exact List.getElem_mem hq
        beta_reduce
        rw [← hM, if_pos (mem_psMembers.1 hmem).2, hq', List.Nodup.idxOf_getElem (psMembers_nodup P arr)]
      · intro p _ h
        rw [if_neg (by omega)]
  · have hM0 : M.length = 0 := by omega
    rw [hM0]
    obtain ⟨out, ho⟩ := parallelSortSub_zero fuel (fun q => arr (M.getD q 0))
    rw [ho]
    have hemp : ∀ p < P, (arr p).length = 0 := by
      intro p hp
      by_contra hc
      have := (psMembers_idxOf hp (show 0 < (arr p).length by omega)).1
      rw [← hM] at this; omega
    refine ⟨_, rfl, fun _ => [], ?_, ?_⟩
    · intro p hp
      have := hemp p hp
      rw [if_neg (by omega)]
      exact ⟨rfl, by simp [this]⟩
    · rw [hM0, gcat_zero] at hg
      rw [← hg]
      simp [gcat, sortedPairs, sortBy]

theorem parallelSort_ok {fuel P : Nat} {arr : Nat → List α} (hfuel : (gcat P arr).length ≤ fuel) :
    ∃ out, parallelSort fuel P arr = .ok out ∧ ∃ O : Nat → List (α × Nat),
      (∀ p < P, out p = ((O p).map Prod.fst, (O p).map Prod.snd) ∧ (O p).length = (arr p).length) ∧
      gcat P O = sortedPairs (gcat P arr) :=
  parallelSort_any (Or.inl hfuel)

end all

end Verif
