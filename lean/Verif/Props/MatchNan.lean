import Verif.Proofs.MatchNan
import Verif.Props.Match

/-! C138: `match` and `parallel_match` of arrays with NaN -/

namespace Verif.MatchNan

set_option linter.unusedSectionVars false

open SortNan (neNan)

variable {α : Type*} [LinearOrder α] [Inhabited α] [OrderTop α]

/-- C138: with `match`, NaN have no match, and all other elements are found as without NaN. -/
theorem C138_match {arr1 arr2 : List α} {order : List Nat} (hp : order.Perm (List.range arr2.length)) (hs : (fancy arr2 order).Pairwise (· ≤ ·)) :
    (matchArr arr1 arr2 order).length = arr1.length ∧
      ∀ (i : Nat) (v : α), arr1[i]? = some v → ((v = ⊤ ∨ v ∉ arr2) ∧ (matchArr arr1 arr2 order)[i]? = some (-1)) ∨
        ∃ j : Nat, v ≠ ⊤ ∧ arr2[j]? = some v ∧ (matchArr arr1 arr2 order)[i]? = some (j : Int) := by
  unfold matchArr
  split
  · rename_i h
    refine ⟨by simp, fun i v hv => Or.inl ⟨Or.inr (by rw [List.eq_nil_of_length_eq_zero h]; simp), ?_⟩⟩
    have := (List.getElem?_eq_some_iff.1 hv).1
    simp [this]
  · rename_i h
    have hlen : order.length = arr2.length := by rw [hp.length_eq]; simp
    have hlt : ∀ i ∈ order, i < arr2.length := fun i hi => by simpa using hp.mem_iff.1 hi
    have hfl : (fancy arr2 order).length = order.length := by simp
    refine ⟨by simp, fun i v hv => ?_⟩
    rw [List.getElem?_map, hv, Option.map_some]
    by_cases hv' : v = ⊤
    · subst hv'
      exact Or.inl ⟨Or.inl rfl, by rw [matchLookup_top]⟩
    rw [matchLookup_eq _ _ hv']
    rcases Verif.matchLookup_spec (ind := order) hs (by rw [hfl]) (by intro hc; rw [hc] at hfl; simp at hfl; omega) v with ⟨h1, h2⟩ | ⟨k, j, h1, h2, h3, -⟩
    · refine Or.inl ⟨Or.inr (fun hm => h2 ?_), by rw [h1]⟩
      obtain ⟨j, hj⟩ := List.getElem?_of_mem hm
      have hjl := (List.getElem?_eq_some_iff.1 hj).1
      obtain ⟨k, hk⟩ := List.getElem?_of_mem (hp.mem_iff.2 (by simpa using hjl) : j ∈ order)
      have := getElem?_fancy (l := arr2) (order := order) hlt k
      rw [hk] at this
      simp only [Option.bind_some, hj] at this
      exact List.mem_of_getElem? this
    · refine Or.inr ⟨j, hv', ?_, by rw [h3]⟩
      have := getElem?_fancy (l := arr2) (order := order) hlt k
      rw [h2, h1] at this
      simpa using this.symm

/-- What `parallel_match` returns if NaN have no match and other elements have the first equal element -/
def FirstMatch (G : List α) (a : List α) (out : List Int) : Prop :=
  out.length = a.length ∧ ∀ (i : Nat) (v : α), a[i]? = some v → ((v = ⊤ ∨ v ∉ G) ∧ out[i]? = some (-1)) ∨
    ∃ j : Nat, v ≠ ⊤ ∧ out[i]? = some (j : Int) ∧ G[j]? = some v ∧ ∀ j' < j, G[j']? ≠ some v

theorem firstMatch_map (G a : List α) : FirstMatch G a (a.map (fun v => if v = ⊤ then -1 else firstIdx G v)) := by
  refine ⟨by simp, fun i v hv => ?_⟩
  rw [List.getElem?_map, hv, Option.map_some]
  by_cases h : v = ⊤
  · exact Or.inl ⟨Or.inl h, by rw [if_pos h]⟩
  rw [if_neg h]
  by_cases hm : v ∈ G
  · right
    refine ⟨G.idxOf v, h, by simp [firstIdx, hm], ?_, ?_⟩
    · rw [List.getElem?_eq_getElem (List.idxOf_lt_length_of_mem hm)]; simp
    · intro j' hj' hc
      have := idxOf_le hc
      omega
  · exact Or.inl ⟨Or.inr hm, by simp [firstIdx, hm]⟩

/-- After sorting, if the first task has no NaN -/
theorem after_good {P : Nat} {arr1 A : Nat → List α} {I : Nat → List Nat} {G : List α} {O : Nat → List (α × Nat)} (hO : gcat P O = sortedPairs G) (hOA : ∀ p < P, A p = (O p).map Prod.fst ∧ I p = (O p).map Prod.snd)
    (hgood : psMembers P A ≠ [] → ⊤ ∉ A ((psMembers P A).getD 0 0)) :
    ∃ out, exchange P arr1 (psMembers P A) (fun t => amin (A t)) (fun t => amax (A t)) (fun d => lookup (A d) (I d)) = .ok out ∧ ∀ p < P, FirstMatch G (arr1 p) (out p) := by
  have hA : gcat P A = (sortedPairs G).map Prod.fst := by
    rw [← hO, map_gcat]; exact gcat_congr (fun p hp => (hOA p hp).1)
  have hAsort : Sorted (gcat P A) := by rw [hA, ← fancy_argsort]; exact fancy_argsort_sorted _
  have hAmem : ∀ v, v ∈ gcat P A ↔ v ∈ G := by intro v; rw [hA, ← fancy_argsort, (fancy_argsort_perm G).mem_iff]
  rw [exchange_congr (mn := fun t => amin (A t)) (mx := fun t => amax (A t)) (mn' := fun t => Verif.amin (A t)) (mx' := fun t => Verif.amax (A t)) (fun h => amin_of_not (hgood h)) (fun _ _ => rfl)]
  obtain ⟨out, h1, h2⟩ := exchange_ok (arr1 := arr1) (look := fun d => lookup (A d) (I d)) (g := fun v => if v = ⊤ then -1 else firstIdx G v) hAsort
    (fun v hv => by
      split
      · rfl
      · unfold firstIdx
        rw [if_neg (by rw [← hAmem]; exact hv)])
    (fun d hd hl v hmax hlow _ => by
      by_cases hv : v = ⊤
      · subst hv; rw [if_pos rfl, lookup_top]
      · rw [if_neg hv, lookup_eq _ _ hv, (hOA d hd).1, (hOA d hd).2]
        refine pmLookup_eq hO hd ?_ ?_ ?_
        · have := hl
          rw [(hOA d hd).1] at this; simpa using this
        · intro u hu x hx
          apply hlow u hu
          rw [(hOA u (Nat.lt_trans hu hd)).1]
          exact List.mem_map.2 ⟨x, hx, rfl⟩
        · rw [← (hOA d hd).1]; exact hmax)
  exact ⟨out, h1, fun p hp => by rw [h2 p hp]; exact firstMatch_map G (arr1 p)⟩

theorem foldl_max_top (l : List α) (x : α) (h : ⊤ ∈ x :: l) : l.foldl max x = ⊤ := top_le_iff.1 ((foldl_max_spec l x).2 ⊤ h)

theorem amax_top {l : List α} (h : ⊤ ∈ l) : Verif.amax l = ⊤ := by
  cases l with
  | nil => simp at h
  | cons x l => exact foldl_max_top l x h

/-- After sorting, if the first task has NaN -/
theorem after_bad {P : Nat} {arr1 A : Nat → List α} {I : Nat → List Nat} (hAsort : Sorted (gcat P A)) (hne : psMembers P A ≠ []) (hbad : ⊤ ∈ A ((psMembers P A).getD 0 0)) :
    ∃ out, exchange P arr1 (psMembers P A) (fun t => amin (A t)) (fun t => amax (A t)) (fun d => lookup (A d) (I d)) = .ok out ∧ ∀ p < P, out p = List.replicate (arr1 p).length (-1) := by
  set B : Nat → List α := fun t => (A t).filter (fun x => decide (x = ⊤)) with hB
  have hmem0 : (psMembers P A).getD 0 0 ∈ psMembers P A := by
    have hl := List.length_pos_of_ne_nil hne
    rw [List.getD_eq_getElem?_getD, List.getElem?_eq_getElem hl]
    exact List.getElem_mem _
  have htop : ∀ t ∈ psMembers P A, ⊤ ∈ A t := by
    intro t ht
    obtain ⟨htP, htl⟩ := mem_psMembers.1 ht
    obtain ⟨h1, h2⟩ := psMembers_idxOf htP htl
    rcases Nat.eq_zero_or_pos ((psMembers P A).idxOf t) with h | h
    · rw [h] at h2; rw [← h2]; exact hbad
    · have h3 := member_lt h h1
      rw [h2] at h3
      obtain ⟨x, hx⟩ := List.exists_mem_of_length_pos htl
      have := (gcat_pairwise_iff.1 hAsort).2 _ t h3 htP ⊤ hbad x hx
      rw [← top_le_iff.1 this]
      exact hx
  have hBtop : ∀ t ∈ psMembers P A, ⊤ ∈ B t := fun t ht => by simp [hB, htop t ht]
  have hM : psMembers P B = psMembers P A := by
    unfold psMembers
    apply List.filter_congr
    intro t ht
    rw [decide_eq_decide]
    constructor
    · intro h
      exact lt_of_lt_of_le h (List.length_filter_le _ _)
    · intro h
      exact List.length_pos_of_mem (hBtop t (mem_psMembers.2 ⟨List.mem_range.1 ht, h⟩))
  have hall : ∀ t, ∀ x ∈ B t, x = ⊤ := fun t x hx => by simpa [hB] using (List.mem_filter.1 hx).2
  have hBsort : Sorted (gcat P B) := by
    refine List.pairwise_iff_forall_sublist.2 (fun {x y} hxy => ?_)
    obtain ⟨t, -, ht⟩ := mem_gcat.1 (hxy.subset (by simp : y ∈ [x, y]))
    rw [hall t y ht]
    exact le_top
  have hmin : Verif.amin (B ((psMembers P A).getD 0 0)) = ⊤ := hall _ _ (amin_mem (List.length_pos_of_mem (hBtop _ hmem0)))
  rw [exchange_congr (mn := fun t => amin (A t)) (mx := fun t => amax (A t)) (mn' := fun t => Verif.amin (B t)) (mx' := fun t => Verif.amax (B t))
    (fun _ => by rw [hmin]; unfold amin; rw [if_pos hbad]) (fun t ht => (amax_top (htop t ht)).trans (amax_top (hBtop t ht)).symm), ← hM]
  obtain ⟨out, h1, h2⟩ := exchange_ok (arr1 := arr1) (look := fun d => lookup (A d) (I d)) (g := fun _ => -1) hBsort (fun _ _ => rfl)
    (fun d hd hl v _ _ hv => by
      rw [hM, hmin] at hv
      rw [top_le_iff.1 hv, lookup_top])
  exact ⟨out, h1, fun p hp => by rw [h2 p hp]; exact List.map_const' ..⟩

/-- What `parallel_sort` is used for: if NaN fit on the last task with data. -/
theorem ordered_few {P fuel : Nat} {arr2 : Nat → List α} (hfuel : (gcat P arr2).length ≤ fuel) {L : Nat} (hL : L < P) (h0 : arr2 L ≠ []) (hlast : ∀ q, L < q → q < P → arr2 q = [])
    (h : (gcat P arr2).count ⊤ ≤ (arr2 L).length) :
    ∃ A I, ordered fuel P arr2 false = .ok (A, I) ∧ (∀ p < P, (A p).length = (arr2 p).length) ∧ ∃ O : Nat → List (α × Nat),
      gcat P O = sortedPairs (gcat P arr2) ∧ ∀ p < P, A p = (O p).map Prod.fst ∧ I p = (O p).map Prod.snd := by
  obtain ⟨A, I, h1, O, h2, h3⟩ := pmOrdered_ok (P := P) (arr2 := arr2) (fuel := fuel) (arr2_sorted := false) (Or.inl hfuel) (by simp)
  have he : ordered fuel P arr2 false = pmOrdered fuel P arr2 false := by
    unfold ordered pmOrdered
    rw [sort_few hfuel hL h0 hlast h]
    rfl
  refine ⟨A, I, he.trans h1, ?_, O, h2, h3⟩
  obtain ⟨res, e1, e2, -, -⟩ := C01_parallel_sort P fuel arr2 hfuel
  unfold pmOrdered at h1
  simp only [Bool.false_eq_true, if_false, e1] at h1
  split at h1
  · cases h1
  · injection h1 with h1
    injection h1 with h1 _
    subst h1
    exact e2

section
variable (P fuel : Nat) (arr1 arr2 : Nat → List α) (hfuel : (gcat P arr2).length ≤ fuel) {L : Nat} (hL : L < P) (h0 : arr2 L ≠ []) (hlast : ∀ q, L < q → q < P → arr2 q = [])
include hfuel hL h0 hlast

/-- C138: `parallel_match` finds the first equal element for numbers which are not NaN, and nothing for NaN, if `arr2` has no NaN, or if its NaN fit on the last task which has data and this is not the only
one. -/
theorem C138_parallel_match (h : (gcat P arr2).count ⊤ ≤ (arr2 L).length) (hgood : ⊤ ∉ gcat P arr2 ∨ ∃ q < L, arr2 q ≠ []) :
    ∃ out, parallelMatch fuel P arr1 arr2 false = .ok out ∧ ∀ p < P, FirstMatch (gcat P arr2) (arr1 p) (out p) := by
  unfold parallelMatch
  by_cases h1 : pre (sizes arr1) P = 0
  · rw [if_pos h1]
    refine ⟨_, rfl, fun p hp => ?_⟩
    have := pre_eq_zero h1 hp
    rw [List.eq_nil_of_length_eq_zero this]
    exact ⟨rfl, fun i v hv => by simp at hv⟩
  rw [if_neg h1]
  have h2 : ¬ pre (sizes arr2) P = 0 := by
    intro hc
    exact h0 (List.eq_nil_of_length_eq_zero (pre_eq_zero hc hL))
  rw [if_neg h2]
  obtain ⟨A, I, e1, e2, O, e3, e4⟩ := ordered_few hfuel hL h0 hlast h
  rw [e1]
  simp only
  refine after_good e3 e4 (fun hne hc => ?_)
  have hA : gcat P A = (sortedPairs (gcat P arr2)).map Prod.fst := by
    rw [← e3, map_gcat]; exact gcat_congr (fun p hp => (e4 p hp).1)
  have hAp : (gcat P A).Perm (gcat P arr2) := by rw [hA, ← fancy_argsort]; exact fancy_argsort_perm _
  have hAsort : Sorted (gcat P A) := by rw [hA, ← fancy_argsort]; exact fancy_argsort_sorted _
  have hF := member_getD (P := P) (A := A) (k := 0) (List.length_pos_of_ne_nil hne)
  rcases hgood with hg | ⟨q, hq, hq0⟩
  · exact hg (hAp.mem_iff.1 (mem_gcat.2 ⟨_, hF.1, hc⟩))
  · -- the first task is before the last one
    have hqm : q ∈ psMembers P A := mem_psMembers.2 ⟨by omega, by rw [e2 q (by omega)]; exact List.length_pos_iff.2 hq0⟩
    have hFq : (psMembers P A).getD 0 0 ≤ q := by
      obtain ⟨g1, g2⟩ := psMembers_idxOf (mem_psMembers.1 hqm).1 (mem_psMembers.1 hqm).2
      rcases Nat.eq_zero_or_pos ((psMembers P A).idxOf q) with h5 | h5
      · rw [h5] at g2; omega
      · have := member_lt h5 g1; omega
    set F := (psMembers P A).getD 0 0
    have hLall : ∀ x ∈ A L, x = ⊤ := fun x hx => top_le_iff.1 ((gcat_pairwise_iff.1 hAsort).2 F L (by omega) hL ⊤ hc x hx)
    have hcL : (A L).count ⊤ = (A L).length := List.count_eq_length.2 (fun x hx => (hLall x hx).symm)
    have hcF : 0 < (A F).count ⊤ := List.count_pos_iff.2 hc
    rw [← hAp.count_eq, SortNan.gcat_count] at h
    have h6 := pre_mono (fun p => (A p).count ⊤) (show L + 1 ≤ P by omega)
    have h7 := pre_mono (fun p => (A p).count ⊤) (show F + 1 ≤ L by omega)
    rw [pre_succ] at h6 h7
    have := e2 L hL
    omega

/-- C138: if the only task with elements of `arr2` has a NaN, then nothing is found, whatever else it has. -/
theorem C138_one_task_defect (hone : ∀ q < L, arr2 q = []) (hnan : ⊤ ∈ arr2 L) :
    ∃ out, parallelMatch fuel P arr1 arr2 false = .ok out ∧ ∀ p < P, out p = List.replicate (arr1 p).length (-1) := by
  unfold parallelMatch
  by_cases h1 : pre (sizes arr1) P = 0
  · rw [if_pos h1]
    refine ⟨_, rfl, fun p hp => ?_⟩
    have : (arr1 p).length = 0 := pre_eq_zero h1 hp
    rw [this]; rfl
  rw [if_neg h1]
  have h2 : ¬ pre (sizes arr2) P = 0 := by
    intro hc
    exact h0 (List.eq_nil_of_length_eq_zero (pre_eq_zero hc hL))
  rw [if_neg h2]
  have hcat : gcat P arr2 = arr2 L := by
    have hM := SortNan.members_last hL h0 hlast
    have hz : psMembers L arr2 = [] := by
      unfold psMembers
      rw [List.filter_eq_nil_iff]
      intro q hq
      rw [hone q (List.mem_range.1 hq)]
      simp
    rw [hz] at hM
    have := gcat_members P arr2 arr2 (fun p _ h => List.eq_nil_of_length_eq_zero h)
    rw [hM] at this
    rw [← this]
    simp [gcat]
  obtain ⟨A, I, e1, e2, O, e3, e4⟩ := ordered_few hfuel hL h0 hlast (by rw [hcat]; exact List.count_le_length)
  rw [e1]
  simp only
  have hA : gcat P A = (sortedPairs (gcat P arr2)).map Prod.fst := by
    rw [← e3, map_gcat]; exact gcat_congr (fun p hp => (e4 p hp).1)
  have hAp : (gcat P A).Perm (gcat P arr2) := by rw [hA, ← fancy_argsort]; exact fancy_argsort_perm _
  have hAsort : Sorted (gcat P A) := by rw [hA, ← fancy_argsort]; exact fancy_argsort_sorted _
  have hmL : L ∈ psMembers P A := mem_psMembers.2 ⟨hL, by rw [e2 L hL]; exact List.length_pos_iff.2 h0⟩
  have honly : ∀ t ∈ psMembers P A, t = L := by
    intro t ht
    obtain ⟨g1, g2⟩ := mem_psMembers.1 ht
    rw [e2 t g1] at g2
    rcases Nat.lt_trichotomy t L with h | h | h
    · rw [hone t h] at g2; simp at g2
    · exact h
    · rw [hlast t h g1] at g2; simp at g2
  have hne : psMembers P A ≠ [] := List.ne_nil_of_mem hmL
  refine after_bad hAsort hne ?_
  have hF := member_getD (P := P) (A := A) (k := 0) (List.length_pos_of_ne_nil hne)
  rw [honly _ (mem_psMembers.2 hF)]
  have hm : (⊤ : α) ∈ gcat P A := hAp.mem_iff.2 (by rw [hcat]; exact hnan)
  obtain ⟨t, ht, htm⟩ := mem_gcat.1 hm
  rwa [honly t (mem_psMembers.2 ⟨ht, List.length_pos_of_mem htm⟩)] at htm

/-- C138: if the NaN of `arr2` don't fit on the last task with data, the program stops with an error, unless there is nothing to look for. -/
theorem C138_many (h : (arr2 L).length < (gcat P arr2).count ⊤) {p : Nat} (hp : p < P) (hp1 : arr1 p ≠ []) : parallelMatch fuel P arr1 arr2 false = .error .valueError := by
  unfold parallelMatch
  rw [if_neg (fun hc => hp1 (List.eq_nil_of_length_eq_zero (pre_eq_zero hc hp))), if_neg (fun hc => h0 (List.eq_nil_of_length_eq_zero (pre_eq_zero hc hL)))]
  unfold ordered
  simp only [Bool.false_eq_true, if_false]
  rw [(SortNan.C135_nan P fuel arr2 hfuel hL h0 hlast).2 h]

end

/-- C138: if `arr2` has no elements on any task, the result is -1 for all elements. -/
theorem C138_empty (P fuel : Nat) (arr1 arr2 : Nat → List α) (arr2_sorted : Bool) (h : ∀ q < P, arr2 q = []) :
    ∃ out, parallelMatch fuel P arr1 arr2 arr2_sorted = .ok out ∧ ∀ p < P, out p = List.replicate (arr1 p).length (-1) := by
  unfold parallelMatch
  by_cases h1 : pre (sizes arr1) P = 0
  · rw [if_pos h1]
    refine ⟨_, rfl, fun p hp => ?_⟩
    have : (arr1 p).length = 0 := pre_eq_zero h1 hp
    rw [this]; rfl
  · rw [if_neg h1]
    have h2 : ∀ n ≤ P, pre (sizes arr2) n = 0 := by
      intro n
      induction n with
      | zero => intro _; rfl
      | succ n ih =>
        intro hn
        have : sizes arr2 n = 0 := by simp [sizes, h n (by omega)]
        rw [pre_succ, ih (by omega), this]
    rw [if_pos (h2 P le_rfl)]
    exact ⟨_, rfl, fun p _ => rfl⟩

/-- C138: with `arr2_sorted=True` there is no error. All is found as it should if the first task with elements of `arr2` has no NaN, and nothing is found otherwise. -/
theorem C138_sorted (P fuel : Nat) (arr1 arr2 : Nat → List α) (hs : (gcat P arr2).Pairwise (· ≤ ·)) {F : Nat} (hF : F < P) (h0 : arr2 F ≠ []) (hfirst : ∀ q < F, arr2 q = []) :
    ∃ out, parallelMatch fuel P arr1 arr2 true = .ok out ∧ (⊤ ∉ arr2 F → ∀ p < P, FirstMatch (gcat P arr2) (arr1 p) (out p)) ∧
      (⊤ ∈ arr2 F → ∀ p < P, out p = List.replicate (arr1 p).length (-1)) := by
  unfold parallelMatch
  by_cases h1 : pre (sizes arr1) P = 0
  · rw [if_pos h1]
    refine ⟨_, rfl, fun _ p hp => ?_, fun _ p hp => ?_⟩
    · have := pre_eq_zero h1 hp
      rw [List.eq_nil_of_length_eq_zero this]
      exact ⟨rfl, fun i v hv => by simp at hv⟩
    · have : (arr1 p).length = 0 := pre_eq_zero h1 hp
      rw [this]; rfl
  rw [if_neg h1]
  have h2 : ¬ pre (sizes arr2) P = 0 := by
    intro hc
    exact h0 (List.eq_nil_of_length_eq_zero (pre_eq_zero hc hF))
  rw [if_neg h2]
  obtain ⟨A, I, e1, O, e3, e4⟩ := pmOrdered_ok (P := P) (arr2 := arr2) (fuel := (gcat P arr2).length) (arr2_sorted := true) (Or.inl le_rfl) (fun _ => hs)
  have he : ordered fuel P arr2 true = pmOrdered (gcat P arr2).length P arr2 true := by
    unfold ordered pmOrdered
    rw [if_pos rfl, if_pos rfl]
  have hA : A = arr2 := by
    unfold pmOrdered at e1
    simp only [if_true] at e1
    injection e1 with e1
    injection e1 with e1 _
    exact e1.symm
  subst hA
  rw [he, e1]
  simp only
  have hmF : F ∈ psMembers P A := mem_psMembers.2 ⟨hF, List.length_pos_iff.2 h0⟩
  have hne : psMembers P A ≠ [] := List.ne_nil_of_mem hmF
  have hF0 : (psMembers P A).getD 0 0 = F := by
    have hm := member_getD (P := P) (A := A) (k := 0) (List.length_pos_of_ne_nil hne)
    obtain ⟨g1, g2⟩ := psMembers_idxOf hF (List.length_pos_iff.2 h0)
    rcases Nat.eq_zero_or_pos ((psMembers P A).idxOf F) with h5 | h5
    · rw [h5] at g2; exact g2
    · have := member_lt h5 g1
      rw [g2] at this
      have h6 := hm.2
      rw [hfirst _ this] at h6
      simp at h6
  by_cases hn : ⊤ ∈ A F
  · obtain ⟨out, g1, g2⟩ := after_bad (arr1 := arr1) (I := I) hs hne (by rw [hF0]; exact hn)
    exact ⟨out, g1, fun h => absurd hn h, fun _ => g2⟩
  · obtain ⟨out, g1, g2⟩ := after_good (arr1 := arr1) e3 e4 (fun _ => by rw [hF0]; exact hn)
    exact ⟨out, g1, fun _ => g2, fun h => absurd h hn⟩

namespace ExMatchNan

def find : Nat → List (WithTop Nat)
  | 0 => [2, ⊤]
  | _ => [9, 0]

def data : Nat → List (WithTop Nat)
  | 0 => [0, 3]
  | _ => [⊤, 2]

/-- The same data on one task of two -/
def one : Nat → List (WithTop Nat)
  | 0 => []
  | _ => [0, 3, ⊤, 2]

def many : Nat → List (WithTop Nat)
  | 0 => [⊤, ⊤, ⊤]
  | _ => [0]

example : matchArr [2, ⊤, 9, 0] [0, 3, ⊤, (2 : WithTop Nat)] [0, 3, 1, 2] = [3, -1, -1, 0] := by decide +kernel

example : (match parallelMatch 4 2 find data false with | .ok out => (List.range 2).map out | .error _ => []) = [[3, -1], [-1, 0]] := by decide +kernel

example : ∃ out, parallelMatch 4 2 find data false = .ok out ∧ FirstMatch (gcat 2 data) (find 0) (out 0) := by
  obtain ⟨out, h1, h2⟩ := C138_parallel_match 2 4 find data (by decide) (L := 1) (by decide) (by decide) (by omega) (by decide) (Or.inr ⟨0, by decide, by decide⟩)
  exact ⟨out, h1, h2 0 (by decide)⟩

/-- 0 and 2 are not found. -/
example : (match parallelMatch 4 2 find one false with | .ok out => (List.range 2).map out | .error _ => []) = [[-1, -1], [-1, -1]] := by decide +kernel

example : ∃ out, parallelMatch 4 2 find one false = .ok out ∧ out 1 = [-1, -1] := by
  obtain ⟨out, h1, h2⟩ := C138_one_task_defect 2 4 find one (by decide) (L := 1) (by decide) (by decide) (by omega) (by decide) (by decide)
  exact ⟨out, h1, h2 1 (by decide)⟩

example : parallelMatch 4 2 find many false = .error .valueError :=
  C138_many 2 4 find many (by decide) (L := 1) (by decide) (by decide) (by omega) (by decide) (p := 0) (by decide) (by decide)

example : ∃ out, parallelMatch 4 2 find (fun _ => []) false = .ok out ∧ out 0 = [-1, -1] := by
  obtain ⟨out, h1, h2⟩ := C138_empty 2 4 find (fun _ => []) false (by simp)
  exact ⟨out, h1, h2 0 (by decide)⟩

def sorted : Nat → List (WithTop Nat)
  | 0 => [0, 3]
  | _ => [⊤, ⊤]

example : ∃ out, parallelMatch 4 2 find sorted true = .ok out ∧ FirstMatch (gcat 2 sorted) (find 0) (out 0) := by
  obtain ⟨out, h1, h2, -⟩ := C138_sorted 2 4 find sorted (by decide) (F := 0) (by decide) (by decide) (by omega)
  exact ⟨out, h1, h2 (by decide) 0 (by decide)⟩

end ExMatchNan

end Verif.MatchNan
