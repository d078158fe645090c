import Verif.Model.ParallelMatch
import Verif.Proofs.ParallelSort
import Verif.Proofs.FetchElements
import Verif.Lib.Overlay

namespace Verif

set_option linter.unusedSectionVars false

variable {α : Type*}

theorem gcat_pairwise_iff {β : Type*} {R : β → β → Prop} {P : Nat} {a : Nat → List β} :
    (gcat P a).Pairwise R ↔ (∀ p < P, (a p).Pairwise R) ∧
      ∀ p q, p < q → q < P → ∀ x ∈ a p, ∀ y ∈ a q, R x y := by
  refine ⟨fun h => ?_, fun h => gcat_pairwise h.1 h.2⟩
  induction P with
  | zero => exact ⟨fun p hp => by omega, fun p q _ hq => by omega⟩
  | succ P ih =>
    rw [gcat_succ, List.pairwise_append] at h
    obtain ⟨h1, h2⟩ := ih h.1
    refine ⟨fun p hp => ?_, fun p q hpq hq x hx y hy => ?_⟩
    · by_cases hpP : p = P
      · subst hpP; exact h.2.1
      · exact h1 p (by omega)
    · by_cases hqP : q = P
      · subst hqP; exact h.2.2 x (mem_gcat.2 ⟨p, hpq, hx⟩) y hy
      · exact h2 p q hpq (by omega) x hx y hy

theorem foldl_min_spec [LinearOrder α] (l : List α) (x : α) :
    l.foldl min x ∈ x :: l ∧ ∀ y ∈ x :: l, l.foldl min x ≤ y := by
  induction l generalizing x with
  | nil => simp
  | cons z l ih =>
    obtain ⟨h1, h2⟩ := ih (min x z)
    rw [List.foldl_cons]
    constructor
    · rcases List.mem_cons.1 h1 with h | h
      · rw [h]; rcases min_choice x z with h' | h' <;> rw [h'] <;> simp
      · simp [h]
    · intro y hy
      simp only [List.mem_cons] at hy
      have h3 := h2 (min x z) (by simp)
      rcases hy with rfl | rfl | hy
      · exact le_trans h3 (min_le_left _ _)
      · exact le_trans h3 (min_le_right _ _)
      · exact h2 y (by simp [hy])

theorem foldl_max_spec [LinearOrder α] (l : List α) (x : α) :
    l.foldl max x ∈ x :: l ∧ ∀ y ∈ x :: l, y ≤ l.foldl max x := by
  induction l generalizing x with
  | nil => simp
  | cons z l ih =>
    obtain ⟨h1, h2⟩ := ih (max x z)
    rw [List.foldl_cons]
    constructor
    · rcases List.mem_cons.1 h1 with h | h
      · rw [h]; rcases max_choice x z with h' | h' <;> rw [h'] <;> simp
      · simp [h]
    · intro y hy
      simp only [List.mem_cons] at hy
      have h3 := h2 (max x z) (by simp)
      rcases hy with rfl | rfl | hy
      · exact le_trans (le_max_left _ _) h3
      · exact le_trans (le_max_right _ _) h3
      · exact h2 y (by simp [hy])

section
variable [LinearOrder α] [Inhabited α]

theorem amin_mem {l : List α} (h : 0 < l.length) : amin l ∈ l := by
  cases l with
  | nil => simp at h
  | cons x l => exact (foldl_min_spec l x).1

theorem amin_le {l : List α} {y : α} (h : y ∈ l) : amin l ≤ y := by
  cases l with
  | nil => simp at h
  | cons x l => exact (foldl_min_spec l x).2 y h

theorem amax_mem {l : List α} (h : 0 < l.length) : amax l ∈ l := by
  cases l with
  | nil => simp at h
  | cons x l => exact (foldl_max_spec l x).1

theorem le_amax {l : List α} {y : α} (h : y ∈ l) : y ≤ amax l := by
  cases l with
  | nil => simp at h
  | cons x l => exact (foldl_max_spec l x).2 y h

theorem idxOf_le {G : List α} {v : α} {j : Nat} (h : G[j]? = some v) : G.idxOf v ≤ j := by
  induction G generalizing j with
  | nil => simp at h
  | cons x G ih =>
    rw [List.idxOf_cons]
    by_cases hx : x = v
    · simp [hx]
    · cases j with
      | zero => simp at h; exact (hx h).elim
      | succ j =>
        simp at h
        have := ih h
        have hb : (x == v) = false := by simpa using hx
        rw [hb]; simp only [cond_false]; omega

theorem idxOf_eq {G : List α} {v : α} {j : Nat} (h : G[j]? = some v)
    (hmin : ∀ j', G[j']? = some v → j ≤ j') : G.idxOf v = j := by
  have hm : v ∈ G := List.mem_of_getElem? h
  have hlt := List.idxOf_lt_length_of_mem hm
  have h1 : G[G.idxOf v]? = some v := by rw [List.getElem?_eq_getElem hlt]; simp
  have := hmin _ h1
  have := idxOf_le h
  omega

/-- The answer for one value. -/
def firstIdx (G : List α) (v : α) : Int := if v ∈ G then (G.idxOf v : Int) else -1

variable {P : Nat} {O : Nat → List (α × Nat)} {G : List α}

/-- The look up of a value `v` on task `t`, when all lower tasks have only smaller values and `v` is not above the
largest value here. -/
theorem pmLookup_eq (hO : gcat P O = sortedPairs G) {t : Nat} (ht : t < P) {v : α}
    (hne : 0 < (O t).length) (hlow : ∀ u < t, ∀ x ∈ O u, x.1 < v) (hmax : v ≤ amax ((O t).map Prod.fst)) :
    pmLookup ((O t).map Prod.fst) ((O t).map Prod.snd) v = firstIdx G v := by
  have hlex := sortedPairs_lex G
  rw [← hO, gcat_pairwise_iff] at hlex
  obtain ⟨hin, hcross⟩ := hlex
  have hsort : Sorted ((O t).map Prod.fst) :=
    List.Pairwise.map _ (fun _ _ h => LexLt.le h) (hin t ht)
  have hmem : ∀ x j, G[j]? = some x ↔ ∃ u < P, (x, j) ∈ O u := by
    intro x j
    rw [← mem_sortedPairs, ← hO, mem_gcat]
  have hpos : ssLeft ((O t).map Prod.fst) v < ((O t).map Prod.fst).length := by
    by_contra hc
    obtain ⟨k, hk⟩ := List.mem_iff_getElem?.1 (amax_mem (l := (O t).map Prod.fst) (by simpa using hne))
    have h1 := (lt_iff_lt_ssLeft hsort (v := v) hk).2 (by
      have := (List.getElem?_eq_some_iff.1 hk).1; omega)
    exact lt_irrefl _ (lt_of_lt_of_le h1 hmax)
  have hpos' : ssLeft ((O t).map Prod.fst) v < (O t).length := by simpa using hpos
  unfold pmLookup
  simp only
  rw [show (if ssLeft ((O t).map Prod.fst) v ≥ ((O t).map Prod.fst).length then 0
    else ssLeft ((O t).map Prod.fst) v) = ssLeft ((O t).map Prod.fst) v from if_neg (by omega)]
  generalize hp : ssLeft ((O t).map Prod.fst) v = p at *
  have hget : (O t)[p]? = some (O t)[p] := List.getElem?_eq_getElem hpos'
  have hget1 : ((O t).map Prod.fst)[p]? = some (O t)[p].1 := by rw [List.getElem?_map, hget]; rfl
  have hd : ((O t).map Prod.fst).getD p default = (O t)[p].1 := by
    rw [List.getD_eq_getElem?_getD, hget1]; rfl
  rw [hd]
  by_cases hv : (O t)[p].1 = v
  · rw [if_neg (by simpa using hv)]
    have hd2 : ((O t).map Prod.snd).getD p 0 = (O t)[p].2 := by
      rw [List.getD_eq_getElem?_getD, List.getElem?_map, hget]; rfl
    rw [hd2]
    have hj : G[(O t)[p].2]? = some v := by
      rw [hmem]
      refine ⟨t, ht, ?_⟩
      rw [← hv]
      exact List.getElem_mem hpos'
    unfold firstIdx
    rw [if_pos (List.mem_of_getElem? hj), idxOf_eq hj]
    intro j' hj'
    obtain ⟨u, hu, hmu⟩ := (hmem v j').1 hj'
    rcases Nat.lt_trichotomy u t with h | h | h
    · exact (lt_irrefl _ (hlow u h _ hmu)).elim
    · subst h
      obtain ⟨q, hq⟩ := List.mem_iff_getElem?.1 hmu
      have hq1 : ((O u).map Prod.fst)[q]? = some v := by rw [List.getElem?_map, hq]; rfl
      have hge := (lt_iff_lt_ssLeft hsort (v := v) hq1).not.1 (lt_irrefl _)
      rw [hp] at hge
      obtain ⟨hq', hqe⟩ := List.getElem?_eq_some_iff.1 hq
      rcases Nat.eq_or_lt_of_le (Nat.not_lt.1 hge) with h | h
      · subst h; rw [hqe]
      · have := List.pairwise_iff_getElem.1 (hin u ht) p q hpos' hq' h
        rw [hqe] at this
        rcases this with h | ⟨_, h⟩
        · rw [hv] at h; exact (lt_irrefl _ h).elim
        · exact Nat.le_of_lt h
    · have := hcross t u h hu _ (List.getElem_mem hpos') _ hmu
      rcases this with h | ⟨_, h⟩
      · rw [hv] at h; exact (lt_irrefl _ h).elim
      · exact Nat.le_of_lt h
  · rw [if_pos hv]
    unfold firstIdx
    rw [if_neg]
    intro hm
    obtain ⟨j, hj⟩ := List.mem_iff_getElem?.1 hm
    have hnot : v ∉ (O t).map Prod.fst := by
      intro hmt
      obtain ⟨q, hq⟩ := List.mem_iff_getElem?.1 hmt
      have hge := (lt_iff_lt_ssLeft hsort (v := v) hq).not.1 (lt_irrefl _)
      rw [hp] at hge
      obtain ⟨hq', hqe⟩ := List.getElem?_eq_some_iff.1 hq
      have h1 : (O t)[p].1 ≤ v := by
        rcases Nat.eq_or_lt_of_le (Nat.not_lt.1 hge) with h | h
        · subst h; rw [hget1] at hq; injection hq with hq; exact le_of_eq hq
        · have := List.pairwise_iff_getElem.1 hsort p q hpos hq' h
          rw [hqe] at this; simpa using this
      have h2 := (lt_iff_lt_ssLeft hsort (v := v) hget1).not.2 (by omega)
      exact hv (le_antisymm h1 (not_lt.1 h2))
    obtain ⟨u, hu, hmu⟩ := (hmem v j).1 hj
    rcases Nat.lt_trichotomy u t with h | h | h
    · exact lt_irrefl _ (hlow u h _ hmu)
    · subst h; exact hnot (List.mem_map.2 ⟨_, hmu, rfl⟩)
    · have hx := amax_mem (l := (O t).map Prod.fst) (by simpa using hne)
      obtain ⟨e, he, hee⟩ := List.mem_map.1 hx
      have := (hcross t u h hu e he _ hmu).le
      rw [hee] at this
      exact hnot (le_antisymm hmax this ▸ hx)

/-! ### Windows of the local, sorted `arr1` sent to each task -/

section windows
variable {A : Nat → List α} {ls : List α}

theorem psMembers_pairwise (P : Nat) (A : Nat → List α) : (psMembers P A).Pairwise (· < ·) :=
  List.pairwise_lt_range.filter _

theorem member_getD {k : Nat} (hk : k < (psMembers P A).length) :
    (psMembers P A).getD k 0 < P ∧ 0 < (A ((psMembers P A).getD k 0)).length := by
  have : (psMembers P A).getD k 0 ∈ psMembers P A := by
    rw [List.getD_eq_getElem?_getD, List.getElem?_eq_getElem hk]; exact List.getElem_mem hk
  exact mem_psMembers.1 this

theorem member_lt {k k' : Nat} (h : k < k') (hk : k' < (psMembers P A).length) :
    (psMembers P A).getD k 0 < (psMembers P A).getD k' 0 := by
  have hk0 : k < (psMembers P A).length := by omega
  have := List.pairwise_iff_getElem.1 (psMembers_pairwise P A) k k' hk0 hk h
  simpa [List.getD_eq_getElem?_getD, List.getElem?_eq_getElem hk, List.getElem?_eq_getElem hk0] using this

theorem member_idxOf {k : Nat} (hk : k < (psMembers P A).length) :
    (psMembers P A).idxOf ((psMembers P A).getD k 0) = k := by
  rw [List.getD_eq_getElem?_getD, List.getElem?_eq_getElem hk]
  exact List.Nodup.idxOf_getElem (psMembers_nodup P A) _ _

/-- `displ` of the `k`-th task with data. -/
abbrev pmD (P : Nat) (A : Nat → List α) (ls : List α) (k : Nat) : Nat :=
  pmDispl (psMembers P A) (fun t => amin (A t)) (fun t => amax (A t)) ls k

abbrev pmC (P : Nat) (A : Nat → List α) (ls : List α) (k : Nat) : Nat :=
  pmCount (psMembers P A) (fun t => amin (A t)) (fun t => amax (A t)) ls k

theorem pmD_succ (k : Nat) : pmD P A ls (k + 1) = ssRight ls (amax (A ((psMembers P A).getD k 0))) := by
  unfold pmD pmDispl
  rw [if_neg (by omega)]; rfl

theorem pmD_mono (hA : Sorted (gcat P A)) (hls : Sorted ls) {k : Nat} (hk : k < (psMembers P A).length) :
    pmD P A ls k ≤ pmD P A ls (k + 1) := by
  rw [pmD_succ]
  have hm := member_getD hk
  cases k with
  | zero =>
    unfold pmD pmDispl
    rw [if_pos rfl]
    refine Nat.le_trans (ssLeft_le_ssRight hls _) (ssRight_mono hls ?_)
    exact amin_le (amax_mem hm.2)
  | succ k =>
    rw [pmD_succ]
    apply ssRight_mono hls
    have hm0 := member_getD (P := P) (A := A) (k := k) (by omega)
    exact (gcat_pairwise_iff.1 hA).2 _ _ (member_lt (by omega) hk) hm.1 _ (amax_mem hm0.2) _ (amax_mem hm.2)

theorem pmC_eq (k : Nat) : pmC P A ls k = pmD P A ls (k + 1) - pmD P A ls k := by
  rw [pmD_succ]; unfold pmC pmCount pmD; simp only; omega

theorem pmC_pre (hA : Sorted (gcat P A)) (hls : Sorted ls) :
    ∀ k, k ≤ (psMembers P A).length → pmD P A ls 0 + pre (pmC P A ls) k = pmD P A ls k := by
  intro k
  induction k with
  | zero => intro _; simp
  | succ k ih =>
    intro hk
    have := ih (by omega)
    have := pmD_mono hA hls (k := k) (by omega)
    rw [pre_succ, pmC_eq]; omega

theorem pmD_le (hls : Sorted ls) (k : Nat) : pmD P A ls k ≤ ls.length := by
  unfold pmD pmDispl
  split
  · exact ssLeft_le_length hls _
  · exact ssRight_le_length hls _

/-- A local value is either in exactly one window, on a task where it is to be found, or not present in `A` at all. -/
theorem pm_window (hA : Sorted (gcat P A)) (hls : Sorted ls) {i : Nat} {v : α} (hv : ls[i]? = some v) :
    (v ∉ gcat P A ∧ ∀ k < (psMembers P A).length, ¬ (pmD P A ls k ≤ i ∧ i < pmD P A ls (k + 1))) ∨
    ∃ k, k < (psMembers P A).length ∧ (pmD P A ls k ≤ i ∧ i < pmD P A ls (k + 1)) ∧
      (∀ k' < (psMembers P A).length, k' ≠ k → ¬ (pmD P A ls k' ≤ i ∧ i < pmD P A ls (k' + 1))) ∧
      v ≤ amax (A ((psMembers P A).getD k 0)) ∧
      ∀ u < (psMembers P A).getD k 0, ∀ x ∈ A u, x < v := by
  have hpre := pmC_pre hA hls
  have hwin : ∀ k < (psMembers P A).length, (pmD P A ls k ≤ i ∧ i < pmD P A ls (k + 1)) ↔
      (pmD P A ls 0 ≤ i ∧ pre (pmC P A ls) k ≤ i - pmD P A ls 0 ∧
        i - pmD P A ls 0 < pre (pmC P A ls) k + pmC P A ls k) := by
    intro k hk
    have h1 := hpre k (by omega)
    have h2 := hpre (k + 1) (by omega)
    rw [pre_succ] at h2
    omega
  have hcross := gcat_pairwise_iff.1 hA
  by_cases hin : pmD P A ls 0 ≤ i ∧ i < pmD P A ls (psMembers P A).length
  · right
    have hM := hpre (psMembers P A).length (Nat.le_refl _)
    obtain ⟨k, hk, hk1, hk2⟩ := exists_block (f := pmC P A ls) (P := (psMembers P A).length) (i := i - pmD P A ls 0) (by omega)
    refine ⟨k, hk, (hwin k hk).2 ⟨hin.1, hk1, hk2⟩, ?_, ?_, ?_⟩
    · intro k' hk' hne hc
      obtain ⟨_, h1, h2⟩ := (hwin k' hk').1 hc
      exact hne (block_unique h1 h2 hk1 hk2)
    · have := ((hwin k hk).2 ⟨hin.1, hk1, hk2⟩).2
      rw [pmD_succ] at this
      exact (le_iff_lt_ssRight hls hv).2 this
    · intro u hu x hx
      have hux : 0 < (A u).length := List.length_pos_of_mem hx
      have hmk := member_getD (P := P) (A := A) (k := k) hk
      have huP : u < P := Nat.lt_trans hu hmk.1
      obtain ⟨hu1, hu2⟩ := psMembers_idxOf huP hux
      cases k with
      | zero =>
        rcases Nat.eq_zero_or_pos ((psMembers P A).idxOf u) with h | h
        · rw [h] at hu2; omega
        · have := member_lt h hu1; omega
      | succ k =>
        have hlt : (psMembers P A).idxOf u < k + 1 := by
          by_contra hc
          rcases Nat.eq_or_lt_of_le (Nat.not_lt.1 hc) with h | h
          · rw [← h] at hu2; omega
          · have := member_lt h hu1; omega
        have hge := ((hwin (k + 1) hk).2 ⟨hin.1, hk1, hk2⟩).1
        rw [pmD_succ] at hge
        have hvk : ¬ v ≤ amax (A ((psMembers P A).getD k 0)) := by
          rw [le_iff_lt_ssRight hls hv]
          omega
        have hle : x ≤ amax (A ((psMembers P A).getD k 0)) := by
          rcases Nat.eq_or_lt_of_le (Nat.le_of_lt_succ hlt) with h | h
          · rw [h] at hu2; rw [hu2]; exact le_amax hx
          · have h1 := member_lt h (show k < (psMembers P A).length by omega)
            rw [hu2] at h1
            have h2 := member_getD (P := P) (A := A) (k := k) (by omega)
            exact hcross.2 u _ h1 h2.1 x hx _ (amax_mem h2.2)
        exact lt_of_le_of_lt hle (not_le.1 hvk)
  · left
    constructor
    · intro hm
      obtain ⟨u, hu, hmu⟩ := mem_gcat.1 hm
      have hux : 0 < (A u).length := List.length_pos_of_mem hmu
      obtain ⟨hu1, hu2⟩ := psMembers_idxOf hu hux
      apply hin
      constructor
      · unfold pmD pmDispl
        rw [if_pos rfl]
        by_contra hc
        have h1 := (lt_iff_lt_ssLeft hls hv).2 (Nat.not_le.1 hc)
        have h0 := member_getD (P := P) (A := A) (k := 0) (by omega)
        have h2 : amin (A ((psMembers P A).getD 0 0)) ≤ v := by
          rcases Nat.eq_zero_or_pos ((psMembers P A).idxOf u) with h | h
          · rw [h] at hu2; rw [hu2]; exact amin_le hmu
          · have h3 := member_lt h hu1
            rw [hu2] at h3
            exact hcross.2 _ u h3 hu _ (amin_mem h0.2) v hmu
        exact lt_irrefl _ (lt_of_lt_of_le h1 h2)
      · have hMl : (psMembers P A).length = ((psMembers P A).length - 1) + 1 := by omega
        rw [hMl, pmD_succ, ← le_iff_lt_ssRight hls hv]
        have h0 := member_getD (P := P) (A := A) (k := (psMembers P A).length - 1) (by omega)
        rcases Nat.eq_or_lt_of_le (show (psMembers P A).idxOf u ≤ (psMembers P A).length - 1 by omega) with h | h
        · rw [h] at hu2; rw [hu2]; exact le_amax hmu
        · have h3 := member_lt h (show (psMembers P A).length - 1 < (psMembers P A).length by omega)
          rw [hu2] at h3
          exact hcross.2 u _ h3 h0.1 v hmu _ (amax_mem h0.2)
    · intro k hk hc
      apply hin
      have h1 := hpre k (by omega)
      have h2 := hpre (k + 1) (by omega)
      have h3 := hpre (psMembers P A).length (Nat.le_refl _)
      have h4 := pre_mono (pmC P A ls) (show k + 1 ≤ (psMembers P A).length by omega)
      omega

end windows

theorem gcat_index_in (P : Nat) (n : Nat → Nat) :
    gcat P (fun p => (List.range (n p)).map (fun k => k + pre n p)) = List.range (pre n P) := by
  induction P with
  | zero => rfl
  | succ P ih =>
    rw [gcat_succ, ih, pre_succ, List.range_add]
    congr 1
    apply List.map_congr_left
    intro k _; omega

theorem pmOrdered_ok {fuel : Nat} {arr2 : Nat → List α} {arr2_sorted : Bool}
    (hfuel : (gcat P arr2).length ≤ fuel ∨ 3 ^ fuel * (gcat P arr2).length < 4 ^ fuel) (hs : arr2_sorted = true → Sorted (gcat P arr2)) :
    ∃ A I, pmOrdered fuel P arr2 arr2_sorted = .ok (A, I) ∧ ∃ O : Nat → List (α × Nat),
      gcat P O = sortedPairs (gcat P arr2) ∧ ∀ p < P, A p = (O p).map Prod.fst ∧ I p = (O p).map Prod.snd := by
  unfold pmOrdered
  simp only
  cases arr2_sorted with
  | true =>
    simp only [if_true]
    refine ⟨_, _, rfl, fun p => (arr2 p).zipIdx (pre (sizes arr2) p), ?_, ?_⟩
    · rw [← zipIdx_gcat]
      apply eq_of_perm_lex (sortedPairs_perm _).symm
      · have h := hs rfl
        have hz := zipIdx_pairwise (gcat P arr2) 0
        rw [List.pairwise_iff_getElem]
        intro i j hi hj hij
        have h1 := List.pairwise_iff_getElem.1 h i j (by simpa using hi) (by simpa using hj) hij
        have h2 := List.pairwise_iff_getElem.1 hz i j hi hj hij
        rcases lt_or_eq_of_le h1 with h3 | h3
        · exact Or.inl (by simpa using h3)
        · exact Or.inr ⟨by simpa using h3, h2⟩
      · exact sortedPairs_lex _
    · intro p _
      refine ⟨by simp, ?_⟩
      rw [List.zipIdx_map_snd, List.range'_eq_map_range]
      apply List.map_congr_left
      intro k _; omega
  | false =>
    simp only [Bool.false_eq_true, if_false]
    obtain ⟨out, h, O, hO, hcat⟩ := parallelSort_any hfuel
    rw [h]
    simp only
    have hidx : gcat P (fun p => (out p).2) = argsort (gcat P arr2) := by
      rw [argsort_eq, ← hcat, map_gcat]
      exact gcat_congr (fun p hp => by rw [(hO p hp).1])
    have hin : ∀ me < P, ∀ i ∈ (out me).2.map Int.ofNat, (0 : Int) ≤ i ∧
        i < (pre (sizes (fun p => (List.range (arr2 p).length).map (fun k => k + pre (sizes arr2) p))) P : Int) := by
      intro me hme i hi
      obtain ⟨k, hk, rfl⟩ := List.mem_map.1 hi
      have h1 : k ∈ gcat P (fun p => (out p).2) := mem_gcat.2 ⟨me, hme, hk⟩
      rw [hidx] at h1
      have h2 := argsort_lt h1
      rw [length_gcat] at h2
      have h3 : pre (sizes (fun p => (List.range (arr2 p).length).map (fun k => k + pre (sizes arr2) p))) P =
          pre (sizes arr2) P := pre_congr (fun p _ => by simp [sizes])
      rw [h3]
      exact ⟨Int.natCast_nonneg _, by simpa using h2⟩
    obtain ⟨f, hf, hfv⟩ := fetchElements_ok (result := none) (by simp) hin
    rw [hf]
    refine ⟨_, _, rfl, O, hcat, ?_⟩
    intro p hp
    refine ⟨by rw [(hO p hp).1], ?_⟩
    rw [hfv p hp, List.map_map]
    have h4 : (O p).map Prod.snd = (out p).2 := by rw [(hO p hp).1]
    rw [h4]
    conv_rhs => rw [← List.map_id (out p).2]
    apply List.map_congr_left
    intro k hk
    have h1 : k ∈ gcat P (fun p => (out p).2) := mem_gcat.2 ⟨p, hp, hk⟩
    rw [hidx] at h1
    have h2 := argsort_lt h1
    rw [length_gcat] at h2
    have h3 := gcat_index_in P (sizes arr2)
    simp only [Function.comp]
    rw [show gcat P (fun p => (List.range (arr2 p).length).map (fun k => k + pre (sizes arr2) p)) =
      List.range (pre (sizes arr2) P) from h3]
    simp [h2]

theorem psMembers_congr {A B : Nat → List α} (h : ∀ p < P, A p = B p) : psMembers P A = psMembers P B := by
  unfold psMembers
  apply List.filter_congr
  intro p hp
  rw [h p (List.mem_range.1 hp)]

theorem parallelMatch_any {fuel : Nat} {arr1 arr2 : Nat → List α} {arr2_sorted : Bool}
    (hfuel : (gcat P arr2).length ≤ fuel ∨ 3 ^ fuel * (gcat P arr2).length < 4 ^ fuel) (hs : arr2_sorted = true → Sorted (gcat P arr2)) :
    ∃ out, parallelMatch fuel P arr1 arr2 arr2_sorted = .ok out ∧
      ∀ p < P, out p = (arr1 p).map (firstIdx (gcat P arr2)) := by
  unfold parallelMatch
  by_cases h1 : pre (sizes arr1) P = 0
  · rw [if_pos h1]
    refine ⟨_, rfl, fun p hp => ?_⟩
    have := pre_eq_zero h1 hp
    rw [List.eq_nil_of_length_eq_zero this]; rfl
  rw [if_neg h1]
  by_cases h2 : pre (sizes arr2) P = 0
  · rw [if_pos h2]
    refine ⟨_, rfl, fun p hp => ?_⟩
    rw [← length_gcat] at h2
    rw [List.eq_nil_of_length_eq_zero h2]
    have : firstIdx ([] : List α) = fun _ => -1 := by funext v; simp [firstIdx]
    rw [this]
    exact (List.map_const' ..).symm
  rw [if_neg h2]
  obtain ⟨A, I, hAI, O, hO, hOA⟩ := pmOrdered_ok (P := P) (arr2 := arr2) hfuel hs
  rw [hAI]
  simp only
  set G := gcat P arr2 with hG
  set M := psMembers P A with hM
  set ls := fun p => fancy (arr1 p) (argsort (arr1 p)) with hls
  have hlss : ∀ p, Sorted (ls p) := fun p => fancy_argsort_sorted _
  have hlslen : ∀ p, (ls p).length = (arr1 p).length := by intro p; simp [hls]
  have hAsort : Sorted (gcat P A) := by
    have : gcat P A = (sortedPairs G).map Prod.fst := by
      rw [← hO, map_gcat]; exact gcat_congr (fun p hp => (hOA p hp).1)
    rw [this, ← fancy_argsort]; exact fancy_argsort_sorted _
  have hAmem : ∀ v, v ∈ gcat P A ↔ v ∈ G := by
    intro v
    have : gcat P A = (sortedPairs G).map Prod.fst := by
      rw [← hO, map_gcat]; exact gcat_congr (fun p hp => (hOA p hp).1)
    rw [this, ← fancy_argsort, (fancy_argsort_perm G).mem_iff]
  have hDC : ∀ p k, k < M.length → pmD P A (ls p) k + pmC P A (ls p) k = pmD P A (ls p) (k + 1) := by
    intro p k hk
    have := pmD_mono hAsort (hlss p) hk
    rw [pmC_eq]; omega
  rw [if_neg]
  swap
  · rw [Bool.not_eq_true, Bool.not_eq_false', List.all_eq_true]
    intro p _
    rw [Bool.and_eq_true, List.all_eq_true]
    constructor
    · have := pmC_pre hAsort (hlss p) M.length (Nat.le_refl _)
      have := pmD_le (P := P) (A := A) (hlss p) M.length
      exact decide_eq_true (by show pre (pmC P A (ls p)) M.length ≤ (ls p).length; omega)
    · intro k hk
      have h3 := hDC p k (List.mem_range.1 hk)
      have := pmD_le (P := P) (A := A) (hlss p) (k + 1)
      exact decide_eq_true (by show pmD P A (ls p) k + pmC P A (ls p) k ≤ (ls p).length; omega)
  -- expanded offsets and counts
  set sd : Nat → Nat → Nat := fun p t => if (A t).length > 0 then pmD P A (ls p) (M.idxOf t) else 0 with hsd
  set sc : Nat → Nat → Nat := fun p t => if (A t).length > 0 then pmC P A (ls p) (M.idxOf t) else 0 with hsc
  have hwin : ∀ p t, t < P → sd p t + sc p t ≤ (ls p).length := by
    intro p t ht
    simp only [hsd, hsc]
    split
    · rename_i hl
      rw [hDC p _ (psMembers_idxOf ht hl).1]
      exact pmD_le (hlss p) _
    · omega
  have hrecv : ∀ d < P, a2av P ls sc sd d = gcat P (fun s => slice (ls s) (sd s d) (sc s d)) :=
    fun d hd => a2av_eq (fun s _ => hwin s d hd)
  rw [if_neg]
  swap
  · rw [Bool.not_eq_true, Bool.not_eq_false', List.all_eq_true]
    intro d hd
    have hd := List.mem_range.1 hd
    rw [Bool.or_eq_true]
    by_cases hl : (A d).length > 0
    · right
      cases hAd : A d with
      | nil => rw [hAd] at hl; simp at hl
      | cons x l => rfl
    · left
      have : a2av P ls sc sd d = [] := by
        rw [hrecv d hd]
        apply List.eq_nil_of_length_eq_zero
        rw [length_gcat, pre_congr (g := fun _ => 0), pre_const_zero]
        intro s _
        simp only [sizes, hsc, if_neg hl, slice_zero, List.length_nil]
      show (a2av P ls sc sd d).isEmpty = true
      rw [this]; rfl
  refine ⟨_, rfl, ?_⟩
  intro p hp
  -- the blocks returned to this rank
  have hblock : ∀ d < P, slice ((a2av P ls sc sd d).map (pmLookup (A d) (I d))) (pre (alltoall sc d) p)
      (alltoall sc d p) = (slice (ls p) (sd p d) (sc p d)).map (pmLookup (A d) (I d)) := by
    intro d hd
    rw [hrecv d hd, ← slice_map]
    congr 1
    have := slice_gcat (a := fun s => slice (ls s) (sd s d) (sc s d)) hp
    rw [length_slice_of_le (hwin p d hd)] at this
    have hp2 : pre (alltoall sc d) p = pre (sizes (fun s => slice (ls s) (sd s d) (sc s d))) p :=
      pre_congr (fun s _ => (length_slice_of_le (hwin s d hd)).symm)
    rw [hp2]
    exact this
  have hblocklen : ∀ d < P, (slice ((a2av P ls sc sd d).map (pmLookup (A d) (I d))) (pre (alltoall sc d) p)
      (alltoall sc d p)).length = sc p d := by
    intro d hd
    rw [hblock d hd, List.length_map, length_slice_of_le (hwin p d hd)]
  set out := a2avInto P (fun d => (a2av P ls sc sd d).map (pmLookup (A d) (I d))) (alltoall sc)
    (fun d => pre (alltoall sc d)) (fun p => List.replicate (arr1 p).length (-1 : Int)) sd p with hout
  have hfit : ∀ s < P, sd p s + (slice ((a2av P ls sc sd s).map (pmLookup (A s) (I s)))
      (pre (alltoall sc s) p) (alltoall sc s p)).length ≤ (List.replicate (arr1 p).length (-1 : Int)).length := by
    intro s hs
    rw [hblocklen s hs, List.length_replicate, ← hlslen]
    exact hwin p s hs
  have hlen : out.length = (arr1 p).length := by
    rw [hout, length_a2avInto (recv := fun p => List.replicate (arr1 p).length (-1 : Int)) hfit]
    simp
  have hval : out = (ls p).map (firstIdx G) := by
    apply List.ext_getElem?
    intro i
    by_cases hi : i < (ls p).length
    swap
    · rw [List.getElem?_eq_none (by rw [hlen, ← hlslen]; omega), List.getElem?_eq_none (by rw [List.length_map]; omega)]
    have hv : (ls p)[i]? = some (ls p)[i] := List.getElem?_eq_getElem hi
    rw [List.getElem?_map, hv, Option.map_some]
    generalize hvv : (ls p)[i] = v at *
    rcases pm_window hAsort (hlss p) hv with ⟨hnot, hno⟩ | ⟨k, hk, hkin, hkun, hmax, hlow⟩
    · rw [hout, a2avInto_outside (recv := fun p => List.replicate (arr1 p).length (-1 : Int)) hfit]
      · rw [hlslen] at hi
        simp only [List.getElem?_replicate, if_pos hi]
        unfold firstIdx
        rw [if_neg (by rw [← hAmem]; exact hnot)]
      · intro s hsP hc
        rw [hblocklen s hsP] at hc
        simp only [hsd, hsc] at hc
        split at hc
        · rename_i hl
          obtain ⟨hi1, _⟩ := psMembers_idxOf hsP hl
          rw [hDC p _ hi1] at hc
          exact hno _ hi1 hc
        · omega
    · have hmk := member_getD (P := P) (A := A) hk
      have hidx := member_idxOf (P := P) (A := A) hk
      have hsdk : sd p (M.getD k 0) = pmD P A (ls p) k := by
        simp only [hsd]; rw [if_pos hmk.2, hidx]
      have hsck : sc p (M.getD k 0) = pmC P A (ls p) k := by
        simp only [hsc]; rw [if_pos hmk.2, hidx]
      rw [hout, a2avInto_inside (recv := fun p => List.replicate (arr1 p).length (-1 : Int)) hfit hmk.1]
      · rw [hblock _ hmk.1, List.getElem?_map, getElem?_slice, hsdk, hsck]
        have h3 := hDC p k hk
        rw [if_pos (by omega), show pmD P A (ls p) k + (i - pmD P A (ls p) k) = i by omega, hv, Option.map_some]
        obtain ⟨hA1, hI1⟩ := hOA _ hmk.1
        rw [hA1, hI1]
        congr 1
        apply pmLookup_eq hO hmk.1
        · have := hmk.2
          rw [hA1] at this; simpa using this
        · intro u hu x hx
          apply hlow u hu
          rw [(hOA u (Nat.lt_trans hu hmk.1)).1]
          exact List.mem_map.2 ⟨x, hx, rfl⟩
        · rw [← hA1]; exact hmax
      · rw [hblocklen _ hmk.1, hsdk, hsck, hDC p k hk]; exact hkin
      · intro s hsP hne hc
        rw [hblocklen s hsP] at hc
        simp only [hsd, hsc] at hc
        split at hc
        · rename_i hl
          obtain ⟨hi1, hi2⟩ := psMembers_idxOf hsP hl
          rw [hDC p _ hi1] at hc
          refine hkun _ hi1 (fun he => hne ?_) hc
          rw [← hi2, he]
        · omega
  show scatter (emptyArray out.length) (argsort (arr1 p)) out = _
  have := scatter_fancy_map (out := emptyArray out.length) (l := arr1 p) (firstIdx G) (argsort_perm (arr1 p))
    (by simp [emptyArray, hlen])
  rw [← this]
  congr 1

theorem parallelMatch_ok {fuel : Nat} {arr1 arr2 : Nat → List α} {arr2_sorted : Bool}
    (hfuel : (gcat P arr2).length ≤ fuel) (hs : arr2_sorted = true → Sorted (gcat P arr2)) :
    ∃ out, parallelMatch fuel P arr1 arr2 arr2_sorted = .ok out ∧
      ∀ p < P, out p = (arr1 p).map (firstIdx (gcat P arr2)) :=
  parallelMatch_any (Or.inl hfuel) hs

end

end Verif
