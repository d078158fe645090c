import Verif.Spec.Profiles
import Mathlib.Tactic.Linarith
import Mathlib.Tactic.Ring
import Mathlib.Tactic.FieldSimp
import Mathlib.Algebra.Order.Archimedean.Basic
import Mathlib.Algebra.Order.Field.Basic

/-! Lemmas for C116 and C117 -/

namespace Verif.Profiles

open PythonPrograms

set_option linter.unusedSectionVars false

variable {K : Type} [Field K] [LinearOrder K]

theorem range_getD {α : Type} (l : List α) (d : α) : (List.range l.length).map (fun i => l.getD i d) = l := by
  apply List.ext_getElem?
  intro i
  rw [List.getElem?_map]
  by_cases h : i < l.length
  · rw [List.getElem?_range h, Option.map_some, List.getD_eq_getElem?_getD, List.getElem?_eq_getElem h]
    rfl
  · rw [List.getElem?_eq_none (by simpa using h), List.getElem?_eq_none (by omega)]
    rfl

theorem getD_radii (sqrt : K → K) {pos : List (Row K)} {i : Nat} (h : i < pos.length) : (radii sqrt pos).getD i 0 = sqrt (square (pos.getD i 0)) := by
  unfold radii
  rw [List.getD_eq_getElem?_getD, List.getElem?_map, List.getD_eq_getElem?_getD, List.getElem?_eq_getElem h]
  rfl

theorem where_map (sqrt : K → K) (pos : List (Row K)) (R : K) : (whereLess (radii sqrt pos) R).map (fun i => pos.getD i 0) = pos.filter (fun p => decide (sqrt (square p) < R)) := by
  unfold whereLess
  have e : (radii sqrt pos).length = pos.length := by simp [radii]
  rw [e]
  conv_rhs => rw [← range_getD pos 0, List.filter_map]
  congr 1
  apply List.filter_congr
  intro i hi
  rw [getD_radii sqrt (List.mem_range.1 hi)]
  rfl

theorem arrayMax_ok {l : List K} (h : l ≠ []) : ∃ x, arrayMax l = .ok x ∧ IsLargest l x := by
  cases l with
  | nil => exact absurd rfl h
  | cons a l =>
    refine ⟨l.foldl max a, rfl, ?_⟩
    clear h
    induction l generalizing a with
    | nil => exact ⟨by simp, by simp⟩
    | cons b l ih =>
      obtain ⟨h1, h2⟩ := ih (max a b)
      rw [List.foldl_cons]
      refine ⟨?_, ?_⟩
      · rcases List.mem_cons.1 h1 with h1 | h1
        · rw [h1]
          rcases max_choice a b with h | h <;> rw [h] <;> simp
        · simp [h1]
      · intro y hy
        have hm := h2 (max a b) (by simp)
        rcases List.mem_cons.1 hy with rfl | hy
        · exact le_trans (le_max_left _ _) hm
        · rcases List.mem_cons.1 hy with rfl | hy
          · exact le_trans (le_max_right _ _) hm
          · exact h2 y (by simp [hy])

section ordered

variable [IsStrictOrderedRing K]

theorem square_nonneg (p : Row K) : 0 ≤ square p := by
  unfold square
  positivity

theorem square_sub (p c : Row K) : square (p - c) = dist2 p c := by
  unfold square dist2
  simp only [Prod.fst_sub, Prod.snd_sub]
  ring

theorem sqrt_lt {sqrt : K → K} (hs : IsSqrt sqrt) {a R : K} (ha : 0 ≤ a) (hR : 0 ≤ R) : sqrt a < R ↔ a < R * R := by
  obtain ⟨h1, h2⟩ := hs a ha
  constructor
  · intro h
    nlinarith
  · intro h
    by_contra hc
    push Not at hc
    nlinarith

theorem inside_eq {sqrt : K → K} (hs : IsSqrt sqrt) (pos : List (Row K)) (c : Row K) {R : K} (hR : 0 ≤ R) :
    (pos.map fun p => p - c).filter (fun p => decide (sqrt (square p) < R)) = (inside pos c R).map fun p => p - c := by
  unfold inside
  rw [List.filter_map]
  congr 1
  apply List.filter_congr
  intro p _
  show decide (sqrt (square (p - c)) < R) = _
  rw [square_sub, decide_eq_decide]
  exact sqrt_lt hs (by rw [← square_sub]; exact square_nonneg _) hR

theorem where_length {sqrt : K → K} (hs : IsSqrt sqrt) (pos : List (Row K)) (c : Row K) {R : K} (hR : 0 ≤ R) :
    (whereLess (radii sqrt (pos.map fun p => p - c)) R).length = (inside pos c R).length := by
  have h := congrArg List.length (where_map sqrt (pos.map fun p => p - c) R)
  rw [inside_eq hs pos c hR, List.length_map, List.length_map] at h
  exact h

theorem sum_shift (l : List (Row K)) (c : Row K) : (l.map fun p => p - c).sum = l.sum - (l.length : K) • c := by
  induction l with
  | nil => simp
  | cons p l ih =>
    rw [List.map_cons, List.sum_cons, ih, List.sum_cons, List.length_cons]
    push_cast
    rw [add_smul, one_smul]
    abel

theorem meanAt_eq {sqrt : K → K} (hs : IsSqrt sqrt) (pos : List (Row K)) (c : Row K) {R : K} (hR : 0 ≤ R) (h : 0 < (inside pos c R).length) :
    meanAt (pos.map fun p => p - c) (whereLess (radii sqrt (pos.map fun p => p - c)) R) = mean (inside pos c R) - c := by
  unfold meanAt mean numElements
  rw [where_map, inside_eq hs pos c hR, where_length hs pos c hR, sum_shift, max_eq_right (by omega), smul_sub, smul_smul, inv_mul_cancel₀ (Nat.cast_ne_zero.2 (by omega)), one_smul]

theorem shrinkLoop_ok {sqrt : K → K} (hs : IsSqrt sqrt) {nmin : Nat} (hn : 2 ≤ nmin) {pos : List (Row K)} {ε : K} (hε : ∀ c R, 0 ≤ R → R ≤ ε → (inside pos c R).length < nmin) (n : Nat) :
    ∀ (c : Row K) (R : K), 0 ≤ R → (9 / 10) ^ n * R ≤ ε → ∃ c', Shrinks pos nmin c R c' ∧
      ∀ fuel, n < fuel → shrinkLoop sqrt nmin fuel (pos.map fun p => p - c) c R = .ok ⟨pos.map fun p => p - c', c', radii sqrt (pos.map fun p => p - c')⟩ := by
  induction n with
  | zero =>
    intro c R hR h
    rw [pow_zero, one_mul] at h
    refine ⟨c, .stop (hε c R hR h), ?_⟩
    intro fuel hf
    obtain ⟨fuel, rfl⟩ : ∃ k, fuel = k + 1 := ⟨fuel - 1, by omega⟩
    have hl := hε c R hR h
    rw [shrinkLoop, if_neg]
    unfold numElements
    rw [where_length hs pos c hR]
    omega
  | succ n ih =>
    intro c R hR h
    by_cases hl : (inside pos c R).length < nmin
    · refine ⟨c, .stop hl, ?_⟩
      intro fuel hf
      obtain ⟨fuel, rfl⟩ : ∃ k, fuel = k + 1 := ⟨fuel - 1, by omega⟩
      rw [shrinkLoop, if_neg]
      unfold numElements
      rw [where_length hs pos c hR]
      omega
    · obtain ⟨c', h1, h2⟩ := ih (mean (inside pos c R)) (9 / 10 * R) (by positivity) (by rw [pow_succ] at h; linarith)
      refine ⟨c', .step (by omega) h1, ?_⟩
      intro fuel hf
      obtain ⟨fuel, rfl⟩ : ∃ k, fuel = k + 1 := ⟨fuel - 1, by omega⟩
      rw [shrinkLoop, if_pos (by unfold numElements; rw [where_length hs pos c hR]; omega), meanAt_eq hs pos c hR (by omega), List.map_map]
      rw [← h2 fuel (by omega)]
      congr 1
      · apply List.map_congr_left
        intro p _
        show p - c - (mean (inside pos c R) - c) = p - mean (inside pos c R)
        abel
      · abel

theorem lower_bound (l : List K) (h : ∀ x ∈ l, 0 < x) : ∃ ε : K, 0 < ε ∧ ∀ x ∈ l, ε ≤ x := by
  induction l with
  | nil => exact ⟨1, one_pos, by simp⟩
  | cons a l ih =>
    obtain ⟨ε, h1, h2⟩ := ih fun x hx => h x (by simp [hx])
    refine ⟨min ε a, lt_min h1 (h a (by simp)), ?_⟩
    intro x hx
    rcases List.mem_cons.1 hx with rfl | hx
    · exact min_le_right _ _
    · exact le_trans (min_le_left _ _) (h2 x hx)

theorem dist2_zero {p q : Row K} (h : dist2 p q ≤ 0) : p = q := by
  unfold dist2 at h
  have a := mul_self_nonneg (p.1 - q.1)
  have b := mul_self_nonneg (p.2.1 - q.2.1)
  have c := mul_self_nonneg (p.2.2 - q.2.2)
  have ha : p.1 - q.1 = 0 := by rw [← mul_self_eq_zero]; linarith
  have hb : p.2.1 - q.2.1 = 0 := by rw [← mul_self_eq_zero]; linarith
  have hc : p.2.2 - q.2.2 = 0 := by rw [← mul_self_eq_zero]; linarith
  exact Prod.ext (sub_eq_zero.1 ha) (Prod.ext (sub_eq_zero.1 hb) (sub_eq_zero.1 hc))

theorem dist2_triangle (p q c : Row K) : dist2 p q ≤ 2 * (dist2 p c + dist2 q c) := by
  unfold dist2
  nlinarith [mul_self_nonneg ((p.1 - c.1) + (q.1 - c.1)), mul_self_nonneg ((p.2.1 - c.2.1) + (q.2.1 - c.2.1)), mul_self_nonneg ((p.2.2 - c.2.2) + (q.2.2 - c.2.2))]

theorem small_radius {nmin : Nat} (hn : 0 < nmin) {pos : List (Row K)} (hc : ∀ p, (pos.filter fun q => decide (q = p)).length < nmin) :
    ∃ ε : K, 0 < ε ∧ ∀ c R, 0 ≤ R → R ≤ ε → (inside pos c R).length < nmin := by
  obtain ⟨δ, h1, h2⟩ := lower_bound (((pos.flatMap fun p => pos.map fun q => dist2 p q)).filter fun x => decide (0 < x)) (by
    intro x hx
    simpa using (List.mem_filter.1 hx).2)
  refine ⟨min 1 (δ / 4), lt_min one_pos (by positivity), ?_⟩
  intro c R hR0 hR
  have hR1 : R ≤ 1 := le_trans hR (min_le_left _ _)
  have hR2 : R ≤ δ / 4 := le_trans hR (min_le_right _ _)
  rcases hi : inside pos c R with _ | ⟨p, l⟩
  · exact hn
  · rw [← hi]
    refine lt_of_le_of_lt ?_ (hc p)
    have hp : p ∈ inside pos c R := by rw [hi]; simp
    unfold inside at hp ⊢
    rw [← List.countP_eq_length_filter, ← List.countP_eq_length_filter]
    apply List.countP_mono_left
    intro q hq hqR
    rw [decide_eq_true_eq] at hqR ⊢
    obtain ⟨hp1, hp2⟩ := List.mem_filter.1 hp
    rw [decide_eq_true_eq] at hp2
    by_contra hne
    have hpos : 0 < dist2 q p := by
      by_contra h0
      exact hne (dist2_zero (not_lt.1 h0))
    have h3 := h2 (dist2 q p) (List.mem_filter.2 ⟨List.mem_flatMap.2 ⟨q, hq, List.mem_map.2 ⟨p, hp1, rfl⟩⟩, by simpa using hpos⟩)
    have h4 := dist2_triangle q p c
    nlinarith

theorem power_small [Archimedean K] {ε R : K} (hε : 0 < ε) (hR : 0 ≤ R) : ∃ n : Nat, (9 / 10) ^ n * R ≤ ε := by
  obtain ⟨n, hn⟩ := exists_pow_lt_of_lt_one (show 0 < ε / (R + 1) by positivity) (show (9 / 10 : K) < 1 by norm_num)
  refine ⟨n, ?_⟩
  rw [lt_div_iff₀ (by positivity)] at hn
  have : (0 : K) ≤ (9 / 10) ^ n := by positivity
  nlinarith

/-- The loop finds the centre of the spheres. -/
theorem shrink_ok [Archimedean K] {sqrt : K → K} (hs : IsSqrt sqrt) {nmin : Nat} (hn : 2 ≤ nmin) {pos : List (Row K)} (h0 : pos ≠ []) (hc : ∀ p, (pos.filter fun q => decide (q = p)).length < nmin) :
    ∃ R c' n0, IsLargest (pos.map fun p => sqrt (dist2 p 0)) R ∧ Shrinks pos nmin 0 R c' ∧
      ∀ fuel, n0 < fuel → shrink sqrt nmin fuel pos = .ok ⟨pos.map fun p => p - c', c', pos.map fun p => sqrt (dist2 p c')⟩ := by
  obtain ⟨R, hR1, hR2⟩ := arrayMax_ok (l := radii sqrt pos) (by simpa [radii] using h0)
  have er : ∀ c, radii sqrt (pos.map fun p => p - c) = pos.map fun p => sqrt (dist2 p c) := by
    intro c
    unfold radii
    rw [List.map_map]
    apply List.map_congr_left
    intro p _
    show sqrt (square (p - c)) = _
    rw [square_sub]
  have e0 : pos = pos.map fun p => p - (0 : Row K) := by simp
  have er0 : radii sqrt pos = pos.map fun p => sqrt (dist2 p 0) := by rw [← er 0, ← e0]
  have hR0 : 0 ≤ R := by
    obtain ⟨p, hp, rfl⟩ := List.mem_map.1 hR2.1
    exact (hs _ (square_nonneg p)).1
  obtain ⟨ε, hε, h1⟩ := small_radius (by omega) hc
  obtain ⟨n, hpow⟩ := power_small hε hR0
  obtain ⟨c', h2, h3⟩ := shrinkLoop_ok hs hn h1 n 0 R hR0 hpow
  refine ⟨R, c', n, er0 ▸ hR2, h2, ?_⟩
  intro fuel hf
  unfold shrink
  rw [hR1]
  show shrinkLoop sqrt nmin fuel pos 0 R = _
  rw [← er c', ← h3 fuel hf, ← e0]

end ordered

/-! ### Sorted radii -/

theorem sorted_perm {order : List K → List Nat} (ho : SortsAny order) (l : List K) : (sorted order l).Perm l := by
  unfold sorted
  have h := (ho l).1.map fun i => l.getD i 0
  rwa [range_getD] at h

theorem sorted_sorted {order : List K → List Nat} (ho : SortsAny order) (l : List K) : (sorted order l).Pairwise (· ≤ ·) := (ho l).2

theorem steps {l : List K} (h : l.Pairwise (· ≤ ·)) {j : Nat} {s : K} (hj : l[j]? = some s) : below l s < j + 1 ∧ j + 1 ≤ upTo l s := by
  unfold below upTo
  induction l generalizing j with
  | nil => simp at hj
  | cons a l ih =>
    rw [List.pairwise_cons] at h
    cases j with
    | zero =>
      rw [List.getElem?_cons_zero, Option.some_inj] at hj
      subst hj
      constructor
      · rw [Nat.lt_one_iff, List.countP_eq_zero]
        intro x hx
        rcases List.mem_cons.1 hx with rfl | hx
        · simp
        · simpa using h.1 x hx
      · rw [List.countP_cons_of_pos (by simp)]
        omega
    | succ j =>
      rw [List.getElem?_cons_succ] at hj
      obtain ⟨h1, h2⟩ := ih h.2 hj
      have hs := h.1 s (List.mem_of_getElem? hj)
      constructor
      · rw [List.countP_cons]
        split <;> omega
      · rw [List.countP_cons, if_pos (by simpa using hs)]
        omega

/-- The last element which is not larger than `x` -/
theorem last_equal {l : List K} (h : l.Pairwise (· ≤ ·)) {x : K} (hx : x ∈ l) : 0 < upTo l x ∧ l[upTo l x - 1]? = some x := by
  have hpos : ∀ {l : List K}, x ∈ l → 0 < upTo l x := by
    intro l hx
    unfold upTo
    rw [List.countP_pos_iff]
    exact ⟨x, hx, by simp⟩
  refine ⟨hpos hx, ?_⟩
  induction l with
  | nil => simp at hx
  | cons a l ih =>
    rw [List.pairwise_cons] at h
    by_cases hm : x ∈ l
    · have h1 := hpos hm
      have e : upTo (a :: l) x = upTo l x + 1 := by
        unfold upTo
        rw [List.countP_cons_of_pos (by simpa using h.1 x hm)]
      rw [e, show upTo l x + 1 - 1 = (upTo l x - 1) + 1 by omega, List.getElem?_cons_succ]
      exact ih h.2 hm
    · rcases List.mem_cons.1 hx with rfl | hx
      · have e : upTo (x :: l) x = 1 := by
          unfold upTo
          rw [List.countP_cons_of_pos (by simp)]
          have : l.countP (fun y => decide (y ≤ x)) = 0 := by
            rw [List.countP_eq_zero]
            intro y hy hle
            have := h.1 y hy
            rw [decide_eq_true_eq] at hle
            exact hm (le_antisymm hle this ▸ hy)
          rw [this]
        rw [e]
        rfl
      · exact absurd hx hm

theorem upTo_perm {l l' : List K} (h : l.Perm l') (x : K) : upTo l x = upTo l' x := h.countP_eq _

theorem below_perm {l l' : List K} (h : l.Perm l') (x : K) : below l x = below l' x := h.countP_eq _

theorem velocities_ok (sqrt : K → K) {order : List K → List Nat} (ho : SortsAny order) (r : List K) : VelocityCurve sqrt r (velocities sqrt order r) := by
  have hp := sorted_perm ho r
  have hs := sorted_sorted ho r
  have hlen : (sorted order r).length = r.length := hp.length_eq
  have hval : ∀ j : Nat, (velocities sqrt order r)[j]? = (sorted order r)[j]?.map fun x => (x, sqrt (((j : K) + 1) / x)) := by
    intro j
    unfold velocities
    rw [List.getElem?_zipWith]
    by_cases hj : j < r.length
    · rw [List.getElem?_range hj, List.getElem?_eq_getElem (by omega)]
      rfl
    · rw [List.getElem?_eq_none (by omega)]
      rfl
  have hfst : (velocities sqrt order r).map (fun p => p.1) = sorted order r := by
    apply List.ext_getElem?
    intro j
    rw [List.getElem?_map, hval j]
    cases (sorted order r)[j]? <;> rfl
  refine ⟨hfst ▸ hp, hfst ▸ hs, ?_⟩
  intro j p hj
  rw [hval j] at hj
  cases hx : (sorted order r)[j]? with
  | none => rw [hx] at hj; cases hj
  | some x =>
    rw [hx] at hj
    cases hj
    obtain ⟨h1, h2⟩ := steps hs hx
    rw [below_perm hp] at h1
    rw [upTo_perm hp] at h2
    exact ⟨rfl, h1, h2⟩

end Verif.Profiles
