import Verif.Spec.Spectrum
import Mathlib.Tactic.Ring
import Mathlib.Tactic.Positivity
import Mathlib.Tactic.FieldSimp
import Mathlib.Algebra.Order.BigOperators.Group.List
import Mathlib.Algebra.BigOperators.Ring.List

/-! Proofs about the binning of a spectrum -/

namespace Verif.Spectrum

set_option linter.unusedSectionVars false

variable {K : Type} [Field K] [LinearOrder K] [IsStrictOrderedRing K]

/-! ### Tables -/

theorem padded_length {rows : List (Bin K)} (h : rows ≠ []) (bins : Nat) : (padded rows bins).length = bins := by
  unfold padded
  rw [List.getLast?_eq_some_getLast h]
  simp
  omega

theorem padded_get {rows : List (Bin K)} (h : rows ≠ []) {bins i : Nat} (hi : i < bins) : (padded rows bins)[i]? = rows[min i (rows.length - 1)]? := by
  have hl : 0 < rows.length := List.length_pos_iff.2 h
  unfold padded
  rw [List.getLast?_eq_some_getLast h]
  rcases Nat.lt_or_ge i rows.length with h1 | h1
  · rw [List.getElem?_append_left (by simp; omega), List.getElem?_take_of_lt hi, Nat.min_eq_left (by omega)]
  · rw [List.getElem?_append_right (by simp; omega), Nat.min_eq_right (by omega)]
    simp only [Option.toList_some, List.flatMap_cons, List.flatMap_nil, List.append_nil]
    rw [List.getElem?_replicate, if_pos (by simp; omega), List.getLast_eq_getElem, List.getElem?_eq_getElem (by omega)]

theorem pick_eq {rows : List (Bin K)} (h : rows ≠ []) (f : Bin K → K) {bins o n : Nat} (hn : o + n ≤ bins) :
    pick (rows.map f) (List.range' o n) = (((padded rows bins).drop o).take n).map f := by
  have hl : 0 < rows.length := List.length_pos_iff.2 h
  apply List.ext_getElem?
  intro i
  unfold pick
  rw [List.getElem?_map, List.getElem?_map]
  rcases Nat.lt_or_ge i n with hi | hi
  · rw [List.getElem?_take_of_lt hi, List.getElem?_drop, padded_get h (by omega), List.getElem?_range' hi, List.getElem?_eq_getElem (by omega), Option.map_some, Option.map_some, List.getD_eq_getElem?_getD, List.getElem?_map,
      List.length_map, Nat.one_mul, List.getElem?_eq_getElem (by omega)]
    rfl
  · rw [List.getElem?_eq_none (by simp; omega), List.getElem?_eq_none (by simp; omega)]
    rfl

/-! ### Width -/

theorem foldl_max_mem (l : List K) (a : K) : l.foldl max a ∈ a :: l ∧ ∀ x ∈ a :: l, x ≤ l.foldl max a := by
  induction l generalizing a with
  | nil => simp
  | cons b l ih =>
    obtain ⟨h1, h2⟩ := ih (max a b)
    rw [List.foldl_cons]
    constructor
    · rcases List.mem_cons.1 h1 with h | h
      · rw [h]
        rcases le_total a b with h | h
        · rw [max_eq_right h]; simp
        · rw [max_eq_left h]; simp
      · simp [h]
    · intro x hx
      have h3 := h2 (max a b) (by simp)
      rcases List.mem_cons.1 hx with rfl | hx
      · exact le_trans (le_max_left _ _) h3
      · rcases List.mem_cons.1 hx with rfl | hx
        · exact le_trans (le_max_right _ _) h3
        · exact h2 x (by simp [hx])

theorem foldl_min_mem (l : List K) (a : K) : l.foldl min a ∈ a :: l ∧ ∀ x ∈ a :: l, l.foldl min a ≤ x := by
  induction l generalizing a with
  | nil => simp
  | cons b l ih =>
    obtain ⟨h1, h2⟩ := ih (min a b)
    rw [List.foldl_cons]
    constructor
    · rcases List.mem_cons.1 h1 with h | h
      · rw [h]
        rcases le_total a b with h | h
        · rw [min_eq_left h]; simp
        · rw [min_eq_right h]; simp
      · simp [h]
    · intro x hx
      have h3 := h2 (min a b) (by simp)
      rcases List.mem_cons.1 hx with rfl | hx
      · exact le_trans h3 (min_le_left _ _)
      · rcases List.mem_cons.1 hx with rfl | hx
        · exact le_trans h3 (min_le_right _ _)
        · exact h2 x (by simp [hx])

theorem maxOf_mem {l : List K} (h : l ≠ []) : maxOf l ∈ l ∧ ∀ x ∈ l, x ≤ maxOf l := by
  cases l with
  | nil => exact absurd rfl h
  | cons a l => exact foldl_max_mem l a

theorem minOf_mem {l : List K} (h : l ≠ []) : minOf l ∈ l ∧ ∀ x ∈ l, minOf l ≤ x := by
  cases l with
  | nil => exact absurd rfl h
  | cons a l => exact foldl_min_mem l a

theorem width_iff {lg : K → K} (hlg : ∀ x y, 0 < x → x ≤ y → lg x ≤ lg y) {b : List (Bin K)} (h : b ≠ []) (hk : ∀ r ∈ b, 0 < r.k) (d : K) :
    d ≤ lg (maxOf (b.map fun r => r.k)) - lg (minOf (b.map fun r => r.k)) ↔ ∃ x ∈ b, ∃ y ∈ b, d ≤ lg x.k - lg y.k := by
  have hne : (b.map fun r => r.k) ≠ [] := by simpa using h
  obtain ⟨m1, m2⟩ := maxOf_mem hne
  obtain ⟨n1, n2⟩ := minOf_mem hne
  constructor
  · intro hd
    obtain ⟨x, hx, ex⟩ := List.mem_map.1 m1
    obtain ⟨y, hy, ey⟩ := List.mem_map.1 n1
    exact ⟨x, hx, y, hy, by rw [ex, ey]; exact hd⟩
  · rintro ⟨x, hx, y, hy, hd⟩
    have h1 := hlg _ _ (hk x hx) (m2 _ (List.mem_map_of_mem hx))
    obtain ⟨z, hz, ez⟩ := List.mem_map.1 n1
    have h2 := hlg _ _ (ez ▸ hk z hz) (n2 _ (List.mem_map_of_mem hy))
    linarith

/-! ### Points -/

theorem positions (b : List (Bin K)) (o m : Nat) :
    List.zipWith (fun (i : Nat) c => (i : K) * c) (List.range' (o + m) b.length) (b.map fun r => r.count) = (b.zipIdx m).map fun x => ((o + x.2 : Nat) : K) * x.1.count := by
  induction b generalizing m with
  | nil => rfl
  | cons r b ih =>
    rw [List.length_cons, List.range'_succ, List.map_cons, List.zipWith_cons_cons, List.zipIdx_cons, List.map_cons, ← ih (m + 1)]
    rfl

theorem counts_zip (b : List (Bin K)) (m : Nat) : (b.map fun r => r.count) = (b.zipIdx m).map fun x => x.1.count := by
  induction b generalizing m with
  | nil => rfl
  | cons r b ih =>
    rw [List.map_cons, List.zipIdx_cons, List.map_cons, ← ih (m + 1)]

/-- The mean position is in the band. -/
theorem mean_position (b : List (Bin K)) (hc : ∀ r ∈ b, 0 ≤ r.count) (o : Nat) :
    (o : K) * (b.map fun r => r.count).sum ≤ (b.zipIdx.map fun x => ((o + x.2 : Nat) : K) * x.1.count).sum ∧
    (b.zipIdx.map fun x => ((o + x.2 : Nat) : K) * x.1.count).sum ≤ ((o : K) + b.length - 1) * (b.map fun r => r.count).sum := by
  rw [counts_zip b 0]
  have e : ∀ c : K, c * (b.zipIdx.map fun x => x.1.count).sum = (b.zipIdx.map fun x => c * x.1.count).sum := fun c => (List.sum_map_mul_left b.zipIdx (fun x => x.1.count) c).symm
  rw [e, e]
  constructor
  · apply List.sum_le_sum
    intro x hx
    have h1 := hc x.1 (List.fst_mem_of_mem_zipIdx hx)
    apply mul_le_mul_of_nonneg_right _ h1
    push_cast
    have : (0 : K) ≤ x.2 := Nat.cast_nonneg _
    linarith
  · apply List.sum_le_sum
    intro x hx
    have h1 := hc x.1 (List.fst_mem_of_mem_zipIdx hx)
    have h2 := List.snd_lt_of_mem_zipIdx hx
    apply mul_le_mul_of_nonneg_right _ h1
    have : (x.2 : K) + 1 ≤ b.length := by exact_mod_cast h2
    push_cast
    linarith

/-- Result of `point` for a band -/
theorem point_ok [FloorRing K] {rows : List (Bin K)} (h0 : rows ≠ []) {bins o : Nat} {b : List (Bin K)} (hb : o + b.length ≤ bins) (hbd : ((padded rows bins).drop o).take b.length = b) (hc : ∀ r ∈ b, 0 ≤ r.count)
    (hS : 0 < (b.map fun r => r.count).sum) :
    (∃ p, point rows (List.range' o b.length) = .ok p ∧ IsPoint rows (o, b) p) ∨ (point rows (List.range' o b.length) = .error .indexError ∧ ∀ p, ¬ IsPoint rows (o, b) p) := by
  obtain ⟨S, hSd⟩ : ∃ S, S = (b.map fun r => r.count).sum := ⟨_, rfl⟩
  obtain ⟨T, hTd⟩ : ∃ T, T = (b.zipIdx.map fun x => ((o + x.2 : Nat) : K) * x.1.count).sum := ⟨_, rfl⟩
  have hpc : pick (rows.map fun r => r.count) (List.range' o b.length) = b.map fun r => r.count := by rw [pick_eq h0 _ hb, hbd]
  have hpp : pick (rows.map fun r => r.power) (List.range' o b.length) = b.map fun r => r.power := by rw [pick_eq h0 _ hb, hbd]
  obtain ⟨m1, m2⟩ := mean_position b hc o
  rw [← hSd, ← hTd] at m1 m2
  rw [← hSd] at hS
  have hT0 : 0 ≤ T := le_trans (by positivity) m1
  obtain ⟨j, hj⟩ : ∃ j, j = ⌊T / S⌋.toNat := ⟨_, rfl⟩
  have hcb : centreBin rows (List.range' o b.length) = j := by
    unfold centreBin
    rw [hpc, ← hSd, hj, hTd]
    have := positions b o 0
    rw [Nat.add_zero] at this
    rw [this]
  have hfl : (j : Int) = ⌊T / S⌋ := by
    rw [hj]
    exact Int.toNat_of_nonneg (Int.floor_nonneg.2 (by positivity))
  obtain ⟨f1, f2⟩ := Int.floor_eq_iff.1 hfl.symm
  push_cast at f1 f2
  rw [le_div_iff₀ hS] at f1
  rw [div_lt_iff₀ hS] at f2
  -- the only position
  have huniq : ∀ i : Nat, (i : K) * S ≤ T → T < ((i : K) + 1) * S → i = j := by
    intro i h1 h2
    have h3 : (i : K) < j + 1 := lt_of_mul_lt_mul_right (lt_of_le_of_lt h1 f2) (le_of_lt hS)
    have h4 : (j : K) < i + 1 := lt_of_mul_lt_mul_right (lt_of_le_of_lt f1 h2) (le_of_lt hS)
    have h3 : i < j + 1 := by exact_mod_cast h3
    have h4 : j < i + 1 := by exact_mod_cast h4
    omega
  have hoj : o ≤ j := by
    have : (o : K) < j + 1 := lt_of_mul_lt_mul_right (lt_of_le_of_lt m1 f2) (le_of_lt hS)
    have : o < j + 1 := by exact_mod_cast this
    omega
  have hjo : j < o + b.length := by
    have h1 : (j : K) ≤ (o : K) + b.length - 1 := le_of_mul_le_mul_right (le_trans f1 m2) hS
    have h2 : (j : K) + 1 ≤ (o : K) + b.length := by linarith
    have h2 : j + 1 ≤ o + b.length := by exact_mod_cast h2
    omega
  unfold point
  rw [hcb, hpc, hpp]
  cases hr : rows[j]? with
  | none =>
    right
    refine ⟨rfl, ?_⟩
    rintro p ⟨i, r, -, -, h3, h4, h5, -⟩
    dsimp only at h4 h5
    rw [← hSd, ← hTd] at h4 h5
    rw [huniq i h4 h5, hr] at h3
    cases h3
  | some r =>
    left
    refine ⟨_, rfl, j, r, hoj, hjo, hr, ?_, ?_, rfl, rfl, ?_⟩
    · dsimp only
      rw [← hSd, ← hTd]
      exact f1
    · dsimp only
      rw [← hSd, ← hTd]
      exact f2
    · dsimp only
      rw [← hSd]
      field_simp

/-! ### The loop -/

theorem take_piece {pad pre cur rest : List (Bin K)} {r : Bin K} (h : pad = pre ++ (cur ++ r :: rest)) : (pad.drop pre.length).take (cur ++ [r]).length = cur ++ [r] := by
  rw [h, List.drop_left, show cur ++ r :: rest = (cur ++ [r]) ++ rest by simp, List.take_left]

/-- Outcome of the loop for the bands -/
def Outcome (rows : List (Bin K)) (out : List (Point K)) (bands : List (Nat × List (Bin K))) (res : Except Err (List (Point K))) : Prop :=
  (∃ l, res = .ok (out ++ l) ∧ List.Forall₂ (IsPoint rows) bands l) ∨ (res = .error .indexError ∧ ∃ band ∈ bands, ∀ p, ¬ IsPoint rows band p)

theorem rebinLoop_ok [FloorRing K] {lg : K → K} (hlg : ∀ x y, 0 < x → x ≤ y → lg x ≤ lg y) (d : K) {minCount : K} (hm : 0 < minCount) {rows : List (Bin K)} (h0 : rows ≠ []) {bins : Nat}
    (hk : ∀ r ∈ padded rows bins, 0 < r.k ∧ 0 ≤ r.count) (rest : List (Bin K)) : ∀ (r : Bin K) (pre cur : List (Bin K)), padded rows bins = pre ++ (cur ++ r :: rest) →
      (∀ n, 0 < n → n ≤ cur.length → ¬ Wide lg d minCount (cur.take n)) → ∃ bands, Bands (Wide lg d minCount) pre.length (cur ++ r :: rest) bands ∧
        ∀ fuel out, rest.length < fuel → Outcome rows out bands (rebinLoop lg d minCount rows bins fuel (pre.length + cur.length) (List.range' pre.length (cur.length + 1)) out) := by
  induction rest with
  | nil =>
    intro r pre cur hpad hcur
    have hlen : bins = pre.length + cur.length + 1 := by
      have := congrArg List.length hpad
      rw [padded_length h0] at this
      simpa [Nat.add_assoc] using this
    have hmem : ∀ x ∈ cur ++ [r], x ∈ padded rows bins := by
      intro x hx
      rw [hpad]
      exact List.mem_append_right _ hx
    have hpiece := take_piece hpad
    have hcl : (cur ++ [r]).length = cur.length + 1 := by simp
    have hpk : ∀ f : Bin K → K, pick (rows.map f) (List.range' pre.length (cur.length + 1)) = (cur ++ [r]).map f := by
      intro f
      rw [pick_eq h0 f (bins := bins) (by omega), ← hcl, hpiece]
    have hw : isWide lg d minCount rows (List.range' pre.length (cur.length + 1)) = true ↔ Wide lg d minCount (cur ++ [r]) := by
      unfold isWide Wide
      rw [Bool.and_eq_true, decide_eq_true_eq, decide_eq_true_eq, hpk, hpk, width_iff hlg (by simp) (fun x hx => (hk x (hmem x hx)).1)]
    by_cases hwide : Wide lg d minCount (cur ++ [r])
    · refine ⟨[(pre.length, cur ++ [r])], ?_, ?_⟩
      · have := Bands.band (o := pre.length) (b := cur ++ [r]) (l := []) (bs := []) (W := Wide lg d minCount) (by simp) hwide ?_ (Bands.rest ?_)
        · simpa using this
        · intro n h1 h2
          have h2 : n ≤ cur.length := by omega
          rw [List.take_append_of_le_length h2]
          exact hcur n h1 h2
        · intro n h1 h2
          simp at h2
          omega
      · intro fuel out hf
        obtain ⟨fuel, rfl⟩ : ∃ f, fuel = f + 1 := ⟨fuel - 1, by simp at hf; omega⟩
        rw [rebinLoop, if_pos (hw.2 hwide)]
        have hp := point_ok h0 (bins := bins) (o := pre.length) (b := cur ++ [r]) (by omega) hpiece (fun x hx => (hk x (hmem x hx)).2) (lt_of_lt_of_le hm hwide.2)
        rw [hcl] at hp
        rcases hp with ⟨p, hp1, hp2⟩ | ⟨hp1, hp2⟩
        · left
          rw [hp1]
          refine ⟨[p], ?_, List.Forall₂.cons hp2 List.Forall₂.nil⟩
          show (if bins ≤ pre.length + cur.length + 1 then _ else _) = _
          rw [if_pos (by omega)]
        · right
          rw [hp1]
          exact ⟨rfl, _, by simp, hp2⟩
    · refine ⟨[], Bands.rest ?_, ?_⟩
      · intro n h1 h2
        rcases Nat.lt_or_ge cur.length n with h3 | h3
        · have : n = (cur ++ [r]).length := by omega
          rw [this, List.take_length]
          exact hwide
        · rw [List.take_append_of_le_length h3]
          exact hcur n h1 h3
      · intro fuel out hf
        obtain ⟨fuel, rfl⟩ : ∃ f, fuel = f + 1 := ⟨fuel - 1, by simp at hf; omega⟩
        rw [rebinLoop, if_neg (fun h => hwide (hw.1 h)), if_pos (by omega)]
        left
        exact ⟨[], by simp, List.Forall₂.nil⟩
  | cons r' rest ih =>
    intro r pre cur hpad hcur
    have hlen : bins = pre.length + cur.length + 2 + rest.length := by
      have := congrArg List.length hpad
      rw [padded_length h0] at this
      simp at this
      omega
    have hmem : ∀ x ∈ cur ++ [r], x ∈ padded rows bins := by
      intro x hx
      rw [hpad]
      apply List.mem_append_right
      rcases List.mem_append.1 hx with h | h
      · exact List.mem_append_left _ h
      · simp at h
        simp [h]
    have hpiece := take_piece hpad
    have hcl : (cur ++ [r]).length = cur.length + 1 := by simp
    have hpk : ∀ f : Bin K → K, pick (rows.map f) (List.range' pre.length (cur.length + 1)) = (cur ++ [r]).map f := by
      intro f
      rw [pick_eq h0 f (bins := bins) (by omega), ← hcl, hpiece]
    have hw : isWide lg d minCount rows (List.range' pre.length (cur.length + 1)) = true ↔ Wide lg d minCount (cur ++ [r]) := by
      unfold isWide Wide
      rw [Bool.and_eq_true, decide_eq_true_eq, decide_eq_true_eq, hpk, hpk, width_iff hlg (by simp) (fun x hx => (hk x (hmem x hx)).1)]
    by_cases hwide : Wide lg d minCount (cur ++ [r])
    · obtain ⟨bands, hb1, hb2⟩ := ih r' (pre ++ (cur ++ [r])) [] (by rw [hpad]; simp) (by intro n h1 h2; simp at h2; omega)
      refine ⟨(pre.length, cur ++ [r]) :: bands, ?_, ?_⟩
      · have := Bands.band (o := pre.length) (b := cur ++ [r]) (l := r' :: rest) (bs := bands) (W := Wide lg d minCount) (by simp) hwide ?_ (by simpa using hb1)
        · simpa using this
        · intro n h1 h2
          have h2 : n ≤ cur.length := by omega
          rw [List.take_append_of_le_length h2]
          exact hcur n h1 h2
      · intro fuel out hf
        obtain ⟨fuel, rfl⟩ : ∃ f, fuel = f + 1 := ⟨fuel - 1, by simp at hf; omega⟩
        rw [rebinLoop, if_pos (hw.2 hwide)]
        have hp := point_ok h0 (bins := bins) (o := pre.length) (b := cur ++ [r]) (by omega) hpiece (fun x hx => (hk x (hmem x hx)).2) (lt_of_lt_of_le hm hwide.2)
        rw [hcl] at hp
        rcases hp with ⟨p, hp1, hp2⟩ | ⟨hp1, hp2⟩
        · rw [hp1]
          show Outcome rows out _ (if bins ≤ pre.length + cur.length + 1 then _ else _)
          rw [if_neg (by omega)]
          have := hb2 fuel (out ++ [p]) (by simp at hf; omega)
          have e : (pre ++ (cur ++ [r])).length = pre.length + cur.length + 1 := by simp; omega
          rw [e] at this
          rcases this with ⟨l, h1, h2⟩ | ⟨h1, band, h2, h3⟩
          · left
            refine ⟨p :: l, ?_, List.Forall₂.cons hp2 h2⟩
            rw [show out ++ p :: l = out ++ [p] ++ l by simp]
            exact h1
          · right
            exact ⟨h1, band, by simp [h2], h3⟩
        · right
          rw [hp1]
          exact ⟨rfl, _, by simp, hp2⟩
    · obtain ⟨bands, hb1, hb2⟩ := ih r' pre (cur ++ [r]) (by rw [hpad]; simp) (by
        intro n h1 h2
        rcases Nat.lt_or_ge cur.length n with h3 | h3
        · have : n = (cur ++ [r]).length := by omega
          rw [this, List.take_length]
          exact hwide
        · rw [List.take_append_of_le_length h3]
          exact hcur n h1 h3)
      refine ⟨bands, by simpa using hb1, ?_⟩
      intro fuel out hf
      obtain ⟨fuel, rfl⟩ : ∃ f, fuel = f + 1 := ⟨fuel - 1, by simp at hf; omega⟩
      rw [rebinLoop, if_neg (fun h => hwide (hw.1 h)), if_neg (by omega)]
      have := hb2 fuel out (by simp at hf; omega)
      rw [hcl] at this
      have e : List.range' pre.length (cur.length + 1) ++ [pre.length + cur.length + 1] = List.range' pre.length (cur.length + 1 + 1) := by
        rw [List.range'_concat (s := pre.length) (n := cur.length + 1), Nat.one_mul, Nat.add_assoc]
      rw [e]
      exact this

end Verif.Spectrum
