import Verif.Proofs.SumRanges
import Mathlib.Algebra.Order.Ring.Rat
import Mathlib.Algebra.Field.Rat

set_option linter.unusedSectionVars false

namespace Verif

variable {α : Type*}

/-- C35: any number of ranges. The result is that of assigning one range after the other. -/
theorem C35_assign_ranges {array : List α} {R : List (Nat × Nat × α)} (h : RangesOk array.length (R.map (fun r => (r.1, r.2.1)))) :
    assignRanges array (R.map (fun r => (r.1 : Int))) (R.map (fun r => (r.2.1 : Int))) (R.map (fun r => r.2.2)) = .ok (assignEach array R) := assignRanges_ok h

theorem length_paint {n s : Nat} {R : List (Nat × Nat × α)} {rest : List α} (h : Asc n s (rng R)) (hrest : rest.length = n - s) : (paint R s rest).length = n - s := by
  induction R generalizing s rest with
  | nil => exact hrest
  | cons r R ih =>
    obtain ⟨o, l, v⟩ := r
    have h1 : s ≤ o := h.1
    have h2 : Asc n (o + l) (rng R) := h.2
    have h3 := h2.le
    simp only [paint, List.length_append, List.length_take, List.length_replicate]
    rw [ih h2 (by rw [List.length_drop]; omega)]
    omega

theorem getElem?_paint {n s : Nat} {R : List (Nat × Nat × α)} {rest : List α} (h : Asc n s (rng R)) (hrest : rest.length = n - s) (i : Nat) :
    (∀ r ∈ R, r.1 ≤ s + i → s + i < r.1 + r.2.1 → (paint R s rest)[i]? = some r.2.2) ∧
    ((∀ r ∈ R, ¬ (r.1 ≤ s + i ∧ s + i < r.1 + r.2.1)) → (paint R s rest)[i]? = rest[i]?) := by
  induction R generalizing s rest i with
  | nil => simp [paint]
  | cons r R ih =>
    obtain ⟨o, l, v⟩ := r
    have h1 : s ≤ o := h.1
    have h2 : Asc n (o + l) (rng R) := h.2
    have h3 := h2.le
    have hge : ∀ r ∈ R, o + l ≤ r.1 := by
      intro r hr
      have := h2.mem_ge (r.1, r.2.1) (List.mem_map.2 ⟨r, hr, rfl⟩)
      exact this
    have hlen : (rest.take (o - s)).length = o - s := by rw [List.length_take]; omega
    simp only [paint, List.append_assoc]
    by_cases ha : s + i < o
    · constructor
      · intro r hr h4 h5
        rcases List.mem_cons.1 hr with rfl | hr
        · simp only at h4; omega
        · have := hge r hr; omega
      · intro _
        rw [List.getElem?_append_left (by omega), List.getElem?_take, if_pos (by omega)]
    · by_cases hb : s + i < o + l
      · have e : (rest.take (o - s) ++ (List.replicate l v ++ paint R (o + l) (rest.drop (o - s + l))))[i]? = some v := by
          rw [List.getElem?_append_right (by omega), List.getElem?_append_left (by rw [List.length_replicate]; omega), List.getElem?_replicate, if_pos (by omega)]
        constructor
        · intro r hr h4 h5
          rcases List.mem_cons.1 hr with rfl | hr
          · exact e
          · have := hge r hr; omega
        · intro hno
          exact absurd ⟨by simp only; omega, by simp only; omega⟩ (hno (o, l, v) (by simp))
      · have e : (rest.take (o - s) ++ (List.replicate l v ++ paint R (o + l) (rest.drop (o - s + l))))[i]? =
            (paint R (o + l) (rest.drop (o - s + l)))[i - (o - s + l)]? := by
          rw [List.getElem?_append_right (by omega), List.getElem?_append_right (by rw [List.length_replicate]; omega), List.length_replicate, hlen]
          congr 1; omega
        obtain ⟨i1, i2⟩ := ih h2 (rest := rest.drop (o - s + l)) (by rw [List.length_drop]; omega) (i - (o - s + l))
        have hi : o + l + (i - (o - s + l)) = s + i := by omega
        rw [hi] at i1 i2
        rw [e]
        constructor
        · intro r hr h4 h5
          rcases List.mem_cons.1 hr with rfl | hr
          · simp only at h5; omega
          · exact i1 r hr h4 h5
        · intro hno
          rw [i2 (fun r hr => hno r (by simp [hr])), List.getElem?_drop]
          congr 1; omega

/-- C35: an element inside a range gets its value, other elements keep theirs; the length does not change. -/
theorem C35_assign_ranges_point {array : List α} {R : List (Nat × Nat × α)} (h : RangesOk array.length (R.map (fun r => (r.1, r.2.1)))) :
    ∃ out, assignRanges array (R.map (fun r => (r.1 : Int))) (R.map (fun r => (r.2.1 : Int))) (R.map (fun r => r.2.2)) = .ok out ∧ out.length = array.length ∧
      ∀ i, (∀ r ∈ R, r.1 ≤ i → i < r.1 + r.2.1 → out[i]? = some r.2.2) ∧ ((∀ r ∈ R, ¬ (r.1 ≤ i ∧ i < r.1 + r.2.1)) → out[i]? = array[i]?) := by
  refine ⟨_, assignRanges_ok h, ?_⟩
  have hasc : Asc array.length 0 (rng R) := RangesOk.asc h (by omega) (fun r _ => by omega)
  have hp := assignEach_eq_paint (B := []) (rest := array) hasc rfl rfl
  simp only [List.nil_append] at hp
  rw [hp]
  refine ⟨length_paint hasc rfl, fun i => ?_⟩
  have := getElem?_paint (rest := array) hasc rfl i
  simpa using this

/-- C35: two or more ranges which are not in order, overlap, or do not fit in the array give a `ValueError`. -/
theorem C35_assign_ranges_error {array : List α} {offset length : List Int} {value : List α} (hl1 : offset.length = length.length) (hl2 : length.length = value.length)
    (h2 : 2 ≤ offset.length) (hno : ¬ IntRangesOk array.length (offset.zip length)) : assignRanges array offset length value = .error .valueError :=
  assignRanges_error hl1 hl2 h2 hno

/-- A single range is not checked: it is clipped, and a negative offset counts from the end. -/
theorem C35_single_range_unchecked :
    assignRanges [1, 2, 3] [2] [5] [9] = .ok [1, 2, 9] ∧ assignRanges [1, 2, 3] [-2] [1] [9] = .ok [1, 9, 3] ∧ assignRanges [1, 2, 3] [7] [2] [9] = .ok [1, 2, 3] := by
  refine ⟨?_, ?_, ?_⟩ <;> decide +kernel

/-- C35: arrays of different lengths give a `ValueError`. -/
theorem C35_lengths_differ {array : List α} {offset length : List Int} {value : List α} (h : offset.length ≠ length.length ∨ length.length ≠ value.length) :
    assignRanges array offset length value = .error .valueError := by
  unfold assignRanges
  rw [if_pos]
  intro hc
  rcases h with h | h
  · exact h hc.1
  · exact h hc.2

example : RangesOk 8 [(1, 2), (3, 0), (5, 3)] := by constructor <;> decide
example : assignRanges [0, 0, 0, 0, 0, 0, 0, 0] [1, 3, 5] [2, 0, 3] [7, 8, 9] = .ok [0, 7, 7, 0, 0, 9, 9, 9] := by decide +kernel
example : assignRanges [0, 0, 0, 0] [2, 0] [2, 2] [7, 8] = .error .valueError := by decide +kernel

/-- C36: sums, weighted sums and means over ranges. -/
theorem C36_sum_ranges [Field α] {array : List α} {R : List (Nat × Nat)} (h : RangesOk array.length R) (weight : Option (List α)) (hw : ∀ w, weight = some w → w.length = array.length)
    (normalize : Bool) : sumRanges array (R.map (fun r => (r.1 : Int))) (R.map (fun r => (r.2 : Int))) weight normalize =
      .ok (R.map (fun r => rangeSum array weight normalize r.1 r.2)) := sumRanges_ok h weight hw normalize

/-- C36: an empty range gives zero in all variants. -/
theorem C36_empty [Field α] (array : List α) (weight : Option (List α)) (normalize : Bool) (o : Nat) : rangeSum array weight normalize o 0 = 0 := by
  cases weight <;> cases normalize <;> simp [rangeSum, slice]

/-- C36: if two or more ranges have positive length and they are not in order, overlap or do not fit, there is a `ValueError`. -/
theorem C36_sum_ranges_error [Field α] {array : List α} {offset length : List Int} (weight : Option (List α)) (normalize : Bool)
    (h2 : 2 ≤ (length.filter (fun l => decide (l > 0))).length) (hl : offset.length = length.length)
    (hno : ¬ IntRangesOk array.length ((offset.zip length).filter (fun r => decide (r.2 > 0)))) : sumRanges array offset length weight normalize = .error .valueError := by
  have e1 : (offset.zip (length.map (fun l => decide (l > 0)))).filterMap (fun e => if e.2 then some e.1 else none) =
      ((offset.zip length).filter (fun r => decide (r.2 > 0))).map Prod.fst ∧
      length.filter (fun l => decide (l > 0)) = ((offset.zip length).filter (fun r => decide (r.2 > 0))).map Prod.snd := by
    clear h2 hno
    induction offset generalizing length with
    | nil =>
      have : length = [] := List.length_eq_zero_iff.1 (by simpa using hl.symm)
      subst this
      exact ⟨rfl, rfl⟩
    | cons o offset ih =>
      cases length with
      | nil => simp at hl
      | cons l length =>
        obtain ⟨i1, i2⟩ := ih (length := length) (by simpa using hl)
        rw [List.map_cons, List.zip_cons_cons, List.filterMap_cons, List.zip_cons_cons, i1]
        by_cases h0 : l > 0
        · rw [List.filter_cons_of_pos (by simpa using h0), List.filter_cons_of_pos (by simpa using h0), i2]
          simp [h0]
        · rw [List.filter_cons_of_neg (by simpa using h0), List.filter_cons_of_neg (by simpa using h0), i2]
          simp [h0]
  unfold sumRanges
  simp only [e1.1, e1.2]
  rw [e1.2] at h2
  rw [assignRanges_error (by simp) (by simp) (by simpa using h2)]
  rw [List.length_replicate]
  have : ∀ l : List (Int × Int), (l.map Prod.fst).zip (l.map Prod.snd) = l := by
    intro l; rw [List.zip_map']; simp
  rw [this]
  exact hno

example : RangesOk 5 [(0, 2), (2, 0), (3, 2)] := by constructor <;> decide
example : sumRanges [1, 2, 3, 4, 5] [0, 2, 3] [2, 0, 2] (some [1, 1, 1, 1, 3]) true = .ok [(3 / 2 : ℚ), 0, 19 / 4] := by decide +kernel
example : sumRanges [1, 2, 3, 4, 5] [0, 2, 3] [2, 0, 2] none false = .ok [(3 : ℚ), 0, 9] := by decide +kernel

end Verif
