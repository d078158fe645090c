import Verif.Proofs.WeightedMedian
import Verif.Spec.WeightedMedian

/-! C04: `weighted_median` -/

namespace Verif

variable {α : Type*}

private theorem sum_nonneg_of {l : List (α × ℚ)} (h : ∀ e ∈ l, 0 ≤ e.2) : 0 ≤ (l.map Prod.snd).sum :=
  List.sum_nonneg (by
    intro x hx
    obtain ⟨e, he, rfl⟩ := List.mem_map.1 hx
    exact h e he)

private theorem sum_filter_le {l : List (α × ℚ)} (p : α × ℚ → Bool) (h : ∀ e ∈ l, 0 ≤ e.2) :
    ((l.filter p).map Prod.snd).sum ≤ (l.map Prod.snd).sum := by
  induction l with
  | nil => simp
  | cons x l ih =>
    have := ih (fun e he => h e (by simp [he]))
    have hx := h x (by simp)
    rw [List.filter_cons]
    split
    · simpa using this
    · simp only [List.map_cons, List.sum_cons]; linarith

/-- C04. For non-negative weights which are not all zero, `weighted_median` returns the value of an entry with positive
weight, and the entries with smaller values, and those with larger values, each have at most half of the total weight. -/
theorem C04_weighted_median [LinearOrder α] [Inhabited α] (arr : List α) (weight : List ℚ)
    (hlen : arr.length = weight.length) (hnn : ∀ w ∈ weight, 0 ≤ w) (hpos : 0 < weight.sum) :
    ∃ (m : α) (k : Nat) (w : ℚ), weightedMedian arr weight = .ok m ∧ arr[k]? = some m ∧ weight[k]? = some w ∧ 0 < w ∧
      Spec.weightBelow arr weight m ≤ weight.sum / 2 ∧ Spec.weightAbove arr weight m ≤ weight.sum / 2 := by
  obtain ⟨A, e, B, hp, hs, hm, he, hA, hB⟩ := weightedMedian_split hlen hnn hpos
  have hmem : e ∈ arr.zip weight := hp.mem_iff.1 (by simp)
  obtain ⟨k, hk⟩ := List.mem_iff_getElem?.1 hmem
  have hk' := List.getElem?_zip_eq_some.1 hk
  have hnn' : ∀ x ∈ A ++ e :: B, 0 ≤ x.2 := fun x hx => hnn _ (List.of_mem_zip (hp.mem_iff.1 hx)).2
  have hs' := List.pairwise_append.1 hs
  refine ⟨e.1, k, e.2, hm, hk'.1, hk'.2, he, ?_, ?_⟩
  · unfold Spec.weightBelow
    rw [((hp.symm.filter _).map Prod.snd).sum_eq, List.filter_append]
    have : (e :: B).filter (fun x => decide (x.1 < e.1)) = [] := by
      rw [List.filter_eq_nil_iff]
      intro x hx
      have hle : e.1 ≤ x.1 := by
        rcases List.mem_cons.1 hx with rfl | hx
        · exact le_refl _
        · exact (List.pairwise_cons.1 hs'.2.1).1 x hx
      simpa using hle
    rw [this, List.append_nil]
    exact le_trans (sum_filter_le _ fun x hx => hnn' x (by simp [hx])) (le_of_lt hA)
  · unfold Spec.weightAbove
    have hsplit : A ++ e :: B = (A ++ [e]) ++ B := by simp
    rw [((hp.symm.filter _).map Prod.snd).sum_eq, hsplit, List.filter_append]
    have : (A ++ [e]).filter (fun x => decide (e.1 < x.1)) = [] := by
      rw [List.filter_eq_nil_iff]
      intro x hx
      have hle : x.1 ≤ e.1 := by
        rcases List.mem_append.1 hx with hx | hx
        · exact hs'.2.2 x hx e (by simp)
        · simp at hx; subst hx; exact le_refl _
      simpa using hle
    rw [this, List.nil_append]
    exact le_trans (sum_filter_le _ fun x hx => hnn' x (by simp [hx])) hB

/-- Padding entries of weight zero (value 0) surround a tie at exactly one half. -/
example : weightedMedian [0, 5, 0, 9, 2] [0, 1/4, 0, 1/4, (0 : ℚ)] = .ok 5 := by decide +kernel

example : (∀ w ∈ [0, 1/4, 0, 1/4, (0 : ℚ)], 0 ≤ w) ∧ 0 < [0, 1/4, 0, 1/4, (0 : ℚ)].sum := by decide +kernel

end Verif
