import Verif.Model.Match
import Verif.Model.ReduceElements
import Verif.Proofs.FetchElements

set_option linter.unusedSectionVars false

namespace Verif

variable {α : Type*} [LinearOrder α] [Inhabited α]

theorem matchLookup_spec {tmp2 : List α} {ind : List Nat} (hs : Sorted tmp2) (hl : ind.length = tmp2.length) (hne : tmp2 ≠ []) (v : α) :
    (matchLookup tmp2 ind v = -1 ∧ v ∉ tmp2) ∨
    ∃ k j : Nat, tmp2[k]? = some v ∧ ind[k]? = some j ∧ matchLookup tmp2 ind v = (j : Int) ∧ ∀ k' < k, tmp2[k']? ≠ some v := by
  have hmem : v ∈ tmp2 → tmp2[ssLeft tmp2 v]? = some v := by
    intro hv
    obtain ⟨i, hi⟩ := List.getElem?_of_mem hv
    have h1 := lt_iff_lt_ssLeft hs (v := v) hi
    have h2 : ssLeft tmp2 v ≤ i := by simpa using h1
    have hlt : i < tmp2.length := (List.getElem?_eq_some_iff.1 hi).1
    have h3 : ssLeft tmp2 v < tmp2.length := by omega
    rw [List.getElem?_eq_getElem h3]
    congr 1
    have h4 := lt_iff_lt_ssLeft hs (v := v) (List.getElem?_eq_getElem h3)
    have h5 : v ≤ tmp2[ssLeft tmp2 v] := by simpa using h4
    have h6 : tmp2[ssLeft tmp2 v] ≤ v := by
      rcases Nat.lt_or_eq_of_le h2 with h | h
      · have := List.pairwise_iff_getElem.1 hs _ _ h3 hlt h
        rwa [(List.getElem?_eq_some_iff.1 hi).2] at this
      · have := (List.getElem?_eq_some_iff.1 hi).2
        simp only [h]
        rw [this]
    exact le_antisymm h6 h5
  by_cases hv : v ∈ tmp2
  · right
    have h1 := hmem hv
    have h2 : ssLeft tmp2 v < tmp2.length := (List.getElem?_eq_some_iff.1 h1).1
    refine ⟨ssLeft tmp2 v, ind[ssLeft tmp2 v], h1, List.getElem?_eq_getElem (by omega), ?_, ?_⟩
    · unfold matchLookup
      simp only
      have h3 : (if ssLeft tmp2 v ≥ tmp2.length then 0 else ssLeft tmp2 v) = ssLeft tmp2 v := if_neg (by omega)
      rw [h3, if_neg]
      · rw [List.getD_eq_getElem?_getD, List.getElem?_eq_getElem (by omega)]; rfl
      · rw [List.getD_eq_getElem?_getD, h1]; simp
    · intro k' hk' hc
      have := lt_iff_lt_ssLeft hs (v := v) hc
      simp only [lt_self_iff_false, false_iff] at this
      omega
  · left
    refine ⟨?_, hv⟩
    unfold matchLookup
    simp only
    rw [if_pos]
    intro hc
    have h0 := List.length_pos_of_ne_nil hne
    apply hv
    rw [← hc, List.getD_eq_getElem?_getD]
    split_ifs with h
    · rw [List.getElem?_eq_getElem (by omega)]; exact List.getElem_mem _
    · rw [List.getElem?_eq_getElem (by omega)]; exact List.getElem_mem _

theorem fancy?_eq_map {β : Type*} [Inhabited β] {l : List β} {order : List Nat} (h : ∀ i ∈ order, i < l.length) :
    fancy? l (order.map Int.ofNat) = some (fancy l order) := by
  unfold fancy? fancy
  rw [List.mapM_map]
  apply mapM_some
  intro i hi
  simp only [Function.comp_apply, pyGet?]
  rw [if_pos (by simp)]
  have hi := h i hi
  simp [List.getD_eq_getElem?_getD, List.getElem?_eq_getElem hi]

theorem fancy_range {n : Nat} {order : List Nat} (h : ∀ i ∈ order, i < n) : fancy (List.range n) order = order := by
  unfold fancy
  conv_rhs => rw [← List.map_id order]
  apply List.map_congr_left
  intro i hi
  simp [List.getD_eq_getElem?_getD, h i hi]

theorem getElem?_fancy {β : Type*} [Inhabited β] {l : List β} {order : List Nat} (h : ∀ i ∈ order, i < l.length) (k : Nat) :
    (fancy l order)[k]? = order[k]?.bind (fun i => l[i]?) := by
  unfold fancy
  rw [List.getElem?_map]
  cases hk : order[k]? with
  | none => rfl
  | some i =>
    have := h i (List.mem_of_getElem? hk)
    simp [List.getD_eq_getElem?_getD, List.getElem?_eq_getElem this]

/-- The sorting index, as a list of numbers. -/
theorem matchArr_ok {arr1 arr2 : List α} {arr2_sorted : Bool} {arr2_index : Option (List Int)} {order ind : List Nat} (h2 : arr2 ≠ [])
    (hi : (if arr2_sorted then (List.range arr2.length).map Int.ofNat else arr2_index.getD (order.map Int.ofNat)) = ind.map Int.ofNat)
    (hr : ∀ i ∈ ind, i < arr2.length) (hs : Sorted (fancy arr2 ind)) (hne : arr1 = [] ∨ ind ≠ []) :
    ∃ out, matchArr arr1 arr2 arr2_sorted arr2_index order = .ok out ∧ out.length = arr1.length ∧
      ∀ (i : Nat) (v : α), arr1[i]? = some v → (out[i]? = some (-1) ∧ ∀ j ∈ ind, arr2[j]? ≠ some v) ∨
        ∃ k j : Nat, out[i]? = some (j : Int) ∧ ind[k]? = some j ∧ arr2[j]? = some v ∧ ∀ k' < k, ∀ j', ind[k']? = some j' → arr2[j']? ≠ some v := by
  unfold matchArr
  rw [if_neg (by have := List.length_pos_of_ne_nil h2; omega)]
  simp only [hi]
  rw [fancy?_eq_map hr, fancy?_eq_map (by simpa using hr), fancy_range hr]
  simp only
  have hlen : (fancy arr2 ind).length = ind.length := by simp [fancy]
  rw [if_neg]
  · refine ⟨_, rfl, by simp, fun i v hv => ?_⟩
    have hind : ind ≠ [] := by
      rcases hne with h | h
      · subst h; simp at hv
      · exact h
    have hne' : fancy arr2 ind ≠ [] := by
      intro hc
      rw [hc] at hlen
      exact hind (List.length_eq_zero_iff.1 hlen.symm)
    rw [List.getElem?_map, hv]
    rcases matchLookup_spec hs hlen.symm hne' v with ⟨h3, h4⟩ | ⟨k, j, h3, h4, h5, h6⟩
    · left
      refine ⟨by rw [← h3]; rfl, fun j hj hc => h4 ?_⟩
      obtain ⟨k, hk⟩ := List.getElem?_of_mem hj
      have := getElem?_fancy hr k
      rw [hk, Option.bind_some, hc] at this
      exact List.mem_of_getElem? this
    · right
      refine ⟨k, j, by rw [← h5]; rfl, h4, ?_, ?_⟩
      · rw [getElem?_fancy hr, h4] at h3
        simpa using h3
      · intro k' hk' j' hj' hc
        apply h6 k' hk'
        rw [getElem?_fancy hr, hj']
        simpa using hc
  · rintro ⟨h3, h4⟩
    rcases hne with h | h
    · subst h; simp at h4
    · apply h
      rw [hlen] at h3
      exact List.length_eq_zero_iff.1 h3

end Verif
