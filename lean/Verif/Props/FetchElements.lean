import Verif.Proofs.FetchElements
import Verif.Proofs.FetchInvalid

/-! C09: `fetch_elements`; C18: out of range indexes -/

namespace Verif

variable {α : Type*}

/-- C09. For in-range global indexes `fetch_elements` succeeds on every rank, and element `i` of the result is element
`index[i]` of the concatenated array, with or without a result buffer. -/
theorem C09_fetch_elements [Inhabited α] (P : Nat) (arr : Nat → List α) (index : Nat → List Int)
    (result : Option (Nat → List α))
    (hresult : ∀ r, result = some r → ∀ me < P, (r me).length = (index me).length)
    (hin : ∀ me < P, ∀ i ∈ index me, 0 ≤ i ∧ i < (gcat P arr).length) :
    ∃ out, fetchElements P arr index result = .ok out ∧
      ∀ me < P, (out me).map some = (index me).map (fun i => (gcat P arr)[i.toNat]?) := by
  rw [length_gcat] at hin
  obtain ⟨out, h1, h2⟩ := fetchElements_ok hresult hin
  refine ⟨out, h1, ?_⟩
  intro me hme
  rw [h2 me hme, List.map_map]
  apply List.map_congr_left
  intro i hi
  have h := hin me hme i hi
  have : i.toNat < (gcat P arr).length := by rw [length_gcat]; omega
  simp [List.getD_eq_getElem?_getD, List.getElem?_eq_getElem this]

/-- Three ranks (one without data), repeated and unordered requests, one rank requesting nothing. -/
example : ∃ out, fetchElements 3 (fun r => [[10, 11, 12], [], [13, 14]].getD r [])
    (fun r => [[4, 0, 4], [3, 1], []].getD r []) = .ok out ∧
    out 0 = [14, 10, 14] ∧ out 1 = [13, 11] ∧ out 2 = [] := ⟨_, rfl, by decide, by decide, by decide⟩

example : ∀ me < 3, ∀ i ∈ (fun r => [[4, 0, 4], [3, 1], []].getD r []) me,
    (0 : Int) ≤ i ∧ i < (gcat 3 (fun r => [[10, 11, 12], [], [13, 14]].getD r [] : Nat → List Nat)).length := by
  decide

/-! C18: what happens for arbitrary integer indexes. -/

/-- C18. Which slots of a request have an answer, and that it is unique: all but the last `negatives` ones. -/
theorem C18_slots (P : Nat) (hP : 0 < P) (arr : Nat → List α) [Inhabited α] (index : List Int) (k : Nat) :
    (k + negatives index < index.length →
      ∃! v, SlotAnswer P arr (fancy index (argsort index)) k v) ∧
    (index.length ≤ k + negatives index → ∀ v, ¬ SlotAnswer P arr (fancy index (argsort index)) k v) := by
  have hneg : negatives (fancy index (argsort index)) = negatives index := by
    unfold negatives
    exact ((fancy_argsort_perm index).filter _).length_eq
  have hlen : (fancy index (argsort index)).length = index.length := (fancy_argsort_perm index).length_eq
  constructor
  · intro hk
    obtain ⟨v, hv⟩ := slotAnswer_exists hP arr (fancy_argsort_sorted index) (k := k) (by omega)
    refine ⟨v, hv, ?_⟩
    obtain ⟨x, y, d, hx, hy, ha, rfl⟩ := hv
    rintro w ⟨x', y', d', hx', hy', ha', rfl⟩
    have e1 : x' = x := Option.some.inj (hx'.symm.trans hx)
    have e2 : y' = y := Option.some.inj (hy'.symm.trans hy)
    subst e1 e2
    have : d' = d := by
      obtain ⟨a1, a2, a3⟩ := ha
      obtain ⟨b1, b2, b3⟩ := ha'
      rcases Nat.lt_trichotomy d' d with h | h | h
      · have := b3 (by omega)
        have := pre_mono (sizes arr) (a := d' + 1) (b := d) (by omega)
        omega
      · exact h
      · have := a3 (by omega)
        have := pre_mono (sizes arr) (a := d + 1) (b := d') (by omega)
        omega
    rw [this]
  · rintro hk v ⟨x, y, d, hx, hy, -⟩
    have := (List.getElem?_eq_some_iff.1 hy).1
    omega

/-- C18. For any integer indexes at all, the call fails exactly if the lookup for one of the slots fails, and otherwise it
returns on every rank. -/
theorem C18_fails_iff [Inhabited α] (P : Nat) (arr : Nat → List α) (index : Nat → List Int)
    (result : Option (Nat → List α)) :
    (fetchElements P arr index result = .error .indexError ↔
      ∃ me < P, ∃ k, SlotAnswer P arr (fancy (index me) (argsort (index me))) k none) ∧
    (fetchElements P arr index result ≠ .error .indexError → ∃ out, fetchElements P arr index result = .ok out) :=
  ⟨fetchElements_error_iff P arr index result, fetchElements_not_error P arr index result⟩

/-- C18. What is returned for any integer indexes at all: position `j` of the result, which is slot `k` of the request in
ascending order, has the answer for slot `k`; the last slots, as many as there are negative indexes in the request, are not
answered and their positions have what the result buffer had in these slots before the call. -/
theorem C18_values [Inhabited α] (P : Nat) (arr : Nat → List α) (index : Nat → List Int)
    (result : Option (Nat → List α))
    (hresult : ∀ r, result = some r → ∀ me < P, (r me).length = (index me).length)
    (out : Nat → List α) (hok : fetchElements P arr index result = .ok out) (me : Nat) (hme : me < P) :
    (out me).length = (index me).length ∧
    ∀ k j, (argsort (index me))[k]? = some j →
      (∀ v, SlotAnswer P arr (fancy (index me) (argsort (index me))) k v → (out me)[j]? = v) ∧
      ((index me).length ≤ k + negatives (index me) → ∀ r, result = some r → (out me)[j]? = (r me)[k]?) :=
  fetchElements_values P arr index result hresult hok hme

/-- C18. If no index is negative, then an index beyond the end of the array on any rank makes the call fail with an
`IndexError`. -/
theorem C18_too_large [Inhabited α] (P : Nat) (arr : Nat → List α) (index : Nat → List Int)
    (result : Option (Nat → List α)) (h0 : ∀ me < P, ∀ i ∈ index me, 0 ≤ i)
    (hbig : ∃ me < P, ∃ i ∈ index me, ((gcat P arr).length : Int) ≤ i) :
    fetchElements P arr index result = .error .indexError := by
  obtain ⟨me, hme, i, hi, h⟩ := hbig
  rw [length_gcat] at h
  exact fetchElements_too_large h0 hme hi h

example : ∃ me < 2, ∃ i ∈ (fun r => [[3], [4, 0]].getD r []) me,
    ((gcat 2 (fun r => [[10, 11], [12, 13]].getD r [] : Nat → List Nat)).length : Int) ≤ i := by decide

/-- C18. A call with a negative index that does not fail never answers the request correctly: the largest index of the
request is not looked up, and its position has whatever was last in the result buffer. -/
theorem C18_negative_stale [Inhabited α] (P : Nat) (arr : Nat → List α) (index : Nat → List Int)
    (r : Nat → List α) (hresult : ∀ me < P, (r me).length = (index me).length)
    (out : Nat → List α) (hok : fetchElements P arr index (some r) = .ok out) (me : Nat) (hme : me < P)
    (i : Int) (hi : i ∈ index me) (hneg : i < 0) :
    ∃ j, (∀ i' ∈ index me, ∀ x, (index me)[j]? = some x → i' ≤ x) ∧ j < (index me).length ∧
      (out me)[j]? = (r me).getLast? := by
  have hperm := argsort_perm (index me)
  have hlen : (argsort (index me)).length = (index me).length := by rw [hperm.length_eq, List.length_range]
  have hpos : 0 < (index me).length := List.length_pos_of_mem hi
  have hk : (index me).length - 1 < (argsort (index me)).length := by omega
  have hj := List.getElem?_eq_getElem hk
  have hjl : (argsort (index me))[(index me).length - 1] < (index me).length :=
    List.mem_range.1 (hperm.mem_iff.1 (List.getElem_mem hk))
  have hn : 0 < negatives (index me) := by
    unfold negatives
    exact List.length_pos_of_mem (List.mem_filter.2 ⟨hi, by simpa using hneg⟩)
  have hS : (fancy (index me) (argsort (index me))).length = (index me).length := by simp [fancy, hlen]
  refine ⟨_, ?_, hjl, ?_⟩
  · intro i' hi' x hx
    have hl : (fancy (index me) (argsort (index me)))[(index me).length - 1]? = some x := by
      unfold fancy
      rw [List.getElem?_map, hj, Option.map_some, List.getD_eq_getElem?_getD, hx]
      rfl
    obtain ⟨a, ha⟩ := List.mem_iff_getElem?.1 ((fancy_argsort_perm (index me)).mem_iff.2 hi')
    have hal := (List.getElem?_eq_some_iff.1 ha).1
    rcases Nat.eq_or_lt_of_le (show a ≤ (index me).length - 1 by omega) with h | h
    · rw [h, hl] at ha
      exact le_of_eq (Option.some.inj ha).symm
    · obtain ⟨hb, hbx⟩ := List.getElem?_eq_some_iff.1 hl
      obtain ⟨hc, hcx⟩ := List.getElem?_eq_some_iff.1 ha
      have := List.pairwise_iff_getElem.1 (fancy_argsort_sorted (index me)) a _ hc hb h
      rw [hbx, hcx] at this
      exact this
  · have := (C18_values P arr index (some r) (by rintro r' h; cases h; exact hresult) out hok me hme).2 _ _ hj
    rw [this.2 (by omega) r rfl, List.getLast?_eq_getElem?, hresult me hme]

/-- On two ranks holding `[10, 11]` and `[12, 13]`, rank 0 asking for indexes `[-1, 0, 3]` is answered without an error, and
gets 12 for index 0 although element 0 is 10. -/
theorem C18_negative_index_counterexample :
    ∃ out, fetchElements 2 (fun r => [[10, 11], [12, 13]].getD r [])
        (fun r => [[-1, 0, 3], []].getD r []) = .ok out ∧ (out 0)[1]? = some 12 :=
  ⟨_, rfl, by decide⟩

/-- The same request in the terms of `C18_values`: slot 1 (index 0) is answered by rank 1, because that is the rank to be
asked for the index in slot 2. -/
example : SlotAnswer 2 (fun r => [[10, 11], [12, 13]].getD r []) [-1, 0, 3] 1 (some 12) :=
  ⟨0, 3, 1, rfl, rfl, ⟨by decide, by decide, by decide⟩, by decide⟩

/-- An index so negative that the lookup fails. -/
example : SlotAnswer 2 (fun r => [[10, 11], [12, 13]].getD r []) [-7, 0, 3] 0 none :=
  ⟨-7, 0, 0, rfl, rfl, ⟨by decide, by decide, by decide⟩, by decide⟩

/-- Whatever was in the last place of the result buffer stays there. -/
theorem C18_negative_index_stale (x y : Nat) :
    ∃ out, fetchElements 1 (fun _ => [10, 20]) (fun _ => [-1, 0]) (some fun _ => [x, y]) = .ok out ∧
      out 0 = [20, y] :=
  ⟨_, rfl, rfl⟩

end Verif
