import Verif.Proofs.Match

set_option linter.unusedSectionVars false

namespace Verif

variable {α : Type*} [LinearOrder α] [Inhabited α]

/-- `out` gives for each element of `arr1` the index of an equal element of `arr2`, or -1 if there is none. -/
def IsMatch {α : Type*} (arr1 arr2 : List α) (out : List Int) : Prop :=
  out.length = arr1.length ∧ ∀ (i : Nat) (v : α), arr1[i]? = some v → (v ∉ arr2 ∧ out[i]? = some (-1)) ∨ ∃ j : Nat, arr2[j]? = some v ∧ out[i]? = some (j : Int)

theorem isMatch_empty (arr1 : List α) (arr2_sorted : Bool) (arr2_index : Option (List Int)) (order : List Nat) :
    ∃ out, matchArr arr1 [] arr2_sorted arr2_index order = .ok out ∧ IsMatch arr1 [] out := by
  refine ⟨_, rfl, by simp, fun i v hv => ?_⟩
  left
  refine ⟨by simp, ?_⟩
  have := (List.getElem?_eq_some_iff.1 hv).1
  simp [this]

/-- C34: any answer `argsort` may give. -/
theorem C34_match {arr1 arr2 : List α} {order : List Nat} (ho : IsArgsort arr2 order) : ∃ out, matchArr arr1 arr2 false none order = .ok out ∧ IsMatch arr1 arr2 out := by
  by_cases h2 : arr2 = []
  · subst h2; exact isMatch_empty _ _ _ _
  obtain ⟨hp, hs⟩ := ho
  have hmem : ∀ i, i ∈ order ↔ i < arr2.length := by intro i; rw [hp.mem_iff]; simp
  obtain ⟨out, h3, h4, h5⟩ := matchArr_ok (arr1 := arr1) (arr2_sorted := false) (arr2_index := none) (order := order) (ind := order) h2 rfl
    (fun i hi => (hmem i).1 hi) hs (Or.inr (by
      rintro rfl
      have := (hmem 0).2 (List.length_pos_of_ne_nil h2)
      simp at this))
  refine ⟨out, h3, h4, fun i v hv => ?_⟩
  rcases h5 i v hv with ⟨h6, h7⟩ | ⟨k, j, h6, h7, h8, -⟩
  · left
    refine ⟨fun hc => ?_, h6⟩
    obtain ⟨j, hj⟩ := List.getElem?_of_mem hc
    exact h7 j ((hmem j).2 (List.getElem?_eq_some_iff.1 hj).1) hj
  · right
    exact ⟨j, h8, h6⟩

/-- C34: a sorting index given by the caller. It may also select a part of `arr2` (in ascending order of values): then only this part is searched. -/
theorem C34_match_index {arr1 arr2 : List α} (order : List Nat) {ind : List Nat} (h2 : arr2 ≠ []) (hr : ∀ i ∈ ind, i < arr2.length) (hs : Sorted (fancy arr2 ind)) (hne : ind ≠ []) :
    ∃ out, matchArr arr1 arr2 false (some (ind.map Int.ofNat)) order = .ok out ∧ out.length = arr1.length ∧
      ∀ (i : Nat) (v : α), arr1[i]? = some v → (out[i]? = some (-1) ∧ ∀ j ∈ ind, arr2[j]? ≠ some v) ∨ ∃ j ∈ ind, arr2[j]? = some v ∧ out[i]? = some (j : Int) := by
  obtain ⟨out, h3, h4, h5⟩ := matchArr_ok (arr1 := arr1) (arr2_sorted := false) (arr2_index := some (ind.map Int.ofNat)) (order := order) (ind := ind) h2 rfl hr hs (Or.inr hne)
  refine ⟨out, h3, h4, fun i v hv => ?_⟩
  rcases h5 i v hv with h6 | ⟨k, j, h6, h7, h8, -⟩
  · exact Or.inl h6
  · exact Or.inr ⟨j, List.mem_of_getElem? h7, h8, h6⟩

/-- C34: with `arr2_sorted` the first of the equal elements is found. -/
theorem C34_match_sorted {arr1 arr2 : List α} (arr2_index : Option (List Int)) (order : List Nat) (hs : Sorted arr2) :
    ∃ out, matchArr arr1 arr2 true arr2_index order = .ok out ∧ IsMatch arr1 arr2 out ∧
      ∀ (i j : Nat) (v : α), arr1[i]? = some v → out[i]? = some (j : Int) → ∀ j' < j, arr2[j']? ≠ some v := by
  by_cases h2 : arr2 = []
  · subst h2
    obtain ⟨out, h3, h4⟩ := isMatch_empty arr1 true arr2_index order
    exact ⟨out, h3, h4, fun i j v _ _ j' _ => by simp⟩
  have hfancy : fancy arr2 (List.range arr2.length) = arr2 := by
    apply List.ext_getElem?
    intro k
    rw [getElem?_fancy (by simp)]
    by_cases hk : k < arr2.length
    · rw [List.getElem?_range hk]; rfl
    · rw [List.getElem?_eq_none (by simpa using hk), List.getElem?_eq_none (by omega)]; rfl
  obtain ⟨out, h3, h4, h5⟩ := matchArr_ok (arr1 := arr1) (arr2_sorted := true) (arr2_index := arr2_index) (order := order) (ind := List.range arr2.length) h2 rfl
    (by simp) (by rw [hfancy]; exact hs) (Or.inr (by simpa using h2))
  refine ⟨out, h3, ⟨h4, fun i v hv => ?_⟩, fun i j v hv hj j' hj' => ?_⟩
  · rcases h5 i v hv with ⟨h6, h7⟩ | ⟨k, j, h6, h7, h8, -⟩
    · left
      refine ⟨fun hc => ?_, h6⟩
      obtain ⟨j, hj⟩ := List.getElem?_of_mem hc
      exact h7 j (List.mem_range.2 (List.getElem?_eq_some_iff.1 hj).1) hj
    · exact Or.inr ⟨j, h8, h6⟩
  · rcases h5 i v hv with ⟨h6, h7⟩ | ⟨k, j₂, h6, h7, h8, h9⟩
    · rw [h6] at hj
      simp only [Option.some.injEq] at hj
      omega
    · rw [hj] at h6
      simp only [Option.some.injEq, Int.natCast_inj] at h6
      subst h6
      have hk : k < arr2.length := by simpa using (List.getElem?_eq_some_iff.1 h7).1
      rw [List.getElem?_range hk] at h7
      simp only [Option.some.injEq] at h7
      subst h7
      exact h9 j' hj' j' (List.getElem?_range (by omega))

/-- C34: if the values in `arr2` are distinct the answer is determined. -/
theorem C34_match_unique {arr1 arr2 : List α} {out out' : List Int} (hn : arr2.Nodup) (h : IsMatch arr1 arr2 out) (h' : IsMatch arr1 arr2 out') : out = out' := by
  apply List.ext_getElem?
  intro i
  by_cases hi : i < arr1.length
  · have hv := List.getElem?_eq_getElem hi
    rcases h.2 i _ hv with ⟨h1, h2⟩ | ⟨j, h1, h2⟩ <;> rcases h'.2 i _ hv with ⟨h3, h4⟩ | ⟨j', h3, h4⟩
    · rw [h2, h4]
    · exact absurd (List.mem_of_getElem? h3) h1
    · exact absurd (List.mem_of_getElem? h1) h3
    · rw [h2, h4]
      have := (List.getElem?_inj (List.getElem?_eq_some_iff.1 h1).1 hn).1 (h1.trans h3.symm)
      rw [this]
  · rw [List.getElem?_eq_none (by rw [h.1]; omega), List.getElem?_eq_none (by rw [h'.1]; omega)]

example : IsArgsort [30, 10, 20, 10] [3, 1, 2, 0] := by constructor <;> decide
example : matchArr [10, 20, 15, 30, 40] [30, 10, 20, 10] false none [3, 1, 2, 0] = .ok [3, 2, -1, 0, -1] := by decide +kernel
example : matchArr [10, 20, 15] [10, 10, 20] true none [] = .ok [0, 2, -1] := by decide +kernel
example : matchArr [10, 20, 30] [30, 10, 20, 10] false (some [1, 0]) [] = .ok [1, -1, 0] := by decide +kernel

end Verif
