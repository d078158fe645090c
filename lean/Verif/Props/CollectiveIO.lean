import Verif.Proofs.CollectiveIO

namespace Verif

variable {α τ : Type*}

/-- C31: the parts are consecutive and together are the dataset; they differ by at most one element in length; all ranks make the same number of collective calls, each within the buffer size and
the dataset. -/
theorem C31_collective_read [Inhabited α] {P : Nat} (hP : 0 < P) (dataset : List α) {itemsize : Nat} {dims : List Nat} {buffer_size : Nat}
    (h0 : 0 < elementSize itemsize dims) (hb : elementSize itemsize dims ≤ buffer_size) :
    ∃ out, collectiveRead P dataset itemsize dims buffer_size = .ok out ∧ gcat P (fun r => (out r).1) = dataset ∧
      (∀ r < P, dataset.length / P ≤ (out r).1.length ∧ (out r).1.length ≤ dataset.length / P + 1) ∧
      (∃ n, ∀ r < P, (out r).2.length = n) ∧
      (∀ r < P, ∀ c ∈ (out r).2, c.2 * elementSize itemsize dims ≤ buffer_size ∧ c.1 + c.2 ≤ dataset.length) := by
  obtain ⟨out, h1, h2, h3, h4⟩ := collectiveRead_ok hP dataset h0 hb
  refine ⟨out, h1, ?_, ?_, h3, h4⟩
  · rw [gcat_congr h2]
    have := gcat_slice dataset (numOnTask dataset.length P) 0 P
    simp only [Nat.zero_add] at this
    rw [this, pre_numOnTask _ _ hP, slice_all]
  · intro r hr
    rw [h2 r hr, length_slice_of_le]
    · unfold numOnTask
      split_ifs <;> omega
    · have := pre_lt_total (f := numOnTask dataset.length P) hr
      rw [pre_numOnTask _ _ hP] at this
      exact this

example : (collectiveRead 2 (List.range 21) 8 [] 40).toOption.map (fun out => (out 0, out 1)) =
    some ((List.range 11, [(0, 5), (5, 5), (10, 1)]), (List.range' 11 10, [(11, 5), (16, 5), (21, 0)])) := by decide +kernel

/-- C32: the dataset contains the arrays of the ranks in order; each row is written exactly once, to the place it belongs to, each call writes at most the buffer size, and the loop ends. All ranks
take part in all calls. -/
theorem C32_collective_write [DecidableEq τ] {P : Nat} {data : Nat → TypedArray τ α} {itemsize : τ → Nat} {buffer_size fuel : Nat} {old : List α}
    (hdims : ∀ r < P, (data r).dims = (data 0).dims) (hdtype : ∀ r < P, (data r).dtype = (data 0).dtype)
    (h0 : 0 < elementSize (itemsize (data 0).dtype) (data 0).dims) (hb : elementSize (itemsize (data 0).dtype) (data 0).dims ≤ buffer_size)
    (hold : old.length = pre (fun r => (data r).rows.length) P) (hfuel : ∀ r < P, (data r).rows.length ≤ fuel) :
    ∃ calls, collectiveWrite P data itemsize buffer_size fuel old = .ok (calls, gcat P (fun r => (data r).rows)) ∧
      (∀ c ∈ calls, ∀ r < P, (c r).nr_to_write * elementSize (itemsize (data 0).dtype) (data 0).dims ≤ buffer_size) ∧
      ∀ r < P, callRows r calls = (List.range (data r).rows.length).map (fun k => (pre (fun r => (data r).rows.length) r + k, k)) := by
  obtain ⟨calls, h1, h2, h3⟩ := collectiveWrite_ok (fuel := fuel) (old := old) hdims hdtype h0 hb (by omega) hfuel
  refine ⟨calls, ?_, h2, h3⟩
  rw [h1, List.drop_of_length_le (by omega), List.append_nil]

/-- C32: arrays which differ in type or dimensions are rejected on all ranks. -/
theorem C32_inconsistent [DecidableEq τ] {P : Nat} {data : Nat → TypedArray τ α} (itemsize : τ → Nat) (buffer_size fuel : Nat) (old : List α)
    (h : ∃ r < P, (data r).dims ≠ (data 0).dims ∨ (data r).dtype ≠ (data 0).dtype) : collectiveWrite P data itemsize buffer_size fuel old = .error .valueError := by
  obtain ⟨r, hr, hne⟩ := h
  unfold collectiveWrite
  simp only
  by_cases h1 : (List.range P).any (fun r => decide ((data r).dims ≠ (data 0).dims)) = true
  · rw [if_pos h1]
  · rw [if_neg h1, if_pos]
    simp only [List.any_eq_true, List.mem_range, decide_eq_true_eq, not_exists, not_and] at h1 ⊢
    rcases hne with hne | hne
    · exact absurd hne (h1 r hr)
    · exact ⟨r, hr, hne⟩

example : ((collectiveWrite 3 (fun r => (⟨(), [], List.replicate (3 * r) r⟩ : TypedArray Unit Nat)) (fun _ => 8) 32 10 (List.replicate 9 0)).toOption.map
      (fun out => (out.1.map (fun c => (List.range 3).map c), out.2))) =
    some ([[⟨0, 0, 0⟩, ⟨0, 0, 3⟩, ⟨3, 0, 4⟩], [⟨0, 0, 0⟩, ⟨3, 3, 0⟩, ⟨7, 4, 2⟩]], [1, 1, 1, 2, 2, 2, 2, 2, 2]) := by decide +kernel

/-- C33: `collective_write` never ends if a row is larger than the buffer and there is at least one row. -/
theorem C33_collective_write_diverges [DecidableEq τ] {P : Nat} {data : Nat → TypedArray τ α} {itemsize : τ → Nat} {buffer_size : Nat} (fuel : Nat) {old : List α}
    (hdims : ∀ r < P, (data r).dims = (data 0).dims) (hdtype : ∀ r < P, (data r).dtype = (data 0).dtype)
    (hb : buffer_size < elementSize (itemsize (data 0).dtype) (data 0).dims)
    (hold : old.length = pre (fun r => (data r).rows.length) P) (hrow : ∃ r < P, (data r).rows ≠ []) :
    collectiveWrite P data itemsize buffer_size fuel old = .error .diverges := by
  unfold collectiveWrite
  simp only
  rw [if_neg, if_neg, if_neg (by omega), if_neg (by omega), Nat.div_eq_of_lt hb]
  · apply cwLoop_diverges
    obtain ⟨r, hr, hne⟩ := hrow
    have := pre_lt_total (f := fun r => (data r).rows.length) hr
    have := List.length_pos_of_ne_nil hne
    omega
  · simp only [List.any_eq_true, List.mem_range, decide_eq_true_eq, not_exists, not_and, ne_eq, not_not]
    exact hdtype
  · simp only [List.any_eq_true, List.mem_range, decide_eq_true_eq, not_exists, not_and, ne_eq, not_not]
    exact hdims

/-- C33: `collective_read` of a dataset with rows larger than the buffer, and at least ten rows per rank, reads nothing: all ranks return the uninitialised array without error. -/
theorem C33_collective_read_unread [Inhabited α] {P : Nat} (dataset : List α) {itemsize : Nat} {dims : List Nat} {buffer_size : Nat}
    (hb : buffer_size < elementSize itemsize dims) (hlen : 10 * P ≤ dataset.length) :
    ∃ out, collectiveRead P dataset itemsize dims buffer_size = .ok out ∧ ∀ r, out r = (emptyArray (numOnTask dataset.length P r), []) := by
  unfold collectiveRead
  simp only
  rw [if_neg (by omega), if_neg (by omega)]
  refine ⟨_, rfl, fun r => ?_⟩
  simp only [Nat.div_eq_of_lt hb]
  have : ((List.range P).map (fun r => npDiv (numOnTask dataset.length P r) 0 + if npMod (numOnTask dataset.length P r) 0 > 0 then 1 else 0)).foldl max 0 = 0 := by
    have h0 : ∀ r, (npDiv (numOnTask dataset.length P r) 0 + if npMod (numOnTask dataset.length P r) 0 > 0 then 1 else 0) = 0 := by intro r; simp [npDiv, npMod]
    simp only [h0]
    generalize List.range P = l
    induction l with
    | nil => rfl
    | cons x l ih => simpa using ih
  rw [this]
  rfl

/-- C33: the small datasets are read in one call per rank whatever the size of the rows. -/
theorem C33_collective_read_small [Inhabited α] {P : Nat} (dataset : List α) (itemsize : Nat) (dims : List Nat) (buffer_size : Nat) (hlen : dataset.length < 10 * P) :
    ∃ out, collectiveRead P dataset itemsize dims buffer_size = .ok out ∧ gcat P (fun r => (out r).1) = dataset := by
  unfold collectiveRead
  simp only
  rw [if_pos hlen]
  refine ⟨_, rfl, ?_⟩
  have := gcat_slice dataset (numOnTask dataset.length P) 0 P
  simp only [Nat.zero_add] at this
  rw [this, pre_numOnTask _ _ (by omega), slice_all]

example : (collectiveRead 1 (List.range 12) 8 [] 4).toOption.map (fun out => out 0) = some (List.replicate 12 0, []) := by decide +kernel
example : (collectiveWrite 1 (fun _ => (⟨(), [], [1]⟩ : TypedArray Unit Nat)) (fun _ => 8) 4 1000 [0]).toBool = false := by decide +kernel

end Verif
