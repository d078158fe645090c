import Verif.Model.SortNan
import Verif.Lib.Overlay
import Verif.Proofs.ParallelSort
import Verif.Props.FindSplittingPoints

/-! Lemmas for `parallel_sort` of arrays with NaN -/

namespace Verif.SortNan

variable {α : Type*} [LinearOrder α] [Inhabited α]

theorem a2av_congr {β : Type*} [Inhabited β] {Q : Nat} {send : Nat → List β} {c c' : Nat → Nat → Nat} (h : ∀ p < Q, c p = c' p) :
    a2av Q send c (fun p => pre (c p)) = a2av Q send c' (fun p => pre (c' p)) := by
  funext d
  unfold a2av a2avInto alltoall
  have e : ∀ s ≤ Q, pre (fun s => c s d) s = pre (fun s => c' s d) s := fun s hs => pre_congr (fun i hi => by rw [h i (by omega)])
  simp only
  rw [e Q (le_refl _)]
  have : ∀ (l : List Nat) (b : List β), (∀ s ∈ l, s < Q) →
      l.foldl (fun buf s => overlay buf (pre (fun s => c s d) s) (slice (send s) (pre (c s) d) (c s d))) b =
      l.foldl (fun buf s => overlay buf (pre (fun s => c' s d) s) (slice (send s) (pre (c' s) d) (c' s d))) b := by
    intro l
    induction l with
    | nil => intro b _; rfl
    | cons s l ih =>
      intro b hl
      rw [List.foldl_cons, List.foldl_cons, ih _ (fun t ht => hl t (List.mem_cons_of_mem _ ht))]
      have hs := hl s (List.mem_cons_self ..)
      rw [e s (by omega), h s hs]
  exact this _ _ (fun s hs => List.mem_range.1 hs)

theorem exchange_congr {Q : Nat} {arr : Nat → List α} {c c' : Nat → Nat → Nat} (h : ∀ p < Q, c p = c' p) : exchange Q arr c = exchange Q arr c' := by
  unfold exchange
  simp only
  rw [a2av_congr h, a2av_congr h]

theorem parallelSortSub_eq (fuel Q : Nat) (arr : Nat → List α) :
    parallelSortSub fuel Q arr = match findSplittingPoints fuel Q Q (fun i => (pre (sizes arr) i : Int)) (fun p => fancy (arr p) (argsort (arr p))) with
      | .error e => .error e
      | .ok fsp => exchange Q arr (fun p => psSendCount Q (sizes arr) (fancy (arr p) (argsort (arr p))) (fun i => (fsp p i).1)
          (fun i => pre (fun q => psNvalLocal (fancy (arr q) (argsort (arr q))) (fsp q i).1) p) (fun i => pre (sizes arr) i - (fsp p i).2.1)) := rfl

theorem length_a2av {β : Type*} [Inhabited β] (Q : Nat) (send : Nat → List β) (c : Nat → Nat → Nat) (d : Nat) :
    (a2av Q send c (fun p => pre (c p)) d).length = pre (fun s => c s d) Q := by
  unfold a2av
  rw [length_a2avInto]
  · simp [emptyArray]; rfl
  · intro s hs
    rw [length_slice]
    have : (emptyArray (α := β) (pre (alltoall c d) Q)).length = pre (alltoall c d) Q := by simp [emptyArray]
    rw [this]
    have := pre_mono (alltoall c d) (show s + 1 ≤ Q from hs)
    rw [pre_succ] at this
    unfold alltoall at *
    omega

/-- If more elements arrive on a rank than it has, the sort fails. -/
theorem exchange_fails {Q : Nat} {arr : Nat → List α} {c : Nat → Nat → Nat} {d : Nat} (hd : d < Q) (h1 : 1 < pre (fun s => c s d) Q) (h2 : pre (fun s => c s d) Q ≠ (arr d).length) :
    exchange Q arr c = .error .valueError := by
  unfold exchange
  simp only
  rw [if_neg]
  intro hall
  have := List.all_eq_true.1 hall d (List.mem_range.2 hd)
  rw [Bool.and_eq_true] at this
  have h3 := this.1
  have hl : (fancy (a2av Q (fun p => fancy (arr p) (argsort (arr p))) c (fun p => pre (c p)) d) (argsort (a2av Q (fun p => fancy (arr p) (argsort (arr p))) c (fun p => pre (c p)) d))).length = pre (fun s => c s d) Q := by
    rw [(fancy_argsort_perm _).length_eq, length_a2av]
  have hs : (fancy (arr d) (argsort (arr d))).length = (arr d).length := (fancy_argsort_perm _).length_eq
  revert h3
  generalize fancy (a2av Q (fun p => fancy (arr p) (argsort (arr p))) c (fun p => pre (c p)) d) (argsort (a2av Q (fun p => fancy (arr p) (argsort (arr p))) c (fun p => pre (c p)) d)) = src at hl
  unfold assignAll
  rw [if_neg (by rw [hl, hs]; exact h2)]
  match src, hl with
  | [], hl => intro h3; cases h3
  | [x], hl => simp only [List.length_cons, List.length_nil] at hl; omega
  | x :: y :: l, hl => intro h3; cases h3

section steps
variable {Q : Nat} {nperproc : Nat → Nat} {S : List α}

/-- The send counts only depend on the values of `last_to_send`. -/
theorem sendCount_eq {ne : α → α → Bool} {val val' : Nat → α} {lower lower' : Nat → Nat} {si si' : Nat → Int}
    (h : ∀ r, r + 1 < Q → lastToSend ne S (val (r + 1)) (lower (r + 1)) (si (r + 1)) = psLastToSend S (val' (r + 1)) (lower' (r + 1)) (si' (r + 1))) :
    sendCount ne Q nperproc S val lower si = psSendCount Q nperproc S val' lower' si' := by
  unfold sendCount psSendCount
  have : ∀ (l : List Nat) (st : Int × (Nat → Nat)), l.foldl (sendStep ne Q nperproc S val lower si) st = l.foldl (psSendStep Q nperproc S val' lower' si') st := by
    intro l
    induction l with
    | nil => intro st; rfl
    | cons r l ih =>
      intro st
      rw [List.foldl_cons, List.foldl_cons, ih]
      congr 1
      unfold sendStep psSendStep
      simp only
      by_cases hr : (r : Int) < (Q : Int) - 1
      · rw [if_pos hr, if_pos hr, h r (by omega)]
      · rw [if_neg hr, if_neg hr]
  rw [this]

theorem lastToSend_eq {ne : α → α → Bool} {v : α} (h : ∀ x, ne x v = decide (x ≠ v)) (lower : Nat) (si : Int) : lastToSend ne S v lower si = psLastToSend S v lower si := by
  unfold lastToSend psLastToSend
  simp only [h, decide_eq_true_eq]

theorem nvalLocal_eq {ne : α → α → Bool} {v : α} (h : ∀ x, ne x v = decide (x ≠ v)) : nvalLocal ne S v = psNvalLocal S v := by
  unfold nvalLocal psNvalLocal
  simp only [h, decide_eq_true_eq]

variable [OrderTop α]

theorem neNan_of_ne {v : α} (hv : v ≠ ⊤) (x : α) : neNan x v = decide (x ≠ v) := by
  unfold neNan
  by_cases hx : x = ⊤
  · subst hx; simp [Ne.symm hv]
  · simp [hx]

theorem neNan_top (x : α) : neNan x ⊤ = true := by
  unfold neNan
  by_cases hx : x = ⊤ <;> simp [hx]

/-- If no instance of NaN is to go to a rank, the comparison does not matter. -/
theorem lastToSend_top (hs : Sorted S) (lower lower' : Nat) : lastToSend neNan S ⊤ lower 0 = psLastToSend S ⊤ lower' 0 := by
  have h0 := ssLeft_le_ssRight hs (⊤ : α)
  unfold lastToSend psLastToSend
  simp only [neNan_top, if_true]
  split
  · rfl
  · split
    · rfl
    · split
      · omega
      · rw [if_pos (by omega)]

/-- No NaN is sent to a rank which is not the last one. -/
theorem lastToSend_le (hs : Sorted S) (v : α) (lower : Nat) (si : Int) : lastToSend neNan S v lower si + 1 ≤ (ssLeft S ⊤ : Nat) := by
  have h0 : ssLeft S v ≤ ssLeft S ⊤ := ssLeft_mono hs le_top
  unfold lastToSend
  simp only
  split
  · omega
  · split
    · omega
    · rename_i h
      have hv : v ≠ ⊤ := by rintro rfl; exact h (neNan_top _)
      have h1 := ssRight_le_ssLeft hs (lt_top_iff_ne_top.2 hv)
      split
      · omega
      · split <;> omega

/-- The counts of the last rank -/
theorem sendCount_last (hs : Sorted S) (hQ : 0 < Q) (hn : nperproc (Q - 1) ≠ 0) (val : Nat → α) (lower : Nat → Nat) (si : Nat → Int) :
    S.length - ssLeft S ⊤ ≤ sendCount neNan Q nperproc S val lower si (Q - 1) := by
  obtain ⟨k, rfl⟩ : ∃ k, Q = k + 1 := ⟨Q - 1, by omega⟩
  rw [Nat.add_sub_cancel] at hn ⊢
  have hz := ssLeft_le_length hs (⊤ : α)
  have key : ∀ j ≤ k, 0 ≤ ((List.range j).foldl (sendStep neNan (k + 1) nperproc S val lower si) (0, fun _ => 0)).1 ∧
      ((List.range j).foldl (sendStep neNan (k + 1) nperproc S val lower si) (0, fun _ => 0)).1 ≤ (ssLeft S ⊤ : Nat) := by
    intro j
    induction j with
    | zero => intro _; simp
    | succ j ih =>
      intro hj
      obtain ⟨i1, i2⟩ := ih (by omega)
      rw [List.range_succ, List.foldl_append]
      simp only [List.foldl_cons, List.foldl_nil]
      generalize (List.range j).foldl (sendStep neNan (k + 1) nperproc S val lower si) (0, fun _ => 0) = st at i1 i2
      unfold sendStep
      simp only
      split
      · exact ⟨i1, i2⟩
      · rw [if_pos (by omega)]
        have := lastToSend_le hs (val (j + 1)) (lower (j + 1)) (si (j + 1))
        simp only
        omega
  obtain ⟨i1, i2⟩ := key k (le_refl _)
  unfold sendCount
  rw [List.range_succ, List.foldl_append]
  simp only [List.foldl_cons, List.foldl_nil]
  generalize (List.range k).foldl (sendStep neNan (k + 1) nperproc S val lower si) (0, fun _ => 0) = st at i1 i2
  unfold sendStep
  simp only
  rw [if_neg (show ¬ ((k : Int) < ((k + 1 : Nat) : Int) - 1) by omega)]
  split
  · rename_i h
    rcases h with h | h
    · exact (hn h).elim
    · omega
  · simp only [Function.update_self]
    omega

end steps

end Verif.SortNan
