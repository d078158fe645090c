import Verif.Lib.Mpi

namespace Verif

variable {α : Type*}

/-- Storing blocks in windows inside a buffer keeps its length. -/
theorem length_foldl_overlay (l : List Nat) (o : Nat → Nat) (x : Nat → List α) (buf : List α)
    (h : ∀ s ∈ l, o s + (x s).length ≤ buf.length) :
    (l.foldl (fun b s => overlay b (o s) (x s)) buf).length = buf.length := by
  induction l generalizing buf with
  | nil => rfl
  | cons s l ih =>
    have hs := length_overlay (h s (by simp))
    rw [List.foldl_cons, ih _ (fun t ht => by rw [hs]; exact h t (by simp [ht])), hs]

/-- A position outside all windows is unchanged. -/
theorem foldl_overlay_outside (l : List Nat) (o : Nat → Nat) (x : Nat → List α) (buf : List α)
    (h : ∀ s ∈ l, o s + (x s).length ≤ buf.length) {i : Nat}
    (hi : ∀ s ∈ l, ¬ (o s ≤ i ∧ i < o s + (x s).length)) :
    (l.foldl (fun b s => overlay b (o s) (x s)) buf)[i]? = buf[i]? := by
  induction l generalizing buf with
  | nil => rfl
  | cons s l ih =>
    have hs := length_overlay (h s (by simp))
    rw [List.foldl_cons, ih _ (fun t ht => by rw [hs]; exact h t (by simp [ht]))
      (fun t ht => hi t (by simp [ht])), getElem?_overlay (h s (by simp)), if_neg (hi s (by simp))]

/-- A position in exactly one window has the value of that block. -/
theorem foldl_overlay_inside (l : List Nat) (o : Nat → Nat) (x : Nat → List α) (buf : List α)
    (h : ∀ s ∈ l, o s + (x s).length ≤ buf.length) {i t : Nat} (ht : t ∈ l)
    (hi : o t ≤ i ∧ i < o t + (x t).length)
    (hu : ∀ s ∈ l, s ≠ t → ¬ (o s ≤ i ∧ i < o s + (x s).length)) :
    (l.foldl (fun b s => overlay b (o s) (x s)) buf)[i]? = (x t)[i - o t]? := by
  induction l generalizing buf with
  | nil => simp at ht
  | cons s l ih =>
    have hs := length_overlay (h s (by simp))
    rw [List.foldl_cons]
    have h' : ∀ u ∈ l, o u + (x u).length ≤ (overlay buf (o s) (x s)).length :=
      fun u hu => by rw [hs]; exact h u (by simp [hu])
    by_cases hm : t ∈ l
    · exact ih _ h' hm (fun u hul => hu u (by simp [hul]))
    · have hst : t = s := by
        rcases List.mem_cons.1 ht with h | h
        · exact h
        · exact (hm h).elim
      rw [foldl_overlay_outside l o x _ h'
        (fun u hul => hu u (by simp [hul]) (fun he => hm (he ▸ hul))), getElem?_overlay (h s (by simp))]
      subst hst
      rw [if_pos hi]

theorem length_a2avInto {P : Nat} {send : Nat → List α} {scnt soff roff : Nat → Nat → Nat}
    {recv : Nat → List α} {d : Nat}
    (h : ∀ s < P, roff d s + (slice (send s) (soff s d) (scnt s d)).length ≤ (recv d).length) :
    (a2avInto P send scnt soff recv roff d).length = (recv d).length :=
  length_foldl_overlay _ _ (fun s => slice (send s) (soff s d) (scnt s d)) _
    (fun s hs => h s (List.mem_range.1 hs))

theorem a2avInto_outside {P : Nat} {send : Nat → List α} {scnt soff roff : Nat → Nat → Nat}
    {recv : Nat → List α} {d i : Nat}
    (h : ∀ s < P, roff d s + (slice (send s) (soff s d) (scnt s d)).length ≤ (recv d).length)
    (hi : ∀ s < P, ¬ (roff d s ≤ i ∧ i < roff d s + (slice (send s) (soff s d) (scnt s d)).length)) :
    (a2avInto P send scnt soff recv roff d)[i]? = (recv d)[i]? :=
  foldl_overlay_outside _ _ (fun s => slice (send s) (soff s d) (scnt s d)) _
    (fun s hs => h s (List.mem_range.1 hs)) (fun s hs => hi s (List.mem_range.1 hs))

theorem a2avInto_inside {P : Nat} {send : Nat → List α} {scnt soff roff : Nat → Nat → Nat}
    {recv : Nat → List α} {d i t : Nat}
    (h : ∀ s < P, roff d s + (slice (send s) (soff s d) (scnt s d)).length ≤ (recv d).length) (ht : t < P)
    (hi : roff d t ≤ i ∧ i < roff d t + (slice (send t) (soff t d) (scnt t d)).length)
    (hu : ∀ s < P, s ≠ t → ¬ (roff d s ≤ i ∧ i < roff d s + (slice (send s) (soff s d) (scnt s d)).length)) :
    (a2avInto P send scnt soff recv roff d)[i]? = (slice (send t) (soff t d) (scnt t d))[i - roff d t]? :=
  foldl_overlay_inside _ _ (fun s => slice (send s) (soff s d) (scnt s d)) _
    (fun s hs => h s (List.mem_range.1 hs)) (List.mem_range.2 ht) hi (fun s hs => hu s (List.mem_range.1 hs))

end Verif
