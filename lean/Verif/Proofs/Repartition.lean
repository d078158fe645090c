import Verif.Model.Repartition

namespace Verif

variable {α : Type*}

theorem slice_append (a b : List α) (x n : Nat) :
    slice (a ++ b) x n = slice a x n ++ slice b (x - a.length) (n - (a.length - x)) := by
  unfold slice
  rw [List.drop_append, List.take_append, List.length_drop]

/-- Splitting a window of the global array into the parts stored on each rank. -/
theorem gcat_slice_window (arr : Nat → List α) (P x n : Nat) :
    gcat P (fun s => slice (arr s) (min (x - pre (sizes arr) s) (arr s).length)
        (min (x + n - pre (sizes arr) s) (arr s).length - min (x - pre (sizes arr) s) (arr s).length))
      = slice (gcat P arr) x n := by
  induction P with
  | zero => simp [slice]
  | succ P ih =>
    rw [gcat_succ, gcat_succ, ih, slice_append, length_gcat]
    congr 1
    apply List.ext_getElem?
    intro i
    simp only [getElem?_slice]
    by_cases h : x - pre (sizes arr) P + i < (arr P).length
    · by_cases h2 : i < n - (pre (sizes arr) P - x)
      · rw [if_pos h2, if_pos (by omega)]; congr 1; omega
      · rw [if_neg h2, if_neg (by omega)]
    · have h' : (arr P)[x - pre (sizes arr) P + i]? = none := by
        rw [List.getElem?_eq_none_iff]; omega
      rw [h']
      split
      · rename_i h3
        omega
      · split <;> rfl

theorem repartitionSendCount_eq (n d : Nat → Nat) (me rank : Nat) :
    repartitionSendCount n d me rank
      = min (pre d (rank + 1) - pre n me) (n me) - min (pre d rank - pre n me) (n me) := by
  unfold repartitionSendCount
  simp only [pre_succ]
  omega

theorem pre_repartitionSendCount (n d : Nat → Nat) (me rank : Nat) :
    pre (fun r => repartitionSendCount n d me r) rank = min (pre d rank - pre n me) (n me) := by
  induction rank with
  | zero => simp
  | succ r ih =>
    rw [pre_succ, ih, repartitionSendCount_eq]
    have := pre_mono d (show r ≤ r + 1 by omega)
    omega

/-- Rank `d` receives its window of the global array. -/
theorem repartition_ok [Inhabited α] {P : Nat} {arr : Nat → List α} {d : Nat → Nat}
    (h : pre (sizes arr) P = pre d P) :
    ∃ out, repartition P arr d = .ok out ∧
      ∀ r < P, out r = slice (gcat P arr) (pre d r) (d r) := by
  refine ⟨_, by simp only [repartition, h, ne_eq, not_true_eq_false, if_false]; rfl, ?_⟩
  intro r hr
  rw [a2av_eq]
  · rw [← gcat_slice_window arr P (pre d r) (d r)]
    apply gcat_congr
    intro s hs
    rw [pre_repartitionSendCount, repartitionSendCount_eq, pre_succ]
    rfl
  · intro s hs
    rw [pre_repartitionSendCount, repartitionSendCount_eq]
    simp only [sizes]
    have := pre_mono d (show r ≤ r + 1 by omega)
    omega

end Verif
