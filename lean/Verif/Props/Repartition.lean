import Verif.Proofs.Repartition

/-! C08: `repartition` -/

namespace Verif

variable {α : Type*}

/-- C08. If the requested sizes add up to the number of elements, `repartition` succeeds, gives every rank the
requested number of elements, and leaves the concatenation over ranks unchanged; otherwise it aborts. -/
theorem C08_repartition [Inhabited α] (P : Nat) (arr : Nat → List α) (ndesired : Nat → Nat) :
    (pre (sizes arr) P = pre ndesired P →
      ∃ out, repartition P arr ndesired = .ok out ∧
        (∀ r < P, (out r).length = ndesired r) ∧ gcat P out = gcat P arr) ∧
    (pre (sizes arr) P ≠ pre ndesired P → repartition P arr ndesired = .error .abort) := by
  constructor
  · intro h
    obtain ⟨out, h1, h2⟩ := repartition_ok h
    refine ⟨out, h1, ?_, ?_⟩
    · intro r hr
      rw [h2 r hr]
      apply length_slice_of_le
      rw [length_gcat, h]
      exact pre_lt_total hr
    · rw [gcat_congr h2]
      have := gcat_slice (gcat P arr) ndesired 0 P
      simp only [Nat.zero_add] at this
      rw [this, ← h, ← length_gcat, slice_all]
  · intro h
    simp [repartition, h]

/-- Five elements on three ranks, one of them empty, moved to a layout with a different empty rank. -/
example : ∃ out, repartition 3 (fun r => [[1, 2, 3], [], [4, 5]].getD r []) (fun r => [0, 4, 1].getD r 0) = .ok out ∧
    out 0 = [] ∧ out 1 = [1, 2, 3, 4] ∧ out 2 = [5] := ⟨_, rfl, by decide, by decide, by decide⟩

/-- A total of five is not six: abort. -/
example : (repartition 3 (fun r => [[1, 2, 3], [], [4, 5]].getD r []) (fun _ => 2)).isOk = false := by decide

end Verif
