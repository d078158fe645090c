import Verif.Model.Errchk
import Mathlib.Algebra.BigOperators.Group.Finset.Basic
import Mathlib.Algebra.Order.BigOperators.Group.Finset
import Mathlib.Tactic.Linarith

/-! C130: `mpi_errchk` -/

namespace Verif.Errchk

variable {P : Nat} {wrapped : Bool} {prog : Nat → Prog}

/-- The function raised an exception, or was interrupted; `SystemExit` is neither of the two. -/
def Fails (e : Ending) : Prop := e = .exception ∨ e = .interrupt

instance (e : Ending) : Decidable (Fails e) := by unfold Fails; infer_instance

theorem caught_iff (e : Ending) : caught e = true ↔ Fails e := by
  cases e <;> decide

/-- Nothing more can happen. -/
def Stopped (P : Nat) (wrapped : Bool) (prog : Nat → Prog) (w : World) : Prop := ∀ w', ¬ Step P wrapped prog w w'

/-- All ranks have ended. -/
def AllEnded (P : Nat) (w : World) : Prop := ∀ p < P, w.rank p = .ended

/-- Steps which a rank has made -/
def progress (prog : Nat → Prog) (w : World) (p : Nat) : Nat := match w.rank p with
  | .running k => 2 * k
  | .waiting k => 2 * k + 1
  | .ended => 2 * (prog p).calls + 1

/-- Calls which have returned -/
def left (prog : Nat → Prog) (w : World) (p : Nat) : Nat := match w.rank p with
  | .running k => k
  | .waiting k => k
  | .ended => (prog p).calls

structure Inv (P : Nat) (wrapped : Bool) (prog : Nat → Prog) (m : Nat) (w : World) : Prop where
  run : ∀ p k, w.rank p = .running k → k ≤ (prog p).calls
  wait : ∀ p k, w.rank p = .waiting k → k < (prog p).calls
  fin : ∀ p, w.rank p = .ended → aborts wrapped (prog p) = false
  ab : w.aborted = true → ∃ p < P, aborts wrapped (prog p) = true ∧ w.rank p = .running (prog p).calls
  order : ∀ p < P, ∀ q < P, left prog w p ≤ entered prog w q
  steps : m = (∑ p ∈ Finset.range P, progress prog w p) + (if w.aborted then 1 else 0)

theorem sum_update {f g : Nat → Nat} {p : Nat} (hp : p < P) (h : ∀ q, q ≠ p → g q = f q) (hg : g p = f p + 1) : ∑ q ∈ Finset.range P, g q = (∑ q ∈ Finset.range P, f q) + 1 := by
  rw [← Finset.add_sum_erase _ g (Finset.mem_range.2 hp), ← Finset.add_sum_erase _ f (Finset.mem_range.2 hp), hg]
  have : ∑ x ∈ (Finset.range P).erase p, g x = ∑ x ∈ (Finset.range P).erase p, f x := Finset.sum_congr rfl (fun q hq => h q (Finset.ne_of_mem_erase hq))
  omega

theorem run_inv {m : Nat} {w : World} (h : Run P wrapped prog m w) : Inv P wrapped prog m w := by
  induction h with
  | nil =>
    refine ⟨fun p k h => ?_, fun p k h => ?_, fun p h => ?_, fun h => ?_, fun p _ q _ => ?_, ?_⟩
    · cases h; exact Nat.zero_le _
    · cases h
    · cases h
    · cases h
    · exact Nat.zero_le _
    · simp [World.init, progress]
  | cons m w w' _ st ih =>
    obtain ⟨i1, i2, i3, i4, i5, i6⟩ := ih
    cases st with
    | enter p k hp ha hr hk =>
      have hoth : ∀ q, q ≠ p → (Function.update w.rank p (.waiting k)) q = w.rank q := fun q hq => Function.update_of_ne hq _ _
      have hself : (Function.update w.rank p (.waiting k)) p = .waiting k := Function.update_self _ _ _
      refine ⟨fun q j h => ?_, fun q j h => ?_, fun q h => ?_, (fun h => by cases h), fun q hq r hr' => ?_, ?_⟩
      · by_cases e : q = p
        · subst e; have h := hself.symm.trans h; cases h
        · have h := (hoth q e).symm.trans h; exact i1 q j h
      · by_cases e : q = p
        · subst e; have h := hself.symm.trans h; cases h; exact hk
        · have h := (hoth q e).symm.trans h; exact i2 q j h
      · by_cases e : q = p
        · subst e; have h := hself.symm.trans h; cases h
        · have h := (hoth q e).symm.trans h; exact i3 q h
      · have hl : left prog ⟨Function.update w.rank p (.waiting k), false⟩ q = left prog w q := by
          by_cases e : q = p
          · subst e; simp only [left, hself, hr]
          · simp only [left, hoth q e]
        have he : entered prog w r ≤ entered prog ⟨Function.update w.rank p (.waiting k), false⟩ r := by
          by_cases e : r = p
          · subst e; simp only [entered, hself, hr]; omega
          · simp only [entered, hoth r e]; exact le_refl _
        rw [hl]
        exact le_trans (i5 q hq r hr') he
      · rw [sum_update (f := progress prog w) hp (fun q hq => by simp only [progress, hoth q hq]) (by simp only [progress, hself, hr]), i6, ha]
        simp
    | leave p k hp ha hr hall =>
      have hoth : ∀ q, q ≠ p → (Function.update w.rank p (.running (k + 1))) q = w.rank q := fun q hq => Function.update_of_ne hq _ _
      have hself : (Function.update w.rank p (.running (k + 1))) p = .running (k + 1) := Function.update_self _ _ _
      have hk := i2 p k hr
      refine ⟨fun q j h => ?_, fun q j h => ?_, fun q h => ?_, (fun h => by cases h), fun q hq r hr' => ?_, ?_⟩
      · by_cases e : q = p
        · subst e; have h := hself.symm.trans h; cases h; omega
        · have h := (hoth q e).symm.trans h; exact i1 q j h
      · by_cases e : q = p
        · subst e; have h := hself.symm.trans h; cases h
        · have h := (hoth q e).symm.trans h; exact i2 q j h
      · by_cases e : q = p
        · subst e; have h := hself.symm.trans h; cases h
        · have h := (hoth q e).symm.trans h; exact i3 q h
      · have he : entered prog ⟨Function.update w.rank p (.running (k + 1)), false⟩ r = entered prog w r := by
          by_cases e : r = p
          · subst e; simp only [entered, hself, hr]
          · simp only [entered, hoth r e]
        rw [he]
        by_cases e : q = p
        · subst e
          have := hall r hr'
          simp only [left, hself]
          omega
        · have := i5 q hq r hr'
          simp only [left, hoth q e] at this ⊢
          exact this
      · rw [sum_update (f := progress prog w) hp (fun q hq => by simp only [progress, hoth q hq]) (by simp only [progress, hself, hr]; omega), i6, ha]
        simp
    | finish p hp ha hr hc =>
      have hoth : ∀ q, q ≠ p → (Function.update w.rank p .ended) q = w.rank q := fun q hq => Function.update_of_ne hq _ _
      have hself : (Function.update w.rank p .ended) p = .ended := Function.update_self _ _ _
      refine ⟨fun q j h => ?_, fun q j h => ?_, fun q h => ?_, (fun h => by cases h), fun q hq r hr' => ?_, ?_⟩
      · by_cases e : q = p
        · subst e; have h := hself.symm.trans h; cases h
        · have h := (hoth q e).symm.trans h; exact i1 q j h
      · by_cases e : q = p
        · subst e; have h := hself.symm.trans h; cases h
        · have h := (hoth q e).symm.trans h; exact i2 q j h
      · by_cases e : q = p
        · subst e; exact hc
        · have h := (hoth q e).symm.trans h; exact i3 q h
      · have hl : left prog ⟨Function.update w.rank p .ended, false⟩ q = left prog w q := by
          by_cases e : q = p
          · subst e; simp only [left, hself, hr]
          · simp only [left, hoth q e]
        have he : entered prog ⟨Function.update w.rank p .ended, false⟩ r = entered prog w r := by
          by_cases e : r = p
          · subst e; simp only [entered, hself, hr]
          · simp only [entered, hoth r e]
        rw [hl, he]
        exact i5 q hq r hr'
      · rw [sum_update (f := progress prog w) hp (fun q hq => by simp only [progress, hoth q hq]) (by simp only [progress, hself, hr]), i6, ha]
        simp
    | abort p hp ha hr hc =>
      refine ⟨i1, i2, i3, fun _ => ⟨p, hp, hc, hr⟩, i5, ?_⟩
      rw [i6, ha]
      rfl

/-- **C130** (termination): whatever the order of the steps, a run has at most two steps for each call and one more for each rank. -/
theorem C130_terminates {m : Nat} {w : World} (h : Run P wrapped prog m w) : m ≤ ∑ p ∈ Finset.range P, (2 * (prog p).calls + 1) := by
  have hi := run_inv h
  have hle : ∀ p, progress prog w p ≤ 2 * (prog p).calls + 1 := by
    intro p
    unfold progress
    split
    · have := hi.run p _ (by assumption); omega
    · have := hi.wait p _ (by assumption); omega
    · exact le_refl _
  rw [hi.steps]
  by_cases ha : w.aborted = true
  · obtain ⟨p, hp, _, hr⟩ := hi.ab ha
    rw [if_pos ha, ← Finset.add_sum_erase _ (progress prog w) (Finset.mem_range.2 hp), ← Finset.add_sum_erase _ (fun p => 2 * (prog p).calls + 1) (Finset.mem_range.2 hp)]
    have h1 : progress prog w p = 2 * (prog p).calls := by simp only [progress, hr]
    have h2 := Finset.sum_le_sum (s := (Finset.range P).erase p) (fun q _ => hle q)
    omega
  · rw [if_neg ha, Nat.add_zero]
    exact Finset.sum_le_sum (fun q _ => hle q)

/-- A rank which is not in a call and has not ended can go on. -/
theorem not_running {m : Nat} {w : World} (h : Run P wrapped prog m w) (hs : Stopped P wrapped prog w) (ha : w.aborted = false) {p : Nat} (hp : p < P) : w.rank p = .ended ∨ ∃ k, w.rank p = .waiting k := by
  cases hr : w.rank p with
  | ended => exact Or.inl rfl
  | waiting k => exact Or.inr ⟨k, rfl⟩
  | running k =>
    exfalso
    rcases Nat.lt_or_ge k (prog p).calls with hk | hk
    · exact hs _ (.enter w p k hp ha hr hk)
    · have : k = (prog p).calls := le_antisymm ((run_inv h).run p k hr) hk
      subst this
      cases hc : aborts wrapped (prog p) with
      | false => exact hs _ (.finish w p hp ha hr hc)
      | true => exact hs _ (.abort w p hp ha hr hc)

/-- If a rank waits for ever, another one has ended before this call. -/
theorem hang_cause {m : Nat} {w : World} (h : Run P wrapped prog m w) (hs : Stopped P wrapped prog w) (ha : w.aborted = false) (hn : ¬ AllEnded P w) :
    ∃ p < P, ∃ q < P, w.rank q = .ended ∧ (prog q).calls < (prog p).calls := by
  have hex : ∃ k, ∃ p < P, w.rank p = .waiting k := by
    by_contra hc
    apply hn
    intro p hp
    rcases not_running h hs ha hp with h1 | ⟨k, h1⟩
    · exact h1
    · exact absurd ⟨k, p, hp, h1⟩ hc
  obtain ⟨p, hp, hw⟩ := Nat.find_spec hex
  have hmin : ∀ j, j < Nat.find hex → ¬ ∃ p < P, w.rank p = .waiting j := fun j hj => Nat.find_min hex hj
  generalize Nat.find hex = k at hw hmin
  have : ¬ ∀ q < P, k < entered prog w q := fun hall => hs _ (.leave w p k hp ha hw hall)
  push Not at this
  obtain ⟨q, hq, hle⟩ := this
  have hk := (run_inv h).wait p k hw
  rcases not_running h hs ha hq with h1 | ⟨j, h1⟩
  · refine ⟨p, hp, q, hq, h1, ?_⟩
    simp only [entered, h1] at hle
    omega
  · exfalso
    simp only [entered, h1] at hle
    exact hmin j (by omega) ⟨q, hq, h1⟩

/-- **C130**: if the ranks whose exceptions are not caught all make the same number of calls, and the others at most as many, a program with the decorator never hangs. When it has stopped all ranks have ended,
or it was aborted, and the latter if and only if some rank raised an exception or was interrupted. -/
theorem C130_no_hang {m : Nat} {w : World} (h : Run P true prog m w) (hs : Stopped P true prog w) {N : Nat} (hN : ∀ p < P, if Fails (prog p).ending then (prog p).calls ≤ N else (prog p).calls = N) :
    (w.aborted = true ↔ ∃ p < P, Fails (prog p).ending) ∧ (w.aborted = false → AllEnded P w) := by
  simp only [← caught_iff] at hN ⊢
  have hend : w.aborted = false → AllEnded P w := by
    intro ha
    by_contra hn
    obtain ⟨p, hp, q, hq, h1, h2⟩ := hang_cause h hs ha hn
    have hq' := (run_inv h).fin q h1
    simp only [aborts, Bool.true_and] at hq'
    have a := hN q hq
    rw [hq', if_neg (by simp)] at a
    have b := hN p hp
    split at b <;> omega
  refine ⟨⟨fun ha => ?_, fun ⟨p, hp, hc⟩ => ?_⟩, hend⟩
  · obtain ⟨p, hp, hc, _⟩ := (run_inv h).ab ha
    exact ⟨p, hp, by simpa [aborts] using hc⟩
  · by_contra ha
    have := (run_inv h).fin p (hend (by simpa using ha) p hp)
    simp only [aborts, hc, Bool.and_true] at this
    cases this

/-- **C130**: the decorator is needed. Without it every run in which one rank makes less calls than another, for instance because of an exception, stops with a rank which waits. -/
theorem C130_without {m : Nat} {w : World} (h : Run P false prog m w) (hs : Stopped P false prog w) {p q : Nat} (hp : p < P) (hq : q < P) (hpq : (prog q).calls < (prog p).calls) :
    ∃ r < P, ∃ k, w.rank r = .waiting k := by
  have ha : w.aborted = false := by
    cases hb : w.aborted with
    | false => rfl
    | true =>
      obtain ⟨r, _, hc, _⟩ := (run_inv h).ab hb
      cases hc
  by_contra hno
  have hall : AllEnded P w := by
    intro r hr
    rcases not_running h hs ha hr with h1 | ⟨k, h1⟩
    · exact h1
    · exact absurd ⟨r, hr, k, h1⟩ hno
  have := (run_inv h).order p hp q hq
  simp only [left, entered, hall p hp, hall q hq] at this
  omega

/-- **C130**, limit of the decorator: `SystemExit` is not caught. If no rank has an exception which is caught, and one rank leaves its function before the last call of another, for instance with `sys.exit()`, the program hangs. -/
theorem C130_exit_defect {m : Nat} {w : World} (h : Run P true prog m w) (hs : Stopped P true prog w) (hc : ∀ p < P, (prog p).ending = .returns ∨ (prog p).ending = .exit) {p q : Nat} (hp : p < P) (hq : q < P) (hpq : (prog q).calls < (prog p).calls) : ∃ r < P, ∃ k, w.rank r = .waiting k := by
  have ha : w.aborted = false := by
    cases hb : w.aborted with
    | false => rfl
    | true =>
      obtain ⟨r, hr, hc', _⟩ := (run_inv h).ab hb
      have hcr : caught (prog r).ending = false := by rcases hc r hr with h | h <;> rw [h] <;> rfl
      simp only [aborts, hcr] at hc'
      cases hc'
  by_contra hno
  have hall : AllEnded P w := by
    intro r hr
    rcases not_running h hs ha hr with h1 | ⟨k, h1⟩
    · exact h1
    · exact absurd ⟨r, hr, k, h1⟩ hno
  have := (run_inv h).order p hp q hq
  simp only [left, entered, hall p hp, hall q hq] at this
  omega

namespace ExErrchk

/-- Two ranks with one call; the second one raises before it. -/
def twoRanks (p : Nat) : Prog := if p = 0 then ⟨1, .returns⟩ else ⟨0, .exception⟩

example : ∀ p < 2, if Fails (twoRanks p).ending then (twoRanks p).calls ≤ 1 else (twoRanks p).calls = 1 := by decide

/-- The first rank waits, then the second one aborts; nothing more can happen. -/
def final : World := ⟨Function.update (fun _ => .running 0) 0 (.waiting 0), true⟩

example : Run 2 true twoRanks 2 final := by
  refine .cons 1 ⟨Function.update (fun _ => .running 0) 0 (.waiting 0), false⟩ _ (.cons 0 _ _ .nil (.enter _ 0 0 (by decide) rfl rfl (by decide))) ?_
  exact .abort _ 1 (by decide) rfl rfl (by decide)

example : Stopped 2 true twoRanks final := by
  intro w h
  cases h <;> simp_all [final]

/-- The same without the decorator -/
def stuck : World := ⟨Function.update (Function.update (fun _ => .running 0) 0 (.waiting 0)) 1 .ended, false⟩

example : Run 2 false twoRanks 2 stuck := by
  refine .cons 1 ⟨Function.update (fun _ => .running 0) 0 (.waiting 0), false⟩ _ (.cons 0 _ _ .nil (.enter _ 0 0 (by decide) rfl rfl (by decide))) ?_
  exact .finish _ 1 (by decide) rfl rfl (by decide)

example : (twoRanks 1).calls < (twoRanks 0).calls := by decide

/-- The second rank calls `sys.exit()`: the decorator does not help. -/
def exits (p : Nat) : Prog := if p = 0 then ⟨1, .returns⟩ else ⟨0, .exit⟩

example : Run 2 true exits 2 stuck := by
  refine .cons 1 ⟨Function.update (fun _ => .running 0) 0 (.waiting 0), false⟩ _ (.cons 0 _ _ .nil (.enter _ 0 0 (by decide) rfl rfl (by decide))) ?_
  exact .finish _ 1 (by decide) rfl rfl (by decide)

example : ∀ p < 2, (exits p).ending = .returns ∨ (exits p).ending = .exit := by decide

end ExErrchk

end Verif.Errchk
