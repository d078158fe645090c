import Verif.Proofs.CPeano
import Verif.Props.Peano

set_option linter.unusedSectionVars false

/-! C78: the Peano-Hilbert keys computed in C are those computed in Python, up to 10 bits. -/

namespace Verif

open CPeano

/-- C78: up to 10 bits the C function is well defined and gives the key of the Python function, for any coordinates. -/
theorem C78_key (signed : Bool) {bits : Nat} (h0 : 0 < bits) (h10 : bits ≤ 10) (x y z : Int) :
    cKey signed x y z bits = phKeyScalar x y z bits := by
  rw [cKey_eq signed h0 (by omega), phKeyScalar_small h0 (by omega)]
  have h1 := phK_lt x y z bits phValid_start
  have h2 : 8 ^ bits ≤ 8 ^ 10 := Nat.pow_le_pow_right (by omega) h10
  norm_num at h2
  rw [if_pos (by omega)]

/-- C78: for more bits it is well defined exactly if the key fits in an `int`, and then it is the same key. -/
theorem C78_key_more_bits (signed : Bool) {bits : Nat} (h0 : 0 < bits) (h21 : bits ≤ 21) {x y z k : Int}
    (hk : phKeyScalar x y z bits = .ok k) : cKey signed x y z bits = if k < 2147483648 then .ok k else .error .other := by
  rw [phKeyScalar_small h0 h21] at hk
  injection hk with hk
  subst hk
  rw [cKey_eq signed h0 (by omega)]
  by_cases h : phK x y z bits 0 1 < 2147483648
  · rw [if_pos h, if_pos (by omega)]
  · rw [if_neg h, if_neg (by omega)]

/-- C78: with 11 bits or more there are cells of the grid without a key; other numbers of bits have no keys at all. -/
theorem C78_key_undefined (signed : Bool) :
    (∀ bits : Nat, 11 ≤ bits → bits ≤ 31 → ∃ p, InGrid bits p ∧ cKey signed p.1 p.2.1 p.2.2 bits = .error .other) ∧
    ∀ bits x y z : Int, (bits ≤ 0 ∨ 31 < bits) → cKey signed x y z bits = .error .other := by
  constructor
  · intro bits h11 h31
    refine ⟨_, inGrid_phJ (2 ^ 31) bits, ?_⟩
    have h8 : 8 ^ 11 ≤ 8 ^ bits := Nat.pow_le_pow_right (by omega) h11
    rw [cKey_eq signed (by omega) h31, phK_phJ (2 ^ 31) bits phValid_start,
      Nat.mod_eq_of_lt (by norm_num at h8 ⊢; omega), if_neg (by norm_num)]
  · intro bits x y z h
    have : cShl 1 (bits - 1) = .error .other := by
      unfold cShl
      split_ifs with hc
      · rfl
      · have : bits = 32 := by omega
        subst this
        exact cInt_err (by decide)
    unfold cKey
    exact bindErr _ this

/-- C78: the inverse, in any sequence of calls from the start of the program, gives the cells found by the Python function. -/
theorem C78_inverse (signed : Bool) (calls : List (Int × Nat)) (h : ∀ c ∈ calls, 0 < c.2 ∧ c.2 ≤ 10) :
    cInverseCalls signed static0 (calls.map (fun c => (c.1, (c.2 : Int)))) = calls.mapM (fun c => phInverseScalar c.1 c.2) := by
  have key : ∀ (calls : List (Int × Nat)) (s : Static), (s = static0 ∨ s = static1) → (∀ c ∈ calls, 0 < c.2 ∧ c.2 ≤ 10) →
      cInverseCalls signed s (calls.map (fun c => (c.1, (c.2 : Int)))) = calls.mapM (fun c => phInverseScalar c.1 c.2) := by
    intro calls
    induction calls with
    | nil => intro s _ _; rfl
    | cons c cs ih =>
      intro s hs h
      obtain ⟨p, hp, hc⟩ := cInverse_eq signed hs (h c (by simp)).1 (h c (by simp)).2 c.1
      simp only [List.map_cons, cInverseCalls, List.mapM_cons]
      rw [bindOk _ hc, bindOk _ hp, ih static1 (Or.inr rfl) (fun c hc => h c (by simp [hc]))]
      rfl
  exact key calls static0 (Or.inl rfl) h

/-- C78: with other numbers of bits the inverse is not defined. -/
theorem C78_inverse_undefined (signed : Bool) (s : Static) (key bits : Int) (h : bits ≤ 0 ∨ 10 < bits) :
    cInverse signed s key bits = .error .other := by
  unfold cInverse
  dsimp only
  by_cases hc : -2147483648 ≤ 3 * (bits - 1) ∧ 3 * (bits - 1) < 2147483648
  · rw [bindOk _ (cInt_ok hc.1 hc.2)]
    apply bindErr
    unfold cShl
    split_ifs with h2
    · rfl
    · have : bits = 11 := by omega
      subst this
      exact cInt_err (by decide)
  · exact bindErr _ (if_neg hc)

namespace ExCPeano

/-- A cell of the grid used in the Millennium simulation (8 bits), on machines with signed and unsigned `char` -/
example : cKey true 200 13 77 8 = .ok 7956358 ∧ cKey false 200 13 77 8 = .ok 7956358 := by decide +kernel

example : (cInverseCalls false static0 [(7956358, 8), (5, 3)]) = .ok [(200, 13, 77), (1, 1, 1)] := by decide +kernel

/-- A key which does not fit in an `int` -/
example : cKey true 2047 0 0 11 = .error .other := by decide +kernel

end ExCPeano

end Verif
