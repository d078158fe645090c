import Verif.Model.Peano
import Mathlib.Tactic.Ring
import Mathlib.Tactic.Linarith
import Mathlib.Tactic.IntervalCases

set_option linter.unusedSectionVars false

namespace Verif

/-! ### The automaton -/

def nextRot (r q : Nat) : Nat := rotateOne rotymapTable (rotyTable.getD q 0) (rotateOne rotxmapTable (rotxTable.getD q 0) r)
def nextSense (s : Int) (q : Nat) : Int := s * senseTable.getD q 0

/-- The table filled by the loops, written out: the finite checks below run on this list. -/
def quadrantsInverseLit : List (Nat × Nat × Nat) := [
  (0, 0, 0), (0, 1, 0), (1, 1, 0), (1, 0, 0), (1, 0, 1), (1, 1, 1), (0, 1, 1), (0, 0, 1),
  (1, 0, 0), (1, 1, 0), (1, 1, 1), (1, 0, 1), (0, 0, 1), (0, 1, 1), (0, 1, 0), (0, 0, 0),
  (1, 0, 1), (1, 1, 1), (0, 1, 1), (0, 0, 1), (0, 0, 0), (0, 1, 0), (1, 1, 0), (1, 0, 0),
  (0, 0, 1), (0, 1, 1), (0, 1, 0), (0, 0, 0), (1, 0, 0), (1, 1, 0), (1, 1, 1), (1, 0, 1),
  (0, 0, 1), (0, 0, 0), (1, 0, 0), (1, 0, 1), (1, 1, 1), (1, 1, 0), (0, 1, 0), (0, 1, 1),
  (0, 0, 0), (1, 0, 0), (1, 0, 1), (0, 0, 1), (0, 1, 1), (1, 1, 1), (1, 1, 0), (0, 1, 0),
  (1, 0, 0), (1, 0, 1), (0, 0, 1), (0, 0, 0), (0, 1, 0), (0, 1, 1), (1, 1, 1), (1, 1, 0),
  (1, 0, 1), (0, 0, 1), (0, 0, 0), (1, 0, 0), (1, 1, 0), (0, 1, 0), (0, 1, 1), (1, 1, 1),
  (0, 1, 1), (0, 0, 1), (1, 0, 1), (1, 1, 1), (1, 1, 0), (1, 0, 0), (0, 0, 0), (0, 1, 0),
  (0, 1, 0), (0, 0, 0), (0, 0, 1), (0, 1, 1), (1, 1, 1), (1, 0, 1), (1, 0, 0), (1, 1, 0),
  (1, 1, 0), (1, 0, 0), (0, 0, 0), (0, 1, 0), (0, 1, 1), (0, 0, 1), (1, 0, 1), (1, 1, 1),
  (1, 1, 1), (1, 0, 1), (1, 0, 0), (1, 1, 0), (0, 1, 0), (0, 0, 0), (0, 0, 1), (0, 1, 1),
  (0, 1, 0), (0, 1, 1), (1, 1, 1), (1, 1, 0), (1, 0, 0), (1, 0, 1), (0, 0, 1), (0, 0, 0),
  (1, 1, 0), (0, 1, 0), (0, 1, 1), (1, 1, 1), (1, 0, 1), (0, 0, 1), (0, 0, 0), (1, 0, 0),
  (1, 1, 1), (1, 1, 0), (0, 1, 0), (0, 1, 1), (0, 0, 1), (0, 0, 0), (1, 0, 0), (1, 0, 1),
  (0, 1, 1), (1, 1, 1), (1, 1, 0), (0, 1, 0), (0, 0, 0), (1, 0, 0), (1, 0, 1), (0, 0, 1),
  (1, 0, 1), (1, 0, 0), (1, 1, 0), (1, 1, 1), (0, 1, 1), (0, 1, 0), (0, 0, 0), (0, 0, 1),
  (0, 0, 1), (1, 0, 1), (1, 1, 1), (0, 1, 1), (0, 1, 0), (1, 1, 0), (1, 0, 0), (0, 0, 0),
  (0, 0, 0), (0, 0, 1), (0, 1, 1), (0, 1, 0), (1, 1, 0), (1, 1, 1), (1, 0, 1), (1, 0, 0),
  (1, 0, 0), (0, 0, 0), (0, 1, 0), (1, 1, 0), (1, 1, 1), (0, 1, 1), (0, 0, 1), (1, 0, 1),
  (0, 1, 1), (0, 1, 0), (0, 0, 0), (0, 0, 1), (1, 0, 1), (1, 0, 0), (1, 1, 0), (1, 1, 1),
  (0, 1, 0), (1, 1, 0), (1, 0, 0), (0, 0, 0), (0, 0, 1), (1, 0, 1), (1, 1, 1), (0, 1, 1),
  (1, 1, 0), (1, 1, 1), (1, 0, 1), (1, 0, 0), (0, 0, 0), (0, 0, 1), (0, 1, 1), (0, 1, 0),
  (1, 1, 1), (0, 1, 1), (0, 0, 1), (1, 0, 1), (1, 0, 0), (0, 0, 0), (0, 1, 0), (1, 1, 0)]

theorem quadrantsInverse_eq : quadrantsInverse = quadrantsInverseLit := by decide +kernel

def octant (r q : Nat) : Nat × Nat × Nat := quadrantsInverseLit.getD (r * 8 + q) (0, 0, 0)

def phValid (r : Nat) (s : Int) : Prop := r < 24 ∧ (s = 1 ∨ s = -1)

set_option synthInstance.maxHeartbeats 400000 in
set_option synthInstance.maxSize 1000 in
theorem tables_forward : ∀ r < 24, ∀ a < 2, ∀ b < 2, ∀ c < 2, quadrants r a b c < 8 ∧ octant r (quadrants r a b c) = (a, b, c) := by decide +kernel

theorem tables_backward : ∀ r < 24, ∀ q < 8, quadrants r (octant r q).1 (octant r q).2.1 (octant r q).2.2 = q ∧ (octant r q).1 < 2 ∧ (octant r q).2.1 < 2 ∧ (octant r q).2.2 < 2 := by
  decide +kernel

theorem tables_next : ∀ r < 24, ∀ q < 8, nextRot r q < 24 := by decide +kernel

theorem tables_sense : ∀ q < 8, senseTable.getD q 0 = 1 ∨ senseTable.getD q 0 = -1 := by decide +kernel

theorem phValid.next {r : Nat} {s : Int} (h : phValid r s) {q : Nat} (hq : q < 8) : phValid (nextRot r q) (nextSense s q) := by
  refine ⟨tables_next r h.1 q hq, ?_⟩
  unfold nextSense
  rcases h.2 with h | h <;> rcases tables_sense q hq with h' | h' <;> rw [h, h'] <;> simp

/-- Key digit of a quadrant. -/
def dig (s : Int) (q : Nat) : Nat := if s = 1 then q else 7 - q

theorem dig_lt {s : Int} {q : Nat} (hq : q < 8) : dig s q < 8 := by unfold dig; split_ifs <;> omega

theorem dig_dig (s : Int) {q : Nat} (hq : q < 8) : dig s (dig s q) = q := by unfold dig; split_ifs <;> omega

theorem maskBit_lt (x : Int) (m : Nat) : maskBit x m < 2 := by unfold maskBit; split_ifs <;> omega

/-- Digits of the key in base eight, the highest first: `n` bits, starting with the given rotation and sense. -/
def phK (x y z : Int) : Nat → Nat → Int → Nat
  | 0, _, _ => 0
  | n + 1, r, s =>
    let q := quadrants r (maskBit x (2 ^ n)) (maskBit y (2 ^ n)) (maskBit z (2 ^ n))
    dig s q * 8 ^ n + phK x y z n (nextRot r q) (nextSense s q)

/-- Coordinates of a key. -/
def phJ (k : Nat) : Nat → Nat → Int → Nat × Nat × Nat
  | 0, _, _ => (0, 0, 0)
  | n + 1, r, s =>
    let q := dig s (k / 8 ^ n % 8)
    let o := octant r q
    let rest := phJ k n (nextRot r q) (nextSense s q)
    (o.1 * 2 ^ n + rest.1, o.2.1 * 2 ^ n + rest.2.1, o.2.2 * 2 ^ n + rest.2.2)

theorem quad_lt {r : Nat} {s : Int} (h : phValid r s) (x y z : Int) (m : Nat) : quadrants r (maskBit x m) (maskBit y m) (maskBit z m) < 8 :=
  (tables_forward r h.1 _ (maskBit_lt x m) _ (maskBit_lt y m) _ (maskBit_lt z m)).1

theorem phK_lt (x y z : Int) (n : Nat) {r : Nat} {s : Int} (h : phValid r s) : phK x y z n r s < 8 ^ n := by
  induction n generalizing r s with
  | zero => simp [phK]
  | succ n ih =>
    simp only [phK]
    have hq := quad_lt h x y z (2 ^ n)
    have h1 := ih (h.next hq)
    have h2 := dig_lt (s := s) hq
    rw [Nat.pow_succ]
    generalize dig s _ = d at *
    have : d * 8 ^ n ≤ 7 * 8 ^ n := Nat.mul_le_mul_right _ (by omega)
    omega

theorem phJ_lt (k n : Nat) {r : Nat} {s : Int} (h : phValid r s) : (phJ k n r s).1 < 2 ^ n ∧ (phJ k n r s).2.1 < 2 ^ n ∧ (phJ k n r s).2.2 < 2 ^ n := by
  induction n generalizing r s with
  | zero => simp [phJ]
  | succ n ih =>
    simp only [phJ]
    have hd : k / 8 ^ n % 8 < 8 := Nat.mod_lt _ (by omega)
    have hq := dig_lt (s := s) hd
    obtain ⟨i1, i2, i3⟩ := ih (h.next hq)
    obtain ⟨-, o1, o2, o3⟩ := tables_backward r h.1 _ hq
    generalize octant r _ = o at *
    rw [Nat.pow_succ]
    have : ∀ a : Nat, a < 2 → a * 2 ^ n ≤ 2 ^ n := by
      intro a ha
      calc a * 2 ^ n ≤ 1 * 2 ^ n := Nat.mul_le_mul_right _ (by omega)
        _ = 2 ^ n := by omega
    have t1 := this _ o1
    have t2 := this _ o2
    have t3 := this _ o3
    refine ⟨?_, ?_, ?_⟩ <;> omega

/-! ### Only the low bits count -/

theorem maskBit_congr {x x' : Int} {n i : Nat} (hi : i < n) (h : x % (2 ^ n : Nat) = x' % (2 ^ n : Nat)) : maskBit x (2 ^ i) = maskBit x' (2 ^ i) := by
  have key : ∀ y : Int, (y / ((2 ^ i : Nat) : Int)) % 2 = ((y % (2 ^ n : Nat)) / ((2 ^ i : Nat) : Int)) % 2 := by
    intro y
    have h1 : ((2 ^ n : Nat) : Int) = (2 ^ i : Nat) * (2 ^ (n - i) : Nat) := by
      rw [← Nat.cast_mul, ← Nat.pow_add]; congr 2; omega
    have h2 : ((2 ^ (n - i) : Nat) : Int) = 2 * (2 ^ (n - i - 1) : Nat) := by
      conv_lhs => rw [show n - i = (n - i - 1) + 1 by omega, Nat.pow_succ]
      push_cast; ring
    have h3 : (0 : Int) < (2 ^ i : Nat) := by exact_mod_cast Nat.pos_of_ne_zero (by simp)
    have h4 : y = y % (2 ^ n : Nat) + (2 ^ i : Nat) * ((2 ^ (n - i) : Nat) * (y / (2 ^ n : Nat))) := by
      have := Int.emod_add_mul_ediv y ((2 ^ n : Nat) : Int)
      rw [← Int.mul_assoc, ← h1]
      omega
    conv_lhs => rw [h4]
    rw [Int.add_mul_ediv_left _ _ (by omega), h2, Int.mul_assoc, Int.add_mul_emod_self_left]
  unfold maskBit
  rw [key x, key x', h]

theorem mod_pow_of_le {x x' : Int} {n m : Nat} (hm : m ≤ n) (h : x % (2 ^ n : Nat) = x' % (2 ^ n : Nat)) : x % (2 ^ m : Nat) = x' % (2 ^ m : Nat) := by
  have hd : ((2 ^ m : Nat) : Int) ∣ (2 ^ n : Nat) := by exact_mod_cast Nat.pow_dvd_pow 2 hm
  rw [← Int.emod_emod_of_dvd x hd, h, Int.emod_emod_of_dvd x' hd]

theorem phK_congr {x y z x' y' z' : Int} {n : Nat} (hx : x % (2 ^ n : Nat) = x' % (2 ^ n : Nat)) (hy : y % (2 ^ n : Nat) = y' % (2 ^ n : Nat))
    (hz : z % (2 ^ n : Nat) = z' % (2 ^ n : Nat)) (r : Nat) (s : Int) : phK x y z n r s = phK x' y' z' n r s := by
  induction n generalizing r s with
  | zero => rfl
  | succ n ih =>
    simp only [phK]
    rw [maskBit_congr (Nat.lt_succ_self n) hx, maskBit_congr (Nat.lt_succ_self n) hy, maskBit_congr (Nat.lt_succ_self n) hz,
      ih (mod_pow_of_le (by omega) hx) (mod_pow_of_le (by omega) hy) (mod_pow_of_le (by omega) hz)]

theorem phJ_congr {k k' n : Nat} (h : k % 8 ^ n = k' % 8 ^ n) (r : Nat) (s : Int) : phJ k n r s = phJ k' n r s := by
  induction n generalizing r s with
  | zero => rfl
  | succ n ih =>
    have h1 : k / 8 ^ n % 8 = k' / 8 ^ n % 8 := by
      have e : ∀ m : Nat, m / 8 ^ n % 8 = m % 8 ^ (n + 1) / 8 ^ n := by
        intro m
        rw [Nat.pow_succ, Nat.mod_mul_right_div_self]
      rw [e, e, h]
    have h2 : k % 8 ^ n = k' % 8 ^ n := by
      have hd : 8 ^ n ∣ 8 ^ (n + 1) := Nat.pow_dvd_pow 8 (by omega)
      rw [← Nat.mod_mod_of_dvd k hd, h, Nat.mod_mod_of_dvd k' hd]
    simp only [phJ, h1, ih h2]

/-! ### Inverses -/

theorem bit_split (x : Int) (n : Nat) : ((maskBit x (2 ^ n) * 2 ^ n : Nat) : Int) + x % (2 ^ n : Nat) = x % (2 ^ (n + 1) : Nat) := by
  have h3 : (0 : Int) < (2 ^ n : Nat) := by exact_mod_cast Nat.pos_of_ne_zero (by simp)
  have e : ((2 ^ (n + 1) : Nat) : Int) = (2 ^ n : Nat) * 2 := by rw [Nat.pow_succ]; push_cast; ring
  have h2 : x % ((2 ^ (n + 1) : Nat) : Int) = (2 ^ n : Nat) * ((x / (2 ^ n : Nat)) % 2) + x % (2 ^ n : Nat) := by
    rw [e]
    have h4 := Int.emod_add_mul_ediv x ((2 ^ n : Nat) : Int)
    have h5 := Int.emod_add_mul_ediv (x / ((2 ^ n : Nat) : Int)) 2
    have h6 := Int.emod_nonneg x (show ((2 ^ n : Nat) : Int) ≠ 0 by omega)
    have h7 := Int.emod_lt_of_pos x h3
    have h8 : x / ((2 ^ n : Nat) : Int) / 2 = x / (((2 ^ n : Nat) : Int) * 2) := Int.ediv_ediv_of_nonneg (by omega)
    have h9 := Int.emod_add_mul_ediv x (((2 ^ n : Nat) : Int) * 2)
    rw [← h8] at h9
    generalize ((2 ^ n : Nat) : Int) = N at *
    have : N * 2 * (x / N / 2) = N * (2 * (x / N / 2)) := by ring
    have h10 : N * (x / N) = N * ((x / N) % 2) + N * (2 * (x / N / 2)) := by
      rw [← Int.mul_add, h5]
    omega
  rw [h2]
  unfold maskBit
  have h0 := Int.emod_nonneg (x / ((2 ^ n : Nat) : Int)) (show (2 : Int) ≠ 0 by omega)
  have h1 := Int.emod_lt_of_pos (x / ((2 ^ n : Nat) : Int)) (show (0 : Int) < 2 by omega)
  split_ifs with h
  · rw [h]; push_cast; ring
  · have : x / ((2 ^ n : Nat) : Int) % 2 = 0 := by omega
    rw [this]; push_cast; ring

theorem phJ_phK (x y z : Int) (n : Nat) {r : Nat} {s : Int} (h : phValid r s) :
    ((phJ (phK x y z n r s) n r s).1 : Int) = x % (2 ^ n : Nat) ∧ ((phJ (phK x y z n r s) n r s).2.1 : Int) = y % (2 ^ n : Nat) ∧
      ((phJ (phK x y z n r s) n r s).2.2 : Int) = z % (2 ^ n : Nat) := by
  induction n generalizing r s with
  | zero => simp [phJ, Int.emod_one]
  | succ n ih =>
    have hq := quad_lt h x y z (2 ^ n)
    have hoct := (tables_forward r h.1 _ (maskBit_lt x (2 ^ n)) _ (maskBit_lt y (2 ^ n)) _ (maskBit_lt z (2 ^ n))).2
    have hv := h.next hq
    obtain ⟨i1, i2, i3⟩ := ih hv
    have hlt := phK_lt x y z n hv
    simp only [phK]
    generalize quadrants r _ _ _ = q at *
    have hd := dig_lt (s := s) hq
    have e1 : (dig s q * 8 ^ n + phK x y z n (nextRot r q) (nextSense s q)) / 8 ^ n % 8 = dig s q := by
      rw [Nat.mul_comm, Nat.mul_add_div (Nat.pos_of_ne_zero (by simp)), Nat.div_eq_of_lt hlt, Nat.add_zero, Nat.mod_eq_of_lt hd]
    have e2 : phJ (dig s q * 8 ^ n + phK x y z n (nextRot r q) (nextSense s q)) n (nextRot r q) (nextSense s q) =
        phJ (phK x y z n (nextRot r q) (nextSense s q)) n (nextRot r q) (nextSense s q) :=
      phJ_congr (by rw [Nat.mul_comm, Nat.mul_add_mod]) _ _
    simp only [phJ]
    rw [e1, dig_dig s hq, e2, hoct]
    simp only [Nat.cast_add, i1, i2, i3]
    exact ⟨bit_split x n, bit_split y n, bit_split z n⟩

theorem maskBit_high {a m n : Nat} (ha : a < 2) (hm : m < 2 ^ n) : maskBit ((a * 2 ^ n + m : Nat) : Int) (2 ^ n) = a := by
  unfold maskBit
  have : (((a * 2 ^ n + m : Nat) : Int) / ((2 ^ n : Nat) : Int)) = a := by
    rw [← Int.natCast_ediv]
    congr 1
    rw [Nat.mul_comm, Nat.mul_add_div (Nat.pos_of_ne_zero (by simp)), Nat.div_eq_of_lt hm, Nat.add_zero]
  rw [this]
  split_ifs <;> omega

theorem high_mod (a m n : Nat) : ((a * 2 ^ n + m : Nat) : Int) % (2 ^ n : Nat) = (m : Int) % (2 ^ n : Nat) := by
  rw [← Int.natCast_emod, ← Int.natCast_emod, Nat.mul_comm, Nat.mul_add_mod]

theorem phK_phJ (k n : Nat) {r : Nat} {s : Int} (h : phValid r s) :
    phK (phJ k n r s).1 (phJ k n r s).2.1 (phJ k n r s).2.2 n r s = k % 8 ^ n := by
  induction n generalizing r s with
  | zero => simp [phK, Nat.mod_one]
  | succ n ih =>
    have hd : k / 8 ^ n % 8 < 8 := Nat.mod_lt _ (by omega)
    have hq := dig_lt (s := s) hd
    have hv := h.next hq
    have hlt := phJ_lt k n hv
    obtain ⟨o0, o1, o2, o3⟩ := tables_backward r h.1 _ hq
    have i := ih hv
    simp only [phJ]
    generalize hD : k / 8 ^ n % 8 = D at *
    generalize hQ : dig s D = q at *
    generalize octant r q = o at *
    simp only [phK]
    rw [maskBit_high o1 hlt.1, maskBit_high o2 hlt.2.1, maskBit_high o3 hlt.2.2, o0]
    rw [phK_congr (high_mod _ _ _) (high_mod _ _ _) (high_mod _ _ _), i]
    rw [← hQ, dig_dig s (by omega), ← hD, Nat.pow_succ, Nat.mod_mul]
    ring

end Verif
