import Verif.Proofs.Peano
import Mathlib.Data.Int.ModEq

set_option linter.unusedSectionVars false

namespace Verif

/-! ### The loops compute the digits -/

theorem wrap64_idem (a b : Int) : wrap64 (wrap64 (wrap64 a * 8) + b) = wrap64 (a * 8 + b) := by
  unfold wrap64; omega

theorem wrap64_of_lt {x : Int} (h0 : 0 ≤ x) (h1 : x < 9223372036854775808) : wrap64 x = x := by
  unfold wrap64; omega

theorem wrap32_of_lt {x : Int} (h0 : 0 ≤ x) (h1 : x < 2147483648) : wrap32 x = x := by
  unfold wrap32; omega

theorem wrap32_mod {n : Nat} (hn : n ≤ 32) (x : Int) : wrap32 x % (2 ^ n : Nat) = x % (2 ^ n : Nat) := by
  have h1 : wrap32 x % ((2 ^ 32 : Nat) : Int) = x % ((2 ^ 32 : Nat) : Int) := by unfold wrap32; norm_num
  exact mod_pow_of_le hn h1

attribute [local irreducible] wrap32 wrap64

theorem phLoop_key (x y z : Int) (n : Nat) (k : Int) {r : Nat} {s : Int} (h : phValid r s) :
    (phLoop x y z n (2 ^ (n - 1)) ⟨wrap64 k, r, s⟩).key = wrap64 (k * (8 ^ n : Nat) + phK x y z n r s) := by
  induction n generalizing k r s with
  | zero => simp [phLoop, phK]
  | succ n ih =>
    have hq := quad_lt h x y z (2 ^ n)
    have hv := h.next hq
    rw [Nat.add_sub_cancel, phLoop]
    have hm : (2 ^ n : Nat) >>> 1 = if n = 0 then 0 else 2 ^ (n - 1) := by
      rw [Nat.shiftRight_eq_div_pow]
      cases n with
      | zero => rfl
      | succ n => simp [Nat.pow_succ]
    have hstep : phStep x y z (2 ^ n) ⟨wrap64 k, r, s⟩ =
        ⟨wrap64 (k * 8 + (dig s (quadrants r (maskBit x (2 ^ n)) (maskBit y (2 ^ n)) (maskBit z (2 ^ n))) : Nat)),
          nextRot r (quadrants r (maskBit x (2 ^ n)) (maskBit y (2 ^ n)) (maskBit z (2 ^ n))),
          nextSense s (quadrants r (maskBit x (2 ^ n)) (maskBit y (2 ^ n)) (maskBit z (2 ^ n)))⟩ := by
      unfold phStep
      simp only [PhState.mk.injEq]
      refine ⟨?_, rfl, rfl⟩
      rw [wrap64_idem]
      congr 2
      unfold dig
      split_ifs <;> omega
    rw [hstep]
    simp only [phK]
    generalize quadrants r _ _ _ = q at *
    cases n with
    | zero =>
      simp [phLoop, phK]
    | succ n =>
      rw [hm, if_neg (by omega), ih _ hv]
      congr 1
      rw [Nat.pow_succ 8 (n + 1)]
      push_cast
      ring

theorem phKeyScalar_eq {bits : Nat} (h0 : 0 < bits) (h31 : bits ≤ 31) (x y z : Int) : phKeyScalar x y z bits = .ok (wrap64 (phK x y z bits 0 1)) := by
  unfold phKeyScalar
  rw [if_neg (by omega), if_neg (by omega), Nat.one_shiftLeft]
  refine congrArg Except.ok ?_
  have := phLoop_key (wrap32 x) (wrap32 y) (wrap32 z) bits 0 (r := 0) (s := 1) ⟨by omega, Or.inl rfl⟩
  rw [wrap64_of_lt (x := 0) (by omega) (by omega)] at this
  rw [this]
  rw [phK_congr (wrap32_mod (by omega) x) (wrap32_mod (by omega) y) (wrap32_mod (by omega) z)]
  simp

theorem phValid_start : phValid 0 1 := ⟨by omega, Or.inl rfl⟩

theorem phKeyScalar_small {bits : Nat} (h0 : 0 < bits) (h21 : bits ≤ 21) (x y z : Int) : phKeyScalar x y z bits = .ok (phK x y z bits 0 1 : Int) := by
  rw [phKeyScalar_eq h0 (by omega)]
  refine congrArg Except.ok ?_
  apply wrap64_of_lt (by omega)
  have h1 := phK_lt x y z bits phValid_start
  have h2 : 8 ^ bits ≤ 8 ^ 21 := Nat.pow_le_pow_right (by omega) h21
  norm_num at h2
  omega

theorem phInvLoop_eq (k : Nat) (n : Nat) (x y z : Nat) {r : Nat} {s : Int} (h : phValid r s) {M : Nat} (hM : (M : Int) ≤ 2147483648) (hx : (x + 1) * 2 ^ n ≤ M)
    (hy : (y + 1) * 2 ^ n ≤ M) (hz : (z + 1) * 2 ^ n ≤ M) :
    (phInvLoop k n ⟨x, y, z, r, s⟩).x = (x * 2 ^ n + (phJ k n r s).1 : Nat) ∧ (phInvLoop k n ⟨x, y, z, r, s⟩).y = (y * 2 ^ n + (phJ k n r s).2.1 : Nat) ∧
      (phInvLoop k n ⟨x, y, z, r, s⟩).z = (z * 2 ^ n + (phJ k n r s).2.2 : Nat) := by
  induction n generalizing x y z r s with
  | zero => simp [phInvLoop, phJ]
  | succ n ih =>
    have hd : k / 8 ^ n % 8 < 8 := Nat.mod_lt _ (by omega)
    have hq := dig_lt (s := s) hd
    have hv := h.next hq
    obtain ⟨-, o1, o2, o3⟩ := tables_backward r h.1 _ hq
    have hstep : phInvStep k (3 * n) ⟨x, y, z, r, s⟩ =
        ⟨wrap32 ((x : Int) * 2 + (octant r (dig s (k / 8 ^ n % 8))).1), wrap32 ((y : Int) * 2 + (octant r (dig s (k / 8 ^ n % 8))).2.1),
          wrap32 ((z : Int) * 2 + (octant r (dig s (k / 8 ^ n % 8))).2.2), nextRot r (dig s (k / 8 ^ n % 8)), nextSense s (dig s (k / 8 ^ n % 8))⟩ := by
      unfold phInvStep
      have e : ((k : Int) / ((2 ^ (3 * n) : Nat) : Int)) % 8 = ((k / 8 ^ n % 8 : Nat) : Int) := by
        rw [Nat.pow_mul]; norm_num
      have e2 : (if s = 1 then ((k / 8 ^ n % 8 : Nat) : Int) else 7 - ((k / 8 ^ n % 8 : Nat) : Int)).toNat = dig s (k / 8 ^ n % 8) := by
        unfold dig; split_ifs <;> omega
      simp only [e, e2, quadrantsInverse_eq, octant, nextRot, nextSense]
    rw [phInvLoop, hstep]
    clear hstep
    simp only [phJ]
    generalize dig s _ = q at *
    generalize octant r q = o at *
    have hp : 0 < 2 ^ n := Nat.pos_of_ne_zero (by simp)
    have hb : ∀ a b : Nat, b < 2 → (a + 1) * 2 ^ (n + 1) ≤ M → (a * 2 + b + 1) * 2 ^ n ≤ M ∧ a * 2 + b < M := by
      intro a b hb hab
      have h1 : (a * 2 + b + 1) * 2 ^ n ≤ ((a + 1) * 2) * 2 ^ n := Nat.mul_le_mul_right _ (by omega)
      have h2 : ((a + 1) * 2) * 2 ^ n = (a + 1) * 2 ^ (n + 1) := by rw [Nat.pow_succ]; ring
      have h3 : (a * 2 + b + 1) * 1 ≤ (a * 2 + b + 1) * 2 ^ n := Nat.mul_le_mul_left _ hp
      omega
    obtain ⟨x1, x2⟩ := hb x o.1 o1 hx
    obtain ⟨y1, y2⟩ := hb y o.2.1 o2 hy
    obtain ⟨z1, z2⟩ := hb z o.2.2 o3 hz
    rw [wrap32_of_lt (by omega) (by omega), wrap32_of_lt (by omega) (by omega), wrap32_of_lt (by omega) (by omega)]
    have := ih (x * 2 + o.1) (y * 2 + o.2.1) (z * 2 + o.2.2) hv x1 y1 z1
    simp only [Nat.cast_add, Nat.cast_mul, Nat.cast_ofNat] at this
    obtain ⟨t1, t2, t3⟩ := this
    refine ⟨?_, ?_, ?_⟩
    · rw [t1, Nat.pow_succ]; push_cast; ring
    · rw [t2, Nat.pow_succ]; push_cast; ring
    · rw [t3, Nat.pow_succ]; push_cast; ring

theorem phInverseScalar_eq {bits : Nat} (h0 : 0 < bits) (h21 : bits ≤ 21) (k : Nat) :
    phInverseScalar k bits = .ok (((phJ k bits 0 1).1 : Int), ((phJ k bits 0 1).2.1 : Int), ((phJ k bits 0 1).2.2 : Int)) := by
  unfold phInverseScalar
  rw [if_neg (by omega), if_neg (by omega)]
  have hb : (0 + 1) * 2 ^ bits ≤ 2097152 := by
    have : 2 ^ bits ≤ 2 ^ 21 := Nat.pow_le_pow_right (by omega) h21
    norm_num at this
    omega
  have := phInvLoop_eq k bits 0 0 0 phValid_start (M := 2097152) (by norm_num) hb hb hb
  simp only [Nat.zero_mul, Nat.zero_add, Nat.cast_zero] at this
  simp only [this]

/-! ### Continuity -/

def entry (r : Nat) (s : Int) : Nat × Nat × Nat := octant r (dig s 0)
def exit' (r : Nat) (s : Int) : Nat × Nat × Nat := octant r (dig s 7)

theorem corners : ∀ r < 24, ∀ s ∈ [(1 : Int), -1], entry (nextRot r (dig s 0)) (nextSense s (dig s 0)) = entry r s ∧
    exit' (nextRot r (dig s 7)) (nextSense s (dig s 7)) = exit' r s := by decide +kernel

/-- One coordinate at the change from one octant to the next: it crosses the face between them. -/
def crosses (o o' e e' : Nat) : Bool := (o == 0 && o' == 1 && e == 1 && e' == 0) || (o == 1 && o' == 0 && e == 0 && e' == 1)
/-- It stays. -/
def stays (o o' e e' : Nat) : Bool := o == o' && e == e'

def glued (o o' e e' : Nat × Nat × Nat) : Bool :=
  (crosses o.1 o'.1 e.1 e'.1 && stays o.2.1 o'.2.1 e.2.1 e'.2.1 && stays o.2.2 o'.2.2 e.2.2 e'.2.2) ||
  (stays o.1 o'.1 e.1 e'.1 && crosses o.2.1 o'.2.1 e.2.1 e'.2.1 && stays o.2.2 o'.2.2 e.2.2 e'.2.2) ||
  (stays o.1 o'.1 e.1 e'.1 && stays o.2.1 o'.2.1 e.2.1 e'.2.1 && crosses o.2.2 o'.2.2 e.2.2 e'.2.2)

theorem octants_glued : ∀ r < 24, ∀ s ∈ [(1 : Int), -1], ∀ d < 7, glued (octant r (dig s d)) (octant r (dig s (d + 1)))
    (exit' (nextRot r (dig s d)) (nextSense s (dig s d))) (entry (nextRot r (dig s (d + 1))) (nextSense s (dig s (d + 1)))) = true := by decide +kernel

theorem phValid.mem {r : Nat} {s : Int} (h : phValid r s) : s ∈ [(1 : Int), -1] := by
  rcases h.2 with h | h <;> simp [h]

theorem phJ_first (n : Nat) {r : Nat} {s : Int} (h : phValid r s) :
    phJ 0 n r s = ((entry r s).1 * (2 ^ n - 1), (entry r s).2.1 * (2 ^ n - 1), (entry r s).2.2 * (2 ^ n - 1)) := by
  induction n generalizing r s with
  | zero => simp [phJ]
  | succ n ih =>
    have hq := dig_lt (s := s) (q := 0) (by omega)
    simp only [phJ, Nat.zero_div, Nat.zero_mod]
    rw [ih (h.next hq), (corners r h.1 s h.mem).1]
    have hp : 0 < 2 ^ n := Nat.pos_of_ne_zero (by simp)
    have key : ∀ a, a * 2 ^ n + a * (2 ^ n - 1) = a * (2 ^ (n + 1) - 1) := by
      intro a
      rw [← Nat.mul_add]; congr 1; rw [Nat.pow_succ]; omega
    unfold entry
    simp only [key]

theorem phJ_last (n : Nat) {r : Nat} {s : Int} (h : phValid r s) :
    phJ (8 ^ n - 1) n r s = ((exit' r s).1 * (2 ^ n - 1), (exit' r s).2.1 * (2 ^ n - 1), (exit' r s).2.2 * (2 ^ n - 1)) := by
  induction n generalizing r s with
  | zero => simp [phJ]
  | succ n ih =>
    have hq := dig_lt (s := s) (q := 7) (by omega)
    have hp8 : 0 < 8 ^ n := Nat.pos_of_ne_zero (by simp)
    have e1 : (8 ^ (n + 1) - 1) / 8 ^ n % 8 = 7 := by
      have : 8 ^ (n + 1) - 1 = 8 ^ n * 7 + (8 ^ n - 1) := by rw [Nat.pow_succ]; omega
      rw [this, Nat.mul_add_div hp8, Nat.div_eq_of_lt (by omega)]
    have e2 : (8 ^ (n + 1) - 1) % 8 ^ n = (8 ^ n - 1) % 8 ^ n := by
      have : 8 ^ (n + 1) - 1 = 8 ^ n * 7 + (8 ^ n - 1) := by rw [Nat.pow_succ]; omega
      rw [this, Nat.mul_add_mod]
    simp only [phJ]
    rw [e1, phJ_congr e2, ih (h.next hq), (corners r h.1 s h.mem).2]
    have hp : 0 < 2 ^ n := Nat.pos_of_ne_zero (by simp)
    have key : ∀ a, a * 2 ^ n + a * (2 ^ n - 1) = a * (2 ^ (n + 1) - 1) := by
      intro a
      rw [← Nat.mul_add]; congr 1; rw [Nat.pow_succ]; omega
    unfold exit'
    simp only [key]

/-- Difference of two coordinates. -/
def dist1 (a b : Nat) : Nat := (a - b) + (b - a)

theorem dist1_crosses {o o' e e' n : Nat} (h : crosses o o' e e' = true) : dist1 (o * 2 ^ n + e * (2 ^ n - 1)) (o' * 2 ^ n + e' * (2 ^ n - 1)) = 1 := by
  have hp : 0 < 2 ^ n := Nat.pos_of_ne_zero (by simp)
  unfold crosses at h
  simp only [Bool.or_eq_true, Bool.and_eq_true, beq_iff_eq] at h
  unfold dist1
  rcases h with ⟨⟨⟨h1, h2⟩, h3⟩, h4⟩ | ⟨⟨⟨h1, h2⟩, h3⟩, h4⟩ <;> subst h1 h2 h3 h4 <;> omega

theorem dist1_stays {o o' e e' n : Nat} (h : stays o o' e e' = true) : dist1 (o * 2 ^ n + e * (2 ^ n - 1)) (o' * 2 ^ n + e' * (2 ^ n - 1)) = 0 := by
  unfold stays at h
  simp only [Bool.and_eq_true, beq_iff_eq] at h
  rw [h.1, h.2]
  unfold dist1; omega

theorem phJ_adjacent (k n : Nat) {r : Nat} {s : Int} (h : phValid r s) (hk : k + 1 < 8 ^ n) :
    dist1 (phJ k n r s).1 (phJ (k + 1) n r s).1 + dist1 (phJ k n r s).2.1 (phJ (k + 1) n r s).2.1 + dist1 (phJ k n r s).2.2 (phJ (k + 1) n r s).2.2 = 1 := by
  induction n generalizing k r s with
  | zero => simp at hk
  | succ n ih =>
    have hp8 : 0 < 8 ^ n := Nat.pos_of_ne_zero (by simp)
    have hdm := Nat.div_add_mod k (8 ^ n)
    have hml := Nat.mod_lt k hp8
    generalize hd : k / 8 ^ n = d at *
    generalize hm : k % 8 ^ n = m at *
    rw [Nat.pow_succ] at hk
    have hd8 : d < 8 := by
      by_contra hc
      have : 8 ^ n * 8 ≤ 8 ^ n * d := Nat.mul_le_mul_left _ (by omega)
      omega
    by_cases hm1 : m + 1 < 8 ^ n
    · -- same octant
      have e1 : (k + 1) / 8 ^ n = d := by
        rw [← hdm, Nat.add_assoc, Nat.mul_add_div hp8, Nat.div_eq_of_lt hm1, Nat.add_zero]
      have hq := dig_lt (s := s) (q := d) hd8
      have i := ih m (h.next hq) hm1
      have c1 : phJ k n (nextRot r (dig s d)) (nextSense s (dig s d)) = phJ m n (nextRot r (dig s d)) (nextSense s (dig s d)) :=
        phJ_congr (by rw [hm, Nat.mod_eq_of_lt hml]) _ _
      have c2 : phJ (k + 1) n (nextRot r (dig s d)) (nextSense s (dig s d)) = phJ (m + 1) n (nextRot r (dig s d)) (nextSense s (dig s d)) :=
        phJ_congr (by rw [← hdm, Nat.add_assoc, Nat.mul_add_mod]) _ _
      simp only [phJ, hd, e1, Nat.mod_eq_of_lt hd8, c1, c2]
      unfold dist1 at *
      omega
    · -- next octant
      have hme : m = 8 ^ n - 1 := by omega
      have hd7 : d < 7 := by
        by_contra hc
        have : d = 7 := by omega
        subst this
        omega
      have e1 : (k + 1) / 8 ^ n = d + 1 := by
        have : k + 1 = 8 ^ n * (d + 1) := by rw [Nat.mul_add]; omega
        rw [this, Nat.mul_div_cancel_left _ hp8]
      have hq := dig_lt (s := s) (q := d) hd8
      have hq' := dig_lt (s := s) (q := d + 1) (by omega)
      have c1 : phJ k n (nextRot r (dig s d)) (nextSense s (dig s d)) = phJ (8 ^ n - 1) n (nextRot r (dig s d)) (nextSense s (dig s d)) :=
        phJ_congr (by rw [hm, hme, Nat.mod_eq_of_lt (by omega)]) _ _
      have c2 : phJ (k + 1) n (nextRot r (dig s (d + 1))) (nextSense s (dig s (d + 1))) = phJ 0 n (nextRot r (dig s (d + 1))) (nextSense s (dig s (d + 1))) :=
        phJ_congr (by
          have : k + 1 = 8 ^ n * (d + 1) := by rw [Nat.mul_add]; omega
          rw [this, Nat.mul_mod_right, Nat.zero_mod]) _ _
      simp only [phJ, hd, e1, Nat.mod_eq_of_lt hd8, Nat.mod_eq_of_lt (show d + 1 < 8 by omega), c1, c2, phJ_last n (h.next hq), phJ_first n (h.next hq')]
      have g := octants_glued r h.1 s h.mem d hd7
      unfold glued at g
      simp only [Bool.or_eq_true, Bool.and_eq_true] at g
      rcases g with (⟨⟨g1, g2⟩, g3⟩ | ⟨⟨g1, g2⟩, g3⟩) | ⟨⟨g1, g2⟩, g3⟩
      · rw [dist1_crosses g1, dist1_stays g2, dist1_stays g3]
      · rw [dist1_stays g1, dist1_crosses g2, dist1_stays g3]
      · rw [dist1_stays g1, dist1_stays g2, dist1_crosses g3]

/-! ### Nesting -/

theorem maskBit_half (x : Int) (i : Nat) : maskBit (x / 2) (2 ^ i) = maskBit x (2 ^ (i + 1)) := by
  unfold maskBit
  have : x / 2 / ((2 ^ i : Nat) : Int) = x / ((2 ^ (i + 1) : Nat) : Int) := by
    rw [Int.ediv_ediv_of_nonneg (by omega), Nat.pow_succ]
    congr 1
    push_cast; ring
  rw [this]

theorem phK_nest (x y z : Int) (n : Nat) {r : Nat} {s : Int} (h : phValid r s) : phK x y z (n + 1) r s / 8 = phK (x / 2) (y / 2) (z / 2) n r s := by
  induction n generalizing r s with
  | zero =>
    rw [phK.eq_1 (x / 2)]
    exact Nat.div_eq_of_lt (phK_lt x y z 1 h)
  | succ n ih =>
    have hq := quad_lt h x y z (2 ^ (n + 1))
    have i := ih (h.next hq)
    rw [phK, phK.eq_2 (x / 2)]
    simp only [maskBit_half]
    rw [← i]
    generalize quadrants r _ _ _ = q
    rw [Nat.pow_succ, ← Nat.mul_assoc, Nat.add_comm, Nat.add_mul_div_right _ _ (by omega), Nat.add_comm]

end Verif
