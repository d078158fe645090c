import Verif.Spec.FloatBits
import Mathlib.Algebra.Order.Round
import Mathlib.Data.Int.Log
import Mathlib.Tactic.Linarith
import Mathlib.Tactic.FieldSimp
import Mathlib.Tactic.Ring
import Mathlib.Tactic.LinearCombination
import Mathlib.Tactic.NormNum

namespace Verif.FloatBits

theorem zpow_pos' (e : ℤ) : (0 : ℚ) < 2 ^ e := zpow_pos (by norm_num) e

theorem isFloat_zero (p : ℕ) : IsFloat p 0 := ⟨0, 0, by simp, by simp⟩

theorem isFloat_int {p : ℕ} {k : ℤ} (h : |k| ≤ 2 ^ p) : IsFloat p k := ⟨k, 0, h, by simp⟩

theorem IsFloat.scale {p : ℕ} {x : ℚ} (h : IsFloat p x) (j : ℤ) : IsFloat p (x * 2 ^ j) := by
  obtain ⟨m, e, h1, rfl⟩ := h
  exact ⟨m, e + j, h1, by rw [zpow_add₀ (by norm_num)]; ring⟩

theorem IsFloat.div {p : ℕ} {x : ℚ} (h : IsFloat p x) (b : ℕ) : IsFloat p (x / 2 ^ b) := by
  have := h.scale (-b)
  rwa [zpow_neg, zpow_natCast, ← div_eq_mul_inv] at this

theorem IsFloat.mul {p : ℕ} {x : ℚ} (h : IsFloat p x) (b : ℕ) : IsFloat p (x * 2 ^ b) := by
  have := h.scale b
  rwa [zpow_natCast] at this

theorem mul_two {m e k : ℤ} (h : k ≤ e) : ∃ j : ℤ, ((m : ℚ) * 2 ^ e) = j * 2 ^ k := by
  obtain ⟨d, rfl⟩ : ∃ d : ℕ, e = k + d := ⟨(e - k).toNat, by omega⟩
  refine ⟨m * 2 ^ d, ?_⟩
  rw [zpow_add₀ (by norm_num)]
  push_cast
  rw [zpow_natCast]
  ring

/-- Numbers below a number with `p` bits are below it by a part in 2^p at least. -/
theorem IsFloat.gap {p : ℕ} (hp : 1 ≤ p) {x y : ℚ} (hx : IsFloat p x) (hy : IsFloat p y) (h0 : 0 ≤ x) (h : x < y) : x ≤ y * (1 - 1 / 2 ^ p) := by
  obtain ⟨a, e₁, ha, rfl⟩ := hx
  obtain ⟨b, e₂, hb, rfl⟩ := hy
  have hP : (0 : ℚ) < 2 ^ p := by positivity
  have hb' : (b : ℚ) ≤ 2 ^ p := by exact_mod_cast (le_abs_self b).trans hb
  have ha' : (a : ℚ) ≤ 2 ^ p := by exact_mod_cast (le_abs_self a).trans ha
  rcases le_or_gt e₂ e₁ with he | he
  · obtain ⟨j, hj⟩ := mul_two (m := a) he
    rw [hj] at h ⊢
    have h2 := zpow_pos' e₂
    have : (j : ℚ) < b := lt_of_mul_lt_mul_right h h2.le
    have : j < b := by exact_mod_cast this
    have : (j : ℚ) ≤ b - 1 := by exact_mod_cast (by omega : j ≤ b - 1)
    have h3 : (b : ℚ) / 2 ^ p ≤ 1 := by rw [div_le_one hP]; exact hb'
    have : (j : ℚ) ≤ b * (1 - 1 / 2 ^ p) := by
      rw [mul_sub, mul_one_div]; linarith
    calc (j : ℚ) * 2 ^ e₂ ≤ b * (1 - 1 / 2 ^ p) * 2 ^ e₂ := mul_le_mul_of_nonneg_right this h2.le
      _ = _ := by ring
  · obtain ⟨d, rfl⟩ : ∃ d : ℕ, e₂ = e₁ + (d + 1 : ℕ) := ⟨(e₂ - e₁ - 1).toNat, by omega⟩
    have h1 := zpow_pos' e₁
    have hy : (b : ℚ) * 2 ^ (e₁ + (d + 1 : ℕ)) = ((2 * (b * 2 ^ d) : ℤ) : ℚ) * 2 ^ e₁ := by
      rw [zpow_add₀ (by norm_num), zpow_natCast, pow_succ]
      push_cast
      ring
    rw [hy] at h ⊢
    generalize hc : b * 2 ^ d = c at h ⊢
    have : (a : ℚ) < (2 * c : ℤ) := lt_of_mul_lt_mul_right h h1.le
    have hac : a < 2 * c := by exact_mod_cast this
    have : (a : ℚ) ≤ (2 * c : ℤ) * (1 - 1 / 2 ^ p) := by
      rcases le_or_gt (2 * c) (2 ^ p) with h2 | h2
      · have h3 : ((2 * c : ℤ) : ℚ) / 2 ^ p ≤ 1 := by rw [div_le_one hP]; exact_mod_cast h2
        have : (a : ℚ) ≤ (2 * c : ℤ) - 1 := by exact_mod_cast (by omega : a ≤ 2 * c - 1)
        rw [mul_sub, mul_one_div]; linarith
      · obtain ⟨q, rfl⟩ : ∃ q, p = q + 1 := ⟨p - 1, by omega⟩
        have h3 : (2 : ℤ) ^ (q + 1) + 2 ≤ 2 * c := by rw [pow_succ] at h2 ⊢; omega
        have h3' : (2 : ℚ) ^ (q + 1) + 2 ≤ (2 * c : ℤ) := by exact_mod_cast h3
        have h4 : (1 : ℚ) / 2 ^ (q + 1) ≤ 1 / 2 := by
          apply one_div_le_one_div_of_le (by norm_num)
          calc (2 : ℚ) = 2 ^ 1 := by norm_num
            _ ≤ 2 ^ (q + 1) := pow_le_pow_right₀ (by norm_num) (by omega)
        have h5 : (2 : ℚ) ^ (q + 1) * (1 / 2 ^ (q + 1)) = 1 := by field_simp
        have h6 : ((2 : ℚ) ^ (q + 1) + 2) * (1 - 1 / 2 ^ (q + 1)) ≤ (2 * c : ℤ) * (1 - 1 / 2 ^ (q + 1)) := mul_le_mul_of_nonneg_right h3' (by linarith)
        have h7 : ((2 : ℚ) ^ (q + 1) + 2) * (1 - 1 / 2 ^ (q + 1)) = 2 ^ (q + 1) + 2 - 1 - 2 * (1 / 2 ^ (q + 1)) := by linear_combination -h5
        linarith
    calc (a : ℚ) * 2 ^ e₁ ≤ (2 * c : ℤ) * (1 - 1 / 2 ^ p) * 2 ^ e₁ := mul_le_mul_of_nonneg_right this h1.le
      _ = _ := by ring

/-- The nearest number on a grid -/
theorem near {p : ℕ} {x : ℚ} (hx : 0 < x) :
    |round (x / 2 ^ (Int.log 2 x + 1 - p))| ≤ 2 ^ p ∧ |round (x / 2 ^ (Int.log 2 x + 1 - p)) * 2 ^ (Int.log 2 x + 1 - p) - x| ≤ x / 2 ^ p := by
  have h0 : (2 : ℚ) ^ Int.log 2 x ≤ x := by exact_mod_cast Int.zpow_log_le_self (b := 2) (by norm_num) hx
  have h1 : x < 2 ^ (Int.log 2 x + 1) := by exact_mod_cast Int.lt_zpow_succ_log_self (b := 2) (by norm_num) x
  set n := Int.log 2 x
  have hp := zpow_pos' (n + 1 - p)
  have h3 := abs_sub_round (x / 2 ^ (n + 1 - p))
  constructor
  · have h2 : x / 2 ^ (n + 1 - p) < 2 ^ p := by
      rw [div_lt_iff₀ hp, ← zpow_natCast, ← zpow_add₀ (by norm_num)]
      rw [show (p : ℤ) + (n + 1 - p) = n + 1 by omega]; exact h1
    have h4 : 0 < x / 2 ^ (n + 1 - p) := div_pos hx hp
    rw [abs_le] at h3
    rw [abs_le]
    have hP : (0 : ℤ) < 2 ^ p := by positivity
    constructor
    · have : (-1 : ℚ) < (round (x / 2 ^ (n + 1 - p)) : ℤ) := by linarith [h3.2]
      have : (-1 : ℤ) < round (x / 2 ^ (n + 1 - p)) := by exact_mod_cast this
      omega
    · have : ((round (x / 2 ^ (n + 1 - p)) : ℤ) : ℚ) < ((2 ^ p + 1 : ℤ) : ℚ) := by push_cast; linarith [h3.1]
      have : round (x / 2 ^ (n + 1 - p)) < 2 ^ p + 1 := by exact_mod_cast this
      omega
  · have h5 : (round (x / 2 ^ (n + 1 - p)) : ℚ) * 2 ^ (n + 1 - p) - x = -((x / 2 ^ (n + 1 - p) - round (x / 2 ^ (n + 1 - p))) * 2 ^ (n + 1 - p)) := by
      field_simp
      ring
    rw [h5, abs_neg, abs_mul, abs_of_pos hp]
    calc _ ≤ 1 / 2 * (2 : ℚ) ^ (n + 1 - p) := mul_le_mul_of_nonneg_right h3 hp.le
      _ = 2 ^ n / 2 ^ p := by
        rw [show n + 1 - (p : ℤ) = (n - p) + 1 by ring, zpow_add_one₀ (by norm_num), zpow_sub₀ (by norm_num), zpow_natCast]; ring
      _ ≤ x / 2 ^ p := div_le_div_of_nonneg_right h0 (by positivity)

/-- Rounding to a nearest number is possible: the hypothesis `NearestTo` can be met. -/
theorem exists_nearestTo {p : ℕ} (hp : 1 ≤ p) : ∃ fl, NearestTo p fl := by
  have hpos : ∀ x : ℚ, 0 < x → ∃ z, IsFloat p z ∧ ∀ y, IsFloat p y → |z - x| ≤ |y - x| := by
    intro x hx
    have h0 : (2 : ℚ) ^ Int.log 2 x ≤ x := by exact_mod_cast Int.zpow_log_le_self (b := 2) (by norm_num) hx
    obtain ⟨h1, -⟩ := near (p := p) hx
    set n := Int.log 2 x
    have hg := zpow_pos' (n + 1 - p)
    -- nearest of the multiples of the spacing
    have hmul : ∀ k : ℤ, |(round (x / 2 ^ (n + 1 - p)) : ℚ) * 2 ^ (n + 1 - p) - x| ≤ |(k : ℚ) * 2 ^ (n + 1 - p) - x| := by
      intro k
      have h2 := round_le (x / 2 ^ (n + 1 - p)) k
      have e : ∀ z : ℚ, |z * 2 ^ (n + 1 - p) - x| = |x / 2 ^ (n + 1 - p) - z| * 2 ^ (n + 1 - p) := by
        intro z
        have : z * 2 ^ (n + 1 - p) - x = -((x / 2 ^ (n + 1 - p) - z) * 2 ^ (n + 1 - p)) := by field_simp; ring
        rw [this, abs_neg, abs_mul, abs_of_pos hg]
      rw [e, e]
      exact mul_le_mul_of_nonneg_right h2 hg.le
    refine ⟨_, ⟨_, n + 1 - p, h1, rfl⟩, ?_⟩
    rintro y ⟨m, e, hm, rfl⟩
    rcases le_or_gt (n + 1 - p) e with he | he
    · obtain ⟨j, hj⟩ := mul_two (m := m) he
      rw [hj]
      exact hmul j
    · have hy : (m : ℚ) * 2 ^ e ≤ 2 ^ n := by
        have hm' : (m : ℚ) ≤ 2 ^ p := by exact_mod_cast (le_abs_self m).trans hm
        calc (m : ℚ) * 2 ^ e ≤ 2 ^ p * 2 ^ e := mul_le_mul_of_nonneg_right hm' (zpow_pos' e).le
          _ = 2 ^ ((p : ℤ) + e) := by rw [zpow_add₀ (by norm_num), zpow_natCast]
          _ ≤ 2 ^ n := zpow_le_zpow_right₀ (by norm_num) (by omega)
      obtain ⟨j, hj⟩ := mul_two (m := 1) (k := n + 1 - p) (e := n) (by omega)
      have h3 := hmul j
      rw [← hj, Int.cast_one, one_mul, abs_of_nonpos (by linarith : (2 : ℚ) ^ n - x ≤ 0)] at h3
      rw [abs_of_nonpos (by linarith : (m : ℚ) * 2 ^ e - x ≤ 0)]
      linarith
  have hall : ∀ x : ℚ, ∃ z, IsFloat p z ∧ ∀ y, IsFloat p y → |z - x| ≤ |y - x| := by
    intro x
    rcases lt_trichotomy x 0 with hx | hx | hx
    · obtain ⟨z, ⟨m, e, hm, rfl⟩, hz⟩ := hpos (-x) (by linarith)
      refine ⟨_, ⟨-m, e, by rwa [abs_neg], rfl⟩, ?_⟩
      rintro y ⟨k, f, hk, rfl⟩
      have := hz _ ⟨-k, f, by rwa [abs_neg], rfl⟩
      push_cast at this ⊢
      have e1 : (m : ℚ) * 2 ^ e - -x = -(-m * 2 ^ e - x) := by ring
      have e2 : -(k : ℚ) * 2 ^ f - -x = -(k * 2 ^ f - x) := by ring
      rwa [e1, e2, abs_neg, abs_neg] at this
    · exact ⟨0, isFloat_zero p, fun y _ => by rw [hx]; simp⟩
    · exact hpos x hx
  choose fl h1 h2 using hall
  exact ⟨fl, fun x => ⟨h1 x, h2 x⟩⟩

section
variable {p : ℕ} {fl : ℚ → ℚ} (hf : NearestTo p fl)
include hf

theorem NearestTo.self {x : ℚ} (hx : IsFloat p x) : fl x = x := by
  have := (hf x).2 x hx
  rw [sub_self, abs_zero] at this
  have := abs_nonpos_iff.1 this
  linarith

theorem NearestTo.mono {x y : ℚ} (h : x ≤ y) : fl x ≤ fl y := by
  rcases h.eq_or_lt with rfl | h
  · exact le_refl _
  · by_contra hc
    rw [not_le] at hc
    have h1 := (hf x).2 (fl y) (hf y).1
    have h2 := (hf y).2 (fl x) (hf x).1
    rcases le_or_gt (fl x) y with h3 | h3
    · rw [abs_of_nonpos (by linarith : fl y - y ≤ 0), abs_of_nonpos (by linarith : fl x - y ≤ 0)] at h2
      linarith
    · rcases le_or_gt x (fl y) with h4 | h4
      · rw [abs_of_nonneg (by linarith : 0 ≤ fl x - x), abs_of_nonneg (by linarith : 0 ≤ fl y - x)] at h1
        linarith
      · rw [abs_of_nonneg (by linarith : 0 ≤ fl x - x), abs_of_nonpos (by linarith : fl y - x ≤ 0)] at h1
        rw [abs_of_nonpos (by linarith : fl y - y ≤ 0), abs_of_nonneg (by linarith : 0 ≤ fl x - y)] at h2
        linarith

theorem NearestTo.le {x y : ℚ} (hy : IsFloat p y) (h : x ≤ y) : fl x ≤ y := by
  have := hf.mono h
  rwa [hf.self hy] at this

theorem NearestTo.ge {x y : ℚ} (hy : IsFloat p y) (h : y ≤ x) : y ≤ fl x := by
  have := hf.mono h
  rwa [hf.self hy] at this

theorem NearestTo.error {x : ℚ} (hx : 0 ≤ x) : |fl x - x| ≤ x / 2 ^ p := by
  rcases hx.eq_or_lt with rfl | hx
  · rw [hf.self (isFloat_zero p)]; simp
  · obtain ⟨h1, h2⟩ := near (p := p) hx
    exact ((hf x).2 _ ⟨_, _, h1, rfl⟩).trans h2

theorem NearestTo.pos (hp : 1 ≤ p) {x : ℚ} (hx : 0 < x) : 0 < fl x := by
  have := (abs_le.1 (hf.error hx.le)).1
  have h2 : x / 2 ^ p < x := by
    rw [div_lt_iff₀ (by positivity)]
    have : (1 : ℚ) < 2 ^ p := one_lt_pow₀ (by norm_num) (by omega)
    nlinarith
  linarith

/-- The cell of a number `x` in a box of `2 ^ bits` cells of size `c`: it is in the box, and if it isn't the right cell then it is the next one and `x` is just below it. -/
theorem cell {bits : ℕ} (hb : bits ≤ p) (hp : 1 ≤ p) {x c : ℚ} (hc : IsFloat p c) (hc0 : 0 < c) (hx : IsFloat p x) (h0 : 0 ≤ x) (h : x < c * 2 ^ bits) :
    0 ≤ ⌊fl (x / c)⌋ ∧ ⌊fl (x / c)⌋ < 2 ^ bits ∧ ⌊fl (x / c)⌋ * c ≤ x * (1 + 1 / 2 ^ p) ∧ x < (⌊fl (x / c)⌋ + 1) * c := by
  have hq : 0 ≤ x / c := div_nonneg h0 hc0.le
  have hq1 : x / c ≤ 2 ^ bits * (1 - 1 / 2 ^ p) := by
    rw [div_le_iff₀ hc0]
    have := hx.gap hp (hc.mul bits) h0 h
    linarith
  have hP : (0 : ℚ) < 2 ^ p := by positivity
  have hPb : (2 : ℤ) ^ bits ≤ 2 ^ p := pow_le_pow_right₀ (by norm_num) hb
  have hfl : IsFloat p ((2 : ℚ) ^ bits * (1 - 1 / 2 ^ p)) := by
    refine ⟨2 ^ p - 1, (bits : ℤ) - p, ?_, ?_⟩
    · have : (1 : ℤ) ≤ 2 ^ p := one_le_pow₀ (by norm_num)
      rw [abs_of_nonneg (by omega)]; omega
    · rw [zpow_sub₀ (by norm_num), zpow_natCast, zpow_natCast]
      push_cast
      field_simp
  have hlt : fl (x / c) < 2 ^ bits := by
    refine lt_of_le_of_lt (hf.le hfl hq1) ?_
    have : (0 : ℚ) < 2 ^ bits * (1 / 2 ^ p) := by positivity
    linarith
  refine ⟨Int.floor_nonneg.2 (hf.ge (isFloat_zero p) hq), ?_, ?_, ?_⟩
  · rw [Int.floor_lt]; push_cast; exact hlt
  · have h1 := Int.floor_le (fl (x / c))
    have h2 := (abs_le.1 (hf.error hq)).2
    calc (⌊fl (x / c)⌋ : ℚ) * c ≤ (x / c + x / c / 2 ^ p) * c := mul_le_mul_of_nonneg_right (by linarith) hc0.le
      _ = _ := by field_simp
  · have h1 : ⌊x / c⌋ ≤ ⌊fl (x / c)⌋ := by
      rw [Int.le_floor]
      refine hf.ge (isFloat_int ?_) (Int.floor_le _)
      rw [abs_of_nonneg (Int.floor_nonneg.2 hq)]
      have : x / c < 2 ^ bits := by rw [div_lt_iff₀ hc0]; linarith
      have : ⌊x / c⌋ < 2 ^ bits := by rw [Int.floor_lt]; push_cast; exact this
      omega
    have h2 := Int.lt_floor_add_one (x / c)
    have h3 : ((⌊x / c⌋ : ℤ) : ℚ) ≤ ⌊fl (x / c)⌋ := by exact_mod_cast h1
    rw [← div_lt_iff₀ hc0]
    linarith

end

end Verif.FloatBits
