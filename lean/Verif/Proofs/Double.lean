import Verif.Spec.Double
import Mathlib.Algebra.Order.Ring.Pow
import Mathlib.Tactic.Linarith
import Mathlib.Tactic.Positivity
import Mathlib.Tactic.NormNum
import Mathlib.Tactic.Ring
import Mathlib.Tactic.FieldSimp

/-! Lemmas on rounding -/

namespace Verif.Double

theorem zpow_pos' (e : ℤ) : (0 : ℚ) < 2 ^ e := zpow_pos (by norm_num) e

theorem mul_two {m e k : ℤ} (h : k ≤ e) : ∃ j : ℤ, ((m : ℚ) * 2 ^ e) = j * 2 ^ k := by
  obtain ⟨d, rfl⟩ : ∃ d : ℕ, e = k + d := ⟨(e - k).toNat, by omega⟩
  refine ⟨m * 2 ^ d, ?_⟩
  rw [zpow_add₀ (by norm_num)]
  push_cast
  rw [zpow_natCast]
  ring

/-- A number with 53 bits which is not smaller than `2 ^ n` is a multiple of `2 ^ (n - 52)`. -/
theorem IsDouble.multiple {y : ℚ} (h : IsDouble y) {n : ℤ} (hy : 2 ^ n ≤ y) : ∃ k : ℤ, y = k * 2 ^ (n - 52) := by
  obtain ⟨m, e, hm, rfl⟩ := h
  by_cases he : n - 52 ≤ e
  · exact mul_two he
  · have h1 : (m : ℚ) ≤ 2 ^ 53 := by exact_mod_cast (le_abs_self m).trans hm
    have h2 : (2 : ℚ) ^ e ≤ 2 ^ (n - 53) := zpow_le_zpow_right₀ (by norm_num) (by omega)
    have h3 : (m : ℚ) * 2 ^ e ≤ 2 ^ 53 * 2 ^ (n - 53) :=
      mul_le_mul h1 h2 (zpow_pos' e).le (by norm_num)
    have h4 : (2 : ℚ) ^ 53 * 2 ^ (n - 53) = 2 ^ n := by
      rw [← zpow_natCast, ← zpow_add₀ (by norm_num)]; congr 1; push_cast; ring
    have h5 : (m : ℚ) * 2 ^ e = 2 ^ n := le_antisymm (h3.trans h4.le) hy
    refine ⟨2 ^ 52, ?_⟩
    have h6 : ((2 ^ 52 : ℤ) : ℚ) = (2 : ℚ) ^ (52 : ℤ) := by norm_num
    rw [h5, h6, ← zpow_add₀ (by norm_num)]; congr 1; ring

theorem isDouble_grid {k : ℤ} (e : ℤ) (h : |k| ≤ 2 ^ 53) : IsDouble (k * 2 ^ e) := ⟨k, e, h, rfl⟩

theorem isDouble_zero : IsDouble 0 := ⟨0, 0, by norm_num, by simp⟩
theorem isDouble_one : IsDouble 1 := ⟨1, 0, by norm_num, by simp⟩
theorem isDouble_half : IsDouble (1 / 2) := ⟨1, -1, by norm_num, by norm_num⟩

theorem round_small {t : ℚ} (h0 : 0 < t) (h1 : t ≤ 2 ^ 53) : |round t| ≤ 2 ^ 53 := by
  have h3 := abs_le.1 (abs_sub_round t)
  rw [abs_le]
  constructor
  · have : (-1 : ℚ) < (round t : ℤ) := by linarith [h3.2]
    have : (-1 : ℤ) < round t := by exact_mod_cast this
    omega
  · have : ((round t : ℤ) : ℚ) < ((2 ^ 53 + 1 : ℤ) : ℚ) := by push_cast; linarith [h3.1]
    have : round t < 2 ^ 53 + 1 := by exact_mod_cast this
    omega

/-- Numbers which are close to `x` -/
theorem near {x : ℚ} (hx : 0 < x) : ∃ n k : ℤ, 2 ^ n ≤ x ∧ x < 2 ^ (n + 1) ∧ k = round (x / 2 ^ (n - 52)) ∧ |k| ≤ 2 ^ 53 ∧ |k * 2 ^ (n - 52) - x| ≤ 2 ^ (n - 53) := by
  refine ⟨Int.log 2 x, round (x / 2 ^ (Int.log 2 x - 52)), ?_, ?_, rfl, ?_, ?_⟩
  · exact_mod_cast Int.zpow_log_le_self (b := 2) (by norm_num) hx
  · exact_mod_cast Int.lt_zpow_succ_log_self (b := 2) (by norm_num) x
  · set n := Int.log 2 x
    have hp := zpow_pos' (n - 52)
    have h1 : x < 2 ^ (n + 1) := by exact_mod_cast Int.lt_zpow_succ_log_self (b := 2) (by norm_num) x
    have h2 : x / 2 ^ (n - 52) < 2 ^ 53 := by
      rw [div_lt_iff₀ hp, ← zpow_natCast, ← zpow_add₀ (by norm_num)]
      rw [show ((53 : ℕ) : ℤ) + (n - 52) = n + 1 by omega]; exact h1
    have h3 := abs_sub_round (x / 2 ^ (n - 52))
    have h4 : 0 < x / 2 ^ (n - 52) := div_pos hx hp
    rw [abs_le] at h3
    rw [abs_le]
    constructor
    · have : (-1 : ℚ) < (round (x / 2 ^ (n - 52)) : ℤ) := by linarith [h3.2]
      have : (-1 : ℤ) < round (x / 2 ^ (n - 52)) := by exact_mod_cast this
      omega
    · have : ((round (x / 2 ^ (n - 52)) : ℤ) : ℚ) < ((2 ^ 53 + 1 : ℤ) : ℚ) := by push_cast; linarith [h3.1]
      have : round (x / 2 ^ (n - 52)) < 2 ^ 53 + 1 := by exact_mod_cast this
      omega
  · set n := Int.log 2 x
    have hp := zpow_pos' (n - 52)
    have h3 := abs_sub_round (x / 2 ^ (n - 52))
    have h5 : (round (x / 2 ^ (n - 52)) : ℚ) * 2 ^ (n - 52) - x = -((x / 2 ^ (n - 52) - round (x / 2 ^ (n - 52))) * 2 ^ (n - 52)) := by
      field_simp
      ring
    rw [h5, abs_neg, abs_mul, abs_of_pos hp]
    calc _ ≤ 1 / 2 * (2 : ℚ) ^ (n - 52) := mul_le_mul_of_nonneg_right h3 hp.le
      _ = 2 ^ (n - 53) := by
        rw [show n - 53 = (n - 52) - 1 by ring, zpow_sub_one₀ (by norm_num) (n - 52)]; ring

section
variable {fl : ℚ → ℚ} (hf : Nearest fl)
include hf

theorem Nearest.self {x : ℚ} (hx : IsDouble x) : fl x = x := by
  have := (hf x).2 x hx
  rw [sub_self, abs_zero] at this
  have := abs_nonpos_iff.1 this
  linarith

theorem Nearest.mono {x y : ℚ} (h : x ≤ y) : fl x ≤ fl y := by
  rcases h.eq_or_lt with rfl | h
  · exact le_refl _
  · by_contra hc
    rw [not_le] at hc
    have h1 := (hf x).2 (fl y) (hf y).1
    have h2 := (hf y).2 (fl x) (hf x).1
    rcases le_or_gt (fl x) y with h3 | h3
    · -- fl y < fl x ≤ y
      rw [abs_of_nonpos (by linarith : fl y - y ≤ 0), abs_of_nonpos (by linarith : fl x - y ≤ 0)] at h2
      linarith
    · rcases le_or_gt x (fl y) with h4 | h4
      · rw [abs_of_nonneg (by linarith : 0 ≤ fl x - x), abs_of_nonneg (by linarith : 0 ≤ fl y - x)] at h1
        linarith
      · rw [abs_of_nonneg (by linarith : 0 ≤ fl x - x), abs_of_nonpos (by linarith : fl y - x ≤ 0)] at h1
        rw [abs_of_nonpos (by linarith : fl y - y ≤ 0), abs_of_nonneg (by linarith : 0 ≤ fl x - y)] at h2
        linarith

theorem Nearest.le {x y : ℚ} (hy : IsDouble y) (h : x ≤ y) : fl x ≤ y := by
  have := hf.mono h
  rwa [hf.self hy] at this

theorem Nearest.ge {x y : ℚ} (hy : IsDouble y) (h : y ≤ x) : y ≤ fl x := by
  have := hf.mono h
  rwa [hf.self hy] at this

/-- The relative error is at most `2 ^ -53`. -/
theorem Nearest.error {x : ℚ} (hx : 0 ≤ x) : |fl x - x| ≤ x / 2 ^ 53 := by
  rcases hx.eq_or_lt with rfl | hx
  · rw [hf.self isDouble_zero]; norm_num
  · obtain ⟨n, k, h1, -, -, h2, h3⟩ := near hx
    refine ((hf x).2 _ (isDouble_grid (n - 52) h2)).trans (h3.trans ?_)
    have : (2 : ℚ) ^ (n - 53) = 2 ^ n / 2 ^ 53 := by
      rw [zpow_sub₀ (by norm_num)]; norm_num
    rw [this]
    exact div_le_div_of_nonneg_right h1 (by norm_num)

theorem Nearest.pos {x : ℚ} (hx : 0 < x) : 0 < fl x := by
  have := hf.error hx.le
  rw [abs_le] at this
  have h2 : x / 2 ^ 53 < x := by
    rw [div_lt_iff₀ (by norm_num)]; nlinarith
  linarith [this.1]

/-- The largest number below one half -/
theorem below_half {c : ℚ} (hc : IsDouble c) (h : c < 1 / 2) : c ≤ 1 / 2 - 1 / 2 ^ 54 := by
  rcases le_or_gt c (1 / 4) with h1 | h1
  · refine h1.trans (by norm_num)
  · obtain ⟨k, rfl⟩ := hc.multiple (n := -2) (by norm_num at h1 ⊢; linarith)
    have h2 : (2 : ℚ) ^ ((-2 : ℤ) - 52) = 1 / 2 ^ 54 := by norm_num
    rw [h2] at h ⊢
    have h3 : (k : ℚ) < 2 ^ 53 := by
      have : (k : ℚ) * (1 / 2 ^ 54) * 2 ^ 54 < 1 / 2 * 2 ^ 54 := mul_lt_mul_of_pos_right h (by norm_num)
      norm_num at this ⊢
      linarith
    have h4 : k ≤ 2 ^ 53 - 1 := by
      have : k < 2 ^ 53 := by exact_mod_cast h3
      omega
    have h5 : (k : ℚ) ≤ 2 ^ 53 - 1 := by exact_mod_cast h4
    have : (k : ℚ) * (1 / 2 ^ 54) ≤ (2 ^ 53 - 1) * (1 / 2 ^ 54) := mul_le_mul_of_nonneg_right h5 (by norm_num)
    refine this.trans (by norm_num)

/-- Adding a weight to less than one half and subtracting it again does not give more than one half, in spite of rounding. -/
theorem Nearest.before {c w : ℚ} (hc : IsDouble c) (hw : IsDouble w) (h0 : 0 ≤ c) (hc2 : c < 1 / 2) (hw0 : 0 ≤ w) (hw1 : w ≤ 1) : fl (fl (c + w) - w) ≤ 1 / 2 := by
  refine hf.le isDouble_half ?_
  suffices fl (c + w) ≤ 1 / 2 + w by linarith
  have hb := below_half hf hc hc2
  rcases le_or_gt (c + w) (1 / 2) with h1 | h1
  · exact (hf.le isDouble_half h1).trans (by linarith)
  · rcases le_or_gt (c + w) 1 with h2 | h2
    · -- multiples of 2^-53 are close
      have h3 := abs_sub_round ((c + w) * 2 ^ 53)
      rw [abs_le] at h3
      have h9 : 0 < (c + w) * 2 ^ 53 := mul_pos (by linarith) (by norm_num)
      have h10 : (c + w) * 2 ^ 53 ≤ 1 * 2 ^ 53 := mul_le_mul_of_nonneg_right h2 (by norm_num)
      have h4 : |round ((c + w) * 2 ^ 53)| ≤ 2 ^ 53 := round_small h9 (by rw [one_mul] at h10; exact h10)
      have h5 := (hf (c + w)).2 _ (isDouble_grid (-53) h4)
      have h6 : (2 : ℚ) ^ (-53 : ℤ) = 1 / 2 ^ 53 := by norm_num
      rw [h6] at h5
      have h7 : |(round ((c + w) * 2 ^ 53) : ℚ) * (1 / 2 ^ 53) - (c + w)| ≤ 1 / 2 ^ 54 := by
        rw [abs_le]
        constructor <;> norm_num at h3 ⊢ <;> linarith [h3.1, h3.2]
      have h8 := (abs_le.1 (h5.trans h7)).2
      linarith
    · -- the sum is larger than one
      obtain ⟨k, hk⟩ := hw.multiple (n := -1) (by norm_num; linarith)
      have e1 : (2 : ℚ) ^ ((-1 : ℤ) - 52) = 1 / 2 ^ 53 := by norm_num
      rw [e1] at hk
      have hk1 : (k : ℚ) ≤ 2 ^ 53 := by
        have : (k : ℚ) * (1 / 2 ^ 53) * 2 ^ 53 ≤ 1 * 2 ^ 53 := mul_le_mul_of_nonneg_right (by linarith) (by norm_num)
        norm_num at this ⊢
        linarith
      have hk2 : k ≤ 2 ^ 53 := by exact_mod_cast hk1
      have hk0 : (0 : ℚ) ≤ k := by
        by_contra hneg
        rw [not_le] at hneg
        have : (k : ℚ) * (1 / 2 ^ 53) < 0 := mul_neg_of_neg_of_pos hneg (by norm_num)
        linarith
      have hk3 : 0 ≤ k := by exact_mod_cast hk0
      rcases Int.even_or_odd k with ⟨j, hj⟩ | ⟨j, hj⟩
      · have hd : IsDouble (1 / 2 + w) := by
          refine ⟨2 ^ 51 + j, -52, by rw [abs_of_nonneg (by omega)]; omega, ?_⟩
          rw [hk, hj]; push_cast
          have : (2 : ℚ) ^ (-52 : ℤ) = 1 / 2 ^ 52 := by norm_num
          rw [this]; norm_num; ring
        exact hf.le hd (by linarith)
      · have hd : IsDouble (1 / 2 + w - 1 / 2 ^ 53) := by
          refine ⟨2 ^ 51 + j, -52, by rw [abs_of_nonneg (by omega)]; omega, ?_⟩
          rw [hk, hj]; push_cast
          have : (2 : ℚ) ^ (-52 : ℤ) = 1 / 2 ^ 52 := by norm_num
          rw [this]; norm_num; ring
        rcases le_or_gt (c + w) (1 / 2 + w - 1 / 2 ^ 53) with h3 | h3
        · have := hf.le hd h3
          have h4 : (0 : ℚ) < 1 / 2 ^ 53 := by norm_num
          linarith
        · by_contra hgt
          rw [not_le] at hgt
          have h4 := (hf (c + w)).2 _ hd
          rw [abs_of_nonneg (by linarith : 0 ≤ fl (c + w) - (c + w)), abs_of_nonpos (by linarith : 1 / 2 + w - 1 / 2 ^ 53 - (c + w) ≤ 0)] at h4
          have h5 : (1 : ℚ) / 2 ^ 53 = 2 * (1 / 2 ^ 54) := by norm_num
          rw [h5] at h4
          linarith

end

end Verif.Double
