import Verif.Model.RoundedRegion
import Verif.Proofs.FloatBits
import Verif.Props.HashSnapshot
import Verif.Props.RoundedKeys

/-! C141: reading a region of a snapshot with rounded divisions -/

namespace Verif.FloatBits

theorem IsFloat.neg {p : ℕ} {x : ℚ} (h : IsFloat p x) : IsFloat p (-x) := by
  obtain ⟨m, e, h1, rfl⟩ := h
  exact ⟨-m, e, by rwa [abs_neg], by push_cast; ring⟩

theorem isFloat_zpow (p : ℕ) (e : ℤ) : IsFloat p (2 ^ e) := ⟨1, e, by rw [abs_one]; exact one_le_pow₀ (by norm_num), by simp⟩

/-- A whole multiple of a number with few bits -/
theorem IsFloat.mul_int {b p : ℕ} (hb : b ≤ p) {x : ℚ} (h : IsFloat b x) {k : ℤ} (hk : |k| ≤ 2 ^ (p - b)) : IsFloat p (k * x) := by
  obtain ⟨m, e, h1, rfl⟩ := h
  refine ⟨k * m, e, ?_, by push_cast; ring⟩
  rw [abs_mul]
  calc |k| * |m| ≤ 2 ^ (p - b) * 2 ^ b := mul_le_mul hk h1 (abs_nonneg _) (by positivity)
    _ = 2 ^ p := by rw [← pow_add]; congr 1; omega

section
variable {p : ℕ} {fl : ℚ → ℚ} (hf : NearestTo p fl)
include hf

theorem NearestTo.neg : NearestTo p (fun x => -fl (-x)) := by
  intro x
  refine ⟨(hf (-x)).1.neg, fun y hy => ?_⟩
  have := (hf (-x)).2 (-y) hy.neg
  have e1 : fl (-x) - -x = -(-fl (-x) - x) := by ring
  have e2 : -y - -x = -(y - x) := by ring
  rwa [e1, e2, abs_neg, abs_neg] at this

/-- The error is less than one part in 2^p. -/
theorem NearestTo.error_lt {x : ℚ} (hx : 0 < x) : |fl x - x| < x / 2 ^ p := by
  have h0 : (2 : ℚ) ^ Int.log 2 x ≤ x := by exact_mod_cast Int.zpow_log_le_self (b := 2) (by norm_num) hx
  have h1 : x < 2 ^ (Int.log 2 x + 1) := by exact_mod_cast Int.lt_zpow_succ_log_self (b := 2) (by norm_num) x
  rcases h0.eq_or_lt with h0 | h0
  · have : fl x = x := hf.self (h0 ▸ isFloat_zpow p _)
    rw [this, sub_self, abs_zero]
    positivity
  · obtain ⟨h2, -⟩ := near (p := p) hx
    have h3 := (hf x).2 _ ⟨_, Int.log 2 x + 1 - p, h2, rfl⟩
    refine h3.trans_lt ?_
    set n := Int.log 2 x
    have hp := zpow_pos' (n + 1 - p)
    have h4 := abs_sub_round (x / 2 ^ (n + 1 - p))
    have h5 : (round (x / 2 ^ (n + 1 - p)) : ℚ) * 2 ^ (n + 1 - p) - x = -((x / 2 ^ (n + 1 - p) - round (x / 2 ^ (n + 1 - p))) * 2 ^ (n + 1 - p)) := by
      field_simp
      ring
    rw [h5, abs_neg, abs_mul, abs_of_pos hp]
    calc _ ≤ 1 / 2 * (2 : ℚ) ^ (n + 1 - p) := mul_le_mul_of_nonneg_right h4 hp.le
      _ = 2 ^ n / 2 ^ p := by
        rw [show n + 1 - (p : ℤ) = (n - p) + 1 by ring, zpow_add_one₀ (by norm_num), zpow_sub₀ (by norm_num), zpow_natCast]; ring
      _ < x / 2 ^ p := div_lt_div_of_pos_right h0 (by positivity)

/-- The cell of a number is the right one if its upper boundary is a floating point number. -/
theorem floor_exact (hp : 1 ≤ p) {x c : ℚ} (hc : 0 < c) (hx : IsFloat p x) (hK : IsFloat p ((⌊x / c⌋ + 1) * c)) (hk : |⌊x / c⌋| ≤ 2 ^ p) : ⌊fl (x / c)⌋ = ⌊x / c⌋ := by
  have hP : (0 : ℚ) < 2 ^ p := by positivity
  rw [Int.floor_eq_iff]
  refine ⟨hf.ge (isFloat_int hk) (Int.floor_le _), ?_⟩
  have hlt := Int.lt_floor_add_one (x / c)
  set k := ⌊x / c⌋
  have hxc : x < (k + 1) * c := by rwa [div_lt_iff₀ hc] at hlt
  by_contra hcon
  rw [not_lt] at hcon
  rcases lt_trichotomy (x / c) 0 with hq | hq | hq
  · -- negative
    have hx0 : x < 0 := by rwa [div_lt_iff₀ hc, zero_mul] at hq
    have hk0 : ((k : ℚ) + 1) ≤ 0 := by
      have : k < 0 := by
        have h1 : (k : ℚ) ≤ x / c := Int.floor_le _
        have : (k : ℚ) < 0 := by linarith
        exact_mod_cast this
      exact_mod_cast (by omega : k + 1 ≤ 0)
    have h1 := hK.neg.gap hp hx.neg (by nlinarith) (by linarith)
    have h2 := hf.neg.error_lt (x := -(x / c)) (by linarith)
    simp only [neg_neg] at h2
    have h3 := (abs_lt.1 h2).1
    have h4 : -((k : ℚ) + 1) ≤ -(x / c) * (1 - 1 / 2 ^ p) := by
      have : -((k : ℚ) + 1) = -((k + 1) * c) / c := by field_simp
      rw [this, div_le_iff₀ hc]
      have e : -(x / c) * (1 - 1 / 2 ^ p) * c = -x * (1 - 1 / 2 ^ p) := by field_simp
      rw [e]
      exact h1
    rw [mul_sub, mul_one_div] at h4
    linarith
  · rw [hq, hf.self (isFloat_zero p)] at hcon
    rw [hq] at hlt
    linarith
  · -- positive
    have hx0 : 0 < x := by rwa [lt_div_iff₀ hc, zero_mul] at hq
    have h1 := hx.gap hp hK hx0.le hxc
    have h2 := (abs_lt.1 (hf.error_lt hq)).2
    have h4 : x / c ≤ ((k : ℚ) + 1) * (1 - 1 / 2 ^ p) := by
      rw [div_le_iff₀ hc]
      linarith
    have hu : (0 : ℚ) < 1 / 2 ^ p := by positivity
    have h5 : (k : ℚ) + 1 < x / c * (1 + 1 / 2 ^ p) := by
      have : x / c * (1 + 1 / 2 ^ p) = x / c + x / c / 2 ^ p := by ring
      linarith
    have h6 : x / c * (1 + 1 / 2 ^ p) ≤ ((k : ℚ) + 1) * (1 - 1 / 2 ^ p) * (1 + 1 / 2 ^ p) := mul_le_mul_of_nonneg_right h4 (by linarith)
    have h7 : ((k : ℚ) + 1) * (1 - 1 / 2 ^ p) * (1 + 1 / 2 ^ p) = (k + 1) - (k + 1) * (1 / 2 ^ p) ^ 2 := by ring
    have h8 : (0 : ℚ) ≤ (k + 1) * (1 / 2 ^ p) ^ 2 := by
      have : (0 : ℚ) ≤ k + 1 := by linarith
      positivity
    linarith

end

/-- The cell of a coordinate, for a box whose size has `b` bits -/
theorem region_cell {p : ℕ} {fl : ℚ → ℚ} (hf : NearestTo p fl) (hp : 1 ≤ p) {b bits : ℕ} (hb : b ≤ p) {boxsize x : ℚ} (hbox : 0 < boxsize) (hbits : IsFloat b boxsize) (hx : IsFloat p x)
    (hr : |x| ≤ (2 ^ (p - b) - 1) * (boxsize / 2 ^ bits)) : ⌊fl (x / (boxsize / 2 ^ bits))⌋ = ⌊x / (boxsize / 2 ^ bits)⌋ := by
  have hc : 0 < boxsize / 2 ^ bits := by positivity
  set c := boxsize / 2 ^ bits
  have hq : |x / c| ≤ ((2 ^ (p - b) - 1 : ℤ) : ℚ) := by
    rw [abs_div, abs_of_pos hc, div_le_iff₀ hc]
    push_cast
    exact hr
  obtain ⟨h1, h2⟩ := abs_le.1 hq
  have h3 : ⌊x / c⌋ ≤ 2 ^ (p - b) - 1 := by
    have : ((⌊x / c⌋ : ℤ) : ℚ) ≤ ((2 ^ (p - b) - 1 : ℤ) : ℚ) := (Int.floor_le _).trans h2
    exact_mod_cast this
  have h4 : -(2 ^ (p - b) - 1) ≤ ⌊x / c⌋ := by
    rw [Int.le_floor]
    push_cast at h1 ⊢
    exact h1
  have h5 : (2 : ℤ) ^ (p - b) ≤ 2 ^ p := pow_le_pow_right₀ (by norm_num) (by omega)
  refine floor_exact hf hp hc hx ?_ (by rw [abs_le]; constructor <;> omega)
  have := IsFloat.mul_int hb (hbits.div bits) (k := ⌊x / c⌋ + 1) (by rw [abs_le]; constructor <;> omega)
  push_cast at this
  exact this

/-- C141: Peano-Hilbert keys aren't changed by rounding if the size of the box has `b` bits, and `b + bits` isn't more than the number of bits of positions. -/
theorem C141_keys {p : ℕ} {fl fl64 : ℚ → ℚ} (h64 : NearestTo 53 fl64) (hf : NearestTo p fl) {bs : Nat} (hbs : 0 < bs) {bits b : Nat} (hp : b + bits ≤ p) (hp1 : 1 ≤ b) (hp53 : p ≤ 53) {boxsize : ℚ} (hbox : 0 < boxsize)
    (hbits : IsFloat b boxsize) (pos : List (ℚ × ℚ × ℚ)) (hpos : ∀ q ∈ pos, ∀ x ∈ [q.1, q.2.1, q.2.2], IsFloat p x ∧ 0 ≤ x ∧ x < boxsize) :
    keysFromCoords fl64 fl bs pos boxsize bits = phKeysFromCoords bs pos boxsize bits := by
  have up : ∀ n, b ≤ n → IsFloat n boxsize := fun n hn => by
    obtain ⟨m, e, h1, h2⟩ := hbits
    exact ⟨m, e, h1.trans (pow_le_pow_right₀ (by norm_num) hn), h2⟩
  rw [keysFromCoords_eq _ _ hbs, phKeysFromCoords_eq hbs, h64.self ((up 53 (by omega)).div bits), hf.self ((up p (by omega)).div bits)]
  have hs : 0 < boxsize / 2 ^ bits := by positivity
  have key : ∀ q ∈ pos, ∀ x ∈ [q.1, q.2.1, q.2.2], ⌊fl (x / (boxsize / 2 ^ bits))⌋ = ⌊x / (boxsize / 2 ^ bits)⌋ := by
    intro q hq x hx
    obtain ⟨g1, g2, g3⟩ := hpos q hq x hx
    have h0 : 0 ≤ ⌊x / (boxsize / 2 ^ bits)⌋ := Int.floor_nonneg.2 (div_nonneg g2 hs.le)
    have h1 : ⌊x / (boxsize / 2 ^ bits)⌋ < 2 ^ bits := by
      rw [Int.floor_lt, div_lt_iff₀ hs]
      push_cast
      rw [mul_div_cancel₀ _ (by positivity)]
      exact g3
    have h2 : (2 : ℤ) ^ bits ≤ 2 ^ (p - b) := pow_le_pow_right₀ (by norm_num) (by omega)
    have h3 : (2 : ℤ) ^ bits ≤ 2 ^ p := pow_le_pow_right₀ (by norm_num) (by omega)
    refine floor_exact hf (by omega) hs g1 ?_ (by rw [abs_of_nonneg h0]; omega)
    have := IsFloat.mul_int (by omega) (hbits.div bits) (p := p) (k := ⌊x / (boxsize / 2 ^ bits)⌋ + 1) (by rw [abs_of_nonneg (by omega)]; omega)
    push_cast at this
    exact this
  refine mapM_congr' (fun q hq => ?_)
  rw [key q hq q.1 (by simp), key q hq q.2.1 (by simp), key q hq q.2.2 (by simp)]

/-- C141: rounding doesn't change the result of `read_region` for regions given by double precision numbers, if the size of the box has few bits (`b`, for example 7 for 500) and the region isn't very far from
the box. -/
theorem C141_same {α : Type*} {fl : ℚ → ℚ} (hf : NearestTo 53 fl) {b bits : ℕ} (hb : b ≤ 53) {boxsize : ℚ} (hbox : 0 < boxsize) (hbits : IsFloat b boxsize) {lo hi : ℚ × ℚ × ℚ}
    (hr : ∀ x ∈ [lo.1, lo.2.1, lo.2.2, hi.1, hi.2.1, hi.2.2], IsFloat 53 x ∧ |x| ≤ (2 ^ (53 - b) - 1) * (boxsize / 2 ^ bits)) (float_sizes : Bool) (files : Nat → HashFile α) (nfiles : Nat) (table : HashTable) :
    readRegion fl float_sizes files nfiles (8 ^ bits) boxsize table lo hi = Verif.readRegion float_sizes files nfiles (8 ^ bits) boxsize table lo hi := by
  have hgrid : gridSize (((8 ^ bits : Nat) : Int)) = (2 ^ bits, bits) := by
    rw [show (((8 ^ bits : Nat) : Int)) = 8 ^ bits by push_cast; rfl]
    exact C56_grid bits
  have h53 : IsFloat 53 boxsize := by
    obtain ⟨m, e, h1, h2⟩ := hbits
    exact ⟨m, e, h1.trans (pow_le_pow_right₀ (by norm_num) hb), h2⟩
  have hcs : fl (boxsize / ((2 ^ bits : Nat) : ℚ)) = boxsize / ((2 ^ bits : Nat) : ℚ) := by
    push_cast
    exact hf.self (h53.div bits)
  have hx : ∀ x ∈ [lo.1, lo.2.1, lo.2.2, hi.1, hi.2.1, hi.2.2], ⌊fl (x / (boxsize / ((2 ^ bits : Nat) : ℚ)))⌋ = ⌊x / (boxsize / ((2 ^ bits : Nat) : ℚ))⌋ := fun x hx => by
    push_cast
    exact region_cell hf (by norm_num) hb hbox hbits (hr x hx).1 (hr x hx).2
  unfold readRegion Verif.readRegion
  simp only [hgrid, hcs]
  rw [hx lo.1 (by simp), hx lo.2.1 (by simp), hx lo.2.2 (by simp), hx hi.1 (by simp), hx hi.2.1 (by simp), hx hi.2.2 (by simp)]
  rfl

/-- C141: `read_region` returns the particles in the cells which the region or its periodic images meet. -/
theorem C141_region {α : Type*} {fl : ℚ → ℚ} (hf : NearestTo 53 fl) {b : ℕ} (hb : b ≤ 53) (d : HashedFiles α) {bits nfiles : Nat} (h0 : 0 < bits) (h21 : bits ≤ 21)
    (hd : ∀ i < nfiles, CellOrdered (8 ^ bits) (d.first i) (d.last i) (d.ps i)) (hcover : ∀ c : Int, 0 ≤ c → c < 8 ^ bits → ∃ i < nfiles, d.first i ≤ c ∧ c ≤ d.last i) (calls : List (List Int))
    {boxsize : ℚ} (hbox : 0 < boxsize) (hbits : IsFloat b boxsize) {lo hi : ℚ × ℚ × ℚ} (hx : lo.1 ≤ hi.1) (hy : lo.2.1 ≤ hi.2.1) (hz : lo.2.2 ≤ hi.2.2)
    (hr : ∀ x ∈ [lo.1, lo.2.1, lo.2.2, hi.1, hi.2.1, hi.2.2], IsFloat 53 x ∧ |x| ≤ (2 ^ (53 - b) - 1) * (boxsize / 2 ^ bits)) :
    ∃ sel : Int → Bool, (readRegion fl true d.files nfiles (8 ^ bits) boxsize (hashTableAfter d.files nfiles (8 ^ bits) calls) lo hi).2 =
        .ok (particleArrays (((List.range nfiles).flatMap d.ps).filter (fun p => sel p.cell))) ∧
      ∀ c : Int, 0 ≤ c → c < 8 ^ bits → ∃ x y z, phInverseScalar c bits = .ok (x, y, z) ∧
        (sel c = true ↔ CellMeets (2 ^ bits) boxsize lo.1 hi.1 x ∧ CellMeets (2 ^ bits) boxsize lo.2.1 hi.2.1 y ∧ CellMeets (2 ^ bits) boxsize lo.2.2 hi.2.2 z) := by
  rw [C141_same hf hb hbox hbits hr]
  exact C56_region d h0 h21 hd hcover calls hbox hx hy hz

namespace ExRoundedRegion

/-- The Millennium simulation: 500 has 7 bits. -/
theorem box : IsFloat 7 500 := ⟨125, 2, by norm_num, by norm_num⟩

/-- The region of read_region.py, from 10 to 20 in each dimension -/
example {α : Type*} {fl : ℚ → ℚ} (hf : NearestTo 53 fl) (files : Nat → HashFile α) (nfiles : Nat) (table : HashTable) :
    readRegion fl true files nfiles (8 ^ 8) 500 table (10, 10, 10) (20, 20, 20) = Verif.readRegion true files nfiles (8 ^ 8) 500 table (10, 10, 10) (20, 20, 20) :=
  C141_same hf (by norm_num) (by norm_num) box (by
    intro x hx
    have h10 : IsFloat 53 10 := ⟨10, 0, by norm_num, by norm_num⟩
    have h20 : IsFloat 53 20 := ⟨20, 0, by norm_num, by norm_num⟩
    simp only [List.mem_cons, List.not_mem_nil, or_false] at hx
    rcases hx with rfl | rfl | rfl | rfl | rfl | rfl
    · exact ⟨h10, by norm_num⟩
    · exact ⟨h10, by norm_num⟩
    · exact ⟨h10, by norm_num⟩
    · exact ⟨h20, by norm_num⟩
    · exact ⟨h20, by norm_num⟩
    · exact ⟨h20, by norm_num⟩) true files nfiles table

/-- The largest number with 53 bits below a boundary at -500/256 stays below it. -/
example {fl : ℚ → ℚ} (hf : NearestTo 53 fl) : ⌊fl ((-500 / 2 ^ 8 - 1 / 2 ^ 52) / (500 / 2 ^ 8))⌋ = -2 := by
  have h : (-500 / 2 ^ 8 - 1 / 2 ^ 52 : ℚ) = (-(500 * 2 ^ 44 + 1) : ℤ) * 2 ^ (-52 : ℤ) := by norm_num
  rw [region_cell hf (by norm_num) (b := 7) (bits := 8) (by norm_num) (by norm_num) box ⟨_, _, by norm_num, h⟩ (by norm_num), Int.floor_eq_iff]
  norm_num

/-- Keys of single precision positions in the Millennium simulation -/
example {fl fl64 : ℚ → ℚ} (h64 : NearestTo 53 fl64) (hf : NearestTo 24 fl) : keysFromCoords fl64 fl 10000 [(499, 0, 3 / 2)] 500 8 = phKeysFromCoords 10000 [(499, 0, 3 / 2)] 500 8 :=
  C141_keys h64 hf (by norm_num) (b := 7) (by norm_num) (by norm_num) (by norm_num) (by norm_num) box _ (by
    intro q hq x hx
    rw [List.mem_singleton] at hq
    subst hq
    simp only [List.mem_cons, List.not_mem_nil, or_false] at hx
    rcases hx with rfl | rfl | rfl
    · exact ⟨⟨499, 0, by norm_num, by norm_num⟩, by norm_num, by norm_num⟩
    · exact ⟨isFloat_zero 24, by norm_num, by norm_num⟩
    · exact ⟨⟨3, -1, by norm_num, by norm_num⟩, by norm_num, by norm_num⟩)

end ExRoundedRegion

/-- The hypotheses on rounding can be met. -/
example : (∃ fl, NearestTo 24 fl) ∧ ∃ fl, NearestTo 53 fl := ⟨exists_nearestTo (by norm_num), exists_nearestTo (by norm_num)⟩

end Verif.FloatBits
