import Verif.Proofs.PeanoBlocks
import Mathlib.Tactic.FieldSimp
import Mathlib.Algebra.Order.Floor.Ring

/-!
C37-C41 and C68: Peano-Hilbert keys.
-/

namespace Verif

/-- A cell of the grid with `2^bits` cells on each side. -/
def InGrid (bits : Nat) (p : Int × Int × Int) : Prop :=
  (0 ≤ p.1 ∧ p.1 < 2 ^ bits) ∧ (0 ≤ p.2.1 ∧ p.2.1 < 2 ^ bits) ∧ (0 ≤ p.2.2 ∧ p.2.2 < 2 ^ bits)

theorem inGrid_phJ (n bits : Nat) : InGrid bits (((phJ n bits 0 1).1 : Int), ((phJ n bits 0 1).2.1 : Int), ((phJ n bits 0 1).2.2 : Int)) := by
  obtain ⟨l1, l2, l3⟩ := phJ_lt n bits phValid_start
  unfold InGrid
  dsimp only
  refine ⟨⟨Int.natCast_nonneg _, ?_⟩, ⟨Int.natCast_nonneg _, ?_⟩, ⟨Int.natCast_nonneg _, ?_⟩⟩
  · exact_mod_cast l1
  · exact_mod_cast l2
  · exact_mod_cast l3

/-! ### C37 -/

/-- The key of a cell, inverted, gives the cell (with the periodic image of a cell outside the grid). -/
theorem C37_inverse_of_key {bits : Nat} (h0 : 0 < bits) (h21 : bits ≤ 21) (x y z : Int) :
    ∃ k, phKeyScalar x y z bits = .ok k ∧ phInverseScalar k bits = .ok (x % 2 ^ bits, y % 2 ^ bits, z % 2 ^ bits) := by
  refine ⟨_, phKeyScalar_small h0 h21 x y z, ?_⟩
  rw [phInverseScalar_eq h0 h21]
  obtain ⟨e1, e2, e3⟩ := phJ_phK x y z bits phValid_start
  rw [e1, e2, e3]
  push_cast
  rfl

/-- The cell of a key has that key and is in the grid. -/
theorem C37_key_of_inverse {bits : Nat} (h0 : 0 < bits) (h21 : bits ≤ 21) {k : Int} (hk : 0 ≤ k) (hk' : k < 8 ^ bits) :
    ∃ x y z, phInverseScalar k bits = .ok (x, y, z) ∧ InGrid bits (x, y, z) ∧ phKeyScalar x y z bits = .ok k := by
  obtain ⟨n, rfl⟩ := Int.eq_ofNat_of_zero_le hk
  have hn : n < 8 ^ bits := by exact_mod_cast hk'
  refine ⟨_, _, _, phInverseScalar_eq h0 h21 n, inGrid_phJ n bits, ?_⟩
  rw [phKeyScalar_small h0 h21, phK_phJ n bits phValid_start, Nat.mod_eq_of_lt hn]

/-- For arrays: the keys of cells of the grid, inverted, are the cells, whatever the block sizes. -/
theorem C37_arrays {bits : Nat} (h0 : 0 < bits) (h21 : bits ≤ 21) {bs bs' : Nat} (hb : 0 < bs) (hb' : 0 < bs') {pts : List (Int × Int × Int)} (hp : ∀ p ∈ pts, InGrid bits p) :
    ∃ keys, phKeys bs pts bits = .ok keys ∧ phInverses bs' keys bits = .ok pts := by
  refine ⟨pts.map (fun p => (phK p.1 p.2.1 p.2.2 bits 0 1 : Int)), ?_, ?_⟩
  · rw [phKeys_eq hb]
    exact mapM_ok _ _ _ (fun p _ => phKeyScalar_small h0 h21 _ _ _)
  · rw [phInverses_eq hb', List.mapM_map]
    conv_rhs => rw [← List.map_id pts]
    apply mapM_ok
    intro p hp'
    obtain ⟨k, hk, hk'⟩ := C37_inverse_of_key h0 h21 p.1 p.2.1 p.2.2
    rw [phKeyScalar_small h0 h21] at hk
    cases hk
    obtain ⟨⟨a, b⟩, ⟨c, d⟩, ⟨e, f⟩⟩ := hp p hp'
    simp only [Function.comp]
    rw [hk', Int.emod_eq_of_lt a b, Int.emod_eq_of_lt c d, Int.emod_eq_of_lt e f]
    rfl

/-! ### C38 -/

/-- Keys are in range. -/
theorem C38_range {bits : Nat} (h0 : 0 < bits) (h21 : bits ≤ 21) (x y z : Int) : ∃ k, phKeyScalar x y z bits = .ok k ∧ 0 ≤ k ∧ k < 8 ^ bits := by
  refine ⟨_, phKeyScalar_small h0 h21 x y z, by omega, ?_⟩
  exact_mod_cast phK_lt x y z bits phValid_start

/-- Coordinates with equal low bits have equal keys (negative coordinates included). -/
theorem C38_low_bits (bits : Nat) {x y z x' y' z' : Int} (hx : x % 2 ^ bits = x' % 2 ^ bits) (hy : y % 2 ^ bits = y' % 2 ^ bits) (hz : z % 2 ^ bits = z' % 2 ^ bits) :
    phKeyScalar x y z bits = phKeyScalar x' y' z' bits := by
  by_cases h0 : bits = 0
  · simp [phKeyScalar, h0]
  by_cases h1 : bits > 31
  · simp [phKeyScalar, h0, h1]
  rw [phKeyScalar_eq (by omega) (by omega), phKeyScalar_eq (by omega) (by omega), phK_congr (x' := x') (y' := y') (z' := z') (by push_cast; exact hx) (by push_cast; exact hy) (by push_cast; exact hz)]

/-- Beyond 21 bits the key does not fit in `int64` and is not unique: two cells of the grid have the same key, with no error. -/
theorem C38_overflow {bits : Nat} (h22 : 22 ≤ bits) (h31 : bits ≤ 31) :
    ∃ p p' : Int × Int × Int, InGrid bits p ∧ InGrid bits p' ∧ p ≠ p' ∧ ∃ k, phKeyScalar p.1 p.2.1 p.2.2 bits = .ok k ∧ phKeyScalar p'.1 p'.2.1 p'.2.2 bits = .ok k := by
  have h8 : 8 ^ 22 ≤ 8 ^ bits := Nat.pow_le_pow_right (by omega) h22
  have e0 := phK_phJ 0 bits phValid_start
  have e1 := phK_phJ (2 ^ 64) bits phValid_start
  rw [Nat.mod_eq_of_lt (by positivity)] at e0
  rw [Nat.mod_eq_of_lt (by norm_num at h8; omega)] at e1
  refine ⟨_, _, inGrid_phJ 0 bits, inGrid_phJ (2 ^ 64) bits, ?_, wrap64 0, ?_, ?_⟩
  · intro he
    simp only [Prod.mk.injEq] at he
    rw [he.1, he.2.1, he.2.2, e1] at e0
    norm_num at e0
  · rw [phKeyScalar_eq (by omega) h31, e0]; rfl
  · rw [phKeyScalar_eq (by omega) h31, e1]
    refine congrArg Except.ok ?_
    unfold wrap64; norm_num

/-! ### C39 -/

/-- The cells of consecutive keys share a face. -/
theorem C39_adjacent {bits : Nat} (h0 : 0 < bits) (h21 : bits ≤ 21) {k : Int} (hk : 0 ≤ k) (hk' : k + 1 < 8 ^ bits) :
    ∃ x y z x' y' z', phInverseScalar k bits = .ok (x, y, z) ∧ phInverseScalar (k + 1) bits = .ok (x', y', z') ∧
      (x - x').natAbs + (y - y').natAbs + (z - z').natAbs = 1 := by
  obtain ⟨n, rfl⟩ := Int.eq_ofNat_of_zero_le hk
  have hn : n + 1 < 8 ^ bits := by exact_mod_cast hk'
  have h2 := phInverseScalar_eq h0 h21 (n + 1)
  push_cast at h2
  refine ⟨_, _, _, _, _, _, phInverseScalar_eq h0 h21 n, h2, ?_⟩
  have := phJ_adjacent n bits phValid_start hn
  unfold dist1 at this
  omega

/-! ### C40 -/

/-- The cell `2^d` times as large has the key with the last `d` digits (base eight) removed. -/
theorem C40_nest {bits d : Nat} (hd : d < bits) (h21 : bits ≤ 21) (x y z : Int) :
    ∃ k, phKeyScalar x y z bits = .ok k ∧ phKeyScalar (x / 2 ^ d) (y / 2 ^ d) (z / 2 ^ d) (bits - d) = .ok (k / 8 ^ d) := by
  refine ⟨_, phKeyScalar_small (by omega) h21 x y z, ?_⟩
  rw [phKeyScalar_small (by omega) (by omega)]
  refine congrArg Except.ok ?_
  have key : ∀ d < bits, phK (x / 2 ^ d) (y / 2 ^ d) (z / 2 ^ d) (bits - d) 0 1 = phK x y z bits 0 1 / 8 ^ d := by
    intro d
    induction d with
    | zero => intro _; simp
    | succ d ih =>
      intro h
      have e := ih (by omega)
      rw [Nat.pow_succ, ← Nat.div_div_eq_div_mul, ← e, show bits - d = (bits - (d + 1)) + 1 by omega, phK_nest _ _ _ _ phValid_start]
      have h2 : ∀ a : Int, a / 2 ^ (d + 1) = a / 2 ^ d / 2 := by
        intro a
        rw [Int.ediv_ediv_of_nonneg (by positivity), pow_succ]
      rw [h2, h2, h2]
  rw [key d hd]
  push_cast
  rfl

/-- So two cells are in the same coarse cell exactly when their keys are in the same aligned run of `8^d` keys. -/
theorem C40_same_coarse_cell {bits d : Nat} (hd : d < bits) (h21 : bits ≤ 21) {p p' : Int × Int × Int} (hp : InGrid bits p) (hp' : InGrid bits p') :
    ∃ k k', phKeyScalar p.1 p.2.1 p.2.2 bits = .ok k ∧ phKeyScalar p'.1 p'.2.1 p'.2.2 bits = .ok k' ∧
      (k / 8 ^ d = k' / 8 ^ d ↔ p.1 / 2 ^ d = p'.1 / 2 ^ d ∧ p.2.1 / 2 ^ d = p'.2.1 / 2 ^ d ∧ p.2.2 / 2 ^ d = p'.2.2 / 2 ^ d) := by
  obtain ⟨k, hk, e⟩ := C40_nest hd h21 p.1 p.2.1 p.2.2
  obtain ⟨k', hk', e'⟩ := C40_nest hd h21 p'.1 p'.2.1 p'.2.2
  refine ⟨k, k', hk, hk', ?_, ?_⟩
  · intro h
    obtain ⟨c, hc, i⟩ := C37_inverse_of_key (bits := bits - d) (by omega) (by omega) (p.1 / 2 ^ d) (p.2.1 / 2 ^ d) (p.2.2 / 2 ^ d)
    obtain ⟨c', hc', i'⟩ := C37_inverse_of_key (bits := bits - d) (by omega) (by omega) (p'.1 / 2 ^ d) (p'.2.1 / 2 ^ d) (p'.2.2 / 2 ^ d)
    rw [e] at hc; cases hc
    rw [e'] at hc'; cases hc'
    rw [h, i'] at i
    have small : ∀ a : Int, 0 ≤ a → a < 2 ^ bits → a / 2 ^ d % 2 ^ (bits - d) = a / 2 ^ d := by
      intro a h1 h2
      apply Int.emod_eq_of_lt (Int.ediv_nonneg h1 (by positivity))
      apply Int.ediv_lt_of_lt_mul (by positivity)
      rw [← pow_add, Nat.sub_add_cancel (by omega)]
      exact h2
    obtain ⟨⟨a1, a2⟩, ⟨b1, b2⟩, ⟨c1, c2⟩⟩ := hp
    obtain ⟨⟨a1', a2'⟩, ⟨b1', b2'⟩, ⟨c1', c2'⟩⟩ := hp'
    rw [small _ a1 a2, small _ b1 b2, small _ c1 c2, small _ a1' a2', small _ b1' b2', small _ c1' c2'] at i
    simp only [Except.ok.injEq, Prod.mk.injEq] at i
    exact ⟨i.1.symm, i.2.1.symm, i.2.2.symm⟩
  · rintro ⟨h1, h2, h3⟩
    rw [h1, h2, h3, e'] at e
    simp only [Except.ok.injEq] at e
    exact e.symm

/-! ### C41 -/

/-- The array functions give element by element what the scalar function gives, errors included, for every length and block size. -/
theorem C41_keys {bs : Nat} (hb : 0 < bs) (pts : List (Int × Int × Int)) (bits : Nat) : phKeys bs pts bits = pts.mapM (fun p => phKeyScalar p.1 p.2.1 p.2.2 bits) :=
  phKeys_eq hb pts bits

theorem C41_inverses {bs : Nat} (hb : 0 < bs) (keys : List Int) (bits : Nat) : phInverses bs keys bits = keys.mapM (fun k => phInverseScalar k bits) :=
  phInverses_eq hb keys bits

/-! ### C68 -/

/-- The key of a position is the key of the cell which contains it, or which contains its periodic image in the box. -/
theorem C68_keys_from_coords {bs : Nat} (hb : 0 < bs) {bits : Nat} (h0 : 0 < bits) (h21 : bits ≤ 21) {boxsize : ℚ} (hbox : 0 < boxsize) (pos : List (ℚ × ℚ × ℚ)) :
    ∃ keys, phKeysFromCoords bs pos boxsize bits = .ok keys ∧ keys.length = pos.length ∧
      ∀ (i : Nat) (p : ℚ × ℚ × ℚ), pos[i]? = some p → ∃ (k x y z : Int), keys[i]? = some k ∧ phInverseScalar k bits = .ok (x, y, z) ∧ InGrid bits (x, y, z) ∧
        ∃ a b c : Int, x * (boxsize / 2 ^ bits) ≤ p.1 - a * boxsize ∧ p.1 - a * boxsize < (x + 1) * (boxsize / 2 ^ bits) ∧
          y * (boxsize / 2 ^ bits) ≤ p.2.1 - b * boxsize ∧ p.2.1 - b * boxsize < (y + 1) * (boxsize / 2 ^ bits) ∧
          z * (boxsize / 2 ^ bits) ≤ p.2.2 - c * boxsize ∧ p.2.2 - c * boxsize < (z + 1) * (boxsize / 2 ^ bits) := by
  refine ⟨_, (phKeysFromCoords_eq hb pos boxsize bits).trans (mapM_ok _ (fun p => (phK (wrap32 ⌊p.1 / (boxsize / 2 ^ bits)⌋) (wrap32 ⌊p.2.1 / (boxsize / 2 ^ bits)⌋)
      (wrap32 ⌊p.2.2 / (boxsize / 2 ^ bits)⌋) bits 0 1 : Int)) pos (fun p _ => phKeyScalar_small h0 h21 _ _ _)), by simp, ?_⟩
  intro i p hp
  obtain ⟨e1, e2, e3⟩ := phJ_phK (wrap32 ⌊p.1 / (boxsize / 2 ^ bits)⌋) (wrap32 ⌊p.2.1 / (boxsize / 2 ^ bits)⌋) (wrap32 ⌊p.2.2 / (boxsize / 2 ^ bits)⌋) bits phValid_start
  rw [wrap32_mod (by omega)] at e1 e2 e3
  refine ⟨_, _, _, _, by rw [List.getElem?_map, hp]; rfl, phInverseScalar_eq h0 h21 _, inGrid_phJ _ bits, ?_⟩
  rw [e1, e2, e3]
  have hP : (0 : ℚ) < 2 ^ bits := by positivity
  have hc : 0 < boxsize / 2 ^ bits := by positivity
  have key : ∀ q : ℚ, ∃ a : Int, ((⌊q / (boxsize / 2 ^ bits)⌋ % ((2 ^ bits : Nat) : Int) : Int) : ℚ) * (boxsize / 2 ^ bits) ≤ q - a * boxsize ∧
      q - a * boxsize < (((⌊q / (boxsize / 2 ^ bits)⌋ % ((2 ^ bits : Nat) : Int) : Int) : ℚ) + 1) * (boxsize / 2 ^ bits) := by
    intro q
    set f := ⌊q / (boxsize / 2 ^ bits)⌋ with hf
    refine ⟨f / ((2 ^ bits : Nat) : Int), ?_⟩
    have hsplit := Int.emod_add_mul_ediv f ((2 ^ bits : Nat) : Int)
    have hq : ((f % ((2 ^ bits : Nat) : Int) : Int) : ℚ) = (f : ℚ) - 2 ^ bits * ((f / ((2 ^ bits : Nat) : Int) : Int) : ℚ) := by
      have : ((f % ((2 ^ bits : Nat) : Int) + ((2 ^ bits : Nat) : Int) * (f / ((2 ^ bits : Nat) : Int)) : Int) : ℚ) = (f : ℚ) := by rw [hsplit]
      push_cast at this ⊢
      linarith
    rw [hq]
    generalize ((f / ((2 ^ bits : Nat) : Int) : Int) : ℚ) = A
    have l1 : (f : ℚ) * (boxsize / 2 ^ bits) ≤ q := by
      rw [← le_div_iff₀ hc]; exact Int.floor_le _
    have l2 : q < ((f : ℚ) + 1) * (boxsize / 2 ^ bits) := by
      rw [← div_lt_iff₀ hc]; exact Int.lt_floor_add_one _
    have e : 2 ^ bits * A * (boxsize / 2 ^ bits) = A * boxsize := by field_simp
    constructor
    · rw [sub_mul, e]; linarith
    · rw [add_mul, sub_mul, e]; rw [add_mul] at l2; linarith
  obtain ⟨a, a1, a2⟩ := key p.1
  obtain ⟨b, b1, b2⟩ := key p.2.1
  obtain ⟨c, c1, c2⟩ := key p.2.2
  exact ⟨a, b, c, a1, a2, b1, b2, c1, c2⟩

/-! ### Cases -/

example : phKeyScalar 5 3 6 3 = .ok 290 ∧ phInverseScalar 290 3 = .ok (5, 3, 6) := by decide +kernel
example : phKeyScalar (-1) 9 (-8) 3 = phKeyScalar 7 1 0 3 := by decide +kernel
example : phKeys 2 [(5, 3, 6), (0, 0, 0), (7, 1, 0), (4, 4, 4), (1, 2, 3)] 3 = [(5, 3, 6), (0, 0, 0), (7, 1, 0), (4, 4, 4), (1, 2, 3)].mapM (fun p => phKeyScalar p.1 p.2.1 p.2.2 3) := by
  decide +kernel
example : (match phKeys 2 [(5, 3, 6), (0, 0, 0), (7, 1, 0)] 3 with | .ok k => phInverses 3 k 3 | .error e => .error e) = .ok [(5, 3, 6), (0, 0, 0), (7, 1, 0)] := by decide +kernel
example : phInverseScalar 63 3 = .ok (0, 3, 0) ∧ phInverseScalar 64 3 = .ok (0, 4, 0) := by decide +kernel
example : phKeyScalar 2 1 3 2 = .ok (290 / 8) := by decide +kernel
example : phKeys 2 [(1, 1, 1)] 0 = .error .valueError ∧ phKeys 2 [] 0 = .ok [] := by decide +kernel
example : phKeysFromCoords 2 [(1/2, 1/4, 99/100), (5/4, -1/4, 3), (0, 0, 0)] 1 2 = .ok [36, 14, 0] := by
  have f1 : ⌊(1 / 2 : ℚ) / (1 / 2 ^ 2)⌋ = 2 := by rw [Int.floor_eq_iff]; norm_num
  have f2 : ⌊(1 / 4 : ℚ) / (1 / 2 ^ 2)⌋ = 1 := by rw [Int.floor_eq_iff]; norm_num
  have f3 : ⌊(99 / 100 : ℚ) / (1 / 2 ^ 2)⌋ = 3 := by rw [Int.floor_eq_iff]; norm_num
  have f4 : ⌊(5 / 4 : ℚ) / (1 / 2 ^ 2)⌋ = 5 := by rw [Int.floor_eq_iff]; norm_num
  have f5 : ⌊(-1 / 4 : ℚ) / (1 / 2 ^ 2)⌋ = -1 := by rw [Int.floor_eq_iff]; norm_num
  have f6 : ⌊(3 : ℚ) / (1 / 2 ^ 2)⌋ = 12 := by rw [Int.floor_eq_iff]; norm_num
  have f7 : ⌊(0 : ℚ) / (1 / 2 ^ 2)⌋ = 0 := by rw [Int.floor_eq_iff]; norm_num
  rw [phKeysFromCoords_eq (by omega)]
  simp only [List.mapM_cons, List.mapM_nil, f1, f2, f3, f4, f5, f6, f7]
  decide +kernel

end Verif
