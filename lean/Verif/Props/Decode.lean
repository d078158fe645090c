import Verif.Model.MakeDtreesTable
import Verif.Model.FortranPrograms
import Verif.Model.Mr7Scripts
import Mathlib.Tactic.Ring
import Mathlib.Tactic.Linarith
import Mathlib.Tactic.Positivity
import Mathlib.Tactic.NormNum
import Mathlib.Algebra.Order.Ring.Int
import Mathlib.Algebra.BigOperators.Fin
import Mathlib.Algebra.BigOperators.Ring.Finset

/-! C139: values of integers in files -/

namespace Verif.Decode

/-- Value of the bits of an unsigned integer, least significant byte first -/
def bits (v : List Byte) : Nat := ∑ i : Fin v.length, 256 ^ (i : Nat) * (v[i]).val

/-- `x` is the number whose two's complement is stored in the bytes `v` -/
def TwosComplement (v : List Byte) (x : Int) : Prop :=
  -(256 : Int) ^ v.length ≤ 2 * x ∧ 2 * x < 256 ^ v.length ∧ ∃ k : Int, (bits v : Int) = x + k * 256 ^ v.length

/-- A sequence of bytes has one value. -/
theorem TwosComplement.unique {v : List Byte} {x y : Int} (hx : TwosComplement v x) (hy : TwosComplement v y) : x = y := by
  obtain ⟨a1, a2, k, a3⟩ := hx
  obtain ⟨b1, b2, l, b3⟩ := hy
  have hp : (0 : Int) < 256 ^ v.length := by positivity
  have e : x - y = (l - k) * 256 ^ v.length := by linarith [sub_mul l k ((256 : Int) ^ v.length)]
  have h1 : l - k < 1 := by
    by_contra hc
    have := mul_le_mul_of_nonneg_right (not_lt.1 hc) hp.le
    omega
  have h2 : -1 < l - k := by
    by_contra hc
    have := mul_le_mul_of_nonneg_right (not_lt.1 hc) hp.le
    omega
  have h3 : l - k = 0 := by omega
  rw [h3] at e
  omega

theorem leNat_eq (v : List Byte) : leNat v = bits v := by
  induction v with
  | nil => simp [leNat, bits]
  | cons b v ih =>
    unfold bits at ih ⊢
    rw [leNat, ih]
    simp only [List.length_cons, Fin.sum_univ_succ]
    simp [Finset.mul_sum, pow_succ, mul_assoc, mul_comm, mul_left_comm]

theorem leNat_lt (v : List Byte) : leNat v < 256 ^ v.length := by
  induction v with
  | nil => simp [leNat]
  | cons b v ih =>
    rw [leNat, List.length_cons, pow_succ]
    have := b.isLt
    omega

theorem twos_of {v : List Byte} {x : Int} (h : x = if 256 ^ v.length ≤ 2 * leNat v then (leNat v : Int) - 256 ^ v.length else leNat v) : TwosComplement v x := by
  have h1 := leNat_lt v
  have h2 : ((256 ^ v.length : Nat) : Int) = 256 ^ v.length := by push_cast; rfl
  subst h
  unfold TwosComplement
  rw [← leNat_eq, ← h2]
  split
  · refine ⟨by omega, by omega, 1, by omega⟩
  · refine ⟨by omega, by omega, 0, by omega⟩

/-- C139: unsigned integers -/
theorem C139_unsigned (v : List Byte) : leNat v = bits v ∧ bits v < 256 ^ v.length ∧ ∀ t : Hdf5.DType, t.cls = .integer false → SnapshotPrograms.intOfType t v = .ok (bits v : Int) := by
  refine ⟨leNat_eq v, by rw [← leNat_eq]; exact leNat_lt v, fun t ht => ?_⟩
  unfold SnapshotPrograms.intOfType
  rw [ht]
  simp only [leNat_eq]

/-- C139: the values of `int32` and `int64` elements of files, and of signed elements of any size, are those whose two's complement is in the bytes. -/
theorem C139_signed (v : List Byte) : (v.length = 4 → TwosComplement v (int32Value v)) ∧ (v.length = 8 → TwosComplement v (int64Value v)) ∧ TwosComplement v (intValue v) ∧
    ∀ t : Hdf5.DType, t.cls = .integer true → ∃ x, SnapshotPrograms.intOfType t v = .ok x ∧ TwosComplement v x := by
  refine ⟨fun h => twos_of ?_, fun h => twos_of ?_, twos_of rfl, fun t ht => ?_⟩
  · unfold int32Value
    rw [h]
    norm_num
    split <;> split <;> omega
  · unfold int64Value
    rw [h]
    norm_num
    split <;> split <;> omega
  · unfold SnapshotPrograms.intOfType
    rw [ht]
    exact ⟨_, rfl, twos_of rfl⟩

theorem leNat_leBytes (n x : Nat) : leNat (leBytes n x) = x % 256 ^ n := by
  induction n generalizing x with
  | zero => simp [leBytes, leNat, Nat.mod_one]
  | succ n ih =>
    simp only [leBytes, leNat, ih]
    rw [pow_succ, mul_comm (256 ^ n) 256, Nat.mod_mul]

theorem length_leBytes (n x : Nat) : (leBytes n x).length = n := by
  induction n generalizing x with
  | zero => rfl
  | succ n ih => simp [leBytes, ih]

/-- C139: the bytes of a number which fits are its two's complement. -/
theorem C139_bytes (size : Nat) (x : Int) (h0 : -(256 : Int) ^ size ≤ 2 * x) (h1 : 2 * x < 256 ^ size) : (intBytes size x).length = size ∧ TwosComplement (intBytes size x) x := by
  unfold intBytes
  refine ⟨length_leBytes .., ?_⟩
  unfold TwosComplement
  rw [← leNat_eq, leNat_leBytes, length_leBytes]
  have hp : (0 : Int) < 256 ^ size := by positivity
  have h2 : ((256 ^ size : Nat) : Int) = 256 ^ size := by push_cast; rfl
  refine ⟨h0, h1, -(x / 256 ^ size), ?_⟩
  have h3 := Int.emod_nonneg x (ne_of_gt hp)
  have h4 := Int.emod_lt_of_pos x hp
  have h5 := Int.emod_add_mul_ediv x (256 ^ size)
  rw [Nat.mod_eq_of_lt (by omega), Int.toNat_of_nonneg h3]
  linarith [mul_comm (x / 256 ^ size) ((256 : Int) ^ size), neg_mul (x / 256 ^ size) ((256 : Int) ^ size)]

/-- C139: the number of the cell of a particle is in the upper 30 bits of an `INTEGER*8` in the files of groups and its ID in the other 34. -/
theorem C139_cell_id (v : List Byte) (h : v.length = 8) :
    FortranPrograms.hashKey v < 2 ^ 30 ∧ 0 ≤ FortranPrograms.stripKey v ∧ FortranPrograms.stripKey v < 2 ^ 34 ∧ (bits v : Int) = 2 ^ 34 * (FortranPrograms.hashKey v : Int) + FortranPrograms.stripKey v := by
  have h1 := leNat_lt v
  rw [← leNat_eq]
  rw [h] at h1
  unfold FortranPrograms.hashKey FortranPrograms.stripKey
  norm_num at h1 ⊢
  omega

namespace ExDecode

example : TwosComplement [254, 255, 255, 255] (-2) ∧ int32Value [254, 255, 255, 255] = -2 := ⟨(C139_signed [254, 255, 255, 255]).1 rfl, by decide +kernel⟩

/-- The smallest number -/
example : TwosComplement [0, 0, 0, 0, 0, 0, 0, 128] (-9223372036854775808) := (C139_signed [0, 0, 0, 0, 0, 0, 0, 128]).2.1 rfl

example : ¬ TwosComplement [0, 128] 32768 := fun h => by have := h.2.1; norm_num at this

example : bits [1, 2, 3] = 197121 := by decide +kernel

example : intBytes 2 (-3) = [253, 255] ∧ TwosComplement [253, 255] (-3) := ⟨by decide +kernel, (C139_bytes 2 (-3) (by decide) (by decide)).2⟩

/-- Particle 7 in cell 5 -/
example : FortranPrograms.hashKey [7, 0, 0, 0, 20, 0, 0, 0] = 5 ∧ FortranPrograms.stripKey [7, 0, 0, 0, 20, 0, 0, 0] = 7 := by decide +kernel

end ExDecode

end Verif.Decode
