import Mathlib.Data.Rat.Floor

/-!
Floating point numbers with `p` bits (24 for `float32`, 53 for `float64`) and any range of exponents.
-/

namespace Verif.FloatBits

/-- A number with `p` bits -/
def IsFloat (p : ℕ) (x : ℚ) : Prop := ∃ m e : ℤ, |m| ≤ 2 ^ p ∧ x = m * 2 ^ e

/-- `fl` rounds each number to a nearest one with `p` bits, with any choice if there are two. -/
def NearestTo (p : ℕ) (fl : ℚ → ℚ) : Prop := ∀ x, IsFloat p (fl x) ∧ ∀ y, IsFloat p y → |fl x - x| ≤ |y - x|

end Verif.FloatBits
