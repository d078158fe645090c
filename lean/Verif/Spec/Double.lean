import Mathlib.Algebra.Order.Round
import Mathlib.Data.Int.Log
import Mathlib.Data.Rat.Floor

/-!
Arithmetic with floating point numbers of 53 bits (`float64`), as far as the weights of medians need it: results are the exact ones, rounded to a nearest number with 53 bits. The range of exponents is left
out, because weights are between 2^-64 and 1 and neither overflow nor underflow.
-/

namespace Verif.Double

/-- A number with 53 bits -/
def IsDouble (x : ℚ) : Prop := ∃ m e : ℤ, |m| ≤ 2 ^ 53 ∧ x = m * 2 ^ e

/-- `fl` rounds each number to a nearest one with 53 bits, with any choice if there are two (such as the even one). -/
def Nearest (fl : ℚ → ℚ) : Prop := ∀ x, IsDouble (fl x) ∧ ∀ y, IsDouble y → |fl x - x| ≤ |y - x|

/-- `s` is a sum of all numbers of a list, computed in any order with rounding after each addition. -/
inductive SumTree (fl : ℚ → ℚ) : List ℚ → ℚ → Prop
  | one (x : ℚ) : SumTree fl [x] x
  | add {l₁ l₂ l : List ℚ} {a b : ℚ} : SumTree fl l₁ a → SumTree fl l₂ b → l.Perm (l₁ ++ l₂) → SumTree fl l (fl (a + b))

end Verif.Double
