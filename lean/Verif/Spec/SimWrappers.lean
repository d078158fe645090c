import Verif.Model.SimWrappers

/-!
Calls in Python. Only the types of data are taken from the model.
-/

namespace Verif

/-- Whether a call has the right arguments: not too many by position, known names, no parameter with two values, and none without a value -/
structure Signature.Accepts (sig : Signature) (c : PyCall) : Prop where
  pos : c.pos.length ≤ sig.params.length ∨ sig.varargs = true
  known : ∀ k ∈ c.kw, k.1 ∈ sig.params.map (·.1)
  once : (c.kw.map (·.1)).Nodup
  free : ∀ k ∈ c.kw, k.1 ∉ (sig.params.map (·.1)).take c.pos.length
  given : ∀ (i : Nat) n, sig.params[i]? = some (n, none) → i < c.pos.length ∨ n ∈ c.kw.map (·.1)

/-- The value of a parameter: that at its position, or that with its name, or the default value -/
def Signature.Gives (sig : Signature) (c : PyCall) (n : String) (v : PyVal) : Prop :=
  (∃ i : Nat, (sig.params.map (·.1))[i]? = some n ∧ c.pos[i]? = some v) ∨ (n, v) ∈ c.kw ∨
    (n ∉ (sig.params.map (·.1)).take c.pos.length ∧ n ∉ c.kw.map (·.1) ∧ (n, some v) ∈ sig.params)

/-- A value which counts as false: `None`, `False`, zero and the empty string -/
def PyVal.Falsy (v : PyVal) : Prop := v = .none ∨ v = .bool false ∨ v = .int 0 ∨ v = .str ""

end Verif
