import Verif.Model.SwiftUnits

/-!
What the units of a dataset should be. Only the types of data are taken from the model.
-/

namespace Verif

variable {E K : Type*} [Semiring E] [Field K] [LinearOrder K]

/-- The exponents in the attributes -/
structure HasExponents (attrs : UnitAttrs E K) (e : UnitSym → E) : Prop where
  here : ∀ s, ∃ rest, attrs.exponent s = some (e s :: rest)

/-- Value of a product of powers -/
def productOfPowers (pow : K → E → K) (base : UnitSym → K) (e : UnitSym → E) : K :=
  ([UnitSym.I, .L, .M, .T, .t, .a, .h].map (fun s => pow (base s) (e s))).prod

/-- Value of a result in CGS units: the number times the product of powers -/
def resultValue (pow : K → E → K) (base : UnitSym → K) (r : UnitResult E K) : K := r.factor.getD 1 * productOfPowers pow base r.unit.exps

end Verif
