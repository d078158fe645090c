import Verif.Lib.Np
import Mathlib.Algebra.Order.Field.Basic
import Mathlib.Algebra.Order.AbsoluteValue.Basic

/-!
Units of datasets from their attributes (python/virgo/formats/swift.py 80-141 and 178-228). Arithmetic is exact.

A unit is a product of powers of the base units of the snapshot and of `a` and `h`. Exponents are elements of any semiring `E`; a power of a number is given by any function
`pow : K → E → K`. Every base unit, including that of the electric current, is taken to have a value in CGS units.
-/

namespace Verif

/-- Symbols of which units are made -/
inductive UnitSym
  | I | L | M | T | t | a | h
  deriving DecidableEq

/-- A `unyt.Unit`: the exponent of each symbol -/
structure UnytUnit (E : Type*) where
  exps : UnitSym → E

variable {E K : Type*} [Semiring E] [DecidableEq E] [Field K] [LinearOrder K]

/-- The unit named by a symbol -/
def UnytUnit.symbol (s : UnitSym) : UnytUnit E := ⟨fun x => if x = s then 1 else 0⟩

/-- `unyt.dimensionless` -/
def UnytUnit.dimensionless : UnytUnit E := ⟨fun _ => 0⟩

/-- `u*v` -/
def UnytUnit.mul (u v : UnytUnit E) : UnytUnit E := ⟨fun x => u.exps x + v.exps x⟩

/-- `u**e` -/
def UnytUnit.power (u : UnytUnit E) (e : E) : UnytUnit E := ⟨fun x => u.exps x * e⟩

/-- `float((1.0*unit).in_cgs().value)` (136, 223), if the symbols have the values `base` -/
def UnytUnit.cgs (pow : K → E → K) (base : UnitSym → K) (u : UnytUnit E) : K :=
  pow (base .I) (u.exps .I) * pow (base .L) (u.exps .L) * pow (base .M) (u.exps .M) * pow (base .T) (u.exps .T) * pow (base .t) (u.exps .t) *
    pow (base .a) (u.exps .a) * pow (base .h) (u.exps .h)

/-- Attributes of a dataset: the arrays of exponents and the conversion factors -/
structure UnitAttrs (E K : Type*) where
  /-- "U_I exponent" and so on, "a-scale exponent", "h-scale exponent" -/
  exponent : UnitSym → Option (List E)
  /-- "Conversion factor to physical CGS (including cosmological corrections)" -/
  physical : Option K
  /-- "Conversion factor to CGS (including cosmological corrections)" -/
  including : Option K
  /-- "Conversion factor to CGS (not including cosmological corrections)" -/
  notIncluding : Option K

/-- `attrs[...][0]` -/
def UnitAttrs.get (attrs : UnitAttrs E K) (s : UnitSym) : Except Err E :=
  match attrs.exponent s with
  | none => .error .keyError
  | some [] => .error .indexError
  | some (e :: _) => .ok e

/-- `u` after multiplication with `v`; `none` stands for the object `unyt.dimensionless` (101-104) -/
def timesUnit (u : Option (UnytUnit E)) (v : UnytUnit E) : UnytUnit E :=
  match u with
  | none => v
  | some u => u.mul v

/-- One iteration of the loop over the base units (98-109, 192-202) -/
def addBaseUnit (u : Option (UnytUnit E)) (s : UnitSym) (exponent : E) : Option (UnytUnit E) :=
  if exponent = 1 then some (timesUnit u (UnytUnit.symbol s))
  else if exponent ≠ 0 then some (timesUnit u ((UnytUnit.symbol s).power exponent))
  else u

/-- The loop (93-109, 187-202) -/
def baseUnitLoop (attrs : UnitAttrs E K) : List UnitSym → Option (UnytUnit E) → Except Err (Option (UnytUnit E))
  | [], u => .ok u
  | s :: rest, u =>
    match attrs.get s with
    | .error e => .error e
    | .ok exponent => baseUnitLoop attrs rest (addBaseUnit u s exponent)

/-- Lines 112-118 and 121-127 -/
def addScale (u : Option (UnytUnit E)) (s : UnitSym) (exponent : E) : Option (UnytUnit E) :=
  let scale := (UnytUnit.symbol s).power exponent
  if exponent ≠ 0 then some (timesUnit u scale) else u

/-- `np.isclose(factor, 1.0, atol=0.0, rtol=1.0e-9)` -/
def isCloseToOne (factor : K) : Bool := decide (|factor - 1| ≤ (1 / 1000000000) * |(1 : K)|)

/-- The result: a unit, or the product of a unit with a number -/
structure UnitResult (E K : Type*) where
  factor : Option K
  unit : UnytUnit E

/-- `unit*factor` (141, 226) if necessary; division of Python floats by zero is an exception. -/
def correctUnit (fromAttrs fromUnyt : K) (unit : UnytUnit E) : Except Err (UnitResult E K) :=
  if fromUnyt = 0 then .error .zeroDivision
  else
    let factor := fromAttrs / fromUnyt
    if isCloseToOne factor then .ok ⟨none, unit⟩ else .ok ⟨some factor, unit⟩

/-- `soap_units_from_attributes(attrs, registry)` (python/virgo/formats/swift.py 80-141) -/
def soapUnits (pow : K → E → K) (base : UnitSym → K) (attrs : UnitAttrs E K) : Except Err (UnitResult E K) :=
  match baseUnitLoop attrs [.I, .L, .M, .T, .t] none with
  | .error e => .error e
  | .ok u =>
    match attrs.get .a with
    | .error e => .error e
    | .ok a_scale_exponent =>
      let u := addScale u .a a_scale_exponent
      match attrs.get .h with
      | .error e => .error e
      | .ok h_scale_exponent =>
        let u := addScale u .h h_scale_exponent
        -- (129)
        let unit := u.getD UnytUnit.dimensionless
        -- (132-135)
        match (match attrs.physical with | some x => some x | none => attrs.including) with
        | none => .error .keyError
        | some fromAttrs => correctUnit fromAttrs (unit.cgs pow base) unit

/-- `swiftsimio_units_from_attributes(attrs, units)` (178-228): the unit and the flag `comoving` -/
def swiftsimioUnits (pow : K → E → K) (base : UnitSym → K) (attrs : UnitAttrs E K) : Except Err (UnitResult E K × Bool) :=
  match baseUnitLoop attrs [.I, .L, .M, .T, .t] none with
  | .error e => .error e
  | .ok u =>
    -- (205-207)
    match attrs.get .h with
    | .error e => .error e
    | .ok h_scale_exponent =>
      if h_scale_exponent ≠ 0 then .error .valueError
      else
        -- (210-217)
        match attrs.get .a, attrs.get .L with
        | .error e, _ => .error e
        | _, .error e => .error e
        | .ok a_scale_exponent, .ok length_exponent =>
          let result (comoving : Bool) : Except Err (UnitResult E K × Bool) :=
            -- (222-228)
            match attrs.notIncluding with
            | none => .error .keyError
            | some fromAttrs =>
              let unit := u.getD UnytUnit.dimensionless
              match correctUnit fromAttrs (unit.cgs pow base) unit with
              | .error e => .error e
              | .ok r => .ok (r, comoving)
          if a_scale_exponent = 0 then result false
          else if a_scale_exponent = length_exponent then result true
          else .error .valueError

end Verif
