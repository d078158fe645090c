import Verif.Spec.SwiftUnits
import Mathlib.Tactic.Ring
import Mathlib.Tactic.FieldSimp
import Mathlib.Tactic.Linarith
import Mathlib.Tactic.NormNum

/-!
C66: `soap_units_from_attributes`. C72: `swiftsimio_units_from_attributes`.
-/

namespace Verif

variable {E K : Type*} [Semiring E] [DecidableEq E] [Field K] [LinearOrder K] [IsStrictOrderedRing K]

/-- Exponents of the unit so far -/
def expsSoFar (u : Option (UnytUnit E)) : UnitSym → E := (u.getD UnytUnit.dimensionless).exps

omit [DecidableEq E] in
theorem expsSoFar_times (u : Option (UnytUnit E)) (v : UnytUnit E) (x : UnitSym) : expsSoFar (some (timesUnit u v)) x = expsSoFar u x + v.exps x := by
  cases u with
  | none => show v.exps x = 0 + v.exps x; rw [zero_add]
  | some u => rfl

theorem expsSoFar_base (u : Option (UnytUnit E)) (s : UnitSym) (e : E) (x : UnitSym) : expsSoFar (addBaseUnit u s e) x = expsSoFar u x + if x = s then e else 0 := by
  unfold addBaseUnit
  split
  · next h => rw [expsSoFar_times, h]; rfl
  · split
    · rw [expsSoFar_times]
      show _ + (if x = s then 1 else 0) * e = _
      congr 1
      split
      · rw [one_mul]
      · rw [zero_mul]
    · next h =>
      rw [not_not] at h
      rw [h]
      split <;> rw [add_zero]

theorem expsSoFar_scale (u : Option (UnytUnit E)) (s : UnitSym) (e : E) (x : UnitSym) : expsSoFar (addScale u s e) x = expsSoFar u x + if x = s then e else 0 := by
  unfold addScale
  simp only []
  split
  · rw [expsSoFar_times]
    show _ + (if x = s then 1 else 0) * e = _
    congr 1
    split
    · rw [one_mul]
    · rw [zero_mul]
  · next h =>
    rw [not_not] at h
    rw [h]
    split <;> rw [add_zero]

omit [DecidableEq E] [LinearOrder K] [IsStrictOrderedRing K] in
theorem get_of_has {attrs : UnitAttrs E K} {e : UnitSym → E} (h : HasExponents attrs e) (s : UnitSym) : attrs.get s = .ok (e s) := by
  obtain ⟨rest, hr⟩ := h.here s
  unfold UnitAttrs.get
  rw [hr]

omit [LinearOrder K] [IsStrictOrderedRing K] in
theorem loop_of_has {attrs : UnitAttrs E K} {e : UnitSym → E} (h : HasExponents attrs e) :
    ∃ u, baseUnitLoop attrs [.I, .L, .M, .T, .t] none = .ok u ∧ expsSoFar u .I = e .I ∧ expsSoFar u .L = e .L ∧ expsSoFar u .M = e .M ∧ expsSoFar u .T = e .T ∧
      expsSoFar u .t = e .t ∧ expsSoFar u .a = 0 ∧ expsSoFar u .h = 0 := by
  simp only [baseUnitLoop, get_of_has h]
  have h0 : ∀ x, expsSoFar (none : Option (UnytUnit E)) x = 0 := fun _ => rfl
  refine ⟨_, rfl, ?_, ?_, ?_, ?_, ?_, ?_, ?_⟩ <;> simp [expsSoFar_base, h0]

omit [DecidableEq E] [LinearOrder K] [IsStrictOrderedRing K] in
theorem cgs_eq (pow : K → E → K) (base : UnitSym → K) (u : UnytUnit E) : u.cgs pow base = productOfPowers pow base u.exps := by
  unfold UnytUnit.cgs productOfPowers
  simp only [List.map_cons, List.map_nil, List.prod_cons, List.prod_nil, mul_one]
  ring

omit [DecidableEq E] in
theorem correctUnit_ok (pow : K → E → K) (base : UnitSym → K) (x : K) (unit : UnytUnit E) (hne : productOfPowers pow base unit.exps ≠ 0) :
    ∃ r, correctUnit x (unit.cgs pow base) unit = .ok r ∧ r.unit = unit ∧ (r.factor ≠ none → resultValue pow base r = x) ∧
      |x - resultValue pow base r| ≤ (1 / 1000000000) * |resultValue pow base r| := by
  unfold correctUnit
  rw [cgs_eq, if_neg hne]
  simp only []
  by_cases hc : isCloseToOne (x / productOfPowers pow base unit.exps) = true
  · rw [if_pos hc]
    refine ⟨_, rfl, rfl, fun h => absurd rfl h, ?_⟩
    unfold isCloseToOne at hc
    rw [decide_eq_true_iff, abs_one, mul_one] at hc
    unfold resultValue
    show |x - 1 * productOfPowers pow base unit.exps| ≤ _ * |1 * productOfPowers pow base unit.exps|
    rw [one_mul]
    have : x - productOfPowers pow base unit.exps = (x / productOfPowers pow base unit.exps - 1) * productOfPowers pow base unit.exps := by
      rw [sub_mul, one_mul, div_mul_cancel₀ x hne]
    rw [this, abs_mul]
    exact mul_le_mul_of_nonneg_right hc (abs_nonneg _)
  · rw [if_neg hc]
    have hv : resultValue pow base ⟨some (x / productOfPowers pow base unit.exps), unit⟩ = x := div_mul_cancel₀ x hne
    refine ⟨_, rfl, rfl, fun _ => hv, ?_⟩
    rw [hv, sub_self, abs_zero]
    exact mul_nonneg (by norm_num) (abs_nonneg _)

/-- C66: the result has the exponents of the attributes, those of `a` and `h` included. Its value in CGS units is the conversion factor in the attributes, or differs from it by not more than
1e-9 of its value. The factor including all corrections is used, or the other one if the first is not there. -/
theorem C66_units (pow : K → E → K) (base : UnitSym → K) {attrs : UnitAttrs E K} {e : UnitSym → E} (h : HasExponents attrs e) {x : K}
    (hx : attrs.physical = some x ∨ (attrs.physical = none ∧ attrs.including = some x)) (hne : productOfPowers pow base e ≠ 0) :
    ∃ r, soapUnits pow base attrs = .ok r ∧ (∀ s, r.unit.exps s = e s) ∧
      (r.factor ≠ none → resultValue pow base r = x) ∧ |x - resultValue pow base r| ≤ (1 / 1000000000) * |resultValue pow base r| := by
  obtain ⟨u, hu, h1, h2, h3, h4, h5, h6, h7⟩ := loop_of_has h
  have hexps : ∀ s, expsSoFar (addScale (addScale u .a (e .a)) .h (e .h)) s = e s := by
    intro s
    rw [expsSoFar_scale, expsSoFar_scale]
    cases s <;> simp [h1, h2, h3, h4, h5, h6, h7]
  have hfun : ((addScale (addScale u .a (e .a)) .h (e .h)).getD UnytUnit.dimensionless).exps = e := funext hexps
  obtain ⟨r, hr1, hr2, hr3⟩ := correctUnit_ok pow base x ((addScale (addScale u .a (e .a)) .h (e .h)).getD UnytUnit.dimensionless) (by rw [hfun]; exact hne)
  refine ⟨r, ?_, ?_, ?_⟩
  · unfold soapUnits
    simp only [hu, get_of_has h]
    rcases hx with hx | ⟨hx1, hx2⟩
    · simp only [hx]; exact hr1
    · simp only [hx1, hx2]; exact hr1
  · intro s
    rw [hr2]
    exact hexps s
  · exact hr3

omit [IsStrictOrderedRing K] in
/-- C66: an exponent which is missing is a KeyError, and so are missing conversion factors. -/
theorem C66_missing (pow : K → E → K) (base : UnitSym → K) (attrs : UnitAttrs E K) :
    ((∃ s, attrs.exponent s = none) → (∀ s, attrs.exponent s ≠ some []) → soapUnits pow base attrs = .error .keyError) ∧
    (∀ e, HasExponents attrs e → attrs.physical = none → attrs.including = none → soapUnits pow base attrs = .error .keyError) := by
  constructor
  · rintro ⟨s, hs⟩ hempty
    have hget : ∀ x, attrs.get x = .error .keyError ∨ ∃ v, attrs.get x = .ok v := by
      intro x
      unfold UnitAttrs.get
      cases hx : attrs.exponent x with
      | none => exact Or.inl rfl
      | some l =>
        cases l with
        | nil => exact absurd hx (hempty x)
        | cons v l => exact Or.inr ⟨v, rfl⟩
    have hsg : attrs.get s = .error .keyError := by unfold UnitAttrs.get; rw [hs]
    unfold soapUnits
    simp only [baseUnitLoop]
    rcases hget .I with h1 | ⟨v1, h1⟩
    · simp only [h1]
    rcases hget .L with h2 | ⟨v2, h2⟩
    · simp only [h1, h2]
    rcases hget .M with h3 | ⟨v3, h3⟩
    · simp only [h1, h2, h3]
    rcases hget .T with h4 | ⟨v4, h4⟩
    · simp only [h1, h2, h3, h4]
    rcases hget .t with h5 | ⟨v5, h5⟩
    · simp only [h1, h2, h3, h4, h5]
    rcases hget .a with h6 | ⟨v6, h6⟩
    · simp only [h1, h2, h3, h4, h5, h6]
    rcases hget .h with h7 | ⟨v7, h7⟩
    · simp only [h1, h2, h3, h4, h5, h6, h7]
    exfalso
    cases s
    · rw [h1] at hsg; cases hsg
    · rw [h2] at hsg; cases hsg
    · rw [h3] at hsg; cases hsg
    · rw [h4] at hsg; cases hsg
    · rw [h5] at hsg; cases hsg
    · rw [h6] at hsg; cases hsg
    · rw [h7] at hsg; cases hsg
  · intro e h hp hi
    obtain ⟨u, hu, -⟩ := loop_of_has h
    unfold soapUnits
    simp only [hu, get_of_has h, hp, hi]

/-- C72: for a dataset without powers of `h` and with the power of `a` of a physical or of a comoving length, the flag says which; the unit has the exponents of the attributes but no power of
`a`, and its value in CGS units is the conversion factor without cosmological corrections, to within 1e-9 of its value. -/
theorem C72_units (pow : K → E → K) (base : UnitSym → K) {attrs : UnitAttrs E K} {e : UnitSym → E} (h : HasExponents attrs e) {x : K} (hx : attrs.notIncluding = some x)
    (hh : e .h = 0) (ha : e .a = 0 ∨ e .a = e .L) (hne : productOfPowers pow base (fun s => if s = .a then 0 else e s) ≠ 0) :
    ∃ r comoving, swiftsimioUnits pow base attrs = .ok (r, comoving) ∧ (comoving = true ↔ e .a ≠ 0) ∧ (∀ s, r.unit.exps s = if s = .a then 0 else e s) ∧
      (r.factor ≠ none → resultValue pow base r = x) ∧ |x - resultValue pow base r| ≤ (1 / 1000000000) * |resultValue pow base r| := by
  obtain ⟨u, hu, h1, h2, h3, h4, h5, h6, h7⟩ := loop_of_has h
  have hexps : ∀ s, expsSoFar u s = if s = .a then 0 else e s := by
    intro s
    cases s <;> simp [h1, h2, h3, h4, h5, h6, h7, hh]
  have hfun : (u.getD UnytUnit.dimensionless).exps = fun s => if s = .a then 0 else e s := funext hexps
  obtain ⟨r, hr1, hr2, hr3⟩ := correctUnit_ok pow base x (u.getD UnytUnit.dimensionless) (by rw [hfun]; exact hne)
  by_cases ha0 : e .a = 0
  · refine ⟨r, false, ?_, ?_, ?_, hr3⟩
    · unfold swiftsimioUnits
      simp only [hu, get_of_has h, hh, ne_eq, not_true, if_false, hx, hr1]
      rw [if_pos ha0]
    · simp [ha0]
    · intro s; rw [hr2]; exact hexps s
  · refine ⟨r, true, ?_, ?_, ?_, hr3⟩
    · unfold swiftsimioUnits
      simp only [hu, get_of_has h, hh, ne_eq, not_true, if_false, hx, hr1]
      rw [if_neg ha0, if_pos (ha.resolve_left ha0)]
    · simp [ha0]
    · intro s; rw [hr2]; exact hexps s

omit [IsStrictOrderedRing K] in
/-- C72: a power of `h`, or a power of `a` which is neither zero nor that of the length, is a ValueError. -/
theorem C72_error (pow : K → E → K) (base : UnitSym → K) {attrs : UnitAttrs E K} {e : UnitSym → E} (h : HasExponents attrs e)
    (hbad : e .h ≠ 0 ∨ (e .a ≠ 0 ∧ e .a ≠ e .L)) : swiftsimioUnits pow base attrs = .error .valueError := by
  obtain ⟨u, hu, -⟩ := loop_of_has h
  unfold swiftsimioUnits
  simp only [hu, get_of_has h]
  by_cases hh : e .h ≠ 0
  · rw [if_pos hh]
  · rw [if_neg hh]
    obtain ⟨h1, h2⟩ := hbad.resolve_left hh
    rw [if_neg h1, if_neg h2]

namespace ExUnits

/-- A comoving density: M L^-3 a^-3, with powers by integers -/
def exps : UnitSym → ℤ
  | .L => -3 | .M => 1 | .a => -3 | _ => 0

def base : UnitSym → ℚ
  | .L => 10 | .M => 3 | .a => 1 / 2 | .h => 7 / 10 | _ => 5

def attrs (x : ℚ) : UnitAttrs ℤ ℚ := ⟨fun s => some [exps s], none, some x, some x⟩

theorem has (x : ℚ) : HasExponents (attrs x) exps := ⟨fun _ => ⟨[], rfl⟩⟩

def pw : ℚ → ℤ → ℚ := fun x n => x ^ n

theorem value : productOfPowers pw base exps = 3 / 125 := by
  unfold productOfPowers
  simp only [List.map_cons, List.map_nil, List.prod_cons, List.prod_nil, pw, base, exps]
  norm_num

theorem value' : productOfPowers pw base (fun s => if s = .a then 0 else exps s) = 3 / 1000 := by
  unfold productOfPowers
  simp only [List.map_cons, List.map_nil, List.prod_cons, List.prod_nil, pw, base, exps, reduceCtorEq, if_false, if_true]
  norm_num

/-- C66_units: the attributes contain twice the value of the product of powers. -/
example : ∃ r, soapUnits pw base (attrs (6 / 125)) = .ok r ∧ (∀ s, r.unit.exps s = exps s) ∧
    (r.factor ≠ none → resultValue pw base r = 6 / 125) ∧ |6 / 125 - resultValue pw base r| ≤ (1 / 1000000000) * |resultValue pw base r| :=
  C66_units pw base (has _) (Or.inr ⟨rfl, rfl⟩) (by rw [value]; norm_num)

/-- C66_missing -/
example : soapUnits pw base { attrs 1 with including := none } = .error .keyError := (C66_missing pw base _).2 exps ⟨fun _ => ⟨[], rfl⟩⟩ rfl rfl
example : soapUnits pw base { attrs 1 with exponent := fun s => if s = .T then none else some [exps s] } = .error .keyError :=
  (C66_missing pw base _).1 ⟨.T, rfl⟩ (by intro s; cases s <;> simp)

/-- C72_units -/
example : ∃ r comoving, swiftsimioUnits pw base (attrs (3 / 1000)) = .ok (r, comoving) ∧ (comoving = true ↔ exps .a ≠ 0) ∧ (∀ s, r.unit.exps s = if s = .a then 0 else exps s) ∧
    (r.factor ≠ none → resultValue pw base r = 3 / 1000) ∧ |3 / 1000 - resultValue pw base r| ≤ (1 / 1000000000) * |resultValue pw base r| :=
  C72_units pw base (has _) rfl rfl (Or.inr rfl) (by rw [value']; norm_num)

/-- C72_error: a velocity with one power of `a` less -/
example : swiftsimioUnits pw base (⟨fun s => some [if s = .L then 1 else if s = .t then -1 else if s = .a then -1 else 0], none, none, some 1⟩ : UnitAttrs ℤ ℚ) = .error .valueError :=
  C72_error pw base (e := fun s => if s = .L then 1 else if s = .t then -1 else if s = .a then -1 else 0) ⟨fun _ => ⟨[], rfl⟩⟩ (Or.inr ⟨by decide, by decide⟩)

end ExUnits

end Verif
