import Verif.Model.CPeano
import Verif.Proofs.PeanoLoop

set_option linter.unusedSectionVars false

namespace Verif.CPeano

theorem cTurn_eq : ∀ signed : Bool, ∀ r < 24, ∀ q < 8, ∀ s ∈ [(1 : Int), -1],
    cTurn signed (r : Nat) (cChar signed s) (q : Nat) = .ok ((nextRot r q : Int), cChar signed (nextSense s q)) := by decide +kernel

set_option synthInstance.maxHeartbeats 400000 in
set_option synthInstance.maxSize 1000 in
theorem cGet_quadrants : ∀ r < 24, ∀ a < 2, ∀ b < 2, ∀ c < 2,
    cGet quadrantsC ((r : Nat) * 8 + (a : Nat) * 4 + (b : Nat) * 2 + (c : Nat)) = .ok (quadrants r a b c : Int) := by decide +kernel

theorem cBit_eq (x : Int) (n : Nat) : cBit x n = (maskBit x (2 ^ n) : Int) := by
  unfold cBit maskBit
  push_cast
  split_ifs <;> simp

theorem cChar_one (signed : Bool) {s : Int} (h : s = 1 ∨ s = -1) : cChar signed s = 1 ↔ s = 1 := by
  rcases h with rfl | rfl <;> cases signed <;> simp [cChar]

theorem cDig (signed : Bool) {s : Int} (h : s = 1 ∨ s = -1) {q : Nat} (hq : q < 8) :
    (if cChar signed s = 1 then (q : Int) else 7 - q) = (dig s q : Int) := by
  unfold dig
  simp only [cChar_one signed h]
  split_ifs <;> omega

theorem cInt_ok {x : Int} (h0 : -2147483648 ≤ x) (h1 : x < 2147483648) : cInt x = .ok x := if_pos ⟨h0, h1⟩
theorem cInt_err {x : Int} (h1 : 2147483648 ≤ x) : cInt x = .error .other := if_neg (by omega)

theorem bindOk {β γ : Type} {x : Except Err β} {v : β} (f : β → Except Err γ) (h : x = .ok v) : (x >>= f) = f v := by rw [h]; rfl
theorem bindErr {β γ : Type} {x : Except Err β} {e : Err} (f : β → Except Err γ) (h : x = .error e) : (x >>= f) = .error e := by rw [h]; rfl

theorem cShl_nat (a : Nat) {n : Nat} (hn : n < 32) : cShl a n = cInt ((a : Int) * 2 ^ n) := by
  unfold cShl
  rw [if_neg (by omega), Int.toNat_natCast]

theorem cKeyLoop_eq (signed : Bool) (x y z : Int) : ∀ (n k : Nat) {r : Nat} {s : Int}, phValid r s →
    k < 2147483648 →
    cKeyLoop signed x y z n k r (cChar signed s) =
      if k * 8 ^ n + phK x y z n r s < 2147483648 then .ok ((k * 8 ^ n + phK x y z n r s : Nat) : Int) else .error .other := by
  intro n
  induction n with
  | zero => intro k r s h hk; simp [cKeyLoop, phK, hk]
  | succ n ih =>
    intro k r s h hk
    have hq := quad_lt h x y z (2 ^ n)
    have hg := cGet_quadrants r h.1 _ (maskBit_lt x (2 ^ n)) _ (maskBit_lt y (2 ^ n)) _ (maskBit_lt z (2 ^ n))
    have hK : phK x y z (n + 1) r s = dig s (quadrants r (maskBit x (2 ^ n)) (maskBit y (2 ^ n)) (maskBit z (2 ^ n))) * 8 ^ n +
        phK x y z n (nextRot r (quadrants r (maskBit x (2 ^ n)) (maskBit y (2 ^ n)) (maskBit z (2 ^ n))))
          (nextSense s (quadrants r (maskBit x (2 ^ n)) (maskBit y (2 ^ n)) (maskBit z (2 ^ n)))) := rfl
    rw [hK]
    clear hK
    unfold cKeyLoop
    simp only [cBit_eq, hg]
    generalize quadrants r (maskBit x (2 ^ n)) (maskBit y (2 ^ n)) (maskBit z (2 ^ n)) = q at *
    have hd := cDig signed h.2 hq
    have hdl := dig_lt (s := s) hq
    have hv := h.next hq
    have ht := cTurn_eq signed r h.1 q hq s (by rcases h.2 with h | h <;> simp [h])
    have hp : 1 ≤ 8 ^ n := Nat.one_le_pow _ _ (by omega)
    have e : k * 8 ^ (n + 1) + (dig s q * 8 ^ n + phK x y z n (nextRot r q) (nextSense s q)) =
        (k * 8 + dig s q) * 8 ^ n + phK x y z n (nextRot r q) (nextSense s q) := by rw [Nat.pow_succ]; ring
    rw [e]
    have hle : k * 8 + dig s q ≤ (k * 8 + dig s q) * 8 ^ n := Nat.le_mul_of_pos_right _ hp
    have hs : cShl k 3 = cInt ((k : Int) * 8) := by
      have h := cShl_nat k (n := 3) (by omega)
      rw [show ((2 : Int) ^ 3) = 8 by norm_num, show ((3 : Nat) : Int) = 3 by norm_num] at h
      exact h
    rw [bindOk _ rfl, hs]
    by_cases h1 : k * 8 < 2147483648
    · rw [bindOk _ (cInt_ok (x := (k : Int) * 8) (by omega) (by omega)), hd]
      by_cases h2 : k * 8 + dig s q < 2147483648
      · rw [bindOk _ (cInt_ok (x := (k : Int) * 8 + (dig s q : Nat)) (by omega) (by omega)), bindOk _ ht]
        have := ih (k * 8 + dig s q) hv h2
        push_cast at this ⊢
        exact this
      · rw [bindErr _ (cInt_err (x := (k : Int) * 8 + (dig s q : Nat)) (by omega)), if_neg (by omega)]
    · rw [bindErr _ (cInt_err (x := (k : Int) * 8) (by omega)), if_neg (by omega)]

theorem cShl_one {bits : Nat} (h0 : 0 < bits) (h31 : bits ≤ 31) : ∃ m, cShl 1 ((bits : Int) - 1) = .ok m := by
  unfold cShl
  rw [if_neg (by omega)]
  have : ((bits : Int) - 1).toNat = bits - 1 := by omega
  rw [this]
  have h : (2 : Int) ^ (bits - 1) ≤ 2 ^ 30 := pow_le_pow_right₀ (by norm_num) (by omega)
  have hp : (0 : Int) < 2 ^ (bits - 1) := by positivity
  norm_num at h
  exact ⟨_, cInt_ok (by omega) (by omega)⟩

theorem cKey_eq (signed : Bool) {bits : Nat} (h0 : 0 < bits) (h31 : bits ≤ 31) (x y z : Int) :
    cKey signed x y z bits = if phK x y z bits 0 1 < 2147483648 then .ok (phK x y z bits 0 1 : Int) else .error .other := by
  obtain ⟨m, hm⟩ := cShl_one h0 h31
  unfold cKey
  rw [hm]
  have := cKeyLoop_eq signed x y z bits 0 phValid_start (by omega)
  have e : cChar signed 1 = 1 := by cases signed <;> rfl
  rw [e] at this
  simpa [bind, Except.bind] using this

/-! ### The inverse -/

/-- The static variables after the first call -/
def static1 : Static := ⟨0, quadrantsInverseLit.map (fun o => (o.1 : Int)), quadrantsInverseLit.map (fun o => (o.2.1 : Int)), quadrantsInverseLit.map (fun o => (o.2.2 : Int))⟩

theorem fillStatic0 : fillStatic static0 = static1 := by decide +kernel
theorem fillStatic1 : fillStatic static1 = static1 := rfl

theorem cGet_inverse : ∀ r < 24, ∀ q < 8,
    cGet static1.qx ((r : Nat) * 8 + (q : Nat)) = .ok ((octant r q).1 : Int) ∧
    cGet static1.qy ((r : Nat) * 8 + (q : Nat)) = .ok ((octant r q).2.1 : Int) ∧
    cGet static1.qz ((r : Nat) * 8 + (q : Nat)) = .ok ((octant r q).2.2 : Int) := by decide +kernel

theorem cCoord {a b n M : Nat} (hM : (M : Int) ≤ 2147483648) (hb : b < 2) (ha : (a + 1) * 2 ^ (n + 1) ≤ M) :
    (do let x ← cShl (a : Int) 1
        cInt (x + (b : Int))) = .ok (((a * 2 + b : Nat)) : Int) ∧ (a * 2 + b + 1) * 2 ^ n ≤ M ∧ a * 2 + b < M := by
  have hp : 0 < 2 ^ n := by positivity
  have h1 : (a * 2 + b + 1) * 2 ^ n ≤ ((a + 1) * 2) * 2 ^ n := Nat.mul_le_mul_right _ (by omega)
  have h2 : ((a + 1) * 2) * 2 ^ n = (a + 1) * 2 ^ (n + 1) := by rw [Nat.pow_succ]; ring
  have h3 : (a * 2 + b + 1) * 1 ≤ (a * 2 + b + 1) * 2 ^ n := Nat.mul_le_mul_left _ hp
  refine ⟨?_, by omega, by omega⟩
  have hs : cShl a 1 = cInt ((a : Int) * 2) := by
    have h := cShl_nat a (n := 1) (by omega)
    rw [show ((2 : Int) ^ 1) = 2 by norm_num, show ((1 : Nat) : Int) = 1 by norm_num] at h
    exact h
  rw [hs, bindOk _ (cInt_ok (x := (a : Int) * 2) (by omega) (by omega)), cInt_ok (by omega) (by omega)]
  push_cast
  exact congrArg Except.ok rfl

theorem cInvLoop_eq (signed : Bool) (key : Int) {M : Nat} (hM : (M : Int) ≤ 2147483648) : ∀ (n : Nat) (x y z : Nat) {r : Nat} {s : Int}, phValid r s →
    (x + 1) * 2 ^ n ≤ M → (y + 1) * 2 ^ n ≤ M → (z + 1) * 2 ^ n ≤ M →
    cInvLoop signed static1 key n x y z r (cChar signed s) =
      .ok ((phInvLoop key n ⟨x, y, z, r, s⟩).x, (phInvLoop key n ⟨x, y, z, r, s⟩).y, (phInvLoop key n ⟨x, y, z, r, s⟩).z) := by
  intro n
  induction n with
  | zero => intro x y z r s _ _ _ _; rfl
  | succ n ih =>
    intro x y z r s h hx hy hz
    obtain ⟨d, hd⟩ : ∃ d : Nat, key / 2 ^ (3 * n) % 8 = d := ⟨(key / 2 ^ (3 * n) % 8).toNat, by omega⟩
    have hd8 : d < 8 := by omega
    have hq := dig_lt (s := s) hd8
    have hv := h.next hq
    obtain ⟨-, o1, o2, o3⟩ := tables_backward r h.1 _ hq
    have hcd := cDig signed h.2 hd8
    obtain ⟨g1, g2, g3⟩ := cGet_inverse r h.1 _ hq
    have ht := cTurn_eq signed r h.1 _ hq s (by rcases h.2 with h | h <;> simp [h])
    have hstep : phInvStep key (3 * n) ⟨x, y, z, r, s⟩ =
        ⟨wrap32 ((x : Int) * 2 + (octant r (dig s d)).1), wrap32 ((y : Int) * 2 + (octant r (dig s d)).2.1),
          wrap32 ((z : Int) * 2 + (octant r (dig s d)).2.2), nextRot r (dig s d), nextSense s (dig s d)⟩ := by
      unfold phInvStep
      have e : (key / ((2 ^ (3 * n) : Nat) : Int)) % 8 = (d : Int) := by push_cast; exact hd
      have e2 : (if s = 1 then (d : Int) else 7 - (d : Int)).toNat = dig s d := by
        unfold dig; split_ifs <;> omega
      simp only [e, e2, quadrantsInverse_eq, octant, nextRot, nextSense]
    rw [phInvLoop, hstep]
    unfold cInvLoop
    simp only [hd, hcd, g1, g2, g3, ht]
    generalize dig s d = q at *
    generalize octant r q = o at *
    obtain ⟨x0, x1, x2⟩ := cCoord hM o1 hx
    obtain ⟨y0, y1, y2⟩ := cCoord hM o2 hy
    obtain ⟨z0, z1, z2⟩ := cCoord hM o3 hz
    rw [wrap32_of_lt (by omega) (by omega), wrap32_of_lt (by omega) (by omega), wrap32_of_lt (by omega) (by omega)]
    have := ih (x * 2 + o.1) (y * 2 + o.2.1) (z * 2 + o.2.2) hv x1 y1 z1
    simp only [Nat.cast_add, Nat.cast_mul, Nat.cast_ofNat] at this x0 y0 z0
    rw [← this]
    obtain ⟨vx, ex, fx⟩ : ∃ v, cShl (x : Int) 1 = .ok v ∧ cInt (v + o.1) = .ok ((x : Int) * 2 + o.1) := by
      cases hc : cShl (x : Int) 1 with
      | error e => rw [hc] at x0; cases x0
      | ok v => rw [hc] at x0; exact ⟨v, rfl, x0⟩
    obtain ⟨vy, ey, fy⟩ : ∃ v, cShl (y : Int) 1 = .ok v ∧ cInt (v + o.2.1) = .ok ((y : Int) * 2 + o.2.1) := by
      cases hc : cShl (y : Int) 1 with
      | error e => rw [hc] at y0; cases y0
      | ok v => rw [hc] at y0; exact ⟨v, rfl, y0⟩
    obtain ⟨vz, ez, fz⟩ : ∃ v, cShl (z : Int) 1 = .ok v ∧ cInt (v + o.2.2) = .ok ((z : Int) * 2 + o.2.2) := by
      cases hc : cShl (z : Int) 1 with
      | error e => rw [hc] at z0; cases z0
      | ok v => rw [hc] at z0; exact ⟨v, rfl, z0⟩
    rw [bindOk _ rfl, bindOk _ ex, bindOk _ fx, bindOk _ rfl, bindOk _ ey, bindOk _ fy, bindOk _ rfl, bindOk _ ez, bindOk _ fz, bindOk _ rfl]

theorem cShl_seven {bits : Nat} (h0 : 0 < bits) (h10 : bits ≤ 10) : ∃ m v, cInt (3 * ((bits : Int) - 1)) = .ok m ∧ cShl 7 m = .ok v := by
  refine ⟨3 * ((bits : Int) - 1), ?_⟩
  rw [cInt_ok (by omega) (by omega)]
  unfold cShl
  rw [if_neg (by omega)]
  have : (3 * ((bits : Int) - 1)).toNat = 3 * (bits - 1) := by omega
  rw [this]
  have h : (2 : Int) ^ (3 * (bits - 1)) ≤ 2 ^ 27 := pow_le_pow_right₀ (by norm_num) (by omega)
  have hp : (0 : Int) < 2 ^ (3 * (bits - 1)) := by positivity
  norm_num at h
  exact ⟨_, rfl, cInt_ok (by omega) (by omega)⟩

theorem cInverse_eq (signed : Bool) {s : Static} (hs : s = static0 ∨ s = static1) {bits : Nat} (h0 : 0 < bits) (h10 : bits ≤ 10) (key : Int) :
    ∃ p, phInverseScalar key bits = .ok p ∧ cInverse signed s key bits = .ok (p, static1) := by
  have hf : fillStatic s = static1 := by rcases hs with rfl | rfl; exacts [fillStatic0, fillStatic1]
  obtain ⟨m, v, e1, e2⟩ := cShl_seven h0 h10
  have hb : (0 + 1) * 2 ^ bits ≤ 1024 := by
    have : 2 ^ bits ≤ 2 ^ 10 := Nat.pow_le_pow_right (by omega) h10
    norm_num at this
    omega
  have hl := cInvLoop_eq signed key (M := 1024) (by norm_num) bits 0 0 0 phValid_start hb hb hb
  have e : cChar signed 1 = 1 := by cases signed <;> rfl
  rw [e] at hl
  unfold phInverseScalar
  rw [if_neg (by omega), if_neg (by omega)]
  refine ⟨_, rfl, ?_⟩
  unfold cInverse
  simp only [bind, Except.bind, hf, e1, e2, Int.toNat_natCast]
  simp only [Nat.cast_zero] at hl
  rw [hl]

end Verif.CPeano
