import Verif.Proofs.FloatBits
import Verif.Model.RoundedKeys
import Verif.Props.Peano

/-! C137: Peano-Hilbert keys of positions in floating point arithmetic -/

namespace Verif.FloatBits

theorem keysFromCoords_eq (fl64 fl : ℚ → ℚ) {bs : Nat} (hb : 0 < bs) (pos : List (ℚ × ℚ × ℚ)) (boxsize : ℚ) (bits : Nat) :
    keysFromCoords fl64 fl bs pos boxsize bits = pos.mapM (fun p => phKeyScalar (wrap32 ⌊fl (p.1 / fl (fl64 (boxsize / 2 ^ bits)))⌋) (wrap32 ⌊fl (p.2.1 / fl (fl64 (boxsize / 2 ^ bits)))⌋)
      (wrap32 ⌊fl (p.2.2 / fl (fl64 (boxsize / 2 ^ bits)))⌋) bits) := by
  apply blockwise_mapM _ _ _ hb
  rcases phKeysBlock_cases bits with ⟨e, h1, h2⟩ | ⟨k, h1, h2⟩
  · exact Or.inl ⟨e, fun l => h1 _, fun a => h2 _ _ _⟩
  · refine Or.inr ⟨fun p => k (wrap32 ⌊fl (p.1 / fl (fl64 (boxsize / 2 ^ bits)))⌋, wrap32 ⌊fl (p.2.1 / fl (fl64 (boxsize / 2 ^ bits)))⌋, wrap32 ⌊fl (p.2.2 / fl (fl64 (boxsize / 2 ^ bits)))⌋), fun l => ?_, fun a => h2 _ _ _⟩
    rw [h1, List.map_map]; rfl

theorem mapM_congr' {α β : Type*} {f g : α → Except Err β} {l : List α} (h : ∀ a ∈ l, f a = g a) : l.mapM f = l.mapM g := by
  induction l with
  | nil => rfl
  | cons a l ih => rw [List.mapM_cons, List.mapM_cons, h a (by simp), ih (fun b hb => h b (by simp [hb]))]

/-- The cell which a key belongs to, for any three numbers which were rounded. -/
theorem keys_cells (fl64 fl : ℚ → ℚ) {bs : Nat} (hb : 0 < bs) {bits : Nat} (h0 : 0 < bits) (h21 : bits ≤ 21) (pos : List (ℚ × ℚ × ℚ)) (boxsize : ℚ) :
    ∃ keys, keysFromCoords fl64 fl bs pos boxsize bits = .ok keys ∧ keys.length = pos.length ∧
      ∀ (i : Nat) (p : ℚ × ℚ × ℚ), pos[i]? = some p → ∃ k : Int, keys[i]? = some k ∧
        phInverseScalar k bits = .ok (⌊fl (p.1 / fl (fl64 (boxsize / 2 ^ bits)))⌋ % (2 ^ bits : Nat), ⌊fl (p.2.1 / fl (fl64 (boxsize / 2 ^ bits)))⌋ % (2 ^ bits : Nat), ⌊fl (p.2.2 / fl (fl64 (boxsize / 2 ^ bits)))⌋ % (2 ^ bits : Nat)) := by
  set s := fl (fl64 (boxsize / 2 ^ bits)) with hs
  refine ⟨_, (keysFromCoords_eq fl64 fl hb pos boxsize bits).trans (mapM_ok _ (fun p => (phK (wrap32 ⌊fl (p.1 / s)⌋) (wrap32 ⌊fl (p.2.1 / s)⌋) (wrap32 ⌊fl (p.2.2 / s)⌋) bits 0 1 : Int)) pos
    (fun p _ => phKeyScalar_small h0 h21 _ _ _)), by simp, ?_⟩
  intro i p hp
  obtain ⟨e1, e2, e3⟩ := phJ_phK (wrap32 ⌊fl (p.1 / s)⌋) (wrap32 ⌊fl (p.2.1 / s)⌋) (wrap32 ⌊fl (p.2.2 / s)⌋) bits phValid_start
  rw [wrap32_mod (by omega)] at e1 e2 e3
  refine ⟨_, by rw [List.getElem?_map, hp]; rfl, ?_⟩
  rw [phInverseScalar_eq h0 h21 _, e1, e2, e3]

section
variable {p : ℕ} {fl64 fl : ℚ → ℚ} (h64 : NearestTo 53 fl64) (hf : NearestTo p fl) (hp : 21 ≤ p)
include h64 hf hp

/-- Positions below `2 ^ bits` times the rounded size of cells -/
theorem keys_below {bs : Nat} (hb : 0 < bs) {bits : Nat} (h0 : 0 < bits) (h21 : bits ≤ 21) {boxsize : ℚ} (hbox : 0 < boxsize) (h53 : IsFloat 53 boxsize) (pos : List (ℚ × ℚ × ℚ))
    (hpos : ∀ q ∈ pos, ∀ x ∈ [q.1, q.2.1, q.2.2], IsFloat p x ∧ 0 ≤ x ∧ x < fl (boxsize / 2 ^ bits) * 2 ^ bits) :
    ∃ keys, keysFromCoords fl64 fl bs pos boxsize bits = .ok keys ∧ keys.length = pos.length ∧
      ∀ (i : Nat) (q : ℚ × ℚ × ℚ), pos[i]? = some q → ∃ (k x y z : Int), keys[i]? = some k ∧ phInverseScalar k bits = .ok (x, y, z) ∧ InGrid bits (x, y, z) ∧
        x * fl (boxsize / 2 ^ bits) ≤ q.1 * (1 + 1 / 2 ^ p) ∧ q.1 < (x + 1) * fl (boxsize / 2 ^ bits) ∧
        y * fl (boxsize / 2 ^ bits) ≤ q.2.1 * (1 + 1 / 2 ^ p) ∧ q.2.1 < (y + 1) * fl (boxsize / 2 ^ bits) ∧
        z * fl (boxsize / 2 ^ bits) ≤ q.2.2 * (1 + 1 / 2 ^ p) ∧ q.2.2 < (z + 1) * fl (boxsize / 2 ^ bits) := by
  obtain ⟨keys, e1, e2, e3⟩ := keys_cells fl64 fl hb h0 h21 pos boxsize
  refine ⟨keys, e1, e2, fun i q hq => ?_⟩
  obtain ⟨k, e4, e5⟩ := e3 i q hq
  rw [h64.self (h53.div bits)] at e5
  have hs : 0 < fl (boxsize / 2 ^ bits) := hf.pos (by omega) (by positivity)
  have hm := List.mem_of_getElem? hq
  have key : ∀ x ∈ [q.1, q.2.1, q.2.2], 0 ≤ ⌊fl (x / fl (boxsize / 2 ^ bits))⌋ ∧ ⌊fl (x / fl (boxsize / 2 ^ bits))⌋ < 2 ^ bits ∧
      ⌊fl (x / fl (boxsize / 2 ^ bits))⌋ * fl (boxsize / 2 ^ bits) ≤ x * (1 + 1 / 2 ^ p) ∧ x < (⌊fl (x / fl (boxsize / 2 ^ bits))⌋ + 1) * fl (boxsize / 2 ^ bits) := by
    intro x hx
    obtain ⟨g1, g2, g3⟩ := hpos q hm x hx
    exact cell hf (by omega) (by omega) (hf _).1 hs g1 g2 g3
  obtain ⟨a1, a2, a3, a4⟩ := key q.1 (by simp)
  obtain ⟨b1, b2, b3, b4⟩ := key q.2.1 (by simp)
  obtain ⟨c1, c2, c3, c4⟩ := key q.2.2 (by simp)
  rw [Int.emod_eq_of_lt a1 (by push_cast; exact a2), Int.emod_eq_of_lt b1 (by push_cast; exact b2), Int.emod_eq_of_lt c1 (by push_cast; exact c2)] at e5
  exact ⟨k, _, _, _, e4, e5, ⟨⟨a1, a2⟩, ⟨b1, b2⟩, ⟨c1, c2⟩⟩, a3, a4, b3, b4, c3, c4⟩

/-- C137: if the size of the box is a number of the type of positions, then each position in the box gets a cell in the box, which contains the position, or the next one if the position is below it by no more
than rounding. -/
theorem C137_keys {bs : Nat} (hb : 0 < bs) {bits : Nat} (h0 : 0 < bits) (h21 : bits ≤ 21) {boxsize : ℚ} (hbox : 0 < boxsize) (h53 : IsFloat 53 boxsize) (hbp : IsFloat p boxsize) (pos : List (ℚ × ℚ × ℚ))
    (hpos : ∀ q ∈ pos, ∀ x ∈ [q.1, q.2.1, q.2.2], IsFloat p x ∧ 0 ≤ x ∧ x < boxsize) :
    ∃ keys, keysFromCoords fl64 fl bs pos boxsize bits = .ok keys ∧ keys.length = pos.length ∧
      ∀ (i : Nat) (q : ℚ × ℚ × ℚ), pos[i]? = some q → ∃ (k x y z : Int), keys[i]? = some k ∧ phInverseScalar k bits = .ok (x, y, z) ∧ InGrid bits (x, y, z) ∧
        x * (boxsize / 2 ^ bits) ≤ q.1 * (1 + 1 / 2 ^ p) ∧ q.1 < (x + 1) * (boxsize / 2 ^ bits) ∧
        y * (boxsize / 2 ^ bits) ≤ q.2.1 * (1 + 1 / 2 ^ p) ∧ q.2.1 < (y + 1) * (boxsize / 2 ^ bits) ∧
        z * (boxsize / 2 ^ bits) ≤ q.2.2 * (1 + 1 / 2 ^ p) ∧ q.2.2 < (z + 1) * (boxsize / 2 ^ bits) := by
  have := keys_below h64 hf hp hb h0 h21 hbox h53 pos (by
    intro q hq x hx
    rw [hf.self (hbp.div bits), div_mul_cancel₀ _ (by positivity)]
    exact hpos q hq x hx)
  rwa [hf.self (hbp.div bits)] at this

/-- C137: the keys are the exact ones if no position is so close below the boundary of a cell. -/
theorem C137_same {bs : Nat} (hb : 0 < bs) {bits : Nat} (h21 : bits ≤ 21) {boxsize : ℚ} (hbox : 0 < boxsize) (h53 : IsFloat 53 boxsize) (hbp : IsFloat p boxsize) (pos : List (ℚ × ℚ × ℚ))
    (hpos : ∀ q ∈ pos, ∀ x ∈ [q.1, q.2.1, q.2.2], IsFloat p x ∧ 0 ≤ x ∧ x < boxsize ∧ ∀ n : ℕ, x < n * (boxsize / 2 ^ bits) → x * (1 + 1 / 2 ^ p) < n * (boxsize / 2 ^ bits)) :
    keysFromCoords fl64 fl bs pos boxsize bits = phKeysFromCoords bs pos boxsize bits := by
  rw [keysFromCoords_eq _ _ hb, phKeysFromCoords_eq hb, h64.self (h53.div bits), hf.self (hbp.div bits)]
  have hs : 0 < boxsize / 2 ^ bits := by positivity
  have key : ∀ q ∈ pos, ∀ x ∈ [q.1, q.2.1, q.2.2], ⌊fl (x / (boxsize / 2 ^ bits))⌋ = ⌊x / (boxsize / 2 ^ bits)⌋ := by
    intro q hq x hx
    obtain ⟨g1, g2, g3, g4⟩ := hpos q hq x hx
    obtain ⟨a1, -, a3, a4⟩ := cell hf (bits := bits) (by omega) (by omega) (hbp.div bits) hs g1 g2 (by rw [div_mul_cancel₀ _ (by positivity)]; exact g3)
    set f := ⌊fl (x / (boxsize / 2 ^ bits))⌋
    symm
    rw [Int.floor_eq_iff, le_div_iff₀ hs, div_lt_iff₀ hs]
    refine ⟨?_, a4⟩
    by_contra hc
    rw [not_le] at hc
    have e : (f : ℚ) = ((f.toNat : ℕ) : ℚ) := by
      have : ((f.toNat : ℕ) : ℤ) = f := Int.toNat_of_nonneg a1
      exact_mod_cast this.symm
    rw [e] at hc a3
    linarith [g4 _ hc]
  refine mapM_congr' (fun q hq => ?_)
  rw [key q hq q.1 (by simp), key q hq q.2.1 (by simp), key q hq q.2.2 (by simp)]

/-- C137: if the size of cells isn't a number of the type of positions and is rounded down (positions in single precision), then there is a position in the box whose key is that of the first cell, although
it is in the last one. -/
theorem C137_edge_defect {bs : Nat} (hb : 0 < bs) {bits : Nat} (h0 : 0 < bits) (h21 : bits ≤ 21) {boxsize : ℚ} (hbox : 0 < boxsize) (h53 : IsFloat 53 boxsize) (hdown : fl (boxsize / 2 ^ bits) < boxsize / 2 ^ bits) :
    ∃ x, IsFloat p x ∧ 0 < x ∧ x < boxsize ∧ (∃ k, keysFromCoords fl64 fl bs [(x, x, x)] boxsize bits = .ok [k] ∧ phInverseScalar k bits = .ok (0, 0, 0)) ∧
      ∃ k, phKeysFromCoords bs [(x, x, x)] boxsize bits = .ok [k] ∧ phInverseScalar k bits = .ok (2 ^ bits - 1, 2 ^ bits - 1, 2 ^ bits - 1) := by
  have hs : 0 < fl (boxsize / 2 ^ bits) := hf.pos (by omega) (by positivity)
  have hP : (0 : ℚ) < 2 ^ bits := by positivity
  have hc : 0 < boxsize / 2 ^ bits := by positivity
  have hlt : fl (boxsize / 2 ^ bits) * 2 ^ bits < boxsize := by rwa [lt_div_iff₀ hP] at hdown
  refine ⟨fl (boxsize / 2 ^ bits) * 2 ^ bits, (hf _).1.mul bits, by positivity, hlt, ?_, ?_⟩
  · have e : fl (fl (boxsize / 2 ^ bits) * 2 ^ bits / fl (boxsize / 2 ^ bits)) = ((2 ^ bits : ℕ) : ℤ) := by
      rw [mul_div_cancel_left₀ _ hs.ne']
      have hi : IsFloat p (((2 ^ bits : ℕ) : ℤ) : ℚ) := isFloat_int (by
        rw [abs_of_nonneg (by positivity)]
        push_cast
        exact pow_le_pow_right₀ (by norm_num) (by omega))
      have := hf.self hi
      push_cast at this ⊢
      exact this
    obtain ⟨keys, e1, e2, e3⟩ := keys_cells fl64 fl hb h0 h21 [(fl (boxsize / 2 ^ bits) * 2 ^ bits, fl (boxsize / 2 ^ bits) * 2 ^ bits, fl (boxsize / 2 ^ bits) * 2 ^ bits)] boxsize
    obtain ⟨k, e4, e5⟩ := e3 0 _ rfl
    match keys, e2 with
    | [k'], _ =>
      simp only [List.getElem?_cons_zero, Option.some.injEq] at e4
      subst e4
      rw [h64.self (h53.div bits)] at e5
      dsimp only at e5
      rw [e, Int.floor_intCast, Int.emod_self] at e5
      exact ⟨_, e1, e5⟩
  · have hfloor : ⌊fl (boxsize / 2 ^ bits) * 2 ^ bits / (boxsize / 2 ^ bits)⌋ = 2 ^ bits - 1 := by
      have herr := (abs_le.1 (hf.error hc.le)).1
      rw [Int.floor_eq_iff, le_div_iff₀ hc, div_lt_iff₀ hc]
      push_cast
      constructor
      · have h1 : boxsize / 2 ^ bits / 2 ^ p * 2 ^ bits ≤ boxsize / 2 ^ bits := by
          rw [div_mul_eq_mul_div, div_le_iff₀ (by positivity)]
          exact mul_le_mul_of_nonneg_left (pow_le_pow_right₀ (by norm_num) (by omega)) hc.le
        nlinarith
      · nlinarith
    rw [phKeysFromCoords_eq hb, List.mapM_cons, List.mapM_nil]
    dsimp only
    rw [hfloor, phKeyScalar_small h0 h21]
    refine ⟨_, rfl, ?_⟩
    obtain ⟨e1, e2, e3⟩ := phJ_phK (wrap32 (2 ^ bits - 1)) (wrap32 (2 ^ bits - 1)) (wrap32 (2 ^ bits - 1)) bits phValid_start
    have hmod : ((2 : ℤ) ^ bits - 1) % ((2 ^ bits : ℕ) : ℤ) = 2 ^ bits - 1 := by
      have : (0 : ℤ) < 2 ^ bits := by positivity
      exact Int.emod_eq_of_lt (by omega) (by push_cast; omega)
    rw [wrap32_mod (by omega), hmod] at e1 e2 e3
    rw [phInverseScalar_eq h0 h21 _, e1, e2, e3]

end

/-- Rounding of a positive number to `p` bits -/
def roundPos (p : ℕ) (x : ℚ) : ℚ := round (x / 2 ^ (Int.log 2 x + 1 - p)) * 2 ^ (Int.log 2 x + 1 - p)

/-- Rounding to `p` bits -/
def roundTo (p : ℕ) (x : ℚ) : ℚ := if 0 < x then roundPos p x else if x < 0 then -roundPos p (-x) else 0

theorem roundPos_ok {p : ℕ} (hp1 : 1 ≤ p) {x : ℚ} (hx : 0 < x) : IsFloat p (roundPos p x) ∧ ∀ y, IsFloat p y → |roundPos p x - x| ≤ |y - x| := by
  have h1 : (2 : ℚ) ^ Int.log 2 x ≤ x := by exact_mod_cast Int.zpow_log_le_self (b := 2) (by norm_num) hx
  have hn := near (p := p) hx
  unfold roundPos
  set n := Int.log 2 x
  have hp := zpow_pos' (n + 1 - p)
  have hgrid : ∀ j : ℤ, |round (x / 2 ^ (n + 1 - p)) * 2 ^ (n + 1 - p) - x| ≤ |j * 2 ^ (n + 1 - p) - x| := by
    intro j
    have h := round_le (x / 2 ^ (n + 1 - p)) j
    have e : ∀ z : ℤ, |(z : ℚ) * 2 ^ (n + 1 - p) - x| = |x / 2 ^ (n + 1 - p) - z| * 2 ^ (n + 1 - p) := by
      intro z
      have : (z : ℚ) * 2 ^ (n + 1 - p) - x = -((x / 2 ^ (n + 1 - p) - z) * 2 ^ (n + 1 - p)) := by field_simp; ring
      rw [this, abs_neg, abs_mul, abs_of_pos hp]
    rw [e, e]
    exact mul_le_mul_of_nonneg_right h hp.le
  refine ⟨⟨_, _, hn.1, rfl⟩, fun y hy => ?_⟩
  -- the power of two at or below x
  have h5 := hgrid (2 ^ (p - 1))
  have e : (((2 ^ (p - 1) : ℤ)) : ℚ) * 2 ^ (n + 1 - p) = 2 ^ n := by
    rw [Int.cast_pow, Int.cast_ofNat, ← zpow_natCast, ← zpow_add₀ (by norm_num)]
    congr 1
    omega
  rw [e] at h5
  rcases le_or_gt y (2 ^ n) with hyn | hyn
  · refine h5.trans ?_
    rw [abs_of_nonpos (by linarith), abs_of_nonpos (by linarith)]
    linarith
  · obtain ⟨m, e', hm, rfl⟩ := hy
    rcases le_or_gt (n + 1 - p) e' with he | he
    · obtain ⟨j, hj⟩ := mul_two (m := m) he
      rw [hj]
      exact hgrid j
    · exfalso
      have h6 : (m : ℚ) ≤ 2 ^ p := by exact_mod_cast (le_abs_self m).trans hm
      have h7 : (m : ℚ) * 2 ^ e' ≤ 2 ^ p * 2 ^ e' := mul_le_mul_of_nonneg_right h6 (zpow_pos' e').le
      rw [← zpow_natCast, ← zpow_add₀ (by norm_num)] at h7
      have h8 : (2 : ℚ) ^ ((p : ℤ) + e') ≤ 2 ^ n := zpow_le_zpow_right₀ (by norm_num) (by omega)
      linarith

/-- There are such roundings. -/
theorem nearest_roundTo {p : ℕ} (hp : 1 ≤ p) : NearestTo p (roundTo p) := by
  intro x
  unfold roundTo
  split
  · exact roundPos_ok hp ‹_›
  · split
    · obtain ⟨⟨m, e, h1, h2⟩, h3⟩ := roundPos_ok hp (x := -x) (by linarith)
      refine ⟨⟨-m, e, by rwa [abs_neg], by rw [h2]; push_cast; ring⟩, ?_⟩
      rintro y ⟨m', e', h4, rfl⟩
      have := h3 (-(m' * 2 ^ e')) ⟨-m', e', by rwa [abs_neg], by push_cast; ring⟩
      rw [show -roundPos p (-x) - x = -(roundPos p (-x) - -x) by ring, abs_neg, show (m' : ℚ) * 2 ^ e' - x = -(-(m' * 2 ^ e') - -x) by ring, abs_neg]
      exact this
    · have : x = 0 := by linarith
      subst this
      exact ⟨isFloat_zero p, fun y _ => by simp⟩

namespace ExRoundedKeys

/-- A box of 1 with 4 cells on each side and positions in single precision -/
example : keysFromCoords (roundTo 53) (roundTo 24) 2 [(1 / 2, 1 / 4, 3 / 4), (0, 0, 0), (16777215 / 2 ^ 24, 0, 5 / 8)] 1 2 = .ok [36, 0, 33] := by decide +kernel

/-- In double precision too a position just below a boundary is put above it: here the third boundary of four cells. -/
example : (3 * 2 ^ 52 + 2) / 2 ^ 52 < 3 * ((2 ^ 52 + 1) / 2 ^ 52 : ℚ) ∧
    keysFromCoords (roundTo 53) (roundTo 53) 2 [((3 * 2 ^ 52 + 2) / 2 ^ 52, 0, 0)] (4 * ((2 ^ 52 + 1) / 2 ^ 52)) 2 = .ok [25] ∧
    phKeysFromCoords 2 [((3 * 2 ^ 52 + 2) / 2 ^ 52, 0, 0)] (4 * ((2 ^ 52 + 1) / 2 ^ 52)) 2 = .ok [26] ∧ phInverseScalar 25 2 = .ok (3, 0, 0) ∧ phInverseScalar 26 2 = .ok (2, 0, 0) := by decide +kernel

example : ∃ keys, keysFromCoords (roundTo 53) (roundTo 24) 2 [(1 / 2, 1 / 4, 3 / 4), (0, 0, 16777215 / 2 ^ 24)] 1 2 = .ok keys ∧ keys.length = 2 := by
  have hd : ∀ (m : ℤ) (k : ℕ), |m| ≤ 2 ^ 24 → IsFloat 24 (m / 2 ^ k) := fun m k h => (isFloat_int h).div k
  have h0 := isFloat_zero 24
  have h1 : IsFloat 24 (1 / 2) := by simpa using hd 1 1 (by norm_num)
  have h2 : IsFloat 24 (1 / 4) := by have := hd 1 2 (by norm_num); norm_num at this; simpa using this
  have h3 : IsFloat 24 (3 / 4) := by have := hd 3 2 (by norm_num); norm_num at this; simpa using this
  have h4 : IsFloat 24 (16777215 / 2 ^ 24) := by have := hd 16777215 24 (by norm_num); norm_num at this ⊢; simpa using this
  have hone : ∀ p, IsFloat p 1 := fun p => ⟨1, 0, by rw [abs_one]; exact one_le_pow₀ (by norm_num), by simp⟩
  obtain ⟨keys, e1, e2, -⟩ := C137_keys (nearest_roundTo (by norm_num)) (nearest_roundTo (p := 24) (by norm_num)) (by norm_num) (bs := 2) (by norm_num) (bits := 2) (by norm_num) (by norm_num)
    (boxsize := 1) (by norm_num) (hone _) (hone _) [(1 / 2, 1 / 4, 3 / 4), (0, 0, 16777215 / 2 ^ 24)] (by
      intro q hq x hx
      simp only [List.mem_cons, List.not_mem_nil, or_false] at hq
      rcases hq with rfl | rfl <;> simp only [List.mem_cons, List.not_mem_nil, or_false] at hx
      · rcases hx with rfl | rfl | rfl
        · exact ⟨h1, by norm_num, by norm_num⟩
        · exact ⟨h2, by norm_num, by norm_num⟩
        · exact ⟨h3, by norm_num, by norm_num⟩
      · rcases hx with rfl | rfl | rfl
        · exact ⟨h0, by norm_num, by norm_num⟩
        · exact ⟨h0, by norm_num, by norm_num⟩
        · exact ⟨h4, by norm_num, by norm_num⟩)
  exact ⟨keys, e1, e2⟩

/-- The box of the largest EAGLE simulation in Mpc/h: `float64(67.77)` is rounded down to single precision, for all numbers of cells up to 2^21. -/
example : ∀ bits ∈ List.range 22, roundTo 24 (roundTo 53 (6777 / 100) / 2 ^ bits) < roundTo 53 (6777 / 100) / 2 ^ bits := by decide +kernel

example : ∃ x, IsFloat 24 x ∧ x < roundTo 53 (6777 / 100) ∧ ∃ k, keysFromCoords (roundTo 53) (roundTo 24) 10000 [(x, x, x)] (roundTo 53 (6777 / 100)) 10 = .ok [k] ∧ phInverseScalar k 10 = .ok (0, 0, 0) := by
  obtain ⟨x, h1, -, h2, h3, -⟩ := C137_edge_defect (nearest_roundTo (by norm_num)) (nearest_roundTo (p := 24) (by norm_num)) (by norm_num) (bs := 10000) (by norm_num) (bits := 10) (by norm_num) (by norm_num)
    (boxsize := roundTo 53 (6777 / 100)) (by decide +kernel) (nearest_roundTo (by norm_num) _).1 (by decide +kernel)
  exact ⟨x, h1, h2, h3⟩

/-- A position in the middle of a cell -/
example : keysFromCoords (roundTo 53) (roundTo 24) 2 [(3 / 8, 3 / 8, 3 / 8)] 1 2 = phKeysFromCoords 2 [(3 / 8, 3 / 8, 3 / 8)] 1 2 := by
  have hone : ∀ p, IsFloat p 1 := fun p => ⟨1, 0, by rw [abs_one]; exact one_le_pow₀ (by norm_num), by simp⟩
  refine C137_same (nearest_roundTo (by norm_num)) (nearest_roundTo (p := 24) (by norm_num)) (by norm_num) (by norm_num) (by norm_num) (by norm_num) (hone _) (hone _) _ ?_
  intro q hq x hx
  simp only [List.mem_cons, List.not_mem_nil, or_false] at hq
  subst hq
  simp only [List.mem_cons, List.not_mem_nil, or_false, or_self] at hx
  subst hx
  refine ⟨⟨3, -3, by norm_num, by norm_num⟩, by norm_num, by norm_num, fun n hn => ?_⟩
  have h2 : (1.5 : ℚ) < n := by linarith
  have h3 : 2 ≤ n := by
    by_contra h
    have : (n : ℚ) ≤ 1 := by exact_mod_cast (by omega : n ≤ 1)
    linarith
  have h4 : (2 : ℚ) ≤ n := by exact_mod_cast h3
  norm_num
  linarith

end ExRoundedKeys

/-- The hypotheses on rounding can be met. -/
example : (∃ fl, NearestTo 24 fl) ∧ ∃ fl, NearestTo 53 fl := ⟨exists_nearestTo (by norm_num), exists_nearestTo (by norm_num)⟩

end Verif.FloatBits
