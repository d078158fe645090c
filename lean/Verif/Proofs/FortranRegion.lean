import Verif.Props.FortranPrograms
import Verif.Props.Peano

/-! Proofs about the Fortran program which reads the particles of a box -/

namespace Verif.FortranPrograms

open CPeano ReadRegion FortranReaders ReadParticles

theorem pow8 (i : Nat) : ((2 : Int) ^ i) * 2 ^ i * 2 ^ i = 8 ^ i := by
  rw [← mul_pow, ← mul_pow]; norm_num

theorem pow8_le {i : Nat} (h : i ≤ 10) : (8 : Int) ^ i ≤ 1073741824 := by
  have : (8 : Int) ^ i ≤ 8 ^ 10 := pow_le_pow_right₀ (by norm_num) h
  norm_num at this ⊢
  exact this

theorem pow2_le {i : Nat} (h : i ≤ 10) : (2 : Int) ^ i ≤ 1024 := by
  have : (2 : Int) ^ i ≤ 2 ^ 10 := pow_le_pow_right₀ (by norm_num) h
  norm_num at this ⊢
  exact this

theorem cellBits_ok {bits : Nat} (h : bits ≤ 10) : ∀ (d fuel i : Nat), i + d = bits → d < fuel → cellBits ((8 ^ bits : Nat) : Int) fuel (2 ^ i) i = .ok (2 ^ bits, (bits : Int)) := by
  intro d
  induction d with
  | zero =>
    intro fuel i hi hf
    obtain ⟨fuel, rfl⟩ : ∃ m, fuel = m + 1 := ⟨fuel - 1, by omega⟩
    have hb : i = bits := by omega
    subst hb
    have h1 := pow8_le h
    have h2 := pow2_le h
    have h3 : (0 : Int) < 2 ^ i := by positivity
    unfold cellBits
    rw [bindOk _ (cInt_ok (x := (2 : Int) ^ i * 2 ^ i) (by nlinarith) (by nlinarith)), pow8, bindOk _ (cInt_ok (x := (8 : Int) ^ i) (by have : (0 : Int) < 8 ^ i := (by positivity); omega) (by omega)), if_neg (by push_cast; omega)]
  | succ d ih =>
    intro fuel i hi hf
    obtain ⟨fuel, rfl⟩ : ∃ m, fuel = m + 1 := ⟨fuel - 1, by omega⟩
    have h1 := pow8_le (show i ≤ 10 by omega)
    have h2 := pow2_le (show i ≤ 10 by omega)
    have h3 : (0 : Int) < 2 ^ i := by positivity
    have h4 : (8 : Int) ^ i < 8 ^ bits := pow_lt_pow_right₀ (by norm_num) (by omega)
    unfold cellBits
    rw [bindOk _ (cInt_ok (x := (2 : Int) ^ i * 2 ^ i) (by nlinarith) (by nlinarith)), pow8, bindOk _ (cInt_ok (x := (8 : Int) ^ i) (by have : (0 : Int) < 8 ^ i := (by positivity); omega) (by omega)), if_pos (by push_cast; omega),
      bindOk _ (cInt_ok (x := (2 : Int) ^ i * 2) (by omega) (by omega))]
    have := ih fuel (i + 1) (by omega) (by omega)
    rw [pow_succ] at this
    push_cast at this
    exact this

theorem keys_exist {bits : Nat} (h0 : 0 < bits) (h10 : bits ≤ 10) : ∃ K : Int × Int × Int → Nat, ∀ p, phKeyScalar p.1 p.2.1 p.2.2 bits = .ok (K p : Int) ∧ K p < 8 ^ bits := by
  have key : ∀ p : Int × Int × Int, ∃ k : Nat, phKeyScalar p.1 p.2.1 p.2.2 bits = .ok (k : Int) ∧ k < 8 ^ bits := by
    intro p
    obtain ⟨k, h1, h2, h3⟩ := C38_range h0 (by omega) p.1 p.2.1 p.2.2
    obtain ⟨m, rfl⟩ := Int.eq_ofNat_of_zero_le h2
    exact ⟨m, h1, by exact_mod_cast h3⟩
  choose K h using key
  exact ⟨K, h⟩

theorem flagBox_ok (signed : Bool) {bits : Nat} (h0 : 0 < bits) (h10 : bits ≤ 10) {K : Int × Int × Int → Nat} (hK : ∀ p, phKeyScalar p.1 p.2.1 p.2.2 bits = .ok (K p : Int) ∧ K p < 8 ^ bits)
    (box : List (Int × Int × Int)) : flagBox signed (8 ^ bits) bits box = .ok ((List.range (8 ^ bits)).map (fun c => decide (∃ p ∈ box, K p = c))) := by
  have key : ∀ (box : List (Int × Int × Int)) (S : Nat → Bool), box.foldlM (fun hashmap c => do
      let ihash ← cKey signed c.1 c.2.1 c.2.2 (bits : Int)
      if ihash < 0 ∨ ((8 ^ bits : Nat) : Int) ≤ ihash then (.error .other : Except Err (List Bool)) else .ok (hashmap.set ihash.toNat true)) ((List.range (8 ^ bits)).map S) =
        .ok ((List.range (8 ^ bits)).map (fun c => decide (∃ p ∈ box, K p = c) || S c)) := by
    intro box
    induction box with
    | nil => intro S; simp; rfl
    | cons p box ih =>
      intro S
      obtain ⟨k1, k2⟩ := hK p
      rw [List.foldlM_cons, bindOk _ ((C78_key signed h0 h10 p.1 p.2.1 p.2.2).trans k1), if_neg (by omega), Int.toNat_natCast, flag_set]
      have := ih (fun d => decide (d = K p) || S d)
      rw [show ∀ (x : List Bool) (f : List Bool → Except Err (List Bool)), (Except.ok x >>= f) = f x from fun _ _ => rfl, this]
      congr 1
      apply List.map_congr_left
      intro c _
      rw [Bool.eq_iff_iff]
      simp only [Bool.or_eq_true, decide_eq_true_eq, List.mem_cons, exists_eq_or_imp]
      constructor
      · rintro (h | h | h)
        · exact Or.inl (Or.inr h)
        · exact Or.inl (Or.inl h.symm)
        · exact Or.inr h
      · rintro ((h | h) | h)
        · exact Or.inr (Or.inl h.symm)
        · exact Or.inl h
        · exact Or.inr (Or.inr h)
  unfold flagBox
  have e : List.replicate (8 ^ bits) false = (List.range (8 ^ bits)).map (fun _ => false) := by simp
  rw [e, key]
  simp

theorem mem_boxCells (a b : Int × Int × Int) (i j k : Int) : (i, j, k) ∈ boxCells a b ↔ (a.1 ≤ i ∧ i ≤ b.1) ∧ (a.2.1 ≤ j ∧ j ≤ b.2.1) ∧ (a.2.2 ≤ k ∧ k ≤ b.2.2) := by
  have span : ∀ lo hi x : Int, x ∈ (List.range (hi - lo + 1).toNat).map (fun k : Nat => lo + k) ↔ lo ≤ x ∧ x ≤ hi := by
    intro lo hi x
    simp only [List.mem_map, List.mem_range]
    constructor
    · rintro ⟨m, hm, rfl⟩; omega
    · rintro ⟨h1, h2⟩
      exact ⟨(x - lo).toNat, by omega, by omega⟩
  unfold boxCells
  simp only [List.mem_flatMap, span]
  constructor
  · rintro ⟨i', hi, j', hj, h⟩
    obtain ⟨k', hk, he⟩ := List.mem_map.1 h
    rw [span] at hk
    cases he
    exact ⟨hi, hj, hk⟩
  · rintro ⟨hi, hj, hk⟩
    exact ⟨i, hi, j, hj, List.mem_map.2 ⟨k, (span _ _ _).2 hk, rfl⟩⟩

/-- The flags are those of the cells which contain parts of the volume. -/
theorem flags_eq {ρ : Type*} (cell : ρ → Int → Int) (signed : Bool) {bits : Nat} (h0 : 0 < bits) (h10 : bits ≤ 10) (lo hi : ρ × ρ × ρ) :
    flagBox signed (8 ^ bits) bits (boxCells (max (cell lo.1 (2 ^ bits)) 0, max (cell lo.2.1 (2 ^ bits)) 0, max (cell lo.2.2 (2 ^ bits)) 0)
      (min (cell hi.1 (2 ^ bits)) (2 ^ bits - 1), min (cell hi.2.1 (2 ^ bits)) (2 ^ bits - 1), min (cell hi.2.2 (2 ^ bits)) (2 ^ bits - 1))) = .ok (boxFlags cell bits lo hi) := by
  obtain ⟨K, hK⟩ := keys_exist h0 h10
  rw [flagBox_ok signed h0 h10 hK]
  unfold boxFlags
  congr 1
  apply List.map_congr_left
  intro c hc
  have hc := List.mem_range.1 hc
  obtain ⟨x, y, z, e1, e2, e3⟩ := C37_key_of_inverse h0 (show bits ≤ 21 by omega) (k := (c : Int)) (by omega) (by exact_mod_cast hc)
  rw [e1]
  dsimp only
  rw [Bool.eq_iff_iff, decide_eq_true_eq, decide_eq_true_eq]
  obtain ⟨⟨x1, x2⟩, ⟨y1, y2⟩, ⟨z1, z2⟩⟩ := e2
  dsimp only at x1 x2 y1 y2 z1 z2
  have hKc : K (x, y, z) = c := by
    have := (hK (x, y, z)).1
    rw [e3] at this
    have := Except.ok.inj this
    omega
  constructor
  · rintro ⟨⟨i, j, k⟩, hp, hk⟩
    rw [mem_boxCells] at hp
    dsimp only at hp
    have he : (i, j, k) = (x, y, z) := by
      obtain ⟨k', f1, f2⟩ := C37_inverse_of_key h0 (show bits ≤ 21 by omega) i j k
      have := (hK (i, j, k)).1
      dsimp only at this
      rw [f1, hk] at this
      rw [Except.ok.inj this, e1] at f2
      have := Except.ok.inj f2
      obtain ⟨p1, p2, p3⟩ : x = i % 2 ^ bits ∧ y = j % 2 ^ bits ∧ z = k % 2 ^ bits := by
        injection this with q1 q2
        injection q2 with q2 q3
        exact ⟨q1, q2, q3⟩
      rw [Int.emod_eq_of_lt (by omega) (by omega)] at p1 p2 p3
      rw [p1, p2, p3]
    cases he
    omega
  · intro h
    refine ⟨(x, y, z), (mem_boxCells _ _ _ _ _).2 ?_, hKc⟩
    dsimp only
    omega

/-! ### Selection of the particles -/

theorem keep_ok (inside : Particle → Bool) (parts : List Particle) : ∀ m ≤ parts.length, ∃ s, (List.range m).foldlM (keepStep inside) (0, parts) = .ok s ∧ s.1 ≤ m ∧ s.2.length = parts.length ∧
    s.2.take s.1 = (parts.take m).filter inside ∧ s.2.drop m = parts.drop m := by
  intro m
  induction m with
  | zero => intro _; exact ⟨(0, parts), rfl, le_refl _, rfl, by simp, by simp⟩
  | succ m ih =>
    intro hm
    obtain ⟨⟨j, a⟩, h1, h2, h3, h4, h5⟩ := ih (by omega)
    dsimp only at h2 h3 h4 h5
    have hml : m < a.length := by omega
    have hget : a[m]? = some parts[m] := by
      have := congrArg (fun l => l[0]?) h5
      rw [List.getElem?_drop, List.getElem?_drop, Nat.add_zero, List.getElem?_eq_getElem (show m < parts.length by omega)] at this
      exact this
    have hdrop : a.drop (m + 1) = parts.drop (m + 1) := by
      have := congrArg (List.drop 1) h5
      rwa [List.drop_drop, List.drop_drop] at this
    rw [List.range_succ, List.foldlM_append, bindOk _ h1]
    simp only [List.foldlM_cons, List.foldlM_nil]
    unfold keepStep
    rw [show at1 (j, a).2 ((m : Int) + 1) = .ok parts[m] from at1_ok hget]
    simp only [bind, Except.bind, pure, Except.pure]
    rw [List.take_succ_eq_append_getElem (by omega), List.filter_append]
    by_cases hin : inside parts[m] = true
    · rw [if_pos hin]
      refine ⟨_, rfl, by dsimp only; omega, by simpa using h3, ?_, ?_⟩
      · dsimp only
        rw [List.take_add_one, List.take_set_of_le (by omega), h4, List.getElem?_set_self (by omega)]
        simp [hin]
      · dsimp only
        rw [List.drop_set_of_lt (by omega)]
        exact hdrop
    · rw [if_neg hin]
      refine ⟨_, rfl, by dsimp only; omega, h3, ?_, hdrop⟩
      rw [h4]
      simp [hin]

/-! ### Every tenth -/

theorem tenth (n : Nat) : (List.range n).filter (fun i => decide (i % 10 = 0)) = (List.range ((n + 9) / 10)).map (fun k => 10 * k) := by
  induction n with
  | zero => rfl
  | succ n ih =>
    rw [List.range_succ, List.filter_append, ih]
    by_cases h : n % 10 = 0
    · rw [show (n + 1 + 9) / 10 = (n + 9) / 10 + 1 by omega, List.range_succ, List.map_append]
      simp only [List.filter_cons, List.filter_nil, h, decide_true, if_true, List.map_cons, List.map_nil]
      rw [show 10 * ((n + 9) / 10) = n by omega]
    · rw [show (n + 1 + 9) / 10 = (n + 9) / 10 by omega]
      simp [h]

end Verif.FortranPrograms
