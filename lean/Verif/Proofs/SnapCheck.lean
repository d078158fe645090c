import Verif.Proofs.SanityChecks
import Mathlib.Tactic.IntervalCases

set_option linter.unusedSectionVars false

/-! The check of the snapshot files of the Millennium simulation. -/

namespace Verif

theorem hashBitsLoop_pow (m fuel b : Nat) (h : m ≤ fuel) : hashBitsLoop fuel (2 ^ (m + 1)) b = b + m := by
  induction m generalizing fuel b with
  | zero =>
    cases fuel with
    | zero => rfl
    | succ f => rw [hashBitsLoop, if_neg (by norm_num)]; rfl
  | succ m ih =>
    cases fuel with
    | zero => omega
    | succ f =>
      have h1 : 2 ^ (m + 1 + 1) > 2 := by
        have : 2 ^ (m + 1 + 1) = 2 ^ m * 4 := by ring
        have := Nat.pos_of_ne_zero (show (2 : Nat) ^ m ≠ 0 by positivity)
        omega
      rw [hashBitsLoop, if_pos h1, show 2 ^ (m + 1 + 1) / 2 = 2 ^ (m + 1) by rw [pow_succ]; omega, ih f (b + 1) (by omega)]
      omega

/-- A hash table with `8^b` cells has `b` bits in each dimension. -/
theorem hashbits_eq {b : Nat} (h : 0 < b) : hashBitsLoop (8 ^ b) (8 ^ b) 1 / 3 = b := by
  obtain ⟨m, hm⟩ : ∃ m, 3 * b = m + 1 := ⟨3 * b - 1, by omega⟩
  have e : 8 ^ b = 2 ^ (m + 1) := by rw [← hm, pow_mul]; norm_num
  have hl : m < 2 ^ m := Nat.lt_two_pow_self
  have hl2 : 2 ^ m ≤ 2 ^ (m + 1) := Nat.pow_le_pow_right (by omega) (by omega)
  rw [e, hashBitsLoop_pow m _ 1 (by omega)]
  omega

theorem cellFill_length (key : List Int) (a : Int) (b : Option Int) (v : Int) : (cellFill key a b v).length = key.length := by
  simp [cellFill]

theorem cellFill_some {key : List Int} {a b v : Int} (ha : 0 ≤ a) (ha' : a ≤ key.length) (hb : 0 ≤ b) (hb' : b ≤ key.length) (k : Nat) (hk : k < key.length) :
    (cellFill key a (some b) v)[k]? = if a ≤ k ∧ (k : Int) < b then some v else key[k]? := by
  unfold cellFill
  simp only [if_neg (show ¬ a < 0 by omega), if_neg (show ¬ b < 0 by omega)]
  rw [List.getElem?_map, List.getElem?_zipIdx, List.getElem?_eq_getElem hk]
  simp only [Option.map_some, Nat.zero_add, min_eq_left ha', min_eq_left hb']
  by_cases h : a ≤ k ∧ (k : Int) < b
  · rw [if_pos h, if_pos (by omega)]
  · rw [if_neg h, if_neg (by omega)]

theorem cellFill_none {key : List Int} {a v : Int} (ha : 0 ≤ a) (ha' : a ≤ key.length) (k : Nat) (hk : k < key.length) :
    (cellFill key a none v)[k]? = if a ≤ k then some v else key[k]? := by
  unfold cellFill
  simp only [if_neg (show ¬ a < 0 by omega)]
  rw [List.getElem?_map, List.getElem?_zipIdx, List.getElem?_eq_getElem hk]
  simp only [Option.map_some, Nat.zero_add, min_eq_left ha']
  by_cases h : a ≤ k
  · rw [if_pos h, if_pos (by omega)]
  · rw [if_neg h, if_neg (by omega)]

section
variable {n : Nat} {first last : Int} {blockid : List Int}

theorem BlockTable.mono (h : BlockTable n first last blockid) {i j : Nat} {a b : Int} (hij : i ≤ j) (ha : blockid[i]? = some a) (hb : blockid[j]? = some b) : a ≤ b := by
  rcases Nat.eq_or_lt_of_le hij with rfl | hlt
  · rw [ha] at hb; cases hb; exact le_refl _
  · obtain ⟨_, rfl⟩ := List.getElem?_eq_some_iff.1 ha
    obtain ⟨_, rfl⟩ := List.getElem?_eq_some_iff.1 hb
    exact List.pairwise_iff_getElem.1 h.sorted i j _ _ hlt

theorem BlockTable.nonneg (h : BlockTable n first last blockid) {i : Nat} {a : Int} (ha : blockid[i]? = some a) : 0 ≤ a := h.mono (Nat.zero_le i) h.start ha

theorem BlockTable.le' (h : BlockTable n first last blockid) {i : Nat} {a : Int} (ha : blockid[i]? = some a) : a ≤ n := h.le a (List.mem_iff_getElem?.2 ⟨i, ha⟩)

theorem BlockTable.pos (h : BlockTable n first last blockid) : 0 < blockid.length := (List.getElem?_eq_some_iff.1 h.start).1

/-- Each particle is in some block. -/
theorem BlockTable.exists_block (h : BlockTable n first last blockid) (k : Nat) : ∃ i : Nat, i < blockid.length ∧ InBlock first blockid k (first + i) := by
  have key : ∀ m : Nat, m < blockid.length → (∃ i : Nat, i < blockid.length ∧ InBlock first blockid k (first + i)) ∨ ∃ b, blockid[m]? = some b ∧ b ≤ k := by
    intro m
    induction m with
    | zero => intro _; exact Or.inr ⟨0, h.start, by omega⟩
    | succ m ih =>
      intro hm
      rcases ih (by omega) with hi | ⟨b, hb, hbk⟩
      · exact Or.inl hi
      · by_cases hk : (k : Int) < blockid[m + 1]
        · refine Or.inl ⟨m, by omega, m, rfl, ⟨b, hb, hbk⟩, fun b' hb' => ?_⟩
          rw [List.getElem?_eq_getElem hm] at hb'
          cases hb'
          exact hk
        · exact Or.inr ⟨_, List.getElem?_eq_getElem hm, by omega⟩
  rcases key (blockid.length - 1) (by have := h.pos; omega) with hi | ⟨b, hb, hbk⟩
  · exact hi
  · refine ⟨blockid.length - 1, by have := h.pos; omega, _, rfl, ⟨b, hb, hbk⟩, fun b' hb' => ?_⟩
    have := (List.getElem?_eq_some_iff.1 hb').1
    omega

/-- Blocks of a particle are the same. -/
theorem BlockTable.block_unique (h : BlockTable n first last blockid) {k i j : Nat} (hi : InBlock first blockid k (first + i)) (hj : InBlock first blockid k (first + j)) : i = j := by
  have key : ∀ i j : Nat, InBlock first blockid k (first + i) → InBlock first blockid k (first + j) → ¬ i < j := by
    rintro i j ⟨i', ei, -, hi⟩ ⟨j', ej, ⟨b, hb, hbk⟩, -⟩ hlt
    have e1 : i' = i := by omega
    have e2 : j' = j := by omega
    subst e1 e2
    have hl := (List.getElem?_eq_some_iff.1 hb).1
    have h1 : blockid[i' + 1]? = some blockid[i' + 1] := List.getElem?_eq_getElem (by omega)
    have := hi _ h1
    have := h.mono (show i' + 1 ≤ j' by omega) h1 hb
    omega
  have := key i j hi hj
  have := key j i hj hi
  omega

/-- The loop over the cells, after `m` passes -/
theorem cellKeys_loop (h : BlockTable n first last blockid) (m : Nat) (hm : m < blockid.length) :
    ∃ key, (List.range m).foldlM (cellKeysStep first blockid) (List.replicate n (-1)) = .ok key ∧ key.length = n ∧
      ∀ k < n, ∀ i < m, InBlock first blockid k (first + i) → key[k]? = some (first + i) := by
  induction m with
  | zero => exact ⟨_, rfl, by simp, by intro k _ i hi; omega⟩
  | succ m ih =>
    obtain ⟨key, e, hl, hk⟩ := ih (by omega)
    have h1 : blockid[m]? = some blockid[m] := List.getElem?_eq_getElem (by omega)
    have h2 : blockid[m + 1]? = some blockid[m + 1] := List.getElem?_eq_getElem (by omega)
    refine ⟨cellFill key blockid[m] (some blockid[m + 1]) (m + first), ?_, by rw [cellFill_length, hl], ?_⟩
    · rw [List.range_succ, List.foldlM_append, e]
      show (cellKeysStep first blockid key m >>= fun s => pure s) = _
      unfold cellKeysStep
      rw [h1, h2]
      rfl
    · intro k hkn i hi hb
      rw [cellFill_some (h.nonneg h1) (by rw [hl]; exact h.le' h1) (h.nonneg h2) (by rw [hl]; exact h.le' h2) k (by omega)]
      by_cases hin : blockid[m] ≤ (k : Int) ∧ (k : Int) < blockid[m + 1]
      · rw [if_pos hin]
        have : i = m := h.block_unique hb ⟨m, rfl, ⟨_, h1, hin.1⟩, fun b hb => by rw [h2] at hb; cases hb; exact hin.2⟩
        rw [this, add_comm]
      · rw [if_neg hin]
        refine hk k hkn i ?_ hb
        by_contra hc
        have him : i = m := by omega
        subst him
        obtain ⟨i', ei, ⟨b, hb1, hb2⟩, hb3⟩ := hb
        have : i' = i := by omega
        subst this
        rw [h1] at hb1
        cases hb1
        exact hin ⟨hb2, hb3 _ h2⟩

theorem cellKeys_ok (h : BlockTable n first last blockid) :
    ∃ key, cellKeys n first last blockid = .ok key ∧ key.length = n ∧ ∀ k < n, ∀ c, InBlock first blockid k c → key[k]? = some c := by
  have hp := h.pos
  have hlen := h.length
  obtain ⟨m, hm⟩ : ∃ m, blockid.length = m + 1 := ⟨blockid.length - 1, by omega⟩
  have e : (last - first).toNat = m := by omega
  obtain ⟨key, e1, hl, hk⟩ := cellKeys_loop h m (by omega)
  have h1 : blockid[m]? = some blockid[m] := List.getElem?_eq_getElem (by omega)
  have hlast : blockid.getLast? = some blockid[m] := by
    rw [List.getLast?_eq_getElem?, show blockid.length - 1 = m by omega]; exact h1
  refine ⟨cellFill key blockid[m] none last, ?_, by rw [cellFill_length, hl], ?_⟩
  · unfold cellKeys
    rw [e, e1, hlast]
  · intro k hkn c hb
    rw [cellFill_none (h.nonneg h1) (by rw [hl]; exact h.le' h1) k (by omega)]
    have hb0 := hb
    obtain ⟨i, rfl, ⟨b, hb1, hb2⟩, hb3⟩ := hb
    have hi := (List.getElem?_eq_some_iff.1 hb1).1
    by_cases him : i = m
    · subst him
      rw [h1] at hb1
      cases hb1
      rw [if_pos hb2]
      congr 1
      omega
    · have h2 : blockid[i + 1]? = some blockid[i + 1] := List.getElem?_eq_getElem (by omega)
      have := hb3 _ h2
      have := h.mono (show i + 1 ≤ m by omega) h2 h1
      rw [if_neg (by omega)]
      exact hk k hkn i (by omega) hb0

end

/-! ### Distance to the cell -/

theorem outsideCell_false {box cell x : ℚ} {i : Int} (hbox : 0 < box) (hc0 : 0 < cell) (hc : cell ≤ box / 2) (hx : 0 ≤ x) (hx' : x ≤ box)
    (hi : 0 ≤ i) (hi' : ((i : ℚ) + 1) * cell ≤ box) : outsideCell box cell x i = false ↔ NearCell box cell x i := by
  have hiq : (0 : ℚ) ≤ i := by exact_mod_cast hi
  have hic : (0 : ℚ) ≤ (i : ℚ) * cell := mul_nonneg hiq hc0.le
  unfold outsideCell NearCell
  obtain ⟨c, hcdef⟩ : ∃ c, c = (i : ℚ) * cell + cell / 2 := ⟨_, rfl⟩
  have hcc : (i : ℚ) * cell + 1 / 2 * cell = c := by rw [hcdef]; ring
  have c0 : 0 ≤ c := by rw [hcdef]; linarith
  have c1 : c ≤ box := by rw [hcdef]; linarith
  rw [hcc, ← hcdef]
  simp only [decide_eq_false_iff_not, gt_iff_lt, not_lt]
  have habs : ∀ a b : ℚ, |a| ≤ b ↔ -b ≤ a ∧ a ≤ b := fun a b => abs_le
  obtain ⟨tol, ht⟩ : ∃ tol, tol = 1001 / 1000 * (cell / 2) := ⟨_, rfl⟩
  have ht' : 1001 / 1000 * (1 / 2) * cell = tol := by rw [ht]; ring
  have htb : tol < box / 2 := by rw [ht]; linarith
  rw [ht', ← ht]
  constructor
  · intro h
    by_cases hd : 1 / 2 * box < |x - c|
    · rw [if_pos hd] at h
      rcases le_total 0 (x - c) with hs | hs
      · rw [abs_of_nonneg hs] at h hd
        refine ⟨-1, ?_⟩
        rw [habs]
        push_cast
        constructor <;> linarith
      · rw [abs_of_nonpos hs] at h hd
        refine ⟨1, ?_⟩
        rw [habs]
        push_cast
        constructor <;> linarith
    · rw [if_neg hd] at h
      exact ⟨0, by simpa using h⟩
  · rintro ⟨m, hm⟩
    rw [habs] at hm
    have hm1 : m < 2 := by
      by_contra hcon
      have h2 : (2 : ℚ) ≤ m := by exact_mod_cast (by omega : (2 : Int) ≤ m)
      have := mul_le_mul_of_nonneg_right h2 hbox.le
      linarith [hm.2]
    have hm2 : -2 < m := by
      by_contra hcon
      have h2 : (m : ℚ) ≤ -2 := by exact_mod_cast (by omega : m ≤ (-2 : Int))
      have := mul_le_mul_of_nonneg_right h2 hbox.le
      linarith [hm.1]
    rcases le_total 0 (x - c) with hs | hs
    · rw [abs_of_nonneg hs]
      interval_cases m
      · push_cast at hm
        split <;> linarith [hm.1, hm.2]
      · push_cast at hm
        split <;> linarith [hm.1, hm.2]
      · push_cast at hm
        split <;> linarith [hm.1, hm.2]
    · rw [abs_of_nonpos hs]
      interval_cases m
      · push_cast at hm
        split <;> linarith [hm.1, hm.2]
      · push_cast at hm
        split <;> linarith [hm.1, hm.2]
      · push_cast at hm
        split <;> linarith [hm.1, hm.2]

/-! ### The whole check -/

theorem mem_flat3 {α : Type*} {l : List (α × α × α)} {P : α → Prop} : (∀ x ∈ flat3 l, P x) ↔ ∀ p ∈ l, P p.1 ∧ P p.2.1 ∧ P p.2.2 := by
  unfold flat3
  simp only [List.mem_flatMap, List.mem_cons, List.not_mem_nil, or_false]
  constructor
  · intro h p hp
    exact ⟨h _ ⟨p, hp, by simp⟩, h _ ⟨p, hp, by simp⟩, h _ ⟨p, hp, by simp⟩⟩
  · rintro h x ⟨p, hp, rfl | rfl | rfl⟩
    · exact (h p hp).1
    · exact (h p hp).2.1
    · exact (h p hp).2.2

theorem flt_finite {x : Flt} : x.isFinite = true ↔ ∃ q, x = .fin q := by
  cases x <;> simp [Flt.isFinite]

/-- The tests on positions -/
theorem pos_check (l : List (Flt × Flt × Flt)) (box : ℚ) :
    ((!(flat3 l).all Flt.isFinite) = false ∧ ((flat3 l).any Flt.isNeg || (flat3 l).any (fun x => x.gt box)) = false) ↔
      ∀ p ∈ l, ∃ x y z : ℚ, p = (.fin x, .fin y, .fin z) ∧ (0 ≤ x ∧ x ≤ box) ∧ (0 ≤ y ∧ y ≤ box) ∧ (0 ≤ z ∧ z ≤ box) := by
  have : ((!(flat3 l).all Flt.isFinite) = false ∧ ((flat3 l).any Flt.isNeg || (flat3 l).any (fun x => x.gt box)) = false) ↔
      ∀ x ∈ flat3 l, ∃ q : ℚ, x = .fin q ∧ 0 ≤ q ∧ q ≤ box := by
    rw [Bool.not_eq_false', List.all_eq_true, Bool.or_eq_false_iff, List.any_eq_false, List.any_eq_false]
    constructor
    · rintro ⟨h1, h2, h3⟩ x hx
      obtain ⟨q, rfl⟩ := flt_finite.1 (h1 x hx)
      exact ⟨q, rfl, by simpa [Flt.isNeg] using h2 _ hx, by simpa [Flt.gt] using h3 _ hx⟩
    · intro h
      refine ⟨fun x hx => ?_, fun x hx => ?_, fun x hx => ?_⟩
      · obtain ⟨q, rfl, -⟩ := h x hx; rfl
      · obtain ⟨q, rfl, hq, -⟩ := h x hx; simpa [Flt.isNeg] using hq
      · obtain ⟨q, rfl, -, hq⟩ := h x hx; simpa [Flt.gt] using hq
  rw [this, mem_flat3]
  refine forall_congr' fun p => forall_congr' fun _ => ?_
  obtain ⟨a, b, c⟩ := p
  constructor
  · rintro ⟨⟨x, e1, hx⟩, ⟨y, e2, hy⟩, ⟨z, e3, hz⟩⟩
    exact ⟨x, y, z, by simp_all, hx, hy, hz⟩
  · rintro ⟨x, y, z, e, hx, hy, hz⟩
    cases e
    exact ⟨⟨x, rfl, hx⟩, ⟨y, rfl, hy⟩, ⟨z, rfl, hz⟩⟩

/-- The tests on velocities -/
theorem vel_check (l : List (Flt × Flt × Flt)) :
    ((!(flat3 l).all Flt.isFinite) = false ∧ ((flat3 l).any (fun x => x.abs.gt 1000000)) = false) ↔
      ∀ p ∈ l, ∃ x y z : ℚ, p = (.fin x, .fin y, .fin z) ∧ |x| ≤ 1000000 ∧ |y| ≤ 1000000 ∧ |z| ≤ 1000000 := by
  have : ((!(flat3 l).all Flt.isFinite) = false ∧ ((flat3 l).any (fun x => x.abs.gt 1000000)) = false) ↔
      ∀ x ∈ flat3 l, ∃ q : ℚ, x = .fin q ∧ |q| ≤ 1000000 := by
    rw [Bool.not_eq_false', List.all_eq_true, List.any_eq_false]
    constructor
    · rintro ⟨h1, h2⟩ x hx
      obtain ⟨q, rfl⟩ := flt_finite.1 (h1 x hx)
      refine ⟨q, rfl, ?_⟩
      have := h2 _ hx
      simpa only [Flt.abs, Flt.gt, decide_eq_true_eq, not_lt] using this
    · intro h
      refine ⟨fun x hx => ?_, fun x hx => ?_⟩
      · obtain ⟨q, rfl, -⟩ := h x hx; rfl
      · obtain ⟨q, rfl, hq⟩ := h x hx
        simpa only [Flt.abs, Flt.gt, decide_eq_true_eq, not_lt] using hq
  rw [this, mem_flat3]
  refine forall_congr' fun p => forall_congr' fun _ => ?_
  obtain ⟨a, b, c⟩ := p
  constructor
  · rintro ⟨⟨x, e1, hx⟩, ⟨y, e2, hy⟩, ⟨z, e3, hz⟩⟩
    exact ⟨x, y, z, by simp_all, hx, hy, hz⟩
  · rintro ⟨x, y, z, e, hx, hy, hz⟩
    cases e
    exact ⟨⟨x, rfl, hx⟩, ⟨y, rfl, hy⟩, ⟨z, rfl, hz⟩⟩

theorem grid_fits {bits : Nat} {box : ℚ} (hbox : 0 < box) {i : Int} (hi : i < 2 ^ bits) : ((i : ℚ) + 1) * (box / 2 ^ bits) ≤ box := by
  have h2 : (0 : ℚ) < 2 ^ bits := by positivity
  have h1 : (i : ℚ) + 1 ≤ 2 ^ bits := by exact_mod_cast (by omega : i + 1 ≤ 2 ^ bits)
  calc ((i : ℚ) + 1) * (box / 2 ^ bits) ≤ 2 ^ bits * (box / 2 ^ bits) := mul_le_mul_of_nonneg_right h1 (by positivity)
    _ = box := by field_simp

/-- The test that particles are in their cells, once positions are known to be in the box -/
theorem cells_check {t : SnapCheck} {bits : Nat} (h0 : 0 < bits) (h10 : bits ≤ 10) (hbox : 0 < t.boxsize)
    (htab : BlockTable t.pos.length t.first t.last t.blockid) {key : List Int}
    (hkey : ∀ k < t.pos.length, ∀ c, InBlock t.first t.blockid k c → key[k]? = some c) {f : Int → Int × Int × Int}
    (hfdef : ∀ c ∈ key, phInverseScalar c bits = .ok (f c) ∧ InGrid bits (f c) ∧ phKeyScalar (f c).1 (f c).2.1 (f c).2.2 bits = .ok c)
    (hpos : ∀ p ∈ t.pos, ∃ x y z : ℚ, p = (.fin x, .fin y, .fin z) ∧ (0 ≤ x ∧ x ≤ t.boxsize) ∧ (0 ≤ y ∧ y ≤ t.boxsize) ∧ (0 ≤ z ∧ z ≤ t.boxsize))
    {cell : ℚ} (ecell : cell = t.boxsize / 2 ^ bits) :
    ((List.zipWith (fun (p : Flt × Flt × Flt) (g : Int × Int × Int) => outsideCell t.boxsize cell p.1.val g.1) t.pos (key.map f)).any id = false ∧
      (List.zipWith (fun (p : Flt × Flt × Flt) (g : Int × Int × Int) => outsideCell t.boxsize cell p.2.1.val g.2.1) t.pos (key.map f)).any id = false ∧
      (List.zipWith (fun (p : Flt × Flt × Flt) (g : Int × Int × Int) => outsideCell t.boxsize cell p.2.2.val g.2.2) t.pos (key.map f)).any id = false) ↔
    ∀ (k : Nat) (x y z : ℚ) (c : Int), t.pos[k]? = some (.fin x, .fin y, .fin z) → InBlock t.first t.blockid k c →
      ∃ i j l : Int, InGrid bits (i, j, l) ∧ phKeyScalar i j l bits = .ok c ∧ NearCell t.boxsize cell x i ∧ NearCell t.boxsize cell y j ∧ NearCell t.boxsize cell z l := by
  have hcell : 0 < cell := by rw [ecell]; positivity
  have hcell2 : cell ≤ t.boxsize / 2 := by
    have : (2 : ℚ) ≤ 2 ^ bits := by
      calc (2 : ℚ) = 2 ^ 1 := by norm_num
        _ ≤ 2 ^ bits := pow_le_pow_right₀ (by norm_num) h0
    rw [ecell]
    exact div_le_div_of_nonneg_left hbox.le (by norm_num) this
  have hfit : ∀ i : Int, i < 2 ^ bits → ((i : ℚ) + 1) * cell ≤ t.boxsize := fun i hi => by rw [ecell]; exact grid_fits hbox hi
  clear ecell
  rw [any_zipWith_false, any_zipWith_false, any_zipWith_false]
  constructor
  · rintro ⟨g1, g2, g3⟩ k x y z c hp hb
    have hkn := (List.getElem?_eq_some_iff.1 hp).1
    have hkc := hkey k hkn c hb
    have hcm : c ∈ key := List.mem_iff_getElem?.2 ⟨k, hkc⟩
    have hg : (key.map f)[k]? = some (f c) := by rw [List.getElem?_map, hkc]; rfl
    obtain ⟨-, hin, hph⟩ := hfdef c hcm
    obtain ⟨x', y', z', e, hx, hy, hz⟩ := hpos _ (List.mem_iff_getElem?.2 ⟨k, hp⟩)
    simp only [Prod.mk.injEq, Flt.fin.injEq] at e
    obtain ⟨rfl, rfl, rfl⟩ := e
    have e1 := g1 k _ _ hp hg
    dsimp only [Flt.val] at e1
    have e2 := g2 k _ _ hp hg
    dsimp only [Flt.val] at e2
    have e3 := g3 k _ _ hp hg
    dsimp only [Flt.val] at e3
    rw [outsideCell_false hbox hcell hcell2 hx.1 hx.2 hin.1.1 (hfit _ hin.1.2)] at e1
    rw [outsideCell_false hbox hcell hcell2 hy.1 hy.2 hin.2.1.1 (hfit _ hin.2.1.2)] at e2
    rw [outsideCell_false hbox hcell hcell2 hz.1 hz.2 hin.2.2.1 (hfit _ hin.2.2.2)] at e3
    exact ⟨(f c).1, (f c).2.1, (f c).2.2, hin, hph, e1, e2, e3⟩
  · intro h
    have main : ∀ (k : Nat) (p : Flt × Flt × Flt) (g : Int × Int × Int), t.pos[k]? = some p → (key.map f)[k]? = some g →
        outsideCell t.boxsize cell p.1.val g.1 = false ∧ outsideCell t.boxsize cell p.2.1.val g.2.1 = false ∧
          outsideCell t.boxsize cell p.2.2.val g.2.2 = false := by
      intro k p g hp hg
      have hkn := (List.getElem?_eq_some_iff.1 hp).1
      obtain ⟨x, y, z, rfl, hx, hy, hz⟩ := hpos _ (List.mem_iff_getElem?.2 ⟨k, hp⟩)
      obtain ⟨i, -, hb⟩ := htab.exists_block k
      have hkc := hkey k hkn _ hb
      rw [List.getElem?_map, hkc] at hg
      cases hg
      have hcm : t.first + (i : Int) ∈ key := List.mem_iff_getElem?.2 ⟨k, hkc⟩
      obtain ⟨einv, hin, hph⟩ := hfdef _ hcm
      obtain ⟨a, b, c, hin', hph', n1, n2, n3⟩ := h k x y z _ hp hb
      have ef : f (t.first + i) = (a, b, c) := by
        obtain ⟨k', e1, e2⟩ := C37_inverse_of_key h0 (show bits ≤ 21 by omega) a b c
        rw [hph'] at e1
        cases e1
        rw [einv] at e2
        injection e2 with e2
        rw [e2]
        obtain ⟨⟨u1, u2⟩, ⟨u3, u4⟩, ⟨u5, u6⟩⟩ := hin'
        rw [Int.emod_eq_of_lt u1 u2, Int.emod_eq_of_lt u3 u4, Int.emod_eq_of_lt u5 u6]
      rw [ef]
      rw [ef] at hin
      rw [← outsideCell_false hbox hcell hcell2 hx.1 hx.2 hin.1.1 (hfit _ hin.1.2)] at n1
      rw [← outsideCell_false hbox hcell hcell2 hy.1 hy.2 hin.2.1.1 (hfit _ hin.2.1.2)] at n2
      rw [← outsideCell_false hbox hcell hcell2 hz.1 hz.2 hin.2.2.1 (hfit _ hin.2.2.2)] at n3
      exact ⟨n1, n2, n3⟩
    exact ⟨fun k p g hp hg => (main k p g hp hg).1, fun k p g hp hg => (main k p g hp hg).2.1, fun k p g hp hg => (main k p g hp hg).2.2⟩
theorem snapCheck_python2 {bs : Nat} (hbs : 0 < bs) {t : SnapCheck} {bits : Nat} (h0 : 0 < bits) (h10 : bits ≤ 10) (hsize : t.hashtabsize = 8 ^ bits)
    (hbox : 0 < t.boxsize) (htab : BlockTable t.pos.length t.first t.last t.blockid) (hf : 0 ≤ t.first) (hlast : t.last < 8 ^ bits) :
    t.check ⟨false, false⟩ bs = .ok () ↔ t.Sane bits := by
  obtain ⟨key, ekey, hkl, hkey⟩ := cellKeys_ok htab
  have hkr : ∀ k ∈ key, 0 ≤ k ∧ k < 8 ^ bits := by
    intro c hc
    obtain ⟨k, hk⟩ := List.mem_iff_getElem?.1 hc
    have hkn := (List.getElem?_eq_some_iff.1 hk).1
    obtain ⟨i, hi, hb⟩ := htab.exists_block k
    rw [hkey k (by omega) _ hb] at hk
    cases hk
    have := htab.length
    constructor <;> omega
  have hinv : ∀ c ∈ key, ∃ g, phInverseScalar c bits = .ok g ∧ InGrid bits g ∧ phKeyScalar g.1 g.2.1 g.2.2 bits = .ok c := by
    intro c hc
    obtain ⟨x, y, z, e, hg, hk⟩ := C37_key_of_inverse h0 (by omega) (hkr c hc).1 (hkr c hc).2
    exact ⟨_, e, hg, hk⟩
  obtain ⟨f, hfdef⟩ : ∃ f : Int → Int × Int × Int, ∀ c ∈ key, phInverseScalar c bits = .ok (f c) ∧ InGrid bits (f c) ∧ phKeyScalar (f c).1 (f c).2.1 (f c).2.2 bits = .ok c := by
    refine ⟨fun c => match phInverseScalar c bits with | .ok g => g | .error _ => (0, 0, 0), fun c hc => ?_⟩
    obtain ⟨g, e, h⟩ := hinv c hc
    simp only [e]
    exact ⟨trivial, h⟩
  have egrid : phInverses bs key bits = .ok (key.map f) := by
    rw [C41_inverses hbs]
    exact mapM_ok _ _ _ (fun c hc => (hfdef c hc).1)
  unfold SnapCheck.check
  simp only [hsize, hashbits_eq h0]
  rw [raiseIf_bind_ok, raiseIf_bind_ok, raiseIf_bind_ok, raiseIf_bind_ok, raiseIf_bind_ok, bind_ok]
  have hids : ((t.ids.any (fun i => decide ((i : Int) < 0)) || t.ids.any (fun i => decide (i > t.total.getD 1 0 + (if false = true then 0 else t.total.getD 2 0 * 2 ^ 32)))) = false) ↔
      ∀ i ∈ t.ids, i ≤ t.total.getD 1 0 + t.total.getD 2 0 * 2 ^ 32 := by
    rw [Bool.or_eq_false_iff, List.any_eq_false, List.any_eq_false]
    simp only [decide_eq_true_eq, gt_iff_lt, not_lt, Bool.false_eq_true, if_false]
    constructor
    · rintro ⟨-, h⟩; exact h
    · intro h; exact ⟨fun i _ => by omega, h⟩
  rw [hids, ← and_assoc, pos_check, ← and_assoc (b := ((flat3 t.vel).any fun x => x.abs.gt 1000000) = false), vel_check]
  constructor
  · rintro ⟨a1, a2, a3, v, e1, a4⟩
    rw [ekey] at e1
    cases e1
    rw [show cellsOf ⟨false, false⟩ bs key bits = _ from egrid, bind_ok] at a4
    obtain ⟨g, e, a4⟩ := a4
    cases e
    rw [raiseIf_bind_ok, raiseIf_bind_ok, raiseIf_ok] at a4
    exact ⟨a1, a2, a3, (cells_check h0 h10 hbox htab hkey hfdef a1 rfl).1 a4⟩
  · intro s
    refine ⟨s.pos, s.vel, s.ids, key, ekey, ?_⟩
    rw [show cellsOf ⟨false, false⟩ bs key bits = _ from egrid, bind_ok]
    refine ⟨_, rfl, ?_⟩
    rw [raiseIf_bind_ok, raiseIf_bind_ok, raiseIf_ok]
    exact (cells_check h0 h10 hbox htab hkey hfdef s.pos rfl).2 s.cells

theorem cellFill_foldlM_length {first : Int} {blockid : List Int} (l : List Nat) {key r : List Int} (h : l.foldlM (cellKeysStep first blockid) key = .ok r) :
    r.length = key.length := by
  induction l generalizing key with
  | nil => cases h; rfl
  | cons i l ih =>
    rw [List.foldlM_cons, bind_ok] at h
    obtain ⟨v, e, h⟩ := h
    rw [ih h]
    unfold cellKeysStep at e
    split at e
    · cases e; exact cellFill_length _ _ _ _
    · cases e

theorem cellKeys_length {n : Nat} {first last : Int} {blockid key : List Int} (h : cellKeys n first last blockid = .ok key) : key.length = n := by
  unfold cellKeys at h
  split at h
  · cases h
  · cases h
  · rename_i e _
    cases h
    rw [cellFill_length, cellFill_foldlM_length _ e, List.length_replicate]

theorem snapCheck_python3 {bs : Nat} {t : SnapCheck} {numpy2 : Bool} (h : t.pos ≠ []) : t.check ⟨true, numpy2⟩ bs ≠ .ok () := by
  unfold SnapCheck.check
  intro hc
  rw [raiseIf_bind_ok, raiseIf_bind_ok, raiseIf_bind_ok, raiseIf_bind_ok, raiseIf_bind_ok, bind_ok] at hc
  obtain ⟨-, -, -, -, -, key, ek, hc⟩ := hc
  rw [bind_ok] at hc
  obtain ⟨_, e, -⟩ := hc
  unfold cellsOf at e
  rw [if_pos rfl, if_neg (by rw [cellKeys_length ek, List.length_eq_zero_iff]; exact h)] at e
  cases e

end Verif
