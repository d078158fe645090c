import Verif.Proofs.HashSnapshot
import Mathlib.Data.List.Induction
import Mathlib.Tactic.FieldSimp
import Mathlib.Algebra.Order.Floor.Ring
import Mathlib.Tactic.Positivity

/-! C56: reading cells and regions with the hash table. -/

namespace Verif

variable {α : Type*}

/-- `hash_table` after calls of `read_cells` with any keys -/
def hashTableAfter (files : Nat → HashFile α) (nfiles nhash : Nat) (calls : List (List Int)) : HashTable :=
  calls.foldl (fun t keys => (readCells files nfiles nhash t keys).1) []

theorem hashTableAfter_ok (files : Nat → HashFile α) (nfiles nhash : Nat) (calls : List (List Int)) : HashTableOk files (hashTableAfter files nfiles nhash calls) := by
  induction calls using List.reverseRecOn with
  | nil => intro i r h; simp [hashTableAfter] at h
  | append_singleton calls keys ih =>
    unfold hashTableAfter at ih ⊢
    rw [List.foldl_append, List.foldl_cons, List.foldl_nil]
    exact readCells_cache nfiles nhash ih keys

/-- **C56** After any calls, `read_cells` returns the particles of the files which are in the cells asked for, in the order of the files and once each; if no file has one of these cells, `ValueError` is raised. -/
theorem C56_cells (d : HashedFiles α) {nhash nfiles : Nat} (hd : ∀ i < nfiles, CellOrdered nhash (d.first i) (d.last i) (d.ps i)) (calls : List (List Int)) {keys : List Int} (hk : ∀ k ∈ keys, 0 ≤ k ∧ k < nhash) :
    (readCells d.files nfiles nhash (hashTableAfter d.files nfiles nhash calls) keys).2 =
      if ∃ i < nfiles, ∃ k ∈ keys, d.first i ≤ k ∧ k ≤ d.last i then .ok (particleArrays (((List.range nfiles).flatMap d.ps).filter (fun p => decide (p.cell ∈ keys))))
      else .error .valueError := by
  have hflag : ∀ c : Int, (∃ k ∈ keys, keyCell nhash k = c) ↔ c ∈ keys := by
    intro c
    constructor
    · rintro ⟨k, hk1, rfl⟩
      rw [keyCell, if_neg (by have := hk k hk1; omega)]
      exact hk1
    · intro hc
      exact ⟨c, hc, by rw [keyCell, if_neg (by have := hk c hc; omega)]⟩
  have hgrid : flagCells nhash keys = .ok ((List.range nhash).map (fun (c : Nat) => decide ((c : Int) ∈ keys))) := by
    rw [flagCells_spec (fun k hk1 => by have := hk k hk1; omega)]
    simp only [hflag]
  unfold readCells
  rw [hgrid]
  simp only
  have hloop := hashLoop_spec d hd (fun c => decide (c ∈ keys)) (List.range nfiles) (fun i hi => List.mem_range.1 hi) (hashTableAfter_ok d.files nfiles nhash calls) []
  rcases hl : hashLoop d.files ((List.range nhash).map (fun (c : Nat) => decide ((c : Int) ∈ keys))) (List.range nfiles) (hashTableAfter d.files nfiles nhash calls) [] with ⟨t, r⟩
  rw [hl] at hloop
  simp only [List.nil_append] at hloop
  subst hloop
  simp only
  unfold hashConcat
  have hex : (∃ i < nfiles, ∃ k ∈ keys, d.first i ≤ k ∧ k ≤ d.last i) ↔ ((List.range nfiles).filter (fun i => d.touched (fun c => decide (c ∈ keys)) i)).map (fun i => particleArrays ((d.ps i).filter (fun p => decide (p.cell ∈ keys)))) ≠ [] := by
    rw [Ne, List.map_eq_nil_iff, List.filter_eq_nil_iff]
    push Not
    constructor
    · rintro ⟨i, hi, k, hk1, hk2, hk3⟩
      exact ⟨i, List.mem_range.2 hi, (d.touched_iff _ i).2 ⟨k, hk2, hk3, by simpa using hk1⟩⟩
    · rintro ⟨i, hi, ht⟩
      obtain ⟨c, h1, h2, h3⟩ := (d.touched_iff _ i).1 ht
      exact ⟨i, List.mem_range.1 hi, c, by simpa using h3, h1, h2⟩
  by_cases h : ∃ i < nfiles, ∃ k ∈ keys, d.first i ≤ k ∧ k ≤ d.last i
  · rw [if_pos h, if_neg (hex.1 h)]
    simp only [List.map_map, Function.comp_def, particleArrays]
    rw [untouched_empty d hd (fun c => decide (c ∈ keys)) CellParticle.pos _ (fun i hi => List.mem_range.1 hi), untouched_empty d hd (fun c => decide (c ∈ keys)) CellParticle.vel _ (fun i hi => List.mem_range.1 hi),
      untouched_empty d hd (fun c => decide (c ∈ keys)) CellParticle.id _ (fun i hi => List.mem_range.1 hi)]
  · rw [if_neg h, if_pos]
    by_contra hc
    exact h (hex.2 hc)

/-- **C56** Keys outside the grid raise `IndexError` (negative ones count from the end), and nothing is remembered. -/
theorem C56_bad_keys (files : Nat → HashFile α) (nfiles nhash : Nat) (table : HashTable) {keys : List Int} {k : Int} (hk : k ∈ keys) (hbad : k < -(nhash : Int) ∨ (nhash : Int) ≤ k) :
    readCells files nfiles nhash table keys = (table, .error .indexError) := by
  have : flagCells nhash keys = .error .indexError := by
    unfold flagCells
    rw [if_neg]
    rw [List.all_eq_true]
    intro h
    have := h k hk
    rw [decide_eq_true_eq] at this
    omega
  unfold readCells
  rw [this]

/-- **C56** `ncell` and `bits` of a grid with `8^bits` cells -/
theorem C56_grid (bits : Nat) : gridSize ((8 : Int) ^ bits) = (2 ^ bits, bits) := by
  have h : ∀ (fuel k : Nat), k ≤ bits → bits - k ≤ fuel → gridLoop ((8 : Int) ^ bits) fuel (2 ^ k) k = (2 ^ bits, bits) := by
    intro fuel
    induction fuel with
    | zero =>
      intro k h1 h2
      have : k = bits := by omega
      subst this
      rfl
    | succ fuel ih =>
      intro k h1 h2
      have e : (((2 ^ k : Nat) : Int)) ^ 3 = 8 ^ k := by push_cast; rw [← pow_mul, mul_comm, pow_mul]; norm_num
      rw [gridLoop, e]
      by_cases hk : k = bits
      · subst hk
        rw [if_neg (by omega)]
      · rw [if_pos (pow_lt_pow_right₀ (by norm_num) (by omega)), ← pow_succ]
        exact ih (k + 1) (by omega) (by omega)
  have hb : bits ≤ ((8 : Int) ^ bits).toNat := by
    have : ((8 : Int) ^ bits).toNat = 8 ^ bits := by
      rw [show (8 : Int) ^ bits = ((8 ^ bits : Nat) : Int) by push_cast; rfl, Int.toNat_natCast]
    rw [this]
    exact (Nat.lt_pow_self (by omega)).le
  exact h _ 0 (by omega) (by omega)

/-- The cells of an interval -/
theorem cell_meets_iff {n : Nat} (hn : 0 < n) {boxsize : ℚ} (hbox : 0 < boxsize) {lo hi : ℚ} (hle : lo ≤ hi) {x : Int} (hx0 : 0 ≤ x) (hx1 : x < n) :
    (∃ i : Int, ⌊lo / (boxsize / n)⌋ ≤ i ∧ i ≤ ⌊hi / (boxsize / n)⌋ ∧ i % n = x) ↔ CellMeets n boxsize lo hi x := by
  have hn' : (0 : ℚ) < n := by exact_mod_cast hn
  set cs := boxsize / n with hcs
  have hcs0 : 0 < cs := by positivity
  have hbn : boxsize = n * cs := by rw [hcs]; field_simp
  unfold CellMeets
  rw [← hcs]
  constructor
  · rintro ⟨i, h1, h2, h3⟩
    have hii : i = x + n * (i / n) := by have := Int.emod_add_mul_ediv i n; omega
    have hiq : (i : ℚ) = x + n * ((i / n : Int) : ℚ) := by exact_mod_cast hii
    have hlo : lo < (i + 1) * cs := by
      have : lo / cs < ⌊lo / cs⌋ + 1 := Int.lt_floor_add_one _
      have h4 : ((⌊lo / cs⌋ : Int) : ℚ) ≤ i := by exact_mod_cast h1
      rw [div_lt_iff₀ hcs0] at this
      nlinarith
    have hhi : i * cs ≤ hi := by
      have : ((⌊hi / cs⌋ : Int) : ℚ) ≤ hi / cs := Int.floor_le _
      have h4 : (i : ℚ) ≤ ((⌊hi / cs⌋ : Int) : ℚ) := by exact_mod_cast h2
      rw [le_div_iff₀ hcs0] at this
      nlinarith
    refine ⟨max lo (i * cs), le_max_left _ _, max_le hle hhi, i / n, ?_, ?_⟩
    · have : (i : ℚ) * cs ≤ max lo (i * cs) := le_max_right _ _
      rw [hbn]
      have e : (x : ℚ) * cs = i * cs - ((i / n : Int) : ℚ) * (n * cs) := by rw [hiq]; ring
      rw [e]
      linarith
    · have : max lo (i * cs) < (i + 1) * cs := max_lt hlo (by nlinarith)
      rw [hbn]
      have e : ((x : ℚ) + 1) * cs = (i + 1) * cs - ((i / n : Int) : ℚ) * (n * cs) := by rw [hiq]; ring
      rw [e]
      linarith
  · rintro ⟨p, h1, h2, a, h3, h4⟩
    refine ⟨⌊p / cs⌋, Int.floor_le_floor (by gcongr), Int.floor_le_floor (by gcongr), ?_⟩
    have hf : ⌊p / cs⌋ = x + a * n := by
      rw [Int.floor_eq_iff]
      push_cast
      rw [hbn] at h3 h4
      constructor
      · rw [le_div_iff₀ hcs0]; linarith
      · rw [div_lt_iff₀ hcs0]; linarith
    rw [hf, Int.add_mul_emod_self_right, Int.emod_eq_of_lt hx0 hx1]

theorem mem_regionCells {ncell : Nat} {lo hi : Int × Int × Int} {cells : List (Int × Int × Int)} (h : regionCells ncell lo hi = .ok cells) (c : Int × Int × Int) :
    c ∈ cells ↔ ∃ i j k : Int, lo.1 ≤ i ∧ i ≤ hi.1 ∧ lo.2.1 ≤ j ∧ j ≤ hi.2.1 ∧ lo.2.2 ≤ k ∧ k ≤ hi.2.2 ∧ c = (i % ncell, j % ncell, k % ncell) := by
  unfold regionCells at h
  simp only at h
  split at h
  · cases h
  · rename_i hneg
    push Not at hneg
    rw [Except.ok.injEq] at h
    subst h
    simp only [List.mem_flatMap, List.mem_map, List.mem_range]
    constructor
    · rintro ⟨i, hi, j, hj, k, hk, rfl⟩
      exact ⟨i + lo.1, j + lo.2.1, k + lo.2.2, by omega, by omega, by omega, by omega, by omega, by omega, rfl⟩
    · rintro ⟨i, j, k, h1, h2, h3, h4, h5, h6, rfl⟩
      refine ⟨(i - lo.1).toNat, by omega, (j - lo.2.1).toNat, by omega, (k - lo.2.2).toNat, by omega, ?_⟩
      congr 1
      · congr 1; omega
      · congr 1 <;> congr 1 <;> omega

/-- **C56** With a numpy which accepts floating point sizes in `np.indices` (before 1.12), `read_region` returns the particles in exactly those cells of the grid which the region meets, or meets periodically. -/
theorem C56_region (d : HashedFiles α) {bits nfiles : Nat} (h0 : 0 < bits) (h21 : bits ≤ 21) (hd : ∀ i < nfiles, CellOrdered (8 ^ bits) (d.first i) (d.last i) (d.ps i)) (hcover : ∀ c : Int, 0 ≤ c → c < 8 ^ bits → ∃ i < nfiles, d.first i ≤ c ∧ c ≤ d.last i)
    (calls : List (List Int)) {boxsize : ℚ} (hbox : 0 < boxsize) {lo hi : ℚ × ℚ × ℚ} (hx : lo.1 ≤ hi.1) (hy : lo.2.1 ≤ hi.2.1) (hz : lo.2.2 ≤ hi.2.2) :
    ∃ sel : Int → Bool, (readRegion true d.files nfiles (8 ^ bits) boxsize (hashTableAfter d.files nfiles (8 ^ bits) calls) lo hi).2 = .ok (particleArrays (((List.range nfiles).flatMap d.ps).filter (fun p => sel p.cell))) ∧
      ∀ c : Int, 0 ≤ c → c < 8 ^ bits → ∃ x y z, phInverseScalar c bits = .ok (x, y, z) ∧
        (sel c = true ↔ CellMeets (2 ^ bits) boxsize lo.1 hi.1 x ∧ CellMeets (2 ^ bits) boxsize lo.2.1 hi.2.1 y ∧ CellMeets (2 ^ bits) boxsize lo.2.2 hi.2.2 z) := by
  have hn : 0 < 2 ^ bits := by positivity
  have hgrid : gridSize (((8 ^ bits : Nat) : Int)) = (2 ^ bits, bits) := by
    rw [show (((8 ^ bits : Nat) : Int)) = 8 ^ bits by push_cast; rfl]
    exact C56_grid bits
  set cs : ℚ := boxsize / ((2 ^ bits : Nat) : ℚ) with hcs
  have hcs0 : 0 < cs := by have : (0 : ℚ) < ((2 ^ bits : Nat) : ℚ) := by exact_mod_cast hn
                           positivity
  set clo : Int × Int × Int := (⌊lo.1 / cs⌋, ⌊lo.2.1 / cs⌋, ⌊lo.2.2 / cs⌋) with hclo
  set chi : Int × Int × Int := (⌊hi.1 / cs⌋, ⌊hi.2.1 / cs⌋, ⌊hi.2.2 / cs⌋) with hchi
  have k1 : clo.1 ≤ chi.1 := Int.floor_le_floor (by gcongr)
  have k2 : clo.2.1 ≤ chi.2.1 := Int.floor_le_floor (by gcongr)
  have k3 : clo.2.2 ≤ chi.2.2 := Int.floor_le_floor (by gcongr)
  obtain ⟨cells, hcells⟩ : ∃ cells, regionCells (2 ^ bits) clo chi = .ok cells := by
    unfold regionCells
    simp only
    rw [if_neg (by omega)]
    exact ⟨_, rfl⟩
  have hmem := mem_regionCells hcells
  have hin : ∀ c ∈ cells, InGrid bits c := by
    intro c hc
    obtain ⟨i, j, k, -, -, -, -, -, -, rfl⟩ := (hmem c).1 hc
    have hpos : (0 : Int) < ((2 ^ bits : Nat) : Int) := by exact_mod_cast hn
    have e : ((2 ^ bits : Nat) : Int) = 2 ^ bits := by push_cast; rfl
    unfold InGrid
    rw [e] at *
    exact ⟨⟨Int.emod_nonneg _ hpos.ne', Int.emod_lt_of_pos _ hpos⟩, ⟨Int.emod_nonneg _ hpos.ne', Int.emod_lt_of_pos _ hpos⟩, Int.emod_nonneg _ hpos.ne', Int.emod_lt_of_pos _ hpos⟩
  obtain ⟨keys, hkeys, hinv⟩ := C37_arrays h0 h21 (bs := 10000) (bs' := 10000) (by omega) (by omega) hin
  have hkm : keys = cells.map (fun p => (phK p.1 p.2.1 p.2.2 bits 0 1 : Int)) := by
    rw [phKeys_eq (by omega), mapM_ok _ _ _ (fun p _ => phKeyScalar_small h0 h21 _ _ _)] at hkeys
    exact (Except.ok.inj hkeys).symm
  have hkey : ∀ c : Int, c ∈ keys ↔ ∃ p ∈ cells, phKeyScalar p.1 p.2.1 p.2.2 bits = .ok c := by
    intro c
    rw [hkm, List.mem_map]
    constructor
    · rintro ⟨p, hp, rfl⟩
      exact ⟨p, hp, phKeyScalar_small h0 h21 _ _ _⟩
    · rintro ⟨p, hp, hpc⟩
      rw [phKeyScalar_small h0 h21] at hpc
      exact ⟨p, hp, Except.ok.inj hpc⟩
  have hkr : ∀ k ∈ keys, 0 ≤ k ∧ k < ((8 ^ bits : Nat) : Int) := by
    intro k hk
    obtain ⟨p, hp, hpk⟩ := (hkey k).1 hk
    obtain ⟨k', hk', h1, h2⟩ := C38_range h0 h21 p.1 p.2.1 p.2.2
    rw [hk', Except.ok.injEq] at hpk
    subst hpk
    exact ⟨h1, by push_cast; exact h2⟩
  have hne : ∃ k, k ∈ keys := by
    have hc : (clo.1 % ((2 ^ bits : Nat) : Int), clo.2.1 % ((2 ^ bits : Nat) : Int), clo.2.2 % ((2 ^ bits : Nat) : Int)) ∈ cells := (hmem _).2 ⟨clo.1, clo.2.1, clo.2.2, le_refl _, k1, le_refl _, k2, le_refl _, k3, rfl⟩
    obtain ⟨k, hk, -, -⟩ := C38_range h0 h21 (clo.1 % ((2 ^ bits : Nat) : Int)) (clo.2.1 % ((2 ^ bits : Nat) : Int)) (clo.2.2 % ((2 ^ bits : Nat) : Int))
    exact ⟨k, (hkey k).2 ⟨_, hc, hk⟩⟩
  refine ⟨fun c => decide (c ∈ keys), ?_, ?_⟩
  · unfold readRegion
    rw [hgrid]
    simp only
    rw [if_neg (by decide)]
    rw [← hcs, ← hclo, ← hchi, hcells]
    simp only
    rw [hkeys]
    simp only
    rw [C56_cells d hd calls hkr, if_pos]
    obtain ⟨k, hk⟩ := hne
    obtain ⟨h1, h2⟩ := hkr k hk
    obtain ⟨i, hi, h3, h4⟩ := hcover k h1 (by push_cast at h2; exact h2)
    exact ⟨i, hi, k, hk, h3, h4⟩
  · intro c hc0 hc1
    obtain ⟨x, y, z, hxyz, hg, hback⟩ := C37_key_of_inverse h0 h21 hc0 hc1
    refine ⟨x, y, z, hxyz, ?_⟩
    obtain ⟨⟨g1, g2⟩, ⟨g3, g4⟩, g5, g6⟩ := hg
    have e : ((2 ^ bits : Nat) : Int) = 2 ^ bits := by push_cast; rfl
    simp only at g1 g2 g3 g4 g5 g6
    rw [decide_eq_true_eq, hkey, ← cell_meets_iff hn hbox hx g1 (by rw [e]; exact g2), ← cell_meets_iff hn hbox hy g3 (by rw [e]; exact g4), ← cell_meets_iff hn hbox hz g5 (by rw [e]; exact g6)]
    constructor
    · rintro ⟨p, hp, hpc⟩
      have hpxyz : p = (x, y, z) := by
        obtain ⟨k', hk', hinv'⟩ := C37_inverse_of_key h0 h21 p.1 p.2.1 p.2.2
        rw [hk', Except.ok.injEq] at hpc
        subst hpc
        rw [hxyz, Except.ok.injEq] at hinv'
        have hgp := hin p hp
        obtain ⟨⟨q1, q2⟩, ⟨q3, q4⟩, q5, q6⟩ := hgp
        rw [Int.emod_eq_of_lt q1 q2, Int.emod_eq_of_lt q3 q4, Int.emod_eq_of_lt q5 q6] at hinv'
        exact hinv'.symm
      subst hpxyz
      obtain ⟨i, j, k, h1, h2, h3, h4, h5, h6, h7⟩ := (hmem _).1 hp
      simp only [Prod.mk.injEq] at h7
      exact ⟨⟨i, h1, h2, h7.1.symm⟩, ⟨j, h3, h4, h7.2.1.symm⟩, ⟨k, h5, h6, h7.2.2.symm⟩⟩
    · rintro ⟨⟨i, h1, h2, h3⟩, ⟨j, h4, h5, h6⟩, ⟨k, h7, h8, h9⟩⟩
      exact ⟨(x, y, z), (hmem _).2 ⟨i, j, k, h1, h2, h4, h5, h7, h8, by rw [h3, h6, h9]⟩, hback⟩

/-- **C56** With later versions of numpy `read_region` always raises `TypeError`. -/
theorem C56_region_defect (files : Nat → HashFile α) (nfiles nhash : Nat) (boxsize : ℚ) (table : HashTable) (lo hi : ℚ × ℚ × ℚ) : (readRegion false files nfiles nhash boxsize table lo hi).2 = .error .typeError := by
  unfold readRegion
  simp only
  rfl

/-! ### Examples -/

namespace ExHash

/-- 8 cells in two files: cells 0 to 2 and 3 to 7 -/
def d : HashedFiles Nat where
  first i := if i = 0 then 0 else 3
  last i := if i = 0 then 2 else 7
  ps i := if i = 0 then [⟨0, 1, 11, 101⟩, ⟨2, 2, 12, 102⟩, ⟨2, 3, 13, 103⟩] else [⟨3, 4, 14, 104⟩, ⟨5, 5, 15, 105⟩, ⟨5, 6, 16, 106⟩, ⟨7, 7, 17, 107⟩]

theorem d_ok : ∀ i < 2, CellOrdered 8 (d.first i) (d.last i) (d.ps i) := by
  intro i hi
  have : ∀ i < 2, 0 ≤ d.first i ∧ d.first i ≤ d.last i + 1 ∧ d.last i < (8 : Nat) ∧ (d.ps i).Pairwise (fun p q => p.cell ≤ q.cell) ∧ ∀ p ∈ d.ps i, d.first i ≤ p.cell ∧ p.cell ≤ d.last i := by
    intro i hi
    have hi' : i = 0 ∨ i = 1 := by omega
    rcases hi' with rfl | rfl
    · refine ⟨by decide, by decide, by decide, by simp [d], by simp [d]⟩
    · refine ⟨by decide, by decide, by decide, by simp [d], by simp [d]⟩
  exact this i hi

example : (hashedFile 3 7 (d.ps 1)).blockid = [0, 1, 1, 3, 3] := by decide +kernel

example : (readCells d.files 2 8 (hashTableAfter d.files 2 8 [[1], [9], [4, 7]]) [5, 2, 5]).2 = .ok ([2, 3, 5, 6], [12, 13, 15, 16], [102, 103, 105, 106]) := by
  rw [C56_cells d d_ok _ (by decide), if_pos ⟨0, by omega, 2, by decide, by decide, by decide⟩]
  decide +kernel

/-- A cell without particles gives empty arrays, no cells raise `ValueError`. -/
example : (readCells d.files 2 8 [] [1]).2 = .ok ([], [], []) := by decide +kernel
example : (readCells d.files 2 8 [] []).2 = .error .valueError := by decide +kernel

/-- Two cells on each side of a box of size 10: a region across the boundary of the box in the first direction meets two cells. -/
example : (readRegion true d.files 2 8 10 [] (-1, 1, 1) (1, 2, 2)).2 = .ok ([1, 4], [11, 14], [101, 104]) := by decide +kernel

example : ∃ sel : Int → Bool, (readRegion true d.files 2 (8 ^ 1) 10 (hashTableAfter d.files 2 (8 ^ 1) []) (-1, 1, 1) (1, 2, 2)).2 = .ok (particleArrays (((List.range 2).flatMap d.ps).filter (fun p => sel p.cell))) ∧
    ∀ c : Int, 0 ≤ c → c < 8 ^ 1 → ∃ x y z, phInverseScalar c 1 = .ok (x, y, z) ∧ (sel c = true ↔ CellMeets (2 ^ 1) 10 (-1) 1 x ∧ CellMeets (2 ^ 1) 10 1 2 y ∧ CellMeets (2 ^ 1) 10 1 2 z) :=
  C56_region d (by omega) (by omega) d_ok (by
    intro c h0 h1
    by_cases hc : c ≤ 2
    · exact ⟨0, by omega, h0, hc⟩
    · refine ⟨1, by omega, ?_, ?_⟩
      · show (3 : Int) ≤ c; omega
      · show c ≤ (7 : Int); omega) [] (by norm_num) (by norm_num) (by norm_num) (by norm_num)

end ExHash

end Verif
