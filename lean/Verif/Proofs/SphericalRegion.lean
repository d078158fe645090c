import Verif.Proofs.CoordAll
import Verif.Proofs.CPeano
import Verif.Proofs.PeanoLoop
import Verif.Spec.SphericalRegion
import Mathlib.Data.List.Nodup
import Mathlib.Data.List.ProdSigma
import Mathlib.Algebra.Order.Floor.Ring
import Mathlib.Data.Rat.Floor
import Mathlib.Tactic.IntervalCases

set_option linter.unusedSectionVars false

namespace Verif.GroupLib

open CPeano ReadParticles ReadRegion

/-! ### The grid -/

theorem baseLoop_ok {b : Nat} (hb : b ≤ 10) : baseLoop (8 ^ b : Nat) 32 1 = .ok ((2 ^ b : Nat) : Int) := by
  interval_cases b <;> decide +kernel

theorem bitsLoop_ok {b : Nat} (h0 : 0 < b) (hb : b ≤ 10) : bitsLoop (2 ^ b : Nat) 32 1 = .ok (b : Int) := by
  interval_cases b <;> decide +kernel

theorem truncInt_ok {x : Rat} (h0 : 0 ≤ x) (h : ⌊x⌋ < 2147483648) : truncInt x = .ok ⌊x⌋ := by
  unfold truncInt
  rw [if_pos h0, show x.floor = ⌊x⌋ from rfl]
  have : 0 ≤ ⌊x⌋ := Int.floor_nonneg.2 h0
  exact cInt_ok (by omega) h

/-- Values along a side -/
def axisList (c k : Int) : List Int := (List.range (2 * k + 1).toNat).map (fun i : Nat => c - k + i)

theorem axis_ok {c k : Int} (h1 : -2147483648 ≤ c - k) (h2 : c + k + 1 < 2147483648) (hk : 0 ≤ k) : axis c k = .ok (axisList c k) := by
  unfold axis axisList
  rw [bindOk _ (cInt_ok h1 (by omega)), bindOk _ (cInt_ok (by omega) (by omega)), bindOk _ (cInt_ok (by omega) h2)]
  rw [show c + k + 1 - (c - k) = 2 * k + 1 by ring]

theorem mem_axisList {c k i : Int} : i ∈ axisList c k ↔ c - k ≤ i ∧ i ≤ c + k := by
  unfold axisList
  rw [List.mem_map]
  constructor
  · rintro ⟨a, ha, rfl⟩
    rw [List.mem_range] at ha
    omega
  · intro h
    exact ⟨(i - (c - k)).toNat, by rw [List.mem_range]; omega, by omega⟩

theorem nodup_axisList (c k : Int) : (axisList c k).Nodup := by
  unfold axisList
  refine List.Nodup.map (fun a b h => ?_) List.nodup_range
  simpa using h

theorem wrapIndex_mod (B i : Int) : wrapIndex B i % B = i % B := by
  have h1 : ∀ j : Int, (j + B) % B = j % B := fun j => by rw [Int.add_emod_right]
  have h2 : ∀ j : Int, (j - B) % B = j % B := fun j => by rw [Int.sub_emod_right]
  unfold wrapIndex
  dsimp only
  split <;> split <;> simp only [h1, h2]

theorem unique_mod {B a b : Int} (ha : 0 ≤ a ∧ a < B) (hb : 0 ≤ b ∧ b < B) (h : a % B = b % B) : a = b := by
  rwa [Int.emod_eq_of_lt ha.1 ha.2, Int.emod_eq_of_lt hb.1 hb.2] at h

/-! ### Keys -/

/-- Only the last bits of the coordinates matter. -/
theorem phK_congr {b : Nat} {x y z x' y' z' : Int} : phK x y z b 0 1 = phK x' y' z' b 0 1 ↔
    x % (2 ^ b : Nat) = x' % (2 ^ b : Nat) ∧ y % (2 ^ b : Nat) = y' % (2 ^ b : Nat) ∧ z % (2 ^ b : Nat) = z' % (2 ^ b : Nat) := by
  obtain ⟨a1, a2, a3⟩ := phJ_phK x y z b phValid_start
  obtain ⟨b1, b2, b3⟩ := phJ_phK x' y' z' b phValid_start
  constructor
  · intro h
    rw [h] at a1 a2 a3
    exact ⟨a1.symm.trans b1, a2.symm.trans b2, a3.symm.trans b3⟩
  · rintro ⟨h1, h2, h3⟩
    have c1 := phK_phJ (phK x y z b 0 1) b phValid_start
    have c2 := phK_phJ (phK x' y' z' b 0 1) b phValid_start
    rw [Nat.mod_eq_of_lt (phK_lt _ _ _ b phValid_start), a1, a2, a3, h1, h2, h3] at c1
    rw [Nat.mod_eq_of_lt (phK_lt _ _ _ b phValid_start), b1, b2, b3] at c2
    exact c1.symm.trans c2

/-- Cell number for three values of the loops -/
def keyOf (b : Nat) (i : Int × Int × Int) : Nat := phK i.1 i.2.1 i.2.2 b 0 1

/-- Cells in the order of the loops -/
def visited (b : Nat) (cx cy cz k : Int) : List Nat := (axisList cx k ×ˢ (axisList cy k ×ˢ axisList cz k)).map (keyOf b)

theorem cKey_small {b : Nat} (h0 : 0 < b) (hb : b ≤ 10) (x y z : Int) : cKey true x y z b = .ok (phK x y z b 0 1 : Int) := by
  rw [cKey_eq true h0 (by omega), if_pos]
  have h1 := phK_lt x y z b phValid_start
  have h2 : 8 ^ b ≤ 8 ^ 10 := Nat.pow_le_pow_right (by omega) hb
  omega

theorem keyOf_lt (b : Nat) (i : Int × Int × Int) : keyOf b i < 8 ^ b := phK_lt _ _ _ b phValid_start

theorem axis_inj {B c k i j : Int} (hk : 2 * k + 1 ≤ B) (hi : i ∈ axisList c k) (hj : j ∈ axisList c k) (h : i % B = j % B) : i = j := by
  have h1 := mem_axisList.1 hi
  have h2 := mem_axisList.1 hj
  have := unique_mod (B := B) (a := i - (c - k)) (b := j - (c - k)) (by omega) (by omega) (by rw [Int.sub_emod, h, ← Int.sub_emod])
  omega

theorem visited_nodup {b : Nat} {cx cy cz k : Int} (h0 : 0 ≤ k) : (visited b cx cy cz k).Nodup ↔ 2 * k + 1 ≤ (2 ^ b : Nat) := by
  constructor
  · intro hn
    by_contra hc
    have hp : (0 : Int) < (2 ^ b : Nat) := by exact_mod_cast Nat.two_pow_pos b
    have hm : ∀ c : Int, c ∈ axisList c k := fun c => mem_axisList.2 (by omega)
    have m1 : (cx - k, cy, cz) ∈ axisList cx k ×ˢ (axisList cy k ×ˢ axisList cz k) := List.mem_product.2 ⟨mem_axisList.2 (by omega), List.mem_product.2 ⟨hm _, hm _⟩⟩
    have m2 : (cx - k + (2 ^ b : Nat), cy, cz) ∈ axisList cx k ×ˢ (axisList cy k ×ˢ axisList cz k) := List.mem_product.2 ⟨mem_axisList.2 (by omega), List.mem_product.2 ⟨hm _, hm _⟩⟩
    have e : keyOf b (cx - k, cy, cz) = keyOf b (cx - k + (2 ^ b : Nat), cy, cz) := phK_congr.2 ⟨by rw [Int.add_emod_right], rfl, rfl⟩
    have := List.inj_on_of_nodup_map hn m1 m2 e
    simp only [Prod.mk.injEq] at this
    omega
  · intro h2
    unfold visited
    refine List.Nodup.map_on ?_ ((nodup_axisList _ _).product ((nodup_axisList _ _).product (nodup_axisList _ _)))
    rintro ⟨i, j, l⟩ hi ⟨i', j', l'⟩ hi' e
    obtain ⟨i1, hi⟩ := List.mem_product.1 hi
    obtain ⟨i2, i3⟩ := List.mem_product.1 hi
    obtain ⟨j1, hj⟩ := List.mem_product.1 hi'
    obtain ⟨j2, j3⟩ := List.mem_product.1 hj
    obtain ⟨e1, e2, e3⟩ := phK_congr.1 e
    rw [Prod.mk.injEq, Prod.mk.injEq]
    exact ⟨axis_inj h2 i1 j1 e1, axis_inj h2 i2 j2 e2, axis_inj h2 i3 j3 e3⟩

theorem length_axisList {c k : Int} (h : 0 ≤ k) : (axisList c k).length = 2 * k.toNat + 1 := by
  unfold axisList
  rw [List.length_map, List.length_range]
  omega

theorem length_visited {b : Nat} {cx cy cz k : Int} (h : 0 ≤ k) : (visited b cx cy cz k).length = (2 * k.toNat + 1) ^ 3 := by
  unfold visited
  rw [List.length_map, List.length_product, List.length_product, length_axisList h, length_axisList h, length_axisList h]
  ring

/-- A side is covered if the loop is long enough. -/
theorem axis_all {B c k i : Int} (hB : 0 < B) (hk : B ≤ 2 * k + 1) : ∃ a ∈ axisList c k, a % B = i % B := by
  refine ⟨(i - (c - k)) % B + (c - k), mem_axisList.2 ?_, ?_⟩
  · have h1 := Int.emod_nonneg (i - (c - k)) hB.ne'
    have h2 := Int.emod_lt_of_pos (i - (c - k)) hB
    omega
  · rw [Int.add_emod, Int.emod_emod_of_dvd _ (dvd_refl B), ← Int.add_emod]
    congr 1; ring

theorem visited_all {b : Nat} {cx cy cz k : Int} (hk : (2 ^ b : Nat) ≤ 2 * k + 1) {c : Nat} (hc : c < 8 ^ b) : c ∈ visited b cx cy cz k := by
  have hp : (0 : Int) < (2 ^ b : Nat) := by exact_mod_cast Nat.two_pow_pos b
  have hkey := phK_phJ c b phValid_start
  rw [Nat.mod_eq_of_lt hc] at hkey
  obtain ⟨x, hx, ex⟩ := axis_all (c := cx) (i := (phJ c b 0 1).1) hp hk
  obtain ⟨y, hy, ey⟩ := axis_all (c := cy) (i := (phJ c b 0 1).2.1) hp hk
  obtain ⟨z, hz, ez⟩ := axis_all (c := cz) (i := (phJ c b 0 1).2.2) hp hk
  exact List.mem_map.2 ⟨(x, y, z), List.mem_product.2 ⟨hx, List.mem_product.2 ⟨hy, hz⟩⟩, (phK_congr.2 ⟨ex, ey, ez⟩).trans hkey⟩

/-- A coordinate near that of the centre is in one of the intervals of the loop. -/
theorem near_axis {B : Nat} {w s r x : Rat} {i : Nat} {m : Int} (hw : 0 < w) (hi : InInterval w i x) (hn : (x + m * (w * B) - s) ^ 2 ≤ r ^ 2) (hr : 0 ≤ r) :
    (i : Int) + m * B ∈ axisList ⌊s / w⌋ (⌊r / w⌋ + 1) := by
  have habs : |x + m * (w * B) - s| ≤ r := abs_le_of_sq_le_sq hn hr
  obtain ⟨h1, h2⟩ := abs_le.1 habs
  have e : ⌊(x + m * (w * B)) / w⌋ = (i : Int) + m * B := by
    rw [Int.floor_eq_iff]
    rw [le_div_iff₀ hw, div_lt_iff₀ hw]
    push_cast
    obtain ⟨i1, i2⟩ := hi
    constructor <;> nlinarith
  have f1 : (x + m * (w * B)) / w ≤ s / w + r / w := by
    rw [← add_div]; exact div_le_div_of_nonneg_right (by linarith) hw.le
  have f2 : s / w ≤ (x + m * (w * B)) / w + r / w := by
    rw [← add_div]; exact div_le_div_of_nonneg_right (by linarith) hw.le
  have g1 := Int.floor_le_floor f1
  have g2 := Int.floor_le_floor f2
  have k1 := Int.le_floor_add_floor (s / w) (r / w)
  have k2 := Int.le_floor_add_floor ((x + m * (w * B)) / w) (r / w)
  rw [mem_axisList, ← e]
  constructor <;> omega

theorem floor_side {B : Nat} {box s : Rat} (hB : 0 < B) (hb : 0 < box) (h : 0 ≤ s ∧ s < box) : 0 ≤ s / (box / B) ∧ 0 ≤ ⌊s / (box / B)⌋ ∧ ⌊s / (box / B)⌋ < (B : Int) := by
  have hB' : (0 : Rat) < B := by exact_mod_cast hB
  have hw : 0 < box / B := div_pos hb hB'
  have h0 : 0 ≤ s / (box / B) := div_nonneg h.1 hw.le
  refine ⟨h0, Int.floor_nonneg.2 h0, Int.floor_lt.2 ?_⟩
  rw [div_lt_iff₀ hw]
  push_cast
  rw [mul_div_cancel₀ _ hB'.ne']
  exact h.2

theorem sphereKeys_ok {b : Nat} (h0 : 0 < b) (hb : b ≤ 10) {box : Rat} (hbox : 0 < box) {s : Sphere} (hs : s.Ok box) (hk : ⌊s.rad / (box / (2 ^ b : Nat))⌋ + 1 ≤ 2 ^ 30) :
    sphereKeys (8 ^ b : Nat) box s = .ok ((visited b ⌊s.x / (box / (2 ^ b : Nat))⌋ ⌊s.y / (box / (2 ^ b : Nat))⌋ ⌊s.z / (box / (2 ^ b : Nat))⌋ (⌊s.rad / (box / (2 ^ b : Nat))⌋ + 1)).map
      (fun c : Nat => Except.ok (c : Int))) := by
  have hp := Nat.two_pow_pos b
  have hlt : 2 ^ b ≤ 2 ^ 10 := Nat.pow_le_pow_right (by omega) hb
  have hB' : (0 : Rat) < (2 ^ b : Nat) := by exact_mod_cast hp
  have hw : 0 < box / (2 ^ b : Nat) := div_pos hbox hB'
  obtain ⟨x0, x1, x2⟩ := floor_side hp hbox hs.x
  obtain ⟨y0, y1, y2⟩ := floor_side hp hbox hs.y
  obtain ⟨z0, z1, z2⟩ := floor_side hp hbox hs.z
  have r0 : 0 ≤ s.rad / (box / (2 ^ b : Nat)) := div_nonneg hs.rad hw.le
  have r1 : ⌊s.rad / (box / (2 ^ b : Nat)) + 1⌋ = ⌊s.rad / (box / (2 ^ b : Nat))⌋ + 1 := by
    rw [show (1 : Rat) = ((1 : Int) : Rat) by norm_num, Int.floor_add_intCast]
  have r2 : 0 ≤ ⌊s.rad / (box / (2 ^ b : Nat))⌋ := Int.floor_nonneg.2 r0
  unfold sphereKeys
  rw [bindOk _ (baseLoop_ok hb), bindOk _ (bitsLoop_ok h0 hb)]
  dsimp only
  rw [Int.cast_natCast, if_neg hw.ne', bindOk _ (truncInt_ok (by linarith) (by rw [r1]; omega)), r1, bindOk _ (truncInt_ok x0 (by omega)), bindOk _ (truncInt_ok y0 (by omega)), bindOk _ (truncInt_ok z0 (by omega)),
    bindOk _ (axis_ok (by omega) (by omega) (by omega)), bindOk _ (axis_ok (by omega) (by omega) (by omega)), bindOk _ (axis_ok (by omega) (by omega) (by omega))]
  refine congrArg Except.ok ?_
  unfold visited
  rw [List.map_map]
  generalize axisList _ _ = xs
  generalize axisList _ _ = ys
  generalize axisList _ _ = zs
  have e : zs ×ˢ (ys ×ˢ xs) = zs.flatMap fun i => (ys.flatMap fun j => xs.map fun l => (j, l)).map fun q => (i, q) := rfl
  rw [e, List.map_flatMap]
  refine List.flatMap_congr fun i _ => ?_
  rw [List.map_map, List.map_flatMap]
  refine List.flatMap_congr fun j _ => ?_
  rw [List.map_map]
  refine List.map_congr_left fun l _ => ?_
  rw [cKey_small h0 hb]
  exact congrArg (fun v : Nat => Except.ok (v : Int)) (phK_congr.2 ⟨wrapIndex_mod _ _, wrapIndex_mod _ _, wrapIndex_mod _ _⟩)

/-- Particles near the centre are in the cells of the loops. -/
theorem visited_near {b : Nat} (h0 : 0 < b) (hb : b ≤ 10) {box : Rat} (hbox : 0 < box) {s : Sphere} (hs : s.Ok box)
    {val4 : List Byte → Rat} {cells : List (List Particle)} (hg : Gridded val4 box b cells) {c : Nat} (hc : c < 8 ^ b) {p : Particle} (hp : p ∈ cells.getD c [])
    (hn : InSphere box s (place val4 p)) :
    c ∈ visited b ⌊s.x / (box / (2 ^ b : Nat))⌋ ⌊s.y / (box / (2 ^ b : Nat))⌋ ⌊s.z / (box / (2 ^ b : Nat))⌋ (⌊s.rad / (box / (2 ^ b : Nat))⌋ + 1) := by
  have hpow := Nat.two_pow_pos b
  have hB' : (0 : Rat) < (2 ^ b : Nat) := by exact_mod_cast hpow
  have hw : 0 < box / (2 ^ b : Nat) := div_pos hbox hB'
  obtain ⟨l1, l2, l3⟩ := phJ_lt c b phValid_start
  have hkey := phK_phJ c b phValid_start
  rw [Nat.mod_eq_of_lt hc] at hkey
  generalize hi : (phJ c b 0 1).1 = i at *
  generalize hj : (phJ c b 0 1).2.1 = j at *
  generalize hl : (phJ c b 0 1).2.2 = l at *
  have hcast : (2 : Rat) ^ b = ((2 ^ b : Nat) : Rat) := by push_cast; rfl
  obtain ⟨i1, i2, i3⟩ := hg i j l c l1 l2 l3 (by rw [phKeyScalar_small h0 (by omega), hkey]) p hp
  rw [hcast] at i1 i2 i3
  obtain ⟨m1, m2, m3, hle⟩ := hn
  have hwB : box / (2 ^ b : Nat) * (2 ^ b : Nat) = box := div_mul_cancel₀ _ hB'.ne'
  have a1 := near_axis (B := 2 ^ b) (m := m1) (s := s.x) (r := s.rad) hw i1 (by rw [hwB]; nlinarith [sq_nonneg ((place val4 p).2.1 + m2 * box - s.y), sq_nonneg ((place val4 p).2.2 + m3 * box - s.z)]) hs.rad
  have a2 := near_axis (B := 2 ^ b) (m := m2) (s := s.y) (r := s.rad) hw i2 (by rw [hwB]; nlinarith [sq_nonneg ((place val4 p).1 + m1 * box - s.x), sq_nonneg ((place val4 p).2.2 + m3 * box - s.z)]) hs.rad
  have a3 := near_axis (B := 2 ^ b) (m := m3) (s := s.z) (r := s.rad) hw i3 (by rw [hwB]; nlinarith [sq_nonneg ((place val4 p).2.1 + m2 * box - s.y), sq_nonneg ((place val4 p).1 + m1 * box - s.x)]) hs.rad
  unfold visited
  refine List.mem_map.2 ⟨((i : Int) + m1 * (2 ^ b : Nat), (j : Int) + m2 * (2 ^ b : Nat), (l : Int) + m3 * (2 ^ b : Nat)), List.mem_product.2 ⟨a1, List.mem_product.2 ⟨a2, a3⟩⟩, ?_⟩
  have e : keyOf b ((i : Int) + m1 * (2 ^ b : Nat), (j : Int) + m2 * (2 ^ b : Nat), (l : Int) + m3 * (2 ^ b : Nat)) = phK i j l b 0 1 :=
    phK_congr.2 ⟨Int.add_mul_emod_self_right _ _ _, Int.add_mul_emod_self_right _ _ _, Int.add_mul_emod_self_right _ _ _⟩
  exact e.trans hkey

theorem interval_in {B : Nat} {box x : Rat} (hB : 0 < B) (hb : 0 < box) {i : Nat} (hi : i < B) (h : InInterval (box / B) i x) : 0 ≤ x ∧ x < box := by
  have hB' : (0 : Rat) < B := by exact_mod_cast hB
  have hw : 0 < box / B := div_pos hb hB'
  have hwB : B * (box / B) = box := mul_div_cancel₀ _ hB'.ne'
  have h1 : (i : Rat) + 1 ≤ B := by exact_mod_cast hi
  have h2 : (0 : Rat) ≤ i := by positivity
  exact ⟨(mul_nonneg h2 hw.le).trans h.1, h.2.trans_le (by calc (i + 1) * (box / B) ≤ B * (box / B) := mul_le_mul_of_nonneg_right h1 hw.le
    _ = box := hwB)⟩

/-- Particles are inside the box. -/
theorem gridded_in {b : Nat} (h0 : 0 < b) (hb : b ≤ 10) {box : Rat} (hbox : 0 < box) {val4 : List Byte → Rat} {cells : List (List Particle)} (hg : Gridded val4 box b cells) {c : Nat} (hc : c < 8 ^ b)
    {p : Particle} (hp : p ∈ cells.getD c []) : (0 ≤ val4 p.x ∧ val4 p.x < box) ∧ (0 ≤ val4 p.y ∧ val4 p.y < box) ∧ (0 ≤ val4 p.z ∧ val4 p.z < box) := by
  have hpow := Nat.two_pow_pos b
  obtain ⟨l1, l2, l3⟩ := phJ_lt c b phValid_start
  have hkey := phK_phJ c b phValid_start
  rw [Nat.mod_eq_of_lt hc] at hkey
  have hcast : (2 : Rat) ^ b = ((2 ^ b : Nat) : Rat) := by push_cast; rfl
  obtain ⟨i1, i2, i3⟩ := hg _ _ _ c l1 l2 l3 (by rw [phKeyScalar_small h0 (by omega), hkey]) p hp
  rw [hcast] at i1 i2 i3
  exact ⟨interval_in hpow hbox l1 i1, interval_in hpow hbox l2 i2, interval_in hpow hbox l3 i3⟩

theorem relative_ok {box c x : Rat} (hb : 0 < box) (hc : 0 ≤ c ∧ c < box) (hx : 0 ≤ x ∧ x < box) : Relative box c x (fofPeriodic box (x - c)) := by
  obtain ⟨h1, h2, h3⟩ := fofPeriodic_ok hb (x := x - c) (by linarith [hc.2, hx.1]) (by linarith [hc.1, hx.2])
  exact ⟨h3, h1, h2⟩

/-! ### The loops -/

variable {sys : Bool} {fs : ByteFS} {dir base : Name} {num : Nat} {Cs : Nat → Content} {n cells : Nat → Nat} {start : Nat → Nat → Nat} {nfile : Nat}

theorem file_get {c : Nat} (hc : c < pre cells nfile) : cGet (wholeTable n cells start nfile).filetable (c : Int) = .ok (fileAt n cells start nfile c) := by
  obtain ⟨f, j, hf, hj, e, -, h2⟩ := cell_split (Cs := fun _ _ => []) (n := n) (start := start) hc
  rw [h2, e]
  exact cGet_ok (whole_file_get hf hj)

/-- The particles of some cells -/
def partsOf (Cs : Nat → Content) (n cells : Nat → Nat) (start : Nat → Nat → Nat) (nfile : Nat) (vis : List Nat) : List Particle := vis.flatMap (cellAt Cs n cells start nfile)

theorem countLoop_ok (S : Snapshot Cs n cells start nfile) : ∀ (vis : List Nat) (done : Nat), (∀ c ∈ vis, c < pre cells nfile) → done + (partsOf Cs n cells start nfile vis).length < 2147483648 →
    (vis.map (fun c : Nat => (Except.ok (c : Int) : Except Err Int))).foldlM (fun (count : Int) key => do
      let key ← key
      let len ← cellLen (wholeTable n cells start nfile) key
      cInt (count + len)) (done : Int) = .ok ((done + (partsOf Cs n cells start nfile vis).length : Nat) : Int) := by
  intro vis
  induction vis with
  | nil => intro done _ _; rfl
  | cons c vis ih =>
    intro done hv hlt
    have hc := hv c (by simp)
    have e : partsOf Cs n cells start nfile (c :: vis) = cellAt Cs n cells start nfile c ++ partsOf Cs n cells start nfile vis := rfl
    rw [e, List.length_append] at hlt ⊢
    have hlen : cellLen (wholeTable n cells start nfile) (c : Int) = .ok ((cellAt Cs n cells start nfile c).length : Int) := by
      unfold cellLen
      rw [bindOk _ (file_get hc)]
      exact (cell_ok (sys := true) (fs := fun _ => none) (dir := []) (base := []) (num := 0) S hc).1
    rw [List.map_cons, List.foldlM_cons]
    have h1 : (do
        let key ← (Except.ok (c : Int) : Except Err Int)
        let len ← cellLen (wholeTable n cells start nfile) key
        cInt ((done : Int) + len)) = Except.ok ((done + (cellAt Cs n cells start nfile c).length : Nat) : Int) := by
      rw [bindOk _ rfl, bindOk _ hlen, cInt_ok (by omega) (by omega)]
      push_cast; rfl
    rw [bindOk _ h1, ih _ (fun d hd => hv d (by simp [hd])) (by omega), Nat.add_assoc]

theorem coords_append (a b : List Particle) : coords (a ++ b) = coords a ++ coords b := by unfold coords; rw [List.flatMap_append]

theorem sphereLoop_ok (S : Snapshot Cs n cells start nfile) (hs : SnapStored sys fs dir base num Cs n cells nfile) {val8 : List Byte → Rat} {box : Rat}
    (hbox : ∀ f < nfile, val8 ((Cs f "Header/BoxSize".toList).headD []) = box) {room : Nat} : ∀ (vis : List Nat) (done : List Particle), (∀ c ∈ vis, c < pre cells nfile) →
    3 * (done.length + (partsOf Cs n cells start nfile vis).length) < 2147483648 → 3 * (done.length + (partsOf Cs n cells start nfile vis).length) ≤ room →
    (vis.map (fun c : Nat => (Except.ok (c : Int) : Except Err Int))).foldlM (sphereStep sys fs dir base num val8 (wholeTable n cells start nfile) room) ⟨coords done, box⟩ =
      .ok ⟨coords (done ++ partsOf Cs n cells start nfile vis), box⟩ := by
  intro vis
  induction vis with
  | nil =>
    intro done _ _ _
    have e : partsOf Cs n cells start nfile [] = [] := rfl
    rw [e, List.append_nil]
    rfl
  | cons c vis ih =>
    intro done hv hlt hroom
    have hc := hv c (by simp)
    have e : partsOf Cs n cells start nfile (c :: vis) = cellAt Cs n cells start nfile c ++ partsOf Cs n cells start nfile vis := rfl
    rw [e, List.length_append] at hlt hroom
    obtain ⟨_, f, hf, he, h⟩ := cell_ok (sys := sys) (fs := fs) (dir := dir) (base := base) (num := num) S hc
    obtain ⟨hr, _⟩ := h (FileOk.of hs hf)
    have h1 : sphereStep sys fs dir base num val8 (wholeTable n cells start nfile) room ⟨coords done, box⟩ (.ok (c : Int)) = .ok ⟨coords (done ++ cellAt Cs n cells start nfile c), box⟩ := by
      unfold sphereStep
      rw [bindOk _ rfl]
      dsimp only
      rw [bindOk _ (cInt_ok (by omega) (by rw [length_coords]; omega)), bindOk _ (file_get hc), bindOk _ hr, if_neg (by rw [length_coords, length_coords]; omega), hbox f hf, coords_append]
    rw [e, List.map_cons, List.foldlM_cons, bindOk _ h1, ih _ (fun d hd => hv d (by simp [hd])) (by rw [List.length_append]; omega) (by rw [List.length_append]; omega), List.append_assoc]

theorem vectors_ok (val4 : List Byte → Rat) (R : List Particle) : (List.range ((coords R).length / 3)).mapM (vector ((coords R).map val4)) = .ok (R.map (vecOf val4)) := by
  rw [length_coords, Nat.mul_div_cancel_left _ (by decide)]
  have e : R.map (vecOf val4) = (List.range R.length).map (fun i => (R[i]?.map (vecOf val4)).getD (0, 0, 0)) := by
    apply List.ext_getElem?
    intro i
    by_cases hi : i < R.length
    · rw [List.getElem?_map, List.getElem?_map, List.getElem?_range hi]; simp [List.getElem?_eq_getElem hi]
    · rw [List.getElem?_eq_none (by simpa using hi), List.getElem?_eq_none (by simpa using hi)]
  rw [e]
  refine mapM_ok _ _ _ fun i hi => ?_
  have hi := List.mem_range.1 hi
  rw [vector_ok val4 hi, List.getElem?_eq_getElem hi]
  rfl

theorem firstBox_ok (S : HashedSnapshot Cs n cells start nfile) (hs : SnapStored sys fs dir base num Cs n cells nfile) {val8 : List Byte → Rat} {box : Rat}
    (hbox : ∀ f < nfile, val8 ((Cs f "Header/BoxSize".toList).headD []) = box) : firstBox sys fs dir base num val8 = .ok box := by
  obtain ⟨rest, h⟩ := open_snap hs S.nonempty
  unfold firstBox
  rw [bindOk _ h, bindOk _ (ioHeader_ok (S.file 0 S.nonempty) rest)]
  exact congrArg Except.ok (hbox 0 S.nonempty)

theorem flatMap_lt {α β : Type} {g : α → List β} {l m : List α} (h : l.Sublist m) (hl : l.length < m.length) (hg : ∀ a ∈ m, g a ≠ []) : (l.flatMap g).length < (m.flatMap g).length := by
  induction h with
  | slnil => simp at hl
  | cons a h ih =>
    rename_i l m
    rw [List.flatMap_cons, List.length_append]
    have := List.length_pos_iff.2 (hg a (by simp))
    rcases Nat.lt_or_ge l.length m.length with hlt | hge
    · have := ih hlt (fun a ha => hg a (by simp [ha]))
      omega
    · rw [h.eq_of_length_le hge]
      omega
  | cons_cons a h ih =>
    rw [List.flatMap_cons, List.flatMap_cons, List.length_append, List.length_append]
    have := ih (by simpa using hl) (fun a ha => hg a (by simp [ha]))
    omega

/-- If all cells are there and some are there more than once, there are more particles than in the snapshot. -/
theorem parts_more {vis : List Nat} {N : Nat} (hN : pre cells nfile = N) (hall : ∀ c < N, c ∈ vis) (hlen : N < vis.length) (hin : ∀ c ∈ vis, c < N)
    (hne : ∀ c < N, cellAt Cs n cells start nfile c ≠ []) : (allCells Cs n cells start nfile).flatten.length < (partsOf Cs n cells start nfile vis).length := by
  have hsub : (List.range N).Subperm vis := List.subperm_of_subset List.nodup_range (fun c hc => hall c (List.mem_range.1 hc))
  obtain ⟨l, hp, hl⟩ := hsub
  have h1 : (l.flatMap (cellAt Cs n cells start nfile)).length < (vis.flatMap (cellAt Cs n cells start nfile)).length :=
    flatMap_lt hl (by rw [hp.length_eq, List.length_range]; exact hlen) (fun c hc => hne c (hin c hc))
  have h2 := (hp.flatMap_right (cellAt Cs n cells start nfile)).length_eq
  have h3 : (List.range N).flatMap (cellAt Cs n cells start nfile) = (allCells Cs n cells start nfile).flatten := by
    rw [List.flatMap_def]
    congr 1
    apply List.ext_getElem?
    intro c
    have hl : (allCells Cs n cells start nfile).length = N := by rw [← hN]; exact length_allCells
    by_cases hc : c < N
    · rw [List.getElem?_map, List.getElem?_range hc]
      unfold cellAt
      rw [Option.map_some, List.getD_eq_getElem?_getD, List.getElem?_eq_getElem (by omega)]
      rfl
    · rw [List.getElem?_eq_none (by simpa using hc), List.getElem?_eq_none (by omega)]
  rw [← h3, ← h2]
  exact h1

end Verif.GroupLib
