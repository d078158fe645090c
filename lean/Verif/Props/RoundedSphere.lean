import Verif.Model.RoundedSphere
import Verif.Props.ReduceOrder
import Verif.Props.SphericalRegion

/-! C143: the C library for IDL finds the particles around a sphere with rounded operations. -/

namespace Verif.FloatBits

open GroupLib ReadParticles ReadRegion CPeano

theorem IsFloat.mono {p q : ℕ} (h : p ≤ q) {x : ℚ} (hx : IsFloat p x) : IsFloat q x := by
  obtain ⟨m, e, h1, h2⟩ := hx
  exact ⟨m, e, h1.trans (pow_le_pow_right₀ (by norm_num) h), h2⟩

/-- The number of cells on either side (836, 944) -/
theorem sphere_cells {fl : ℚ → ℚ} (hf : NearestTo 53 fl) {f b : ℕ} (hfb : f ≤ 18) {box r : ℚ} (hbox : 0 < box) (hbits : IsFloat f box) (hr : IsFloat 24 r) (h0 : 0 ≤ r)
    (hk : ⌊r / (box / 2 ^ b)⌋ + 1 ≤ 2 ^ 30) : 0 ≤ fl (fl (r / (box / 2 ^ b)) + 1) ∧ ⌊fl (fl (r / (box / 2 ^ b)) + 1)⌋ = ⌊r / (box / 2 ^ b)⌋ + 1 := by
  have hc : 0 < box / 2 ^ b := by positivity
  have hcf := hbits.div b
  set c := box / 2 ^ b
  have hq : 0 ≤ r / c := div_nonneg h0 hc.le
  have hlt := Int.lt_floor_add_one (r / c)
  have hle := Int.floor_le (r / c)
  have hk0 : 0 ≤ ⌊r / c⌋ := Int.floor_nonneg.2 hq
  set k := ⌊r / c⌋
  have hkq : (0 : ℚ) ≤ k := by exact_mod_cast hk0
  have hrc : r < (k + 1) * c := by rwa [div_lt_iff₀ hc] at hlt
  have hK : IsFloat 48 (((k + 1 : ℤ) : ℚ) * c) := IsFloat.mul_int (by omega) hcf (by
    rw [abs_of_nonneg (by omega)]
    exact hk.trans (pow_le_pow_right₀ (by norm_num) (by omega)))
  push_cast at hK
  have h1 := (hr.mono (by norm_num : 24 ≤ 48)).gap (by norm_num) hK h0 hrc
  have h2 : r / c ≤ (k + 1) * (1 - 1 / 2 ^ 48) := by
    rw [div_le_iff₀ hc]
    linarith
  have h3 := (abs_le.1 (hf.error_le (r / c))).2
  rw [abs_of_nonneg hq] at h3
  have h4 : (k : ℚ) ≤ fl (r / c) := hf.ge (isFloat_int (by rw [abs_of_nonneg hk0]; norm_num at hk ⊢; omega)) hle
  have h5 : ((k : ℚ) + 1) ≤ fl (fl (r / c) + 1) := by
    have := hf.ge (isFloat_int (k := k + 1) (by rw [abs_of_nonneg (by omega)]; norm_num at hk ⊢; omega)) (x := fl (r / c) + 1) (by push_cast; linarith)
    push_cast at this
    exact this
  have h6 := (abs_le.1 (hf.error_le (fl (r / c) + 1))).2
  rw [abs_of_nonneg (by linarith : (0 : ℚ) ≤ fl (r / c) + 1)] at h6
  refine ⟨by linarith, ?_⟩
  rw [Int.floor_eq_iff]
  push_cast
  refine ⟨h5, ?_⟩
  norm_num at h2 h3 h6 ⊢
  linarith

/-- Rounding does not change the cells: the position and the radius of the sphere are single precision numbers, and the size of the box has at most 18 bits (7 for 500). -/
theorem C143_cells {fl : ℚ → ℚ} (hf : NearestTo 53 fl) {f b : ℕ} (hfb : f ≤ 18) (h0 : 0 < b) (hb : b ≤ 10) {box : ℚ} (hbox : 0 < box) (hbits : IsFloat f box) {s : Sphere} (hs : s.Ok box)
    (h24 : IsFloat 24 s.x ∧ IsFloat 24 s.y ∧ IsFloat 24 s.z ∧ IsFloat 24 s.rad) (hk : ⌊s.rad / (box / 2 ^ b)⌋ + 1 ≤ 2 ^ 30) :
    sphereKeys fl (8 ^ b : Nat) box s = GroupLib.sphereKeys (8 ^ b : Nat) box s := by
  have hp := Nat.two_pow_pos b
  have hlt : 2 ^ b ≤ 2 ^ 10 := Nat.pow_le_pow_right (by omega) hb
  have hw : 0 < box / 2 ^ b := by positivity
  have hcast : (((2 ^ b : Nat) : Int) : ℚ) = 2 ^ b := by push_cast; rfl
  have hcs : fl (box / 2 ^ b) = box / 2 ^ b := hf.self ((hbits.mono (by omega)).div b)
  obtain ⟨r1, r2⟩ := sphere_cells hf hfb hbox hbits h24.2.2.2 hs.rad hk
  have r3 : 0 ≤ s.rad / (box / 2 ^ b) := div_nonneg hs.rad hw.le
  have r4 : ⌊s.rad / (box / 2 ^ b) + 1⌋ = ⌊s.rad / (box / 2 ^ b)⌋ + 1 := by
    rw [show (1 : Rat) = ((1 : Int) : Rat) by norm_num, Int.floor_add_intCast]
  have side : ∀ x, 0 ≤ x ∧ x < box → IsFloat 24 x → truncInt (fl (x / (box / 2 ^ b))) = truncInt (x / (box / 2 ^ b)) := by
    intro x hx hx24
    have hpq : (2 : ℚ) ^ b ≤ 2 ^ 10 := by exact_mod_cast hlt
    have e1 : ⌊fl (x / (box / 2 ^ b))⌋ = ⌊x / (box / 2 ^ b)⌋ := by
      refine region_cell hf (by norm_num) (by omega : f ≤ 53) hbox hbits (hx24.mono (by norm_num)) ?_
      rw [abs_of_nonneg hx.1]
      have h35 : (2 : ℚ) ^ 35 ≤ 2 ^ (53 - f) := pow_le_pow_right₀ (by norm_num) (by omega)
      have : box ≤ (2 ^ (53 - f) - 1) * (box / 2 ^ b) := by
        have e : box = 2 ^ b * (box / 2 ^ b) := by field_simp
        calc box = 2 ^ b * (box / 2 ^ b) := e
          _ ≤ _ := mul_le_mul_of_nonneg_right (by norm_num at hpq h35 ⊢; linarith) hw.le
      linarith [hx.2]
    have e2 : 0 ≤ x / (box / 2 ^ b) := div_nonneg hx.1 hw.le
    have e3 : 0 ≤ fl (x / (box / 2 ^ b)) := hf.ge (isFloat_zero _) e2
    have e4 : ⌊x / (box / 2 ^ b)⌋ < 2147483648 := by
      rw [Int.floor_lt, div_lt_iff₀ hw]
      have e : box = 2 ^ b * (box / 2 ^ b) := by field_simp
      calc x < box := hx.2
        _ = 2 ^ b * (box / 2 ^ b) := e
        _ ≤ _ := mul_le_mul_of_nonneg_right (by norm_num at hpq ⊢; linarith) hw.le
    rw [truncInt_ok e2 e4, truncInt_ok e3 (by rw [e1]; exact e4), e1]
  unfold sphereKeys GroupLib.sphereKeys
  rw [bindOk _ (baseLoop_ok hb), bindOk _ (bitsLoop_ok h0 hb), bindOk _ (baseLoop_ok hb), bindOk _ (bitsLoop_ok h0 hb)]
  dsimp only
  rw [hcast, hcs, side _ hs.x h24.1, side _ hs.y h24.2.1, side _ hs.z h24.2.2.1,
    truncInt_ok r1 (by rw [r2]; omega), r2, truncInt_ok (by linarith : 0 ≤ s.rad / (box / 2 ^ b) + 1) (by rw [r4]; omega), r4]

/-- `y` is up to rounding `x` relative to `c` in a periodic box: an error of less than one part in 2^23 of the box. -/
def NearRelative (box c x y : ℚ) : Prop := (∃ k : Int, |y - (x - c + k * box)| ≤ box / 2 ^ 23) ∧ -(box / 2) ≤ y ∧ y ≤ box / 2

theorem relative_near {fl4 fl : ℚ → ℚ} (h4 : NearestTo 24 fl4) (hf : NearestTo 53 fl) {box c x : ℚ} (hb : 0 < box) (hbits : IsFloat 24 box) (hc : 0 ≤ c ∧ c < box) (hx : 0 ≤ x ∧ x < box) :
    NearRelative box c x (relative fl4 fl box x c) := by
  have hd : |x - c| ≤ box := by rw [abs_le]; constructor <;> linarith [hc.1, hc.2, hx.1, hx.2]
  have hhalf : IsFloat 24 (box / 2) := by simpa using hbits.div 1
  have h53 : IsFloat 53 (box / 2) := hhalf.mono (by norm_num)
  have small : ∀ z, |z| ≤ box / 2 → |fl4 z - z| ≤ 1 / 2 ^ 24 * (box / 2) ∧ |fl z - z| ≤ 1 / 2 ^ 53 * (box / 2) :=
    fun z hz => ⟨(h4.error_le z).trans (mul_le_mul_of_nonneg_left hz (by positivity)), (hf.error_le z).trans (mul_le_mul_of_nonneg_left hz (by positivity))⟩
  have e1 := (h4.error_le (x - c)).trans (mul_le_mul_of_nonneg_left hd (by positivity))
  have y1 : fl4 (x - c) ≤ box := h4.le hbits (abs_le.1 hd).2
  have y2 : -box ≤ fl4 (x - c) := h4.ge hbits.neg (abs_le.1 hd).1
  unfold relative fofPeriodic
  generalize fl4 (x - c) = y at *
  rw [abs_le] at e1
  dsimp only
  by_cases h1 : y ≥ box / 2
  · rw [if_pos h1]
    have a1 : -(box / 2) ≤ fl (y - box) := hf.ge h53.neg (by linarith)
    have a2 : fl (y - box) ≤ 0 := hf.le (isFloat_zero _) (by linarith)
    rw [if_neg (by linarith)]
    have s1 := (small (y - box) (by rw [abs_le]; constructor <;> linarith)).2
    have s2 := (small (fl (y - box)) (by rw [abs_le]; constructor <;> linarith)).1
    rw [abs_le] at s1 s2
    refine ⟨⟨-1, ?_⟩, h4.ge hhalf.neg a1, h4.le hhalf (by linarith)⟩
    rw [abs_le]
    norm_num at *
    constructor <;> linarith
  · rw [if_neg h1]
    by_cases h2 : y < -(box / 2)
    · rw [if_pos h2]
      have a1 : 0 ≤ fl (y + box) := hf.ge (isFloat_zero _) (by linarith)
      have a2 : fl (y + box) ≤ box / 2 := hf.le h53 (by linarith)
      have s1 := (small (y + box) (by rw [abs_le]; constructor <;> linarith)).2
      have s2 := (small (fl (y + box)) (by rw [abs_le]; constructor <;> linarith)).1
      rw [abs_le] at s1 s2
      refine ⟨⟨1, ?_⟩, h4.ge hhalf.neg (by linarith), h4.le hhalf a2⟩
      rw [abs_le]
      norm_num at *
      constructor <;> linarith
    · rw [if_neg h2]
      have s2 := (small y (by rw [abs_le]; constructor <;> linarith)).1
      rw [abs_le] at s2
      refine ⟨⟨0, ?_⟩, h4.ge hhalf.neg (by linarith), h4.le hhalf (by linarith)⟩
      rw [abs_le]
      norm_num at *
      constructor <;> linarith

variable {sys : Bool} {fs : ByteFS} {dir base : Name} {num : Nat} {Cs : Nat → Content} {n cells : Nat → Nat} {start : Nat → Nat → Nat} {nfile : Nat}
  {val4 val8 : List Byte → Rat} {box : Rat} {b : Nat} {s : Sphere} {pos : List Vec}

/-- C143: C90 with rounded operations. The cells are those of exact arithmetic. Positions relative to the centre of the sphere have an error of at most one part in 2^23 of the size of the box. -/
theorem C143_region {fl4 fl : ℚ → ℚ} (h4 : NearestTo 24 fl4) (hf : NearestTo 53 fl) {f : ℕ} (hfb : f ≤ 18) (hbits : IsFloat f box)
    (h24 : IsFloat 24 s.x ∧ IsFloat 24 s.y ∧ IsFloat 24 s.z ∧ IsFloat 24 s.rad)
    (S : HashedSnapshot Cs n cells start nfile) (hs : SnapStored sys fs dir base num Cs n cells nfile) (h0 : 0 < b) (hb : b ≤ 10) (hc : pre cells nfile = 8 ^ b)
    (hbox : ∀ f < nfile, val8 ((Cs f "Header/BoxSize".toList).headD []) = box) (hpos : 0 < box) (hsph : s.Ok box)
    (hg : Gridded val4 box b (allCells Cs n cells start nfile)) {k : Int} (hk : k = ⌊s.rad / (box / 2 ^ b)⌋ + 1) (hle : k ≤ 2 ^ 30) :
    ∃ (vis : List Nat) (Q : List Particle), Q = vis.flatMap (fun c => (allCells Cs n cells start nfile).getD c []) ∧
      (∀ c, (∃ p ∈ (allCells Cs n cells start nfile).getD c [], InSphere box s (place val4 p)) → c ∈ vis) ∧ (vis.Nodup ↔ 2 * k + 1 ≤ 2 ^ b) ∧
      (Q.length < 2147483648 → getSphericalRegionCount fl sys fs dir base num val8 (wholeTable n cells start nfile) (8 ^ b : Nat) s = .ok (Q.length : Int)) ∧
      (3 * Q.length < 2147483648 → Q.length ≤ pos.length → ∃ ws,
        getSphericalRegionCoordinates fl4 fl sys fs dir base num val4 val8 (wholeTable n cells start nfile) (8 ^ b : Nat) s pos = .ok (ws ++ pos.drop Q.length) ∧
        List.Forall₂ (fun p w => NearRelative box s.x (place val4 p).1 w.1 ∧ NearRelative box s.y (place val4 p).2.1 w.2.1 ∧ NearRelative box s.z (place val4 p).2.2 w.2.2) Q ws) := by
  have hkeys' := C143_cells hf hfb h0 hb hpos hbits hsph h24 (by rw [← hk]; exact hle)
  have hpow := Nat.two_pow_pos b
  have hcast : (2 : Rat) ^ b = ((2 ^ b : Nat) : Rat) := by push_cast; rfl
  have hcastI : (2 : Int) ^ b = ((2 ^ b : Nat) : Int) := by push_cast; rfl
  have hB' : (0 : Rat) < (2 ^ b : Nat) := by exact_mod_cast hpow
  have hw : 0 < box / (2 ^ b : Nat) := div_pos hpos hB'
  rw [hcast] at hk
  have hk' : ⌊s.rad / (box / (2 ^ b : Nat))⌋ + 1 ≤ 2 ^ 30 := by rw [← hk]; exact hle
  have hk0 : 0 ≤ k := by
    have : 0 ≤ ⌊s.rad / (box / (2 ^ b : Nat))⌋ := Int.floor_nonneg.2 (div_nonneg hsph.rad hw.le)
    omega
  have hkeys := hkeys'.trans (sphereKeys_ok h0 hb hpos hsph hk')
  have hnear := fun c hc' p hp hn => visited_near h0 hb hpos hsph hg (c := c) hc' (p := p) hp hn
  have hnodup := visited_nodup (b := b) (cx := ⌊s.x / (box / (2 ^ b : Nat))⌋) (cy := ⌊s.y / (box / (2 ^ b : Nat))⌋) (cz := ⌊s.z / (box / (2 ^ b : Nat))⌋) hk0
  rw [← hk] at hkeys
  rw [hk] at hnodup
  have hvis : ∀ c ∈ visited b ⌊s.x / (box / (2 ^ b : Nat))⌋ ⌊s.y / (box / (2 ^ b : Nat))⌋ ⌊s.z / (box / (2 ^ b : Nat))⌋ (⌊s.rad / (box / (2 ^ b : Nat))⌋ + 1), c < 8 ^ b := by
    intro c hm
    obtain ⟨i, _, rfl⟩ := List.mem_map.1 hm
    exact keyOf_lt b i
  rw [← hk] at hvis hnear hnodup
  clear hkeys'
  generalize visited b ⌊s.x / (box / (2 ^ b : Nat))⌋ ⌊s.y / (box / (2 ^ b : Nat))⌋ ⌊s.z / (box / (2 ^ b : Nat))⌋ k = vis at *
  have hcells : (allCells Cs n cells start nfile).length = 8 ^ b := by
    rw [← hc]
    exact length_allCells
  refine ⟨vis, partsOf Cs n cells start nfile vis, rfl, ?_, by rw [hcastI]; exact hnodup, ?_, ?_⟩
  · rintro c ⟨p, hp, hn⟩
    refine hnear c ?_ p hp hn
    by_contra hge
    rw [List.getD_eq_getElem?_getD, List.getElem?_eq_none (by omega)] at hp
    simp at hp
  · intro hlt
    unfold getSphericalRegionCount
    rw [bindOk _ (firstBox_ok S hs hbox), bindOk _ hkeys]
    have := countLoop_ok S.toSnapshot vis 0 (by rw [hc]; exact hvis) (by omega)
    rw [Nat.zero_add] at this
    exact this
  · intro hlt hroom
    have hloop := sphereLoop_ok (room := 3 * pos.length) S.toSnapshot hs hbox vis [] (by rw [hc]; exact hvis) (by rw [List.length_nil]; omega) (by rw [List.length_nil]; omega)
    rw [List.nil_append] at hloop
    generalize hQ : partsOf Cs n cells start nfile vis = Q at *
    refine ⟨Q.map (fun p => Vec.map2 (relative fl4 fl box) (vecOf val4 p) (s.x, s.y, s.z)), ?_, ?_⟩
    · unfold getSphericalRegionCoordinates
      rw [bindOk _ (firstBox_ok S hs hbox), bindOk _ hkeys]
      change ((vis.map _).foldlM _ (⟨coords [], box⟩ : SphereState) >>= _) = _
      rw [bindOk _ hloop]
      dsimp only
      rw [bindOk _ (cInt_ok (by omega) (by rw [length_coords]; omega)), bindOk _ (vectors_ok val4 Q)]
      refine congrArg Except.ok ?_
      unfold overlay
      rw [List.map_map, List.length_map, List.take_zero, List.nil_append, Nat.zero_add]
      rfl
    · rw [List.forall₂_map_right_iff, List.forall₂_same]
      intro p hp
      rw [← hQ] at hp
      obtain ⟨c, hcv, hpc⟩ := List.mem_flatMap.1 hp
      obtain ⟨hx, hy, hz⟩ := gridded_in h0 hb hpos hg (hvis c hcv) hpc
      have hbox24 := hbits.mono (by omega : f ≤ 24)
      exact ⟨relative_near h4 hf hpos hbox24 hsph.x hx, relative_near h4 hf hpos hbox24 hsph.y hy, relative_near h4 hf hpos hbox24 hsph.z hz⟩

namespace ExRoundedSphere

/-- The snapshot of C90 with a box of 5 bits (100 = 25 * 4) and a sphere whose numbers have few bits -/
example : IsFloat 5 (100 : ℚ) ∧ IsFloat 24 (1 : ℚ) ∧ IsFloat 24 (10 : ℚ) ∧ IsFloat 24 (5 : ℚ) :=
  ⟨⟨25, 2, by norm_num, by norm_num⟩, ⟨1, 0, by norm_num, by norm_num⟩, ⟨10, 0, by norm_num, by norm_num⟩, ⟨5, 0, by norm_num, by norm_num⟩⟩

/-- Around a point near the side of the box two particles are found, of which one is on the other side. -/
example : getSphericalRegionCount id true ExSphere.store "d".toList "snap".toList 63 ExSphere.value ExSphere.table 64 ⟨1, 10, 10, 5⟩ = .ok 2 ∧
    getSphericalRegionCoordinates id id true ExSphere.store "d".toList "snap".toList 63 ExSphere.value ExSphere.value ExSphere.table 64 ⟨1, 10, 10, 5⟩ [(0, 0, 0), (0, 0, 0), (7, 7, 7)] =
      .ok [(-2, 0, 0), (9, 0, 0), (7, 7, 7)] := by
  decide +kernel

/-- The theorem for the cells applied to that sphere, with any rounding to a nearest number -/
example {fl : ℚ → ℚ} (hf : NearestTo 53 fl) : sphereKeys fl 64 100 ⟨1, 10, 10, 5⟩ = GroupLib.sphereKeys 64 100 ⟨1, 10, 10, 5⟩ :=
  C143_cells (f := 5) (b := 2) hf (by norm_num) (by norm_num) (by norm_num) (by norm_num) ⟨25, 2, by norm_num, by norm_num⟩ ⟨by norm_num, by norm_num, by norm_num, by norm_num⟩
    ⟨⟨1, 0, by norm_num, by norm_num⟩, ⟨10, 0, by norm_num, by norm_num⟩, ⟨10, 0, by norm_num, by norm_num⟩, ⟨5, 0, by norm_num, by norm_num⟩⟩ (by norm_num)

end ExRoundedSphere

end Verif.FloatBits
