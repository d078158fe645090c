import Verif.Proofs.SphericalRegion
import Verif.Props.GroupCoords

/-! C90: the C library for IDL finds the particles around a sphere. -/

namespace Verif

open CPeano ReadParticles ReadRegion GroupLib

variable {sys : Bool} {fs : ByteFS} {dir base : Name} {num : Nat} {Cs : Nat → Content} {n cells : Nat → Nat} {start : Nat → Nat → Nat} {nfile : Nat}
  {val4 val8 : List Byte → Rat} {box : Rat} {b : Nat} {s : Sphere} {pos : List Vec}

/-- C90: both functions take the particles of the cells `vis`, one after the other. All cells which have a particle in the sphere or in a periodic image of it are among them, and no cell is
there twice exactly if `2 * k + 1` cells, where `k` is one more than the number of whole cells in the radius, are not more than there are along a side of the box. -/
theorem C90_region (S : HashedSnapshot Cs n cells start nfile) (hs : SnapStored sys fs dir base num Cs n cells nfile) (h0 : 0 < b) (hb : b ≤ 10) (hc : pre cells nfile = 8 ^ b)
    (hbox : ∀ f < nfile, val8 ((Cs f "Header/BoxSize".toList).headD []) = box) (hpos : 0 < box) (hsph : s.Ok box)
    (hg : Gridded val4 box b (allCells Cs n cells start nfile)) {k : Int} (hk : k = ⌊s.rad / (box / 2 ^ b)⌋ + 1) (hle : k ≤ 2 ^ 30) :
    ∃ (vis : List Nat) (Q : List Particle), Q = vis.flatMap (fun c => (allCells Cs n cells start nfile).getD c []) ∧
      (∀ c, (∃ p ∈ (allCells Cs n cells start nfile).getD c [], InSphere box s (place val4 p)) → c ∈ vis) ∧ (vis.Nodup ↔ 2 * k + 1 ≤ 2 ^ b) ∧
      (Q.length < 2147483648 → getSphericalRegionCount sys fs dir base num val8 (wholeTable n cells start nfile) (8 ^ b : Nat) s = .ok (Q.length : Int)) ∧
      (3 * Q.length < 2147483648 → Q.length ≤ pos.length → ∃ ws,
        getSphericalRegionCoordinates sys fs dir base num val4 val8 (wholeTable n cells start nfile) (8 ^ b : Nat) s pos = .ok (ws ++ pos.drop Q.length) ∧
        List.Forall₂ (fun p w => RelativeVec box s (place val4 p) w) Q ws) := by
  have hpow := Nat.two_pow_pos b
  have hcast : (2 : Rat) ^ b = ((2 ^ b : Nat) : Rat) := by push_cast; rfl
  have hcastI : (2 : Int) ^ b = ((2 ^ b : Nat) : Int) := by push_cast; rfl
  have hB' : (0 : Rat) < (2 ^ b : Nat) := by exact_mod_cast hpow
  have hw : 0 < box / (2 ^ b : Nat) := div_pos hpos hB'
  rw [hcast] at hk
  have hk' : ⌊s.rad / (box / (2 ^ b : Nat))⌋ + 1 ≤ 2 ^ 30 := by rw [← hk]; exact hle
  have hk0 : 0 ≤ k := by
    have : 0 ≤ ⌊s.rad / (box / (2 ^ b : Nat))⌋ := Int.floor_nonneg.2 (div_nonneg hsph.rad hw.le)
    omega
  have hkeys := sphereKeys_ok h0 hb hpos hsph hk'
  have hnear := fun c hc' p hp hn => visited_near h0 hb hpos hsph hg (c := c) hc' (p := p) hp hn
  have hnodup := visited_nodup (b := b) (cx := ⌊s.x / (box / (2 ^ b : Nat))⌋) (cy := ⌊s.y / (box / (2 ^ b : Nat))⌋) (cz := ⌊s.z / (box / (2 ^ b : Nat))⌋) hk0
  rw [← hk] at hkeys
  rw [hk] at hnodup
  have hvis : ∀ c ∈ visited b ⌊s.x / (box / (2 ^ b : Nat))⌋ ⌊s.y / (box / (2 ^ b : Nat))⌋ ⌊s.z / (box / (2 ^ b : Nat))⌋ (⌊s.rad / (box / (2 ^ b : Nat))⌋ + 1), c < 8 ^ b := by
    intro c hm
    obtain ⟨i, _, rfl⟩ := List.mem_map.1 hm
    exact keyOf_lt b i
  rw [← hk] at hvis hnear hnodup
  generalize visited b ⌊s.x / (box / (2 ^ b : Nat))⌋ ⌊s.y / (box / (2 ^ b : Nat))⌋ ⌊s.z / (box / (2 ^ b : Nat))⌋ k = vis at *
  have hcells : (allCells Cs n cells start nfile).length = 8 ^ b := by
    rw [← hc]
    exact length_allCells
  refine ⟨vis, partsOf Cs n cells start nfile vis, rfl, ?_, by rw [hcastI]; exact hnodup, ?_, ?_⟩
  · rintro c ⟨p, hp, hn⟩
    refine hnear c ?_ p hp hn
    by_contra hge
    rw [List.getD_eq_getElem?_getD, List.getElem?_eq_none (by omega)] at hp
    simp at hp
  · intro hlt
    unfold getSphericalRegionCount
    rw [bindOk _ (firstBox_ok S hs hbox), bindOk _ hkeys]
    have := countLoop_ok S.toSnapshot vis 0 (by rw [hc]; exact hvis) (by omega)
    rw [Nat.zero_add] at this
    exact this
  · intro hlt hroom
    have hloop := sphereLoop_ok (room := 3 * pos.length) S.toSnapshot hs hbox vis [] (by rw [hc]; exact hvis) (by rw [List.length_nil]; omega) (by rw [List.length_nil]; omega)
    rw [List.nil_append] at hloop
    generalize hQ : partsOf Cs n cells start nfile vis = Q at *
    refine ⟨Q.map (fun p => Vec.map2 (fun a c => fofPeriodic box (a - c)) (vecOf val4 p) (s.x, s.y, s.z)), ?_, ?_⟩
    · unfold getSphericalRegionCoordinates
      rw [bindOk _ (firstBox_ok S hs hbox), bindOk _ hkeys]
      change ((vis.map _).foldlM _ (⟨coords [], box⟩ : SphereState) >>= _) = _
      rw [bindOk _ hloop]
      dsimp only
      rw [bindOk _ (cInt_ok (by omega) (by rw [length_coords]; omega)), bindOk _ (vectors_ok val4 Q)]
      refine congrArg Except.ok ?_
      unfold overlay
      rw [List.map_map, List.length_map, List.take_zero, List.nil_append, Nat.zero_add]
      rfl
    · rw [List.forall₂_map_right_iff, List.forall₂_same]
      intro p hp
      rw [← hQ] at hp
      obtain ⟨c, hcv, hpc⟩ := List.mem_flatMap.1 hp
      obtain ⟨hx, hy, hz⟩ := gridded_in h0 hb hpos hg (hvis c hcv) hpc
      exact ⟨relative_ok hpos hsph.x hx, relative_ok hpos hsph.y hy, relative_ok hpos hsph.z hz⟩

/-- C90: if `2 * k + 1` is larger than the number of cells along a side of the box, for instance because there are only two, and no cell is empty, more particles are counted than there are in
the snapshot. -/
theorem C90_duplicates_defect (S : HashedSnapshot Cs n cells start nfile) (hs : SnapStored sys fs dir base num Cs n cells nfile) (h0 : 0 < b) (hb : b ≤ 10) (hc : pre cells nfile = 8 ^ b)
    (hbox : ∀ f < nfile, val8 ((Cs f "Header/BoxSize".toList).headD []) = box) (hpos : 0 < box) (hsph : s.Ok box) {k : Int} (hk : k = ⌊s.rad / (box / 2 ^ b)⌋ + 1) (hle : k ≤ 2 ^ 30)
    (hmany : 2 ^ b < 2 * k + 1) (hne : ∀ ps ∈ allCells Cs n cells start nfile, ps ≠ []) :
    ∃ q : Nat, (allCells Cs n cells start nfile).flatten.length < q ∧
      (q < 2147483648 → getSphericalRegionCount sys fs dir base num val8 (wholeTable n cells start nfile) (8 ^ b : Nat) s = .ok (q : Int)) := by
  have hcast : (2 : Rat) ^ b = ((2 ^ b : Nat) : Rat) := by push_cast; rfl
  have hcastI : (2 : Int) ^ b = ((2 ^ b : Nat) : Int) := by push_cast; rfl
  rw [hcastI] at hmany
  rw [hcast] at hk
  have hkeys := sphereKeys_ok h0 hb hpos hsph (by rw [← hk]; exact hle)
  rw [← hk] at hkeys
  have hk0 : 0 ≤ k := by
    have := Nat.two_pow_pos b
    omega
  have hall := fun c hc => visited_all (b := b) (cx := ⌊s.x / (box / (2 ^ b : Nat))⌋) (cy := ⌊s.y / (box / (2 ^ b : Nat))⌋) (cz := ⌊s.z / (box / (2 ^ b : Nat))⌋) (k := k) hmany.le (c := c) hc
  have hlen := length_visited (b := b) (cx := ⌊s.x / (box / (2 ^ b : Nat))⌋) (cy := ⌊s.y / (box / (2 ^ b : Nat))⌋) (cz := ⌊s.z / (box / (2 ^ b : Nat))⌋) hk0
  have hvis : ∀ c ∈ visited b ⌊s.x / (box / (2 ^ b : Nat))⌋ ⌊s.y / (box / (2 ^ b : Nat))⌋ ⌊s.z / (box / (2 ^ b : Nat))⌋ k, c < 8 ^ b := by
    intro c hm
    obtain ⟨i, _, rfl⟩ := List.mem_map.1 hm
    exact keyOf_lt b i
  have hlong : 8 ^ b < (2 * k.toNat + 1) ^ 3 := by
    have h1 : 2 ^ b < 2 * k.toNat + 1 := by omega
    have h2 := Nat.pow_lt_pow_left h1 (show 3 ≠ 0 by decide)
    rwa [← Nat.pow_mul, Nat.mul_comm, Nat.pow_mul] at h2
  generalize visited b ⌊s.x / (box / (2 ^ b : Nat))⌋ ⌊s.y / (box / (2 ^ b : Nat))⌋ ⌊s.z / (box / (2 ^ b : Nat))⌋ k = vis at *
  refine ⟨(partsOf Cs n cells start nfile vis).length, parts_more hc hall (by rw [hlen]; exact hlong) hvis ?_, ?_⟩
  · intro c hcN
    have hcells : (allCells Cs n cells start nfile).length = 8 ^ b := by rw [← hc]; exact length_allCells
    unfold cellAt
    rw [List.getD_eq_getElem?_getD, List.getElem?_eq_getElem (by omega)]
    exact hne _ (List.getElem_mem _)
  · intro hlt
    unfold getSphericalRegionCount
    rw [bindOk _ (firstBox_ok S hs hbox), bindOk _ hkeys]
    have := countLoop_ok S.toSnapshot vis 0 (by rw [hc]; exact hvis) (by omega)
    rw [Nat.zero_add] at this
    exact this

namespace ExSphere

/-- One file with 64 cells in a box of the size 100. Cells 0, 25 and 44, which are those with the indexes (0, 0, 0), (3, 0, 0) and (2, 2, 2), have a particle each. -/
def contents (_ : Nat) : Content := fun name =>
  if name = "PartType1/Coordinates".toList then [10, 10, 10, 99, 10, 10, 60, 60, 60].map (leBytes 4)
  else if name = "Header/BoxSize".toList then [leBytes 8 100]
  else if name = "Header/NumFilesPerSnapshot".toList then [leBytes 4 1]
  else if name = "Header/HashTabSize".toList then [leBytes 4 64]
  else if name = "first_hash_cell".toList then [leBytes 4 0]
  else if name = "last_hash_cell".toList then [leBytes 4 63]
  else if name = "blockid".toList then [leBytes 4 0] ++ List.replicate 25 (leBytes 4 1) ++ List.replicate 19 (leBytes 4 2) ++ List.replicate 19 (leBytes 4 3)
  else ExReadRegion.contents 0 name

def starts (_ j : Nat) : Nat := if j = 0 then 0 else if j ≤ 25 then 1 else if j ≤ 44 then 2 else 3

theorem snapshot : HashedSnapshot contents (fun _ => 3) (fun _ => 64) starts 1 where
  file := by
    intro f hf
    obtain rfl : f = 0 := by omega
    refine ⟨⟨?_, ?_⟩, ?_⟩
    · have : ∀ sec ∈ Files.lgadget2Snapshot 3 64, ∀ r ∈ sec.rows, (contents 0 r.name).length = r.shape.prod ∧ ∀ v ∈ contents 0 r.name, v.length = r.width := by decide +kernel
      exact this
    · decide +kernel
    · decide +kernel
  size := by decide +kernel
  first := by decide +kernel
  last := by decide +kernel
  total := by decide +kernel
  table := by decide +kernel
  order := by
    intro f hf j hj
    have h : ∀ j < 63, starts 0 j ≤ starts 0 (j + 1) := by decide +kernel
    have hj : j + 1 < 64 := hj
    exact h j (by omega)
  bound := by decide +kernel
  nonempty := by decide
  numFiles := by decide +kernel
  hashTabSize := by decide +kernel

def inside (i j k c : Nat) : Bool :=
  match phKeyScalar i j k 2 with
  | .error _ => true
  | .ok v => decide (v ≠ c) || ((allCells contents (fun _ => 3) (fun _ => 64) starts 1).getD c []).all fun p =>
      decide (25 * i ≤ leNat p.x) && decide (leNat p.x < 25 * (i + 1)) && decide (25 * j ≤ leNat p.y) && decide (leNat p.y < 25 * (j + 1)) && decide (25 * k ≤ leNat p.z) && decide (leNat p.z < 25 * (k + 1))

theorem gridded : Gridded (fun v => (leNat v : Rat)) 100 2 (allCells contents (fun _ => 3) (fun _ => 64) starts 1) := by
  have h : ∀ i < 4, ∀ j < 4, ∀ k < 4, ∀ c < 64, inside i j k c = true := by decide +kernel
  intro i j k c hi hj hk hc p hp
  have hlt : c < 64 := by
    by_contra hge
    have : (allCells contents (fun _ => 3) (fun _ => 64) starts 1).length = 64 := by decide +kernel
    rw [List.getD_eq_getElem?_getD, List.getElem?_eq_none (by omega)] at hp
    simp at hp
  have h1 := h i hi j hj k hk c hlt
  unfold inside at h1
  rw [hc] at h1
  simp only [ne_eq, not_true_eq_false, decide_false, Bool.false_or, List.all_eq_true, Bool.and_eq_true, decide_eq_true_eq] at h1
  obtain ⟨⟨⟨⟨⟨a, b⟩, c⟩, d⟩, e⟩, f⟩ := h1 p hp
  have w : ∀ m v : Nat, 25 * m ≤ v → v < 25 * (m + 1) → InInterval (100 / 2 ^ 2) m (v : Rat) := by
    intro m v h1 h2
    have h1' : (25 : Rat) * m ≤ v := by exact_mod_cast h1
    have h2' : (v : Rat) < 25 * (m + 1) := by exact_mod_cast h2
    constructor <;> norm_num <;> linarith
  exact ⟨w _ _ a b, w _ _ c d, w _ _ e f⟩

def store (name : Name) : Option (List Byte) := if name = "d/snap_063.0".toList then some (snapshotBytes (contents 0) 3 64 false []) else none

def table : HashTab := wholeTable (fun _ => 3) (fun _ => 64) starts 1

def value (v : List Byte) : Rat := leNat v

/-- Around a point near the side of the box two particles are found, of which one is on the other side. -/
example : getSphericalRegionCount true store "d".toList "snap".toList 63 value table 64 ⟨1, 10, 10, 5⟩ = .ok 2 ∧
    getSphericalRegionCoordinates true store "d".toList "snap".toList 63 value value table 64 ⟨1, 10, 10, 5⟩ [(0, 0, 0), (0, 0, 0), (7, 7, 7)] = .ok [(-2, 0, 0), (9, 0, 0), (7, 7, 7)] := by
  decide +kernel

example : (⟨1, 10, 10, 5⟩ : Sphere).Ok 100 := ⟨by norm_num, by norm_num, by norm_num, by norm_num⟩

example : InSphere 100 ⟨1, 10, 10, 5⟩ (99, 10, 10) := ⟨-1, 0, 0, by norm_num⟩

/-- With a radius of 30 there are five cells along a side, of which one is taken twice, so that three particles become thirteen. -/
example : getSphericalRegionCount true store "d".toList "snap".toList 63 value table 64 ⟨60, 60, 60, 30⟩ = .ok 13 := by decide +kernel

/-- Eight cells with one particle in each -/
def small (_ : Nat) : Content := fun name =>
  if name = "Header/NumPart_ThisFile".toList then [0, 8, 0, 0, 0, 0].map (leBytes 4)
  else if name = "PartType1/Coordinates".toList ∨ name = "PartType1/Velocities".toList then List.replicate 24 (leBytes 4 1)
  else if name = "PartType1/ParticleIDs".toList then (List.range 8).map (leBytes 8)
  else if name = "Header/HashTabSize".toList then [leBytes 4 8]
  else if name = "last_hash_cell".toList then [leBytes 4 7]
  else if name = "blockid".toList then (List.range 8).map (leBytes 4)
  else contents 0 name

theorem small_snapshot : HashedSnapshot small (fun _ => 8) (fun _ => 8) (fun _ j => j) 1 where
  file := by
    intro f hf
    obtain rfl : f = 0 := by omega
    refine ⟨⟨?_, ?_⟩, ?_⟩
    · have : ∀ sec ∈ Files.lgadget2Snapshot 8 8, ∀ r ∈ sec.rows, (small 0 r.name).length = r.shape.prod ∧ ∀ v ∈ small 0 r.name, v.length = r.width := by decide +kernel
      exact this
    · decide +kernel
    · decide +kernel
  size := by decide +kernel
  first := by decide +kernel
  last := by decide +kernel
  total := by decide +kernel
  table := by decide +kernel
  order := by intro f hf j hj; show j ≤ j + 1; omega
  bound := by decide +kernel
  nonempty := by decide
  numFiles := by decide +kernel
  hashTabSize := by decide +kernel

/-- Eight particles become 27 even for the radius 0. -/
example : (∀ ps ∈ allCells small (fun _ => 8) (fun _ => 8) (fun _ j => j) 1, ps ≠ []) ∧ (allCells small (fun _ => 8) (fun _ => 8) (fun _ j => j) 1).flatten.length = 8 ∧
    getSphericalRegionCount true (fun name => if name = "d/snap_063.0".toList then some (snapshotBytes (small 0) 8 8 false []) else none) "d".toList "snap".toList 63 value
      (wholeTable (fun _ => 8) (fun _ => 8) (fun _ j => j) 1) 8 ⟨60, 60, 60, 0⟩ = .ok 27 := by decide +kernel

end ExSphere

end Verif
