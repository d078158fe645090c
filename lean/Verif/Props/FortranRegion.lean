import Verif.Proofs.FortranRegion

/-! C109: the particles of a box; C110: tables of halos and subhalos, and of the particles of one file. -/

namespace Verif.FortranPrograms

open CPeano ReadRegion FortranReaders ReadParticles

variable {Cs : Nat → Content} {n cells : Nat → Nat} {start : Nat → Nat → Nat} {nfile : Nat}
variable {fs : ByteFS} {basedir basename : Name} {isnap ifile : Nat} {big : Bool}

/-- Particles of the volume are in the cells which are read. -/
theorem inside_flagged {ρ : Type*} [LinearOrder ρ] {val : List Byte → ρ} {cell : ρ → Int → Int} {bits : Nat} (h0 : 0 < bits) (h10 : bits ≤ 10) (hmono : ∀ x y, x ≤ y → cell x (2 ^ bits) ≤ cell y (2 ^ bits))
    (hP : Placed val cell Cs n cells start nfile bits) {lo hi : ρ × ρ × ρ} {c : Nat} {p : Particle} (hc : InCell Cs n cells start nfile c p) (hin : Inside val lo hi p) (hlt : c < 8 ^ bits) :
    (boxFlags cell bits lo hi).getD c false = true := by
  obtain ⟨h1, h2⟩ := hP c p hc
  obtain ⟨x1, x2⟩ := h1 p.x (by simp)
  obtain ⟨y1, y2⟩ := h1 p.y (by simp)
  obtain ⟨z1, z2⟩ := h1 p.z (by simp)
  obtain ⟨k, f1, f2⟩ := C37_inverse_of_key h0 (show bits ≤ 21 by omega) (cell (val p.x) (2 ^ bits)) (cell (val p.y) (2 ^ bits)) (cell (val p.z) (2 ^ bits))
  rw [h2] at f1
  rw [← Except.ok.inj f1, Int.emod_eq_of_lt x1 x2, Int.emod_eq_of_lt y1 y2, Int.emod_eq_of_lt z1 z2] at f2
  unfold boxFlags
  rw [List.getD_eq_getElem?_getD, List.getElem?_map, List.getElem?_range hlt, Option.map_some, Option.getD_some, f2]
  dsimp only
  rw [decide_eq_true_eq]
  exact ⟨⟨hmono _ _ hin.1.1, hmono _ _ hin.1.2⟩, ⟨hmono _ _ hin.2.1.1, hmono _ _ hin.2.1.2⟩, ⟨hmono _ _ hin.2.2.1, hmono _ _ hin.2.2.2⟩⟩

/-- C109: the program `readregionexample` writes exactly the coordinates of the particles between the given limits, in the order of the snapshot. Rounding may be of any kind which does not change the order
of numbers. -/
theorem C109_box {ρ : Type*} [LinearOrder ρ] (S : Snapshot Cs n cells start nfile) {val : List Byte → ρ} {cell : ρ → Int → Int} {bits : Nat} (h0 : 0 < bits) (h10 : bits ≤ 10)
    (hcells : pre cells nfile = 8 ^ bits) (hmono : ∀ x y, x ≤ y → cell x (2 ^ bits) ≤ cell y (2 ^ bits)) (hP : Placed val cell Cs n cells start nfile bits)
    (H : Stored fs basedir basename isnap Cs n cells nfile big) (signed sys : Bool) (lo hi : ρ × ρ × ρ) (hr : Few Cs n cells start nfile (boxFlags cell bits lo hi))
    (hsome : ∃ c p, (boxFlags cell bits lo hi).getD c false = true ∧ InCell Cs n cells start nfile c p) (blanks : Nat) (junk : Int) (blank : Particle) :
    readregionexample val cell signed sys (big == sys) fs basedir (basename ++ List.replicate blanks ' ') isnap (8 ^ bits) nfile lo hi junk blank =
      .ok (((allParticles Cs n cells start nfile).filter (fun p => decide (Inside val lo hi p))).map coordsOf) := by
  obtain ⟨rest, hfiles⟩ := snapFiles_ok H blanks
  have hne : region Cs n cells start nfile (boxFlags cell bits lo hi) ≠ [] := by
    obtain ⟨c, p, h1, h2⟩ := hsome
    exact List.ne_nil_of_mem (mem_region.2 ⟨c, h1, h2⟩)
  have hreg := C80_region S sys big rest hfiles (boxFlags cell bits lo hi) junk blank hne hr
  rw [hcells] at hreg
  obtain ⟨inside, hdef⟩ : ∃ f, f = fun p : Particle => decide (lo.1 ≤ val p.x ∧ val p.x ≤ hi.1 ∧ lo.2.1 ≤ val p.y ∧ val p.y ≤ hi.2.1 ∧ lo.2.2 ≤ val p.z ∧ val p.z ≤ hi.2.2) := ⟨_, rfl⟩
  have hin : ∀ p, inside p = true ↔ Inside val lo hi p := by
    intro p
    rw [hdef]
    dsimp only
    rw [decide_eq_true_eq]
    exact ⟨fun ⟨a, b, c, d, e, f⟩ => ⟨⟨a, b⟩, ⟨c, d⟩, ⟨e, f⟩⟩, fun ⟨⟨a, b⟩, ⟨c, d⟩, ⟨e, f⟩⟩ => ⟨a, b, c, d, e, f⟩⟩
  obtain ⟨s, k1, -, -, k2, -⟩ := keep_ok inside (region Cs n cells start nfile (boxFlags cell bits lo hi)) _ (le_refl _)
  rw [List.take_length] at k2
  have hout : (region Cs n cells start nfile (boxFlags cell bits lo hi)).filter inside = (allParticles Cs n cells start nfile).filter inside := by
    unfold region allParticles
    rw [List.filter_flatMap, List.filter_flatMap]
    apply List.flatMap_congr
    intro f hf
    rw [List.filter_flatMap, List.filter_flatMap]
    apply List.flatMap_congr
    intro j hj
    split_ifs with hflag
    · rfl
    · symm
      rw [List.filter_nil, List.filter_eq_nil_iff]
      intro p hp hip
      have hc : InCell Cs n cells start nfile (pre cells f + j) p := ⟨f, List.mem_range.1 hf, j, List.mem_range.1 hj, rfl, hp⟩
      exact hflag (inside_flagged h0 h10 hmono hP hc ((hin p).1 hip) (by rw [← hcells]; exact inCell_lt hc))
  have hfun : inside = fun p => decide (Inside val lo hi p) := by
    funext p
    rw [Bool.eq_iff_iff, decide_eq_true_eq]
    exact hin p
  unfold readregionexample
  have hb := cellBits_ok h10 bits 32 0 (by omega) (by omega)
  rw [pow_zero, Nat.cast_zero] at hb
  rw [bindOk _ hb]
  dsimp only
  rw [bindOk _ (flags_eq cell signed h0 h10 lo hi), bindOk _ hreg, ← hdef, bindOk _ k1, k2, hout, hfun]

/-- C109: if there are no particles in the cells of the volume, the program fails instead of writing an empty file. -/
theorem C109_empty_defect {ρ : Type*} [LinearOrder ρ] (S : Snapshot Cs n cells start nfile) {val : List Byte → ρ} {cell : ρ → Int → Int} {bits : Nat} (h0 : 0 < bits) (h10 : bits ≤ 10)
    (hcells : pre cells nfile = 8 ^ bits) (H : Stored fs basedir basename isnap Cs n cells nfile big) (signed sys : Bool) (lo hi : ρ × ρ × ρ)
    (hnone : ∀ c p, (boxFlags cell bits lo hi).getD c false = true → ¬ InCell Cs n cells start nfile c p) (blanks : Nat) (junk : Int) (blank : Particle) :
    readregionexample val cell signed sys (big == sys) fs basedir (basename ++ List.replicate blanks ' ') isnap (8 ^ bits) nfile lo hi junk blank = .error .other := by
  obtain ⟨rest, hfiles⟩ := snapFiles_ok H blanks
  have hreg := C80_empty_region S sys big rest hfiles (boxFlags cell bits lo hi) junk blank (by
    apply List.eq_nil_iff_forall_not_mem.2
    intro p hp
    obtain ⟨c, h1, h2⟩ := mem_region.1 hp
    exact hnone c p h1 h2)
  rw [hcells] at hreg
  unfold readregionexample
  have hb := cellBits_ok h10 bits 32 0 (by omega) (by omega)
  rw [pow_zero, Nat.cast_zero] at hb
  rw [bindOk _ hb]
  dsimp only
  rw [bindOk _ (flags_eq cell signed h0 h10 lo hi), hreg]
  rfl

/-- C109: a snapshot with a single cell makes the function for the keys shift by −1. -/
theorem C109_one_cell_defect {ρ : Type*} [LinearOrder ρ] {val : List Byte → ρ} {cell : ρ → Int → Int} (signed sys swap : Bool) (lo hi : ρ × ρ × ρ)
    (h : ∀ d ∈ [(lo.1, hi.1), (lo.2.1, hi.2.1), (lo.2.2, hi.2.2)], cell d.1 1 ≤ 0 ∧ 0 ≤ cell d.2 1) (basename : Name) (nfile : Nat) (junk : Int) (blank : Particle) :
    readregionexample val cell signed sys swap fs basedir basename isnap 1 nfile lo hi junk blank = .error .other := by
  have hx := h (lo.1, hi.1) (by simp)
  have hy := h (lo.2.1, hi.2.1) (by simp)
  have hz := h (lo.2.2, hi.2.2) (by simp)
  dsimp only at hx hy hz
  unfold readregionexample
  rw [bindOk (v := ((1 : Int), (0 : Int))) _ (by decide +kernel)]
  dsimp only
  rw [max_eq_right hx.1, max_eq_right hy.1, max_eq_right hz.1, show (1 : Int) - 1 = 0 from rfl, min_eq_right hx.2, min_eq_right hy.2, min_eq_right hz.2]
  have : flagBox signed 1 0 (boxCells (0, 0, 0) (0, 0, 0)) = .error .other := by cases signed <;> decide +kernel
  rw [this]
  rfl

/-! ### Tables of halos and subhalos -/

/-- C110: every subhalo of the file has a row, and so has every halo with subhalos. The position of the halo is that of its first subhalo. -/
theorem C110_subhalos (times : List Byte → List Byte) {T : Content} {ng ns : Nat} (HT : StoredSubTab fs basedir isnap ifile big T ng ns) {nsub first : Nat → Nat}
    (hsub : ∀ g < ng, int32Value ((T "NsubPerHalo".toList).getD g []) = nsub g ∧ (0 < nsub g → int32Value ((T "FirstSubOfHalo".toList).getD g []) = first g ∧ first g < ns)) :
    readsubhalosexample times big fs basedir isnap ifile = .ok
      (((List.range ng).filter (fun g => decide (0 < nsub g))).map (fun g => ⟨times ((T "Halo_M_Mean200".toList).getD g []), (T "Halo_R_Mean200".toList).getD g [], ((T "SubPos".toList).drop (3 * first g)).take 3⟩),
        (List.range ns).map (fun i => ⟨(T "SubLen".toList).getD i [], (T "SubHalfMass".toList).getD i [], ((T "SubPos".toList).drop (3 * i)).take 3⟩)) := by
  obtain ⟨p, rest, hl, hf⟩ := HT.stored
  have hs := HT.size
  have h := C93_subhalos_file big fs hl HT.fits HT.groups HT.subhalos HT.size rest hf
  have hS : ∀ i < ns, ((List.range ns).map (subhaloAt T))[i]? = some (subhaloAt T i) := by intro i hi; simp [hi]
  have hH : ∀ i < ng, ((List.range ng).map (haloAt T))[i]? = some (haloAt T i) := by intro i hi; simp [hi]
  unfold readsubhalosexample
  rw [bindOk _ h]
  dsimp only
  simp only [Int.toNat_natCast]
  rw [bindOk _ (mapM_ok _ (fun i => SubhaloRow.mk ((T "SubLen".toList).getD i []) ((T "SubHalfMass".toList).getD i []) (((T "SubPos".toList).drop (3 * i)).take 3)) _ (by
    intro i hi
    rw [bindOk _ (at1_ok (hS i (List.mem_range.1 hi)))]
    rfl))]
  rw [bindOk _ (mapM_ok _ (fun g => if 0 < nsub g then [HaloRow.mk (times ((T "Halo_M_Mean200".toList).getD g [])) ((T "Halo_R_Mean200".toList).getD g []) (((T "SubPos".toList).drop (3 * first g)).take 3)]
      else []) _ (by
    intro g hg
    have hg := List.mem_range.1 hg
    obtain ⟨h1, h2⟩ := hsub g hg
    rw [bindOk _ (at1_ok (hH g hg)), show (haloAt T g).nsubgroups = (T "NsubPerHalo".toList).getD g [] from rfl, h1]
    by_cases hp : 0 < nsub g
    · obtain ⟨h3, h4⟩ := h2 hp
      rw [if_pos (by omega), if_pos hp, show (haloAt T g).firstsubgroup = (T "FirstSubOfHalo".toList).getD g [] from rfl, h3, bindOk _ (cInt_ok (x := (first g : Int) + 1) (by omega) (by omega)),
        bindOk _ (at1_ok (hS (first g) h4))]
      rfl
    · rw [if_neg (by omega), if_neg hp]))]
  refine congrArg Except.ok (Prod.ext ?_ rfl)
  dsimp only
  have key : ∀ (l : List Nat) (row : Nat → HaloRow), (l.map (fun g => if 0 < nsub g then [row g] else [])).flatten = (l.filter (fun g => decide (0 < nsub g))).map row := by
    intro l row
    induction l with
    | nil => rfl
    | cons g l ih =>
      by_cases hg : 0 < nsub g
      · simp [hg, ih]
      · simp [hg, ih]
  exact key _ _

/-- C110: the program fails if the first subhalo of a halo is counted over all files, so that it is not in this file. -/
theorem C110_global_index (times : List Byte → List Byte) {T : Content} {ng ns : Nat} (HT : StoredSubTab fs basedir isnap ifile big T ng ns) {g : Nat} (hg : g < ng)
    (h1 : 0 < int32Value ((T "NsubPerHalo".toList).getD g [])) (h2 : (ns : Int) ≤ int32Value ((T "FirstSubOfHalo".toList).getD g [])) :
    ∃ e, readsubhalosexample times big fs basedir isnap ifile = .error e := by
  obtain ⟨p, rest, hl, hf⟩ := HT.stored
  have h := C93_subhalos_file big fs hl HT.fits HT.groups HT.subhalos HT.size rest hf
  cases hx : readsubhalosexample times big fs basedir isnap ifile with
  | error e => exact ⟨e, rfl⟩
  | ok r =>
    exfalso
    unfold readsubhalosexample at hx
    rw [bindOk _ h, bind_ok_iff] at hx
    obtain ⟨subs, -, hx⟩ := hx
    rw [bind_ok_iff] at hx
    obtain ⟨halos, hx, -⟩ := hx
    simp only [Int.toNat_natCast] at hx
    have all : ∀ (l : List Nat) (f : Nat → Except Err (List HaloRow)) (out : List (List HaloRow)), l.mapM f = .ok out → ∀ i ∈ l, ∃ v, f i = .ok v := by
      intro l f
      induction l with
      | nil => intro _ _ i hi; cases hi
      | cons a l ih =>
        intro out ho i hi
        rw [List.mapM_cons, bind_ok_iff] at ho
        obtain ⟨v, h1, ho⟩ := ho
        rw [bind_ok_iff] at ho
        obtain ⟨vs, h2, -⟩ := ho
        rcases List.mem_cons.1 hi with rfl | hi
        · exact ⟨v, h1⟩
        · exact ih vs h2 i hi
    obtain ⟨v, hv⟩ := all _ _ _ hx g (List.mem_range.2 hg)
    rw [bindOk _ (at1_ok (show ((List.range ng).map (haloAt T))[g]? = some (haloAt T g) by simp [hg])), show (haloAt T g).nsubgroups = (T "NsubPerHalo".toList).getD g [] from rfl, if_pos h1, bind_ok_iff] at hv
    obtain ⟨k, hk, hv⟩ := hv
    rw [show (haloAt T g).firstsubgroup = (T "FirstSubOfHalo".toList).getD g [] from rfl, cInt_iff] at hk
    rw [bind_ok_iff] at hv
    obtain ⟨s, hs, -⟩ := hv
    unfold at1 at hs
    rw [if_neg (by omega), List.getElem?_eq_none (by simp; omega)] at hs
    cases hs

/-! ### One file -/

/-- C110: the program `readfileexample` writes IDs and coordinates of the particles number 0, 10, 20, ... of the file. -/
theorem C110_file {C : Content} {np nc : Nat} (hb : NoBlank basename) {p : Name} (hl : Located (.snapshot basename) basedir isnap ifile p) (hC : SnapshotFile C np nc)
    (hc : scalarInt C "last_hash_cell".toList - scalarInt C "first_hash_cell".toList + 1 = nc) (hcells : (nc : Int) < 2147483648) (rest : List Byte)
    (hf : fs p = some (snapshotBytes C np nc big rest)) (blanks : Nat) :
    readfileexample big fs basedir (basename ++ List.replicate blanks ' ') isnap ifile =
      .ok (((List.range np).filter (fun i => decide (i % 10 = 0))).map (fun i => ((particleAt C i).id, coordsOf (particleAt C i)))) := by
  have hr : (Files.vec 4 np 3 "PartType1/Coordinates").Fits C := hC.row (s := sec1 np) (by simp) _ (by simp [sec1])
  have hpos : (C "PartType1/Coordinates".toList).length = 3 * np := hr.1.trans (prod_vec np)
  have hr : (Files.col 8 np "PartType1/ParticleIDs").Fits C := hC.row (s := sec3 np) (by simp) _ (by simp [sec3])
  have hid : (C "PartType1/ParticleIDs".toList).length = np := hr.1.trans (prod_one np)
  have hn : (int32Value ((headerOf C).npart.getD 1 [])).toNat = np := by
    have := hC.count
    rw [show (headerOf C).npart = C "Header/NumPart_ThisFile".toList from rfl, this]
    simp
  unfold readfileexample
  rw [bindOk _ (C93_header big fs blanks hb hl hC rest hf), bindOk _ (C93_snapshot big fs blanks hb hl hC hc hcells rest hf)]
  dsimp only
  rw [hn, tenth, List.map_map]
  refine mapM_ok _ _ _ ?_
  intro k hk
  have hk := List.mem_range.1 hk
  have e : ∀ d, at1 (C "PartType1/Coordinates".toList) (3 * ((10 * k : Nat) : Int) + ((d : Nat) : Int) + 1) = at1 (C "PartType1/Coordinates".toList) (((3 * (10 * k) + d : Nat) : Int) + 1) := by
    intro d; congr 1
  have e0 := e 0
  have e1 := e 1
  have e2 := e 2
  rw [show (3 * ((10 * k : Nat) : Int) + ((0 : Nat) : Int) + 1) = 3 * (10 * (k : Int)) + 1 by push_cast; ring, at1_ok (getD_some [] (by omega))] at e0
  rw [show (3 * ((10 * k : Nat) : Int) + ((1 : Nat) : Int) + 1) = 3 * (10 * (k : Int)) + 2 by push_cast; ring, at1_ok (getD_some [] (by omega))] at e1
  rw [show (3 * ((10 * k : Nat) : Int) + ((2 : Nat) : Int) + 1) = 3 * (10 * (k : Int)) + 3 by push_cast; ring, at1_ok (getD_some [] (by omega))] at e2
  have ei : at1 (C "PartType1/ParticleIDs".toList) (10 * (k : Int) + 1) = .ok ((C "PartType1/ParticleIDs".toList).getD (10 * k) []) := by
    have := at1_ok (getD_some (l := C "PartType1/ParticleIDs".toList) (i := 10 * k) [] (by omega))
    push_cast at this
    exact this
  simp only [Nat.cast_mul, Nat.cast_ofNat]
  rw [bindOk _ ei, bindOk _ e0, bindOk _ e1, bindOk _ e2]
  rfl

namespace ExFortranPrograms

/-- Two files with three and five cells. IDs and coordinates are -/
def points (f : Nat) : List (Nat × Nat × Nat × Nat) := if f = 0 then [(5, 1, 2, 3), (2, 7, 8, 1), (9, 5, 6, 0)] else [(7, 6, 1, 9), (1, 0, 4, 5)]

def contents (f : Nat) : Content := fun name =>
  let n := (points f).length
  if name = "Header/NumPart_ThisFile".toList then [leBytes 4 0, leBytes 4 n, leBytes 4 0, leBytes 4 0, leBytes 4 0, leBytes 4 0]
  else if name = "Header/MassTable".toList then List.replicate 6 (leBytes 8 0)
  else if name = "Header/NumPart_Total".toList then List.replicate 6 (leBytes 4 7)
  else if name = "Header/fill".toList then List.replicate 84 (leBytes 1 0)
  else if name ∈ ["Header/Time".toList, "Header/Redshift".toList, "Header/BoxSize".toList, "Header/Omega0".toList, "Header/OmegaLambda".toList, "Header/HubbleParam".toList] then [leBytes 8 5]
  else if name = "Header/HashTabSize".toList then [leBytes 4 8]
  else if name = "PartType1/Coordinates".toList then (points f).flatMap (fun p => [leBytes 4 p.2.1, leBytes 4 p.2.2.1, leBytes 4 p.2.2.2])
  else if name = "PartType1/Velocities".toList then (List.range (3 * n)).map (fun i => leBytes 4 (20 * f + i))
  else if name = "PartType1/ParticleIDs".toList then (points f).map (fun p => leBytes 8 p.1)
  else if name = "first_hash_cell".toList then [leBytes 4 (3 * f)]
  else if name = "last_hash_cell".toList then [leBytes 4 (2 + 5 * f)]
  else if name = "blockid".toList then (if f = 0 then [leBytes 4 0, leBytes 4 1, leBytes 4 1] else [leBytes 4 0, leBytes 4 0, leBytes 4 1, leBytes 4 1, leBytes 4 1])
  else [leBytes 4 0]

def number (f : Nat) : Nat := if f = 0 then 3 else 2
def cellsIn (f : Nat) : Nat := if f = 0 then 3 else 5
def starts (f j : Nat) : Nat := if f = 0 then min j 1 else if j < 2 then 0 else 1

theorem fits (f : Nat) (hf : f < 2) : SnapshotFile (contents f) (number f) (cellsIn f) := by
  refine ⟨⟨?_, ?_⟩, ?_⟩
  · have : ∀ f < 2, ∀ sec ∈ Files.lgadget2Snapshot (number f) (cellsIn f), ∀ r ∈ sec.rows, (contents f r.name).length = r.shape.prod ∧ ∀ v ∈ contents f r.name, v.length = r.width := by
      decide +kernel
    exact this f hf
  · revert f; decide +kernel
  · revert f; decide +kernel

theorem snapshot : Snapshot contents number cellsIn starts 2 where
  file := fits
  size := by decide +kernel
  first := by decide +kernel
  last := by decide +kernel
  total := by decide +kernel
  table := by decide +kernel
  order := by
    intro f hf j hj
    unfold starts; split_ifs <;> omega
  bound := by decide +kernel

/-- Two groups with two particles and one, and one subhalo with two particles -/
def groups (name : Name) : List (List Byte) :=
  if name = "Ngroups".toList then [leBytes 4 2]
  else if name = "Nids".toList then [leBytes 4 3]
  else if name = "TotNgroups".toList then [leBytes 4 500]
  else if name = "NFiles".toList then [leBytes 4 2]
  else if name = "NTask".toList then [leBytes 4 2]
  else if name = "Nsubhalos".toList then [leBytes 4 1]
  else if name = "GroupLen".toList then [leBytes 4 2, leBytes 4 1]
  else if name = "GroupOffset".toList then [leBytes 4 0, leBytes 4 2]
  else if name = "GroupMinLen".toList then [leBytes 4 2]
  else if name = "Count".toList then [leBytes 4 7, leBytes 4 8]
  else if name = "GroupIDs".toList then [leBytes 8 (2 * 2 ^ 34 + 2), leBytes 8 5, leBytes 8 (4 * 2 ^ 34 + 7)]
  else if name = "NsubPerHalo".toList then [leBytes 4 1, leBytes 4 0]
  else if name = "FirstSubOfHalo".toList then [leBytes 4 0, leBytes 4 1]
  else if name = "SubPos".toList ∨ name = "SubVel".toList ∨ name = "SubSpin".toList then [leBytes 4 1, leBytes 4 2, leBytes 4 3]
  else if name = "SubMostBoundID".toList then [leBytes 8 99]
  else if name = "SubLen".toList then [leBytes 4 2]
  else if name = "SubOffset".toList then [leBytes 4 0]
  else if name = "SubParentHalo".toList then [leBytes 4 0]
  else if name = "SubVelDisp".toList ∨ name = "SubVmax".toList ∨ name = "SubHalfMass".toList then [leBytes 4 55]
  else [leBytes 4 5, leBytes 4 6]

def files (name : Name) : Option (List Byte) :=
  if name = "/d/snapdir_063/snap_063.0".toList then some (snapshotBytes (contents 0) 3 3 true [])
  else if name = "/d/snapdir_063/snap_063.1".toList then some (snapshotBytes (contents 1) 2 5 true [])
  else if name = "/d/snapdir_063/group_tab_063.1".toList then some ((Files.lgadget2GroupTab 2 2).bytes true groups)
  else if name = "/d/postproc_063/sub_ids_063.1".toList then some ((Files.lgadget2SubIDs 8 3).bytes true groups)
  else if name = "/d/postproc_063/sub_tab_063.1".toList then some ((Files.lgadget2SubTab 8 2 1).bytes true groups)
  else none

theorem own (k : Kind) (ifile : Nat) (h : ifile < 2) (hl : (ownPath k "/d".toList 63 ifile).length ≤ 256) : Located k "/d ".toList 63 ifile (ownPath k "/d".toList 63 ifile) :=
  .own "/d".toList 1 rfl (by unfold NoBlank; decide +kernel) (by decide +kernel) (by decide) (by omega) hl

theorem stored : Stored files "/d ".toList "snap".toList 63 contents number cellsIn 2 true := by
  refine ⟨by unfold NoBlank; decide +kernel, ?_⟩
  intro f hf
  refine ⟨_, [], own (.snapshot "snap".toList) f hf ?_, ?_⟩
  · revert f; decide +kernel
  · revert f; decide +kernel

theorem storedGroups : StoredGroupTab files "/d ".toList 63 1 true groups 2 where
  count := by decide +kernel
  size := by decide
  stored := ⟨2, _, [], ⟨by
    have : ∀ sec ∈ Files.lgadget2GroupTab 2 2, ∀ r ∈ sec.rows, (groups r.name).length = r.shape.prod ∧ ∀ v ∈ groups r.name, v.length = r.width := by decide +kernel
    exact this, by decide +kernel⟩, own .groupTab 1 (by decide) (by decide +kernel), by decide +kernel⟩

theorem storedSubs : StoredSubTab files "/d ".toList 63 1 true groups 2 1 where
  fits := ⟨by
    have : ∀ sec ∈ Files.lgadget2SubTab 8 2 1, ∀ r ∈ sec.rows, (groups r.name).length = r.shape.prod ∧ ∀ v ∈ groups r.name, v.length = r.width := by decide +kernel
    exact this, by decide +kernel⟩
  groups := by decide +kernel
  subhalos := by decide +kernel
  size := by decide
  stored := ⟨_, [], own .subTab 1 (by decide) (by decide +kernel), by decide +kernel⟩

theorem storedIDs : StoredIDs files "/d ".toList 63 1 true groups 3 2 where
  fits := ⟨by
    have : ∀ sec ∈ Files.lgadget2SubIDs 8 3, ∀ r ∈ sec.rows, (groups r.name).length = r.shape.prod ∧ ∀ v ∈ groups r.name, v.length = r.width := by decide +kernel
    exact this, by decide +kernel⟩
  count := by decide +kernel
  files := by decide +kernel
  size := by decide
  stored := ⟨_, [], own .subIds 1 (by decide) (by decide +kernel), by decide +kernel⟩

/-- Everything which is said of all particles in cells follows from what holds for these. -/
theorem inCell_all {P : Nat → Particle → Prop} (h : ∀ f < 2, ∀ j < cellsIn f, ∀ p ∈ cellParticles contents number cellsIn starts f j, P (pre cellsIn f + j) p) {c : Nat} {p : Particle}
    (hc : InCell contents number cellsIn starts 2 c p) : P c p := by
  obtain ⟨f, hf, j, hj, rfl, hp⟩ := hc
  exact h f hf j hj p hp

set_option synthInstance.maxSize 1000 in
theorem unique : UniqueIDs contents number cellsIn starts 2 := by
  have h : ∀ f < 2, ∀ j < cellsIn f, ∀ p ∈ cellParticles contents number cellsIn starts f j, ∀ f' < 2, ∀ j' < cellsIn f', ∀ q ∈ cellParticles contents number cellsIn starts f' j', leNat p.id = leNat q.id → p = q := by
    decide +kernel
  rintro c d p q ⟨f, hf, j, hj, rfl, hp⟩ ⟨f', hf', j', hj', rfl, hq⟩ he
  exact h f hf j hj p hp f' hf' j' hj' q hq he

/-- The particles of the groups: the second of the first file, the first of the first file, and the first of the second file -/
def who (i : Nat) : Particle := if i = 0 then particleAt (contents 0) 1 else if i = 1 then particleAt (contents 0) 0 else particleAt (contents 1) 0

theorem meant : ∀ i < 3, Meant contents number cellsIn starts 2 ((groups "GroupIDs".toList).getD i []) (who i) := by
  have h : ∀ i < 3, ∃ f < 2, ∃ j < cellsIn f, pre cellsIn f + j = leNat ((groups "GroupIDs".toList).getD i []) / 2 ^ 34 ∧ who i ∈ cellParticles contents number cellsIn starts f j := by decide +kernel
  have h2 : ∀ i < 3, leNat (who i).id = leNat ((groups "GroupIDs".toList).getD i []) % 2 ^ 34 := by decide +kernel
  exact fun i hi => ⟨h i hi, h2 i hi⟩

/-- The rows which `readfofgroups` writes -/
example (blank : Particle) : readfofgroups true true true files "/d ".toList "snap  ".toList 63 1 0 blank =
    .ok [(0, ⟨leBytes 4 7, leBytes 4 8, leBytes 4 1⟩), (0, ⟨leBytes 4 1, leBytes 4 2, leBytes 4 3⟩), (1, ⟨leBytes 4 6, leBytes 4 1, leBytes 4 9⟩)] := by
  have h := C108_fof snapshot unique true stored (ifile := 1) (by decide) (by decide +kernel) storedGroups storedIDs (by decide +kernel) (len := fun g => if g = 0 then 2 else 1)
    (off := fun g => if g = 0 then 0 else 2) (by unfold Groups; decide +kernel) (by decide) meant (by unfold Few; decide +kernel) 2 0 blank
  rw [show (true == true) = true from rfl] at h
  refine Eq.trans (by exact h) ?_
  decide +kernel

example (blank : Particle) : readgroupsexample true true true files "/d ".toList "snap  ".toList 63 1 8 0 blank =
    .ok [(0, 0, ⟨leBytes 4 7, leBytes 4 8, leBytes 4 1⟩), (0, 0, ⟨leBytes 4 1, leBytes 4 2, leBytes 4 3⟩)] := by
  have h := C108_subhalos snapshot unique true stored (ifile := 1) storedSubs storedIDs (len := fun _ => 2) (off := fun _ => 0) (by unfold Groups; decide +kernel) (by decide) meant
    (by unfold Few; decide +kernel) 2 0 blank
  refine Eq.trans (by exact h) ?_
  decide +kernel

/-- A box of size ten with two cells in each direction; numbers are their bytes. -/
theorem placed : Placed (fun v => (leNat v : Int)) (fun x m => x * m / 10) contents number cellsIn starts 2 1 := by
  intro c p hc
  refine inCell_all (P := fun c p => (∀ v ∈ [p.x, p.y, p.z], 0 ≤ (leNat v : Int) * 2 ^ 1 / 10 ∧ (leNat v : Int) * 2 ^ 1 / 10 < 2 ^ 1) ∧
    phKeyScalar ((leNat p.x : Int) * 2 ^ 1 / 10) ((leNat p.y : Int) * 2 ^ 1 / 10) ((leNat p.z : Int) * 2 ^ 1 / 10) 1 = .ok (c : Int)) ?_ hc
  decide +kernel

/-- The volume from (0, 2, 0) to (5, 8, 3) -/
example (blank : Particle) : readregionexample (fun v => (leNat v : Int)) (fun x m => x * m / 10) true true true files "/d ".toList "snap  ".toList 63 8 2 (0, 2, 0) (5, 8, 3) 0 blank =
    .ok [⟨leBytes 4 1, leBytes 4 2, leBytes 4 3⟩, ⟨leBytes 4 5, leBytes 4 6, leBytes 4 0⟩] := by
  have h := C109_box snapshot (val := fun v => (leNat v : Int)) (cell := fun x m => x * m / 10) (bits := 1) (by decide) (by decide) (by decide +kernel)
    (fun x y h => Int.ediv_le_ediv (by norm_num) (by omega)) placed stored true true (0, 2, 0) (5, 8, 3) (by unfold Few; decide +kernel)
    ⟨0, particleAt (contents 0) 0, by decide +kernel, 0, by decide, 0, by decide +kernel, by decide +kernel, by decide +kernel⟩ 2 0 blank
  refine Eq.trans (by exact h) ?_
  decide +kernel

example : readsubhalosexample id true files "/d ".toList 63 1 =
    .ok ([⟨leBytes 4 5, leBytes 4 5, [leBytes 4 1, leBytes 4 2, leBytes 4 3]⟩], [⟨leBytes 4 2, leBytes 4 55, [leBytes 4 1, leBytes 4 2, leBytes 4 3]⟩]) := by
  have h := C110_subhalos id storedSubs (nsub := fun g => if g = 0 then 1 else 0) (first := fun _ => 0) (by decide +kernel)
  refine Eq.trans h ?_
  decide +kernel

/-- The first of three particles -/
example : readfileexample true files "/d ".toList "snap".toList 63 0 = .ok [(leBytes 8 5, ⟨leBytes 4 1, leBytes 4 2, leBytes 4 3⟩)] := by decide +kernel

/-- No particles are in the cell of the volume from (5, 5, 5) to (9, 9, 9). -/
example (blank : Particle) : readregionexample (fun v => (leNat v : Int)) (fun x m => x * m / 10) true true true files "/d ".toList "snap  ".toList 63 8 2 (5, 5, 5) (9, 9, 9) 0 blank = .error .other := by
  have h := C109_empty_defect snapshot (val := fun v => (leNat v : Int)) (cell := fun x m => x * m / 10) (bits := 1) (by decide) (by decide) (by decide +kernel) stored true true (5, 5, 5) (9, 9, 9)
    (fun c p hc hp => inCell_all (P := fun c _ => (boxFlags (fun x m => x * m / 10 : Int → Int → Int) 1 (5, 5, 5) (9, 9, 9)).getD c false = true → False) (by decide +kernel) hp hc) 2 0 blank
  exact h

/-- As `files`, with another file of IDs -/
def changed (J : Content) (nj : Nat) (name : Name) : Option (List Byte) :=
  if name = "/d/postproc_063/sub_ids_063.1".toList then some ((Files.lgadget2SubIDs 8 nj).bytes true J) else files name

theorem storedChanged (J : Content) (nj : Nat) : Stored (changed J nj) "/d ".toList "snap".toList 63 contents number cellsIn 2 true := by
  refine ⟨stored.1, fun f hf => ?_⟩
  refine ⟨_, [], own (.snapshot "snap".toList) f hf ?_, ?_⟩
  · revert f; decide +kernel
  · have h1 : ∀ f < 2, ownPath (.snapshot "snap".toList) "/d".toList 63 f ≠ "/d/postproc_063/sub_ids_063.1".toList := by decide +kernel
    have h2 : ∀ f < 2, files (ownPath (.snapshot "snap".toList) "/d".toList 63 f) = some (snapshotBytes (contents f) (number f) (cellsIn f) true []) := by decide +kernel
    unfold changed
    rw [if_neg (h1 f hf), h2 f hf]

theorem storedGroupsChanged (J : Content) (nj : Nat) : StoredGroupTab (changed J nj) "/d ".toList 63 1 true groups 2 where
  count := by decide +kernel
  size := by decide
  stored := ⟨2, _, [], ⟨by
    have : ∀ sec ∈ Files.lgadget2GroupTab 2 2, ∀ r ∈ sec.rows, (groups r.name).length = r.shape.prod ∧ ∀ v ∈ groups r.name, v.length = r.width := by decide +kernel
    exact this, by decide +kernel⟩, own .groupTab 1 (by decide) (by decide +kernel), by
      unfold changed
      rw [if_neg (by decide +kernel)]
      decide +kernel⟩

def noIDs (name : Name) : List (List Byte) := if name = "GroupIDs".toList then [] else if name = "Nids".toList then [leBytes 4 0] else groups name

theorem storedNone : StoredIDs (changed noIDs 0) "/d ".toList 63 1 true noIDs 0 2 where
  fits := ⟨by
    have : ∀ sec ∈ Files.lgadget2SubIDs 8 0, ∀ r ∈ sec.rows, (noIDs r.name).length = r.shape.prod ∧ ∀ v ∈ noIDs r.name, v.length = r.width := by decide +kernel
    exact this, by decide +kernel⟩
  count := by decide +kernel
  files := by decide +kernel
  size := by decide
  stored := ⟨_, [], own .subIds 1 (by decide) (by decide +kernel), by decide +kernel⟩

example (blank : Particle) : readfofgroups true true true (changed noIDs 0) "/d ".toList "snap  ".toList 63 1 0 blank = .error .other :=
  C108_no_groups_defect snapshot true (storedChanged _ _) (ifile := 1) (by decide) (by decide +kernel) (storedGroupsChanged _ _) storedNone 2 0 blank

/-- The second ID is of no particle. -/
def wrongIDs (name : Name) : List (List Byte) := if name = "GroupIDs".toList then [leBytes 8 (2 * 2 ^ 34 + 2), leBytes 8 6, leBytes 8 (4 * 2 ^ 34 + 7)] else groups name

theorem storedWrong : StoredIDs (changed wrongIDs 3) "/d ".toList 63 1 true wrongIDs 3 2 where
  fits := ⟨by
    have : ∀ sec ∈ Files.lgadget2SubIDs 8 3, ∀ r ∈ sec.rows, (wrongIDs r.name).length = r.shape.prod ∧ ∀ v ∈ wrongIDs r.name, v.length = r.width := by decide +kernel
    exact this, by decide +kernel⟩
  count := by decide +kernel
  files := by decide +kernel
  size := by decide
  stored := ⟨_, [], own .subIds 1 (by decide) (by decide +kernel), by decide +kernel⟩

example (blank : Particle) : readfofgroups true true true (changed wrongIDs 3) "/d ".toList "snap  ".toList 63 1 0 blank = .error .abort :=
  C108_fof_stops snapshot true (storedChanged _ _) (ifile := 1) (by decide) (by decide +kernel) (storedGroupsChanged _ _) storedWrong (by decide +kernel) (by decide +kernel) (by unfold Few; decide +kernel)
    ⟨leBytes 8 6, by decide +kernel, fun _ _ p hp => inCell_all (P := fun _ p => leNat p.id ≠ leNat (leBytes 8 6) % 2 ^ 34) (by decide +kernel) hp⟩ 2 0 blank

/-- The index of the first subhalo is 7, but there is one subhalo in the file. -/
def counted (name : Name) : List (List Byte) := if name = "FirstSubOfHalo".toList then [leBytes 4 7, leBytes 4 8] else groups name

example : ∃ e, readsubhalosexample id true (fun name => if name = "/d/postproc_063/sub_tab_063.1".toList then some ((Files.lgadget2SubTab 8 2 1).bytes true counted) else none) "/d ".toList 63 1 = .error e :=
  C110_global_index id (T := counted) (ng := 2) (ns := 1) (g := 0)
    { fits := ⟨by
        have : ∀ sec ∈ Files.lgadget2SubTab 8 2 1, ∀ r ∈ sec.rows, (counted r.name).length = r.shape.prod ∧ ∀ v ∈ counted r.name, v.length = r.width := by decide +kernel
        exact this, by decide +kernel⟩
      groups := by decide +kernel
      subhalos := by decide +kernel
      size := by decide
      stored := ⟨_, [], own .subTab 1 (by decide) (by decide +kernel), by decide +kernel⟩ } (by decide) (by decide +kernel) (by decide +kernel)

end ExFortranPrograms

end Verif.FortranPrograms
