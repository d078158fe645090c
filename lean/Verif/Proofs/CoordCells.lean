import Verif.Proofs.HashCells
import Verif.Spec.GroupCoords

set_option linter.unusedSectionVars false

namespace Verif.GroupLib

open CPeano ReadParticles ReadRegion

variable {sys : Bool} {fs : ByteFS} {dir base : Name} {num : Nat} {Cs : Nat → Content} {n cells : Nat → Nat} {start : Nat → Nat → Nat} {nfile : Nat}

/-- The coordinates of particles, one after the other -/
def coords (ps : List Particle) : List (List Byte) := ps.flatMap (fun p => [p.x, p.y, p.z])

theorem length_coords (ps : List Particle) : (coords ps).length = 3 * ps.length := by
  induction ps with
  | nil => rfl
  | cons p ps ih =>
    have : coords (p :: ps) = [p.x, p.y, p.z] ++ coords ps := rfl
    rw [this, List.length_append, ih, List.length_cons]
    simp; omega

theorem range_three {α : Type} (g : Nat → α) (k : Nat) : (List.range (3 * k)).map g = (List.range k).flatMap (fun i => [g (3 * i), g (3 * i + 1), g (3 * i + 2)]) := by
  induction k with
  | zero => rfl
  | succ k ih =>
    rw [show 3 * (k + 1) = 3 * k + 1 + 1 + 1 by ring, List.range_succ, List.range_succ, List.range_succ, List.range_succ, List.flatMap_append, ← ih]
    simp

theorem openSnap_nat (f : Nat) : openSnap fs dir base num (f : Int) = openBuf fs (snapName dir base num f) := by
  unfold openSnap
  rw [if_neg (by omega), Int.toNat_natCast]

theorem length_cell_le (S : Snapshot Cs n cells start nfile) {f j : Nat} (hf : f < nfile) (hj : j < cells f) : start f j + (cellParticles Cs n cells start f j).length ≤ n f := by
  have h0 := S.bound f hf j hj
  unfold cellParticles
  rw [List.length_map, List.length_range']
  split
  · have := S.bound f hf (j + 1) (by assumption)
    omega
  · omega

theorem cellParticles_eq (f j : Nat) : ∃ k, k = (cellParticles Cs n cells start f j).length ∧ cellParticles Cs n cells start f j = (List.range k).map (fun i => particleAt (Cs f) (start f j + i)) := by
  refine ⟨_, rfl, ?_⟩
  unfold cellParticles
  rw [List.length_map, List.length_range', List.range'_eq_map_range, List.map_map]
  rfl

theorem readPos_ok (S : Snapshot Cs n cells start nfile) {f j : Nat} (hf : f < nfile) (hj : j < cells f)
    (ho : ∃ rest, openBuf fs (snapName dir base num f) = .ok ⟨snapshotBytes (Cs f) (n f) (cells f) (!sys) rest, 0⟩) :
    readPos sys fs dir base num (wholeTable n cells start nfile) f ((pre cells f + j : Nat) : Int) =
      .ok (coords (cellParticles Cs n cells start f j), (Cs f "Header/BoxSize".toList).headD []) := by
  obtain ⟨rest, ho⟩ := ho
  have hF := S.file f hf
  have hsz := S.size f hf
  have hle := length_cell_le S hf hj
  obtain ⟨k, hk, hcp⟩ := cellParticles_eq (Cs := Cs) (n := n) (cells := cells) (start := start) f j
  have r1 : RecordAt sys (Cs f) (snapshotBytes (Cs f) (n f) (cells f) (!sys) rest) 264 (sec1 (n f)).rows :=
    recordAt (before := [sec0]) (after := [sec2 (n f), sec3 (n f), sec4, sec5 (cells f)]) (snapshot_sections (n f) (cells f)) hF.fits rest (before1 _ hF)
  have a1 : At (!sys) (Cs f) (snapshotBytes (Cs f) (n f) (cells f) (!sys) rest) 268 (Files.vec 4 (n f) 3 "PartType1/Coordinates") := by
    refine at_row (before := [sec0]) (rows1 := []) (rows2 := []) (rec := true) (after := [sec2 (n f), sec3 (n f), sec4, sec5 (cells f)]) (snapshot_sections _ _) hF.fits.rows rest ?_
    rw [before1 _ hF]; simp
  have hsp : (Files.vec 4 (n f) 3 "PartType1/Coordinates").shape.prod = 3 * n f := by simp [Files.vec]; omega
  have hread := a1.read (i := 3 * start f j) (k := 3 * k) (by rw [hsp]; omega) (q := 268 + 12 * start f j) (by simp [Files.vec]; ring)
  have hlen := cellLenIn_ok S hf hj
  rw [← hk] at hlen hle
  unfold readPos
  rw [openSnap_nat, bindOk _ ho, bindOk _ (ioHeader_ok hF rest)]
  dsimp only
  rw [bindOk _ r1.start, bindOk _ (cGet_ok (whole_hash_get hf hj)), bindOk _ (cInt_ok (by omega) (by omega)), bindOk _ hlen, bindOk _ (cInt_ok (by omega) (by omega)), if_neg (by omega)]
  dsimp only
  rw [show (3 * (start f j : Int)) * 4 = ((12 * start f j : Nat) : Int) by push_cast; ring, seek_nat, show (3 * (k : Int)).toNat = 3 * k by omega]
  change (CFile.read _ (Files.vec 4 (n f) 3 "PartType1/Coordinates").width (3 * k) >>= _) = _
  rw [show 264 + 4 = 268 from rfl, bindOk _ hread]
  refine congrArg Except.ok (Prod.ext ?_ rfl)
  dsimp only
  rw [List.map_map, hcp]
  unfold coords
  rw [List.flatMap_map]
  have e : ∀ t ∈ List.range (3 * k), (value4 sys false ∘ fun t => storeItem (!sys) (Files.vec 4 (n f) 3 "PartType1/Coordinates").order ((Cs f (Files.vec 4 (n f) 3 "PartType1/Coordinates").name).getD (3 * start f j + t) [])) t =
      (Cs f "PartType1/Coordinates".toList).getD (3 * start f j + t) [] := by
    intro t ht
    have ht := List.mem_range.1 ht
    exact value4_native sys (a1.elem (i := 3 * start f j + t) (by rw [hsp]; omega))
  rw [List.map_congr_left e, range_three]
  congr 1
  funext i
  unfold particleAt
  dsimp only
  rw [Nat.mul_add]
  rfl

theorem readIds_ok (S : Snapshot Cs n cells start nfile) {f j : Nat} (hf : f < nfile) (hj : j < cells f)
    (ho : ∃ rest, openBuf fs (snapName dir base num f) = .ok ⟨snapshotBytes (Cs f) (n f) (cells f) (!sys) rest, 0⟩) :
    readIds sys fs dir base num (wholeTable n cells start nfile) f ((pre cells f + j : Nat) : Int) = .ok ((cellParticles Cs n cells start f j).map (fun p => leNat p.id)) := by
  obtain ⟨rest, ho⟩ := ho
  have hF := S.file f hf
  have hsz := S.size f hf
  have hle := length_cell_le S hf hj
  obtain ⟨k, hk, hcp⟩ := cellParticles_eq (Cs := Cs) (n := n) (cells := cells) (start := start) f j
  obtain ⟨k1, k2, _⟩ := skips_ok (sys := sys) hF rest
  have r3 : RecordAt sys (Cs f) (snapshotBytes (Cs f) (n f) (cells f) (!sys) rest) (280 + 24 * n f) (sec3 (n f)).rows :=
    recordAt (before := [sec0, sec1 (n f), sec2 (n f)]) (after := [sec4, sec5 (cells f)]) (snapshot_sections (n f) (cells f)) hF.fits rest (before3 _ hF)
  have a3 : At (!sys) (Cs f) (snapshotBytes (Cs f) (n f) (cells f) (!sys) rest) (284 + 24 * n f) (Files.col 8 (n f) "PartType1/ParticleIDs") := by
    refine at_row (before := [sec0, sec1 (n f), sec2 (n f)]) (rows1 := []) (rows2 := []) (rec := true) (after := [sec4, sec5 (cells f)]) (snapshot_sections _ _) hF.fits.rows rest ?_
    rw [before3 _ hF]; simp; omega
  have hsp : (Files.col 8 (n f) "PartType1/ParticleIDs").shape.prod = n f := by simp [Files.col]
  have hlen := cellLenIn_ok S hf hj
  rw [← hk] at hlen hle
  have hread := a3.read (i := start f j) (k := k) (by rw [hsp]; omega) (q := 284 + 24 * n f + 8 * start f j) (by simp [Files.col])
  unfold readIds
  rw [openSnap_nat, bindOk _ ho, bindOk _ (ioHeader_ok hF rest)]
  dsimp only
  rw [bindOk _ k1, bindOk _ k2, bindOk _ r3.start, bindOk _ (cGet_ok (whole_hash_get hf hj)), bindOk _ hlen, if_neg (by omega)]
  dsimp only
  rw [show (start f j : Int) * 8 = ((8 * start f j : Nat) : Int) by push_cast; ring, seek_nat, Int.toNat_natCast]
  change (CFile.read _ (Files.col 8 (n f) "PartType1/ParticleIDs").width k >>= _) = _
  rw [show 280 + 24 * n f + 4 = 284 + 24 * n f by omega, bindOk _ hread]
  refine congrArg Except.ok ?_
  dsimp only
  rw [List.map_map, hcp, List.map_map]
  refine List.map_congr_left fun t ht => ?_
  have ht := List.mem_range.1 ht
  exact congrArg leNat (value8_native sys (a3.elem (i := start f j + t) (by rw [hsp]; omega)))

/-! ### Cells by number -/

variable (Cs n cells start nfile) in
/-- Particles and file of a cell -/
def cellAt (c : Nat) : List Particle := (allCells Cs n cells start nfile).getD c []

variable (n cells start nfile) in
def fileAt (c : Nat) : Int := (wholeTable n cells start nfile).filetable.getD c 0

theorem cell_split {c : Nat} (hc : c < pre cells nfile) : ∃ f j, f < nfile ∧ j < cells f ∧ c = pre cells f + j ∧ cellAt Cs n cells start nfile c = cellParticles Cs n cells start f j ∧
    fileAt n cells start nfile c = (f : Int) := by
  obtain ⟨f, hf, h1, h2⟩ := exists_block hc
  obtain ⟨j, rfl⟩ : ∃ j, c = pre cells f + j := ⟨c - pre cells f, by omega⟩
  have hj : j < cells f := by omega
  refine ⟨f, j, hf, hj, rfl, ?_, ?_⟩
  · unfold cellAt; rw [List.getD_eq_getElem?_getD, allCells_get hf hj]; rfl
  · unfold fileAt; rw [List.getD_eq_getElem?_getD, whole_file_get hf hj]; rfl

theorem region_eq (flags : List Bool) : region Cs n cells start nfile flags =
    (List.range (pre cells nfile)).flatMap (fun c => if flags.getD c false then cellAt Cs n cells start nfile c else []) := by
  have key : ∀ m ≤ nfile, region Cs n cells start m flags = (List.range (pre cells m)).flatMap (fun c => if flags.getD c false then cellAt Cs n cells start nfile c else []) := by
    intro m
    induction m with
    | zero => intro _; rfl
    | succ m ih =>
      intro hm
      have : region Cs n cells start (m + 1) flags = region Cs n cells start m flags ++ (List.range (cells m)).flatMap fun j =>
          if flags.getD (pre cells m + j) false then cellParticles Cs n cells start m j else [] := by
        unfold region
        rw [List.range_succ, List.flatMap_append]
        simp
      rw [this, ih (by omega), pre_succ, List.range_add, List.flatMap_append, List.flatMap_map]
      congr 1
      refine List.flatMap_congr fun j hj => ?_
      have hj := List.mem_range.1 hj
      unfold cellAt
      rw [List.getD_eq_getElem?_getD (l := allCells Cs n cells start nfile), allCells_get (by omega) hj]
      rfl
  exact key nfile (le_refl _)

end Verif.GroupLib
