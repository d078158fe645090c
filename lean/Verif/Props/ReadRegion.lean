import Verif.Proofs.ReadRegion

/-! C80: the Fortran example reads exactly the particles in the flagged cells. -/

namespace Verif

open ReadParticles ReadRegion

variable {Cs : Nat → Content} {n cells : Nat → Nat} {start : Nat → Nat → Nat} {nfile : Nat}

/-- C80: all particles of the flagged cells are read, in the order of the cells, whatever the cells flagged and their distribution over the files -/
theorem C80_region (S : Snapshot Cs n cells start nfile) (sys big : Bool) (rest : Nat → List Byte) {files : Nat → List Byte}
    (hfiles : ∀ f < nfile, files f = snapshotBytes (Cs f) (n f) (cells f) big (rest f)) (hashmap : List Bool) (junk : Int) (blank : Particle)
    (hsome : region Cs n cells start nfile hashmap ≠ []) (hr : ((region Cs n cells start nfile hashmap).length : Int) + 1 < 2147483648) :
    readregion sys (big == sys) files nfile (pre cells nfile) hashmap junk blank =
      .ok (region Cs n cells start nfile hashmap) := by
  rw [readregion_ok S sys big rest hfiles hashmap junk blank hr, if_neg hsome]

/-- C80: a region without particles makes the subroutine close a file which has been closed before. -/
theorem C80_empty_region (S : Snapshot Cs n cells start nfile) (sys big : Bool) (rest : Nat → List Byte) {files : Nat → List Byte}
    (hfiles : ∀ f < nfile, files f = snapshotBytes (Cs f) (n f) (cells f) big (rest f)) (hashmap : List Bool) (junk : Int) (blank : Particle)
    (hnone : region Cs n cells start nfile hashmap = []) :
    readregion sys (big == sys) files nfile (pre cells nfile) hashmap junk blank = .error .other := by
  rw [readregion_ok S sys big rest hfiles hashmap junk blank (by rw [hnone]; simp), if_pos hnone]

namespace ExReadRegion

/-- Two files: three particles in two cells, then two particles in three cells, the first of which is empty -/
def contents (f : Nat) : Content := fun name =>
  let n := if f = 0 then 3 else 2
  if name = "Header/NumPart_ThisFile".toList then [leBytes 4 0, leBytes 4 n, leBytes 4 0, leBytes 4 0, leBytes 4 0, leBytes 4 0]
  else if name = "Header/MassTable".toList then List.replicate 6 (leBytes 8 0)
  else if name = "Header/NumPart_Total".toList then List.replicate 6 (leBytes 4 7)
  else if name = "Header/fill".toList then List.replicate 84 (leBytes 1 0)
  else if name ∈ ["Header/Time".toList, "Header/Redshift".toList, "Header/BoxSize".toList, "Header/Omega0".toList, "Header/OmegaLambda".toList, "Header/HubbleParam".toList] then [leBytes 8 5]
  else if name = "PartType1/Coordinates".toList then (List.range (3 * n)).map (fun i => leBytes 4 (10 * f + i))
  else if name = "PartType1/Velocities".toList then (List.range (3 * n)).map (fun i => leBytes 4 (20 * f + i))
  else if name = "PartType1/ParticleIDs".toList then (List.range n).map (fun i => leBytes 8 (30 * f + i))
  else if name = "first_hash_cell".toList then [leBytes 4 (2 * f)]
  else if name = "last_hash_cell".toList then [leBytes 4 (1 + 3 * f)]
  else if name = "blockid".toList then (if f = 0 then [leBytes 4 0, leBytes 4 2] else [leBytes 4 0, leBytes 4 0, leBytes 4 1])
  else [leBytes 4 0]

def number (f : Nat) : Nat := if f = 0 then 3 else 2
def cellsIn (f : Nat) : Nat := if f = 0 then 2 else 3
def starts (f j : Nat) : Nat := if f = 0 then 2 * j else j - 1

theorem fits (f : Nat) (hf : f < 2) : SnapshotFile (contents f) (number f) (cellsIn f) := by
  refine ⟨⟨?_, ?_⟩, ?_⟩
  · have : ∀ f < 2, ∀ sec ∈ Files.lgadget2Snapshot (number f) (cellsIn f), ∀ r ∈ sec.rows, (contents f r.name).length = r.shape.prod ∧ ∀ v ∈ contents f r.name, v.length = r.width := by
      decide +kernel
    exact this f hf
  · revert f; decide +kernel
  · revert f; decide +kernel

theorem snapshot : Snapshot contents number cellsIn starts 2 where
  file := fits
  size := by decide +kernel
  first := by decide +kernel
  last := by decide +kernel
  total := by decide +kernel
  table := by decide +kernel
  order := by
    intro f hf j hj
    unfold starts; split_ifs <;> omega
  bound := by decide +kernel

/-- The cells 1, 2 and 4: the last particle of the first file and the last of the second -/
example : (region contents number cellsIn starts 2 [false, true, true, false, true]).map Particle.id = [leBytes 8 2, leBytes 8 31] := by decide +kernel

example : region contents number cellsIn starts 2 [false, false, true, false, false] = [] := by decide +kernel

end ExReadRegion

end Verif
