import Verif.Spec.FortranReaders
import Verif.Spec.ReadRegion
import Verif.Model.Peano

/-! What the Fortran programs should write, described independently of them -/

namespace Verif.FortranPrograms

open FortranReaders ReadRegion ReadParticles

/-- The files of the snapshot are stored below the directory `basedir`, in the byte order `big`. -/
def Stored (fs : ByteFS) (basedir basename : Name) (isnap : Nat) (Cs : Nat → Content) (n cells : Nat → Nat) (nfile : Nat) (big : Bool) : Prop :=
  NoBlank basename ∧ ∀ f < nfile, ∃ p rest, Located (.snapshot basename) basedir isnap f p ∧ fs p = some (snapshotBytes (Cs f) (n f) (cells f) big rest)

/-- The group_tab file number `ifile`, with `ng` groups -/
structure StoredGroupTab (fs : ByteFS) (basedir : Name) (isnap ifile : Nat) (big : Bool) (G : Content) (ng : Nat) : Prop where
  count : scalarInt G "Ngroups".toList = ng
  size : 16 + 8 * ng < 2147483648
  stored : ∃ minlen p rest, (Files.lgadget2GroupTab ng minlen).Fits G ∧ Located .groupTab basedir isnap ifile p ∧ fs p = some ((Files.lgadget2GroupTab ng minlen).bytes big G ++ rest)

/-- The sub_tab file number `ifile`, with `ng` groups and `ns` subhalos -/
structure StoredSubTab (fs : ByteFS) (basedir : Name) (isnap ifile : Nat) (big : Bool) (T : Content) (ng ns : Nat) : Prop where
  fits : (Files.lgadget2SubTab 8 ng ns).Fits T
  groups : scalarInt T "Ngroups".toList = ng
  subhalos : scalarInt T "Nsubhalos".toList = ns
  size : 20 + 32 * ng + 68 * ns < 2147483648
  stored : ∃ p rest, Located .subTab basedir isnap ifile p ∧ fs p = some ((Files.lgadget2SubTab 8 ng ns).bytes big T ++ rest)

/-- The sub_ids file number `ifile`, with `ni` IDs of particles, of a simulation with `nfile` files -/
structure StoredIDs (fs : ByteFS) (basedir : Name) (isnap ifile : Nat) (big : Bool) (I : Content) (ni nfile : Nat) : Prop where
  fits : (Files.lgadget2SubIDs 8 ni).Fits I
  count : scalarInt I "Nids".toList = ni
  files : scalarInt I "NFiles".toList = nfile
  size : 16 + 8 * ni < 2147483648
  stored : ∃ p rest, Located .subIds basedir isnap ifile p ∧ fs p = some ((Files.lgadget2SubIDs 8 ni).bytes big I ++ rest)

/-- Particle `p` is in cell `c` of the snapshot. -/
def InCell (Cs : Nat → Content) (n cells : Nat → Nat) (start : Nat → Nat → Nat) (nfile c : Nat) (p : Particle) : Prop :=
  ∃ f < nfile, ∃ j < cells f, pre cells f + j = c ∧ p ∈ cellParticles Cs n cells start f j

/-- The particle `p` is the one meant by the number `v` in a file of groups: the first 30 of its 64 bits are the cell, the others are the ID of the particle. -/
def Meant (Cs : Nat → Content) (n cells : Nat → Nat) (start : Nat → Nat → Nat) (nfile : Nat) (v : List Byte) (p : Particle) : Prop :=
  InCell Cs n cells start nfile (leNat v / 2 ^ 34) p ∧ leNat p.id = leNat v % 2 ^ 34

/-- No two particles have the same ID. -/
def UniqueIDs (Cs : Nat → Content) (n cells : Nat → Nat) (start : Nat → Nat → Nat) (nfile : Nat) : Prop :=
  ∀ c d p q, InCell Cs n cells start nfile c p → InCell Cs n cells start nfile d q → leNat p.id = leNat q.id → p = q

/-- The cells of the particles of the groups -/
def wanted (nhash : Nat) (groupids : List (List Byte)) : List Bool := (List.range nhash).map (fun c => decide (∃ v ∈ groupids, leNat v / 2 ^ 34 = c))

/-- Groups of a file which has `ni` IDs: group `g` has `len g` IDs from number `off g` on. -/
def Groups (lens offsets : List (List Byte)) (ng ni : Nat) (len off : Nat → Nat) : Prop :=
  ∀ g < ng, int32Value (lens.getD g []) = len g ∧ int32Value (offsets.getD g []) = off g ∧ off g + len g ≤ ni

/-- The particles which have to be read can be counted by an `INTEGER`. -/
def Few (Cs : Nat → Content) (n cells : Nat → Nat) (start : Nat → Nat → Nat) (nfile : Nat) (hashmap : List Bool) : Prop := ((region Cs n cells start nfile hashmap).length : Int) + 1 < 2147483648

/-- A particle of the volume from `lo` to `hi` -/
def Inside {ρ : Type*} [LinearOrder ρ] (val : List Byte → ρ) (lo hi : ρ × ρ × ρ) (p : Particle) : Prop :=
  (lo.1 ≤ val p.x ∧ val p.x ≤ hi.1) ∧ (lo.2.1 ≤ val p.y ∧ val p.y ≤ hi.2.1) ∧ (lo.2.2 ≤ val p.z ∧ val p.z ≤ hi.2.2)

instance {ρ : Type*} [LinearOrder ρ] (val : List Byte → ρ) (lo hi : ρ × ρ × ρ) (p : Particle) : Decidable (Inside val lo hi p) := inferInstanceAs (Decidable (_ ∧ _))

/-- Each particle is in the cell which its coordinates give, where `cell x n` is the number of the cell which contains `x`, if there are `n` cells in a row. -/
def Placed {ρ : Type*} (val : List Byte → ρ) (cell : ρ → Int → Int) (Cs : Nat → Content) (n cells : Nat → Nat) (start : Nat → Nat → Nat) (nfile bits : Nat) : Prop :=
  ∀ c p, InCell Cs n cells start nfile c p →
    (∀ v ∈ [p.x, p.y, p.z], 0 ≤ cell (val v) (2 ^ bits) ∧ cell (val v) (2 ^ bits) < 2 ^ bits) ∧
    phKeyScalar (cell (val p.x) (2 ^ bits)) (cell (val p.y) (2 ^ bits)) (cell (val p.z) (2 ^ bits)) bits = .ok c

/-- The cells which contain parts of the volume -/
def boxFlags {ρ : Type*} (cell : ρ → Int → Int) (bits : Nat) (lo hi : ρ × ρ × ρ) : List Bool :=
  (List.range (8 ^ bits)).map fun c : Nat => match phInverseScalar (c : Int) bits with
    | .ok (i, j, k) => decide ((cell lo.1 (2 ^ bits) ≤ i ∧ i ≤ cell hi.1 (2 ^ bits)) ∧ (cell lo.2.1 (2 ^ bits) ≤ j ∧ j ≤ cell hi.2.1 (2 ^ bits)) ∧ (cell lo.2.2 (2 ^ bits) ≤ k ∧ k ≤ cell hi.2.2 (2 ^ bits)))
    | .error _ => false

/-- All particles of the snapshot, in the order of the cells -/
def allParticles (Cs : Nat → Content) (n cells : Nat → Nat) (start : Nat → Nat → Nat) (nfile : Nat) : List Particle :=
  (List.range nfile).flatMap fun f => (List.range (cells f)).flatMap fun j => cellParticles Cs n cells start f j

end Verif.FortranPrograms
