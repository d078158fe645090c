import Verif.Model.SanityChecks
import Verif.Props.Peano

/-! What it means that a catalogue passes the sanity checks, in terms of its entries. -/

namespace Verif

def InInt32 (x : Int) : Prop := -2147483648 ≤ x ∧ x < 2147483648

instance (x : Int) : Decidable (InInt32 x) := inferInstanceAs (Decidable (_ ∧ _))

/-- A range of items starts at `o`, has `n` items, and ends before `total`. The end is computed with 32 bits: an end which
does not fit in 32 bits is not noticed. -/
def EndsBefore32 (o n total : Int) : Prop := 0 ≤ o ∧ (o + n ≤ total ∨ 2147483648 ≤ o + n)

/-- L-Gadget2 group tables: group `i + 1` follows group `i`; offsets are indexes of particles; the sizes add up. -/
structure GroupTab2.Sane (t : GroupTab2) : Prop where
  total : t.len.sum = t.nids
  range : ∀ o ∈ t.off, 0 ≤ o ∧ o < t.nids
  next : ∀ (i : Nat) (a b n : Int), t.off[i]? = some a → t.off[i + 1]? = some b → t.len[i]? = some n → b = a + n

/-- L-Gadget2 subhalo tables. Subhalo `j` belongs to halo `h` exactly if it is among the `NsubPerHalo[h]` subhalos which follow
those of the halos before. -/
structure SubTab2.Sane (t : SubTab2) : Prop where
  counts : ∀ n ∈ t.nsubperhalo, 0 ≤ n
  total : t.nsubperhalo.sum = t.nsub
  first : ∀ (i : Nat) (n f : Int), t.nsubperhalo[i]? = some n → t.firstsub[i]? = some f → 0 < n → 0 ≤ f ∧ f < t.nsub
  particles : ∀ (i : Nat) (o n : Int), t.suboffset[i]? = some o → t.sublen[i]? = some n → EndsBefore32 o n t.nids
  parent : ∀ (j : Nat) (p : Int), t.subparent[j]? = some p → ∃ h : Nat, p = h ∧ h < t.nsubperhalo.length ∧
    (t.nsubperhalo.take h).sum ≤ j ∧ (j : Int) < (t.nsubperhalo.take (h + 1)).sum
  finite : ∀ data ∈ t.finite, ∀ x ∈ data, ∃ q, x = .fin q

/-- Particle IDs of the Millennium simulation: hash key above 34 bits, ID below; at most one particle has ID zero. -/
structure SaneIDs2 (ids : List Nat) : Prop where
  key : ∀ i ∈ ids, i / 2 ^ 34 < 2 ^ 24
  id : ∀ i ∈ ids, i % 2 ^ 34 ≤ 2160 ^ 3
  zero : ∀ a b x y : Nat, ids[a]? = some x → ids[b]? = some y → x % 2 ^ 34 = 0 → y % 2 ^ 34 = 0 → a = b

/-- L-Gadget3 and P-Gadget3 subhalo tables. `wide` if the ends of groups are computed with 64 bits. -/
structure SubTab3.Sane (wide : Bool) (groupProps subProps : List String) (t : SubTab3) : Prop where
  used : t.all_used = true
  header : 0 ≤ t.totnids ∧ 0 ≤ t.totngroups ∧ 0 ≤ t.totnsubgroups
  lengths : (∀ n ∈ t.grouplen, 0 ≤ n) ∧ (∀ n ∈ t.nsubs, 0 ≤ n) ∧ (∀ n ∈ t.sublen, 0 ≤ n)
  groups : t.totnids < 2 ^ 31 → ∀ (i : Nat) (o n : Int), t.groupoffset[i]? = some o → t.grouplen[i]? = some n →
    if wide then 0 ≤ o ∧ o + n ≤ t.totnids else EndsBefore32 o n t.totnids
  first : ∀ (i : Nat) (f n : Int), t.firstsub[i]? = some f → t.nsubs[i]? = some n → 0 < n → EndsBefore32 f n t.totnsubgroups
  subs : t.totnids < 2 ^ 31 → ∀ (i : Nat) (o n : Int), t.suboffset[i]? = some o → t.sublen[i]? = some n → EndsBefore32 o n t.totnids
  grnr : ∀ g ∈ t.subgrnr, 0 ≤ g ∧ g < t.totngroups
  order : t.subgrnr.Pairwise (· ≤ ·)
  groupProps : ∀ name ∈ groupProps, ∀ x ∈ t.prop name, ∃ q : ℚ, x = .fin q ∧ 0 ≤ q
  subProps : ∀ name ∈ subProps, ∀ x ∈ t.prop name, ∃ q : ℚ, x = .fin q ∧
    (name ∈ ["SubMass", "SubVelDisp", "SubVmax", "SubRVmax", "SubHalfMass"] → 0 ≤ q)

/-- Arrays with one element for each group or each subhalo, integers as stored in the file -/
structure SubTab3.WellFormed (wide : Bool) (t : SubTab3) : Prop where
  len1 : t.groupoffset.length = t.grouplen.length
  len2 : t.firstsub.length = t.nsubs.length
  len3 : t.suboffset.length = t.sublen.length
  int1 : ∀ x ∈ t.grouplen, InInt32 x
  int2 : ∀ x ∈ t.groupoffset, if wide then 0 ≤ x else InInt32 x
  int3 : ∀ x ∈ t.nsubs, InInt32 x
  int4 : ∀ x ∈ t.firstsub, InInt32 x
  int5 : ∀ x ∈ t.sublen, InInt32 x
  int6 : ∀ x ∈ t.suboffset, InInt32 x

/-- P-Gadget3 group tables with finite masses: sizes and masses of the types add up (masses to one part in 100000 if the mass is
positive), and groups follow each other. -/
structure GroupTab3.Sane (t : GroupTab3) : Prop where
  used : t.all_used = true
  types : ∀ (i : Nat) (l : List Int) (n : Int), t.lenType[i]? = some l → t.len[i]? = some n → l.sum = n
  next : t.nids > 1 → ∀ (i : Nat) (a b n : Int), t.off[i]? = some a → t.off[i + 1]? = some b → t.len[i]? = some n → b = a + n
  mass : ∀ (i : Nat) (l : List ℚ) (m : ℚ), t.massType[i]? = some (l.map Flt.fin) → t.mass[i]? = some (.fin m) →
    (0 < m → |l.sum - m| ≤ m / 100000) ∧ (m = 0 → l.sum = 0)

/-- The hash table of a file with `n` particles: `blockid` has the index of the first particle of each cell from `first` to `last`. -/
structure BlockTable (n : Nat) (first last : Int) (blockid : List Int) : Prop where
  length : (blockid.length : Int) = last - first + 1
  start : blockid[0]? = some 0
  sorted : blockid.Pairwise (· ≤ ·)
  le : ∀ b ∈ blockid, b ≤ n

/-- Particle `k` of a file is in cell `c` according to the hash table. -/
def InBlock (first : Int) (blockid : List Int) (k : Nat) (c : Int) : Prop :=
  ∃ i : Nat, c = first + i ∧ (∃ b, blockid[i]? = some b ∧ b ≤ k) ∧ ∀ b, blockid[i + 1]? = some b → (k : Int) < b

/-- Some periodic image of coordinate `x` is in cell `i`, or beyond its faces by at most 0.1 per cent of half a cell. -/
def NearCell (boxsize cellsize x : ℚ) (i : Int) : Prop :=
  ∃ m : Int, |x + m * boxsize - (i * cellsize + cellsize / 2)| ≤ 1001 / 1000 * (cellsize / 2)

/-- Snapshot files of the Millennium simulation with a hash table with `8^bits` cells -/
structure SnapCheck.Sane (t : SnapCheck) (bits : Nat) : Prop where
  pos : ∀ p ∈ t.pos, ∃ x y z : ℚ, p = (.fin x, .fin y, .fin z) ∧ (0 ≤ x ∧ x ≤ t.boxsize) ∧ (0 ≤ y ∧ y ≤ t.boxsize) ∧ (0 ≤ z ∧ z ≤ t.boxsize)
  vel : ∀ p ∈ t.vel, ∃ x y z : ℚ, p = (.fin x, .fin y, .fin z) ∧ |x| ≤ 1000000 ∧ |y| ≤ 1000000 ∧ |z| ≤ 1000000
  ids : ∀ i ∈ t.ids, i ≤ t.total.getD 1 0 + t.total.getD 2 0 * 2 ^ 32
  cells : ∀ (k : Nat) (x y z : ℚ) (c : Int), t.pos[k]? = some (.fin x, .fin y, .fin z) → InBlock t.first t.blockid k c →
    ∃ i j l : Int, InGrid bits (i, j, l) ∧ phKeyScalar i j l bits = .ok c ∧
      NearCell t.boxsize (t.boxsize / 2 ^ bits) x i ∧ NearCell t.boxsize (t.boxsize / 2 ^ bits) y j ∧ NearCell t.boxsize (t.boxsize / 2 ^ bits) z l

end Verif
