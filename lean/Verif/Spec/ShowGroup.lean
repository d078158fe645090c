import Verif.Spec.GroupCoords
import Verif.Model.ShowGroup

/-! What show_group.pro should show -/

namespace Verif.ShowGroup

open GroupLib ReadParticles ReadRegion

/-- Number of particles of group `g` of file `f` -/
def lenOf (Gs : Nat → Content) (f g : Nat) : Int := int32Value ((Gs f "GroupLen".toList).getD g [])

/-- The particles of group `g` of file `f` can be found: it has particles, the file of IDs has them, the snapshot has particles with these IDs in the cells of the IDs, and these are inside of the box. -/
structure Findable (sys : Bool) (fs : ByteFS) (dir : Name) (num : Nat) (Cs : Nat → Content) (n cells : Nat → Nat) (start : Nat → Nat → Nat) (nfile : Nat) (Gs : Nat → Content) (val4 : List Byte → Rat) (box : Rat)
    (Is : Nat → Content) (ni : Nat → Nat) (f g len o : Nat) : Prop where
  number : lenOf Gs f g = len
  pos : 0 < len
  offset : int32Value ((Gs f "GroupOffset".toList).getD g []) = o
  ids : IdsStored sys fs dir num f (Is f) (ni f)
  room : o + len ≤ ni f
  inTable : ∀ id ∈ idsOf (Is f) o len, idCell id < pre cells nfile
  size : (region Cs n cells start nfile (cellFlags (pre cells nfile) (idsOf (Is f) o len))).length < 2 ^ 29
  found : ∀ id ∈ idsOf (Is f) o len, ∃ p ∈ region Cs n cells start nfile (cellFlags (pre cells nfile) (idsOf (Is f) o len)), lowOf p = lowId id
  inside : ∀ p ∈ region Cs n cells start nfile (cellFlags (pre cells nfile) (idsOf (Is f) o len)), (0 ≤ val4 p.x ∧ val4 p.x ≤ box) ∧ (0 ≤ val4 p.y ∧ val4 p.y ≤ box) ∧ (0 ≤ val4 p.z ∧ val4 p.z ≤ box)

/-- `Pos` are the positions of the particles of the snapshot with the IDs of the group, relative to their centre of mass. -/
def ShowsIds (R : List Particle) (val4 : List Byte → Rat) (box : Rat) (ids : List Nat) (s : Shown) : Prop :=
  ∃ ps : List Particle, (ps.map lowOf).Perm (ids.map lowId) ∧ (∀ p ∈ ps, p ∈ R) ∧
    Centred box (ps.map fun p => val4 p.x) (s.pos.map (·.1)) s.centre.1 ∧ Centred box (ps.map fun p => val4 p.y) (s.pos.map (·.2.1)) s.centre.2.1 ∧
    Centred box (ps.map fun p => val4 p.z) (s.pos.map (·.2.2)) s.centre.2.2

/-- Group `g` of file `f` is at place `k` (from zero) when groups are ordered by their numbers of particles: at most `k` groups have more particles, and more than `k` groups have at least as many. -/
def AtPlace (Gs : Nat → Content) (ng : Nat → Nat) (ngfile f g k : Nat) : Prop :=
  (allGroups Gs ng ngfile).countP (fun c => decide (lenOf Gs f g < c.len)) ≤ k ∧ k < (allGroups Gs ng ngfile).countP (fun c => decide (lenOf Gs f g ≤ c.len))

end Verif.ShowGroup
