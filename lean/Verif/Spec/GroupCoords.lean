import Verif.Spec.GroupLib
import Verif.Model.GroupCoords

/-! The particles of a group of the Millennium simulation and their positions -/

namespace Verif.GroupLib

open ReadParticles ReadRegion

/-- The 34 low bits of an ID are the number of a particle. -/
def lowId (id : Nat) : Nat := id % 2 ^ 34

/-- The bits above are the cell of the particle. -/
def idCell (id : Nat) : Nat := id / 2 ^ 34

/-- The number of a particle -/
def lowOf (p : Particle) : Nat := lowId (leNat p.id)

/-- File `f` of the IDs of groups has `ni` IDs and is stored in the byte order of the machine. -/
structure IdsStored (sys : Bool) (fs : ByteFS) (dir : Name) (num f : Nat) (C : Content) (ni : Nat) : Prop where
  fits : (Files.lgadget2SubIDs 8 ni).Fits C
  name : (groupFile "group_ids".toList dir num f).length ≤ 999
  stored : ∃ rest, fs (groupFile "group_ids".toList dir num f) = some ((Files.lgadget2SubIDs 8 ni).bytes (!sys) C ++ rest)

/-- The IDs `o`, ..., `o + len - 1` of a file -/
def idsOf (C : Content) (o len : Nat) : List Nat := (slice (C "GroupIDs".toList) o len).map leNat

/-- Flags of the cells in which the particles with some IDs are -/
def cellFlags (size : Nat) (ids : List Nat) : List Bool := (List.range size).map (fun c => decide (c ∈ ids.map idCell))

/-- Positions `ys` are relative to the centre of mass `c` of points `xs` in a periodic box: they add up to zero, `y + c` is a periodic image of `x`, and of the
images those are taken which are nearest to the first point. -/
structure Centred (box : Rat) (xs ys : List Rat) (c : Rat) : Prop where
  length : ys.length = xs.length
  mean : ys.sum = 0
  inside : 0 ≤ c ∧ c < box
  image : ∀ (i : Nat) (x y : Rat), xs[i]? = some x → ys[i]? = some y → ∃ k : Int, y + c = x + k * box
  near : ∀ y0 ∈ ys.head?, ∀ y ∈ ys, -(box / 2) ≤ y - y0 ∧ y - y0 ≤ box / 2

end Verif.GroupLib
