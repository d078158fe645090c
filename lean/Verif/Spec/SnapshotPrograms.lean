import Verif.Spec.GadgetSnapshot
import Verif.Spec.FortranReaders
import Verif.Spec.Hdf5Files
import Verif.Model.SnapshotPrograms

/-!
Snapshot files of the Millennium-2 and Millennium-WMAP7 simulations with dark matter only, and what programs should print for them. Only the type of the output is taken from the model.
-/

namespace Verif.SnapshotPrograms

open Files

/-- Positions, velocities and IDs of `n` particles -/
def m2Rows (n : Nat) : List Row := [vec 4 n 3 "PartType1/Coordinates", vec 4 n 3 "PartType1/Velocities", col 8 n "PartType1/ParticleIDs"]

/-- One record each, or none if there are no particles -/
def m2Blocks (n : Nat) : Layout := if n = 0 then [] else (m2Rows n).map (fun r => ⟨true, [r]⟩)

/-- A file with `n` particles -/
structure M2File (C : Content) (n : Nat) (fill : List Byte) : Prop where
  header : ∀ r ∈ gadgetHeader, r.Fits C
  fill : fill.length = 64
  numbers : ∀ i < 6, int32Value ((C "Header/NumPart_ThisFile".toList).getD i []) = if i = 1 then (n : Int) else 0
  data : ∀ r ∈ m2Rows n, r.Fits C
  size : 12 * n < 2147483648

def m2Bytes (big : Bool) (C : Content) (n : Nat) (fill : List Byte) : List Byte := gadgetBytes big C fill (m2Blocks n)

/-- The lines for `n` particles with arrays of their positions, velocities and IDs -/
def particleLines (text : Nat → Name) (n : Nat) (pos vel ids : List (List Byte)) : List Line :=
  (List.range n).map (fun i => ⟨(pos.drop (3 * i)).take 3, (vel.drop (3 * i)).take 3, text (leNat (ids.getD i []))⟩)

/-- The lines for the particles in a Millennium-2 file -/
def m2Lines (text : Nat → Name) (C : Content) (n : Nat) : List Line :=
  particleLines text n (C "PartType1/Coordinates".toList) (C "PartType1/Velocities".toList) (C "PartType1/ParticleIDs".toList)

/-- A number with blanks before it, in 16 columns -/
def column16 (x : Nat) : Name := List.replicate (16 - (digitsOf x).length) ' ' ++ digitsOf x

/-- All IDs are less than a number. -/
def IdsBelow (bound : Nat) (ids : List (List Byte)) : Prop := ∀ v ∈ ids, leNat v < bound

/-- The total number of particles of type one: the low and the high 32 bits -/
def m2Total (C : Content) : Nat := leNat ((C "Header/NumPart_Total".toList).getD 1 []) + 2 ^ 32 * leNat ((C "Header/NumPart_Total_HighWord".toList).getD 1 [])

end Verif.SnapshotPrograms
