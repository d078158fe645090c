import Verif.Spec.FormatLayouts

/-! Layout of Gadget snapshots in binary format 1. -/

namespace Verif.Files

/-- A quantity: its name, shape for one particle, bytes per number, and the particle types which have it -/
structure Quantity where
  name : Name
  shape : List Nat
  width : Nat
  types : Nat → Bool

/-- The first 192 bytes of the header -/
def gadgetHeader : List Row :=
  [head 4 [6] "NumPart_ThisFile", head 8 [6] "MassTable", head 8 [] "Time", head 8 [] "Redshift", head 4 [] "Flag_Sfr", head 4 [] "Flag_Feedback", head 4 [6] "NumPart_Total",
    head 4 [] "Flag_Cooling", head 4 [] "NumFilesPerSnapshot", head 8 [] "BoxSize", head 8 [] "Omega0", head 8 [] "OmegaLambda", head 8 [] "HubbleParam",
    head 4 [] "Flag_StellarAge", head 4 [] "Flag_Metals", head 4 [6] "NumPart_Total_HighWord"]

/-- A floating point number in double precision is zero: all bits are zero, apart from the sign. -/
def zeroDouble (v : List Byte) : Prop := leNat v = 0 ∨ leNat v = 2 ^ 63

instance (v : List Byte) : Decidable (zeroDouble v) := by unfold zeroDouble; infer_instance

/-- The quantities which are in any snapshot; types of particles with individual masses have zero in the table of masses. -/
def standardQuantities (C : Content) (width : String → Nat) : List Quantity :=
  [⟨"Coordinates".toList, [3], width "Coordinates", fun _ => true⟩, ⟨"Velocities".toList, [3], width "Velocities", fun _ => true⟩, ⟨"ParticleIDs".toList, [], width "ParticleIDs", fun _ => true⟩,
    ⟨"Masses".toList, [], width "Masses", fun i => decide (zeroDouble ((C "Header/MassTable".toList).getD i []))⟩,
    ⟨"InternalEnergy".toList, [], width "InternalEnergy", fun i => i = 0⟩, ⟨"Density".toList, [], width "Density", fun i => i = 0⟩, ⟨"SmoothingLength".toList, [], width "SmoothingLength", fun i => i = 0⟩]

/-- Name of a quantity for particles of one type -/
def partType (i : Nat) (name : Name) : Name := "PartType".toList ++ (toString i).toList ++ "/".toList ++ name

/-- Arrays of a quantity: one for each type which has it and of which there are particles -/
def Quantity.rows (npart : Nat → Nat) (q : Quantity) : List Row :=
  ((List.range 6).filter (fun i => q.types i = true ∧ npart i ≠ 0)).map (fun i => ⟨partType i q.name, q.width, npart i :: q.shape, true, none⟩)

/-- Quantities which no particle has are left out; the others are one record each. -/
def gadgetBlocks (npart : Nat → Nat) (qs : List Quantity) : Layout := (qs.filter (fun q => q.rows npart ≠ [])).map (fun q => ⟨true, q.rows npart⟩)

/-- The file: header of 256 bytes in a record, then the records of the data -/
def gadgetBytes (big : Bool) (C : Content) (fill : List Byte) (blocks : Layout) : List Byte :=
  markerBytes big 256 ++ Section.payload big C ⟨true, gadgetHeader⟩ ++ fill ++ markerBytes big 256 ++ blocks.bytes big C

end Verif.Files
