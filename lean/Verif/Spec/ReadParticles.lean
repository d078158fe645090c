import Verif.Spec.FormatLayouts

/-! What is in a file of a Millennium snapshot -/

namespace Verif.ReadParticles

/-- The contents `C` are those of a file with `n` particles and `cells` cells, and the header says so. -/
structure SnapshotFile (C : Content) (n cells : Nat) : Prop where
  fits : (Files.lgadget2Snapshot n cells).Fits C
  count : int32Value ((C "Header/NumPart_ThisFile".toList).getD 1 []) = n

/-- The bytes of the file, and anything after it -/
def snapshotBytes (C : Content) (n cells : Nat) (big : Bool) (rest : List Byte) : List Byte := (Files.lgadget2Snapshot n cells).bytes big C ++ rest

/-- Component `d` of the vectors of the particles `a`, ..., `a + k - 1`, counted from zero -/
def component (C : Content) (name : String) (a k d : Nat) : List (List Byte) :=
  (List.range k).map (fun i => (C name.toList).getD (3 * (a + i) + d) [])

end Verif.ReadParticles
