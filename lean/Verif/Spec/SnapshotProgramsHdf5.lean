import Verif.Spec.SnapshotPrograms

/-! Snapshot files of the Millennium-WMAP7 simulation with dark matter only -/

namespace Verif.SnapshotPrograms

open FortranReaders Hdf5

/-- A file with `n` particles; the IDs have a sign or not, and so have the numbers of particles. -/
structure Mr7File (f : H5File) (n : Nat) (signed : Bool) (pos vel ids : List (List Byte)) : Prop where
  wf : f.WF
  numbers : ∃ s counts, f.attr ["Header".toList] "NumPart_ThisFile".toList = some ⟨⟨.integer s, 4⟩, [6], counts⟩ ∧ IsArray 4 6 counts ∧ leNat (counts.getD 1 []) = n
  size : n < 2 ^ 31
  box : ∃ d v, f.attr ["Header".toList] "BoxSize".toList = some ⟨⟨.float, 8⟩, d, [v]⟩ ∧ v.length = 8
  positions : ∃ m, f.dset "PartType1/Coordinates".toList = some ⟨⟨.float, 4⟩, [3, n], m, pos⟩ ∧ Dset.WF ⟨⟨.float, 4⟩, [3, n], m, pos⟩
  velocities : ∃ m, f.dset "PartType1/Velocities".toList = some ⟨⟨.float, 4⟩, [3, n], m, vel⟩ ∧ Dset.WF ⟨⟨.float, 4⟩, [3, n], m, vel⟩
  ids : ∃ m, f.dset "PartType1/ParticleIDs".toList = some ⟨⟨.integer signed, 8⟩, [n], m, ids⟩ ∧ Dset.WF ⟨⟨.integer signed, 8⟩, [n], m, ids⟩

/-- The name of a file which a program is given: not empty, without blanks at the beginning or the end -/
structure FileArg (arg : Name) : Prop where
  ne : arg ≠ []
  first : arg.head? ≠ some ' '
  last : NoBlank arg
  length : arg.length < 500

end Verif.SnapshotPrograms
