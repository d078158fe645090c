import Verif.Model.GroupSnapshot

/-! Particles of groups in snapshots of many files. -/

namespace Verif

variable {α : Type*}

/-- The elements at positions from `a` to before `b`, which may be outside the list -/
def between (l : List α) (a b : Int) : List α := (l.zipIdx.filter (fun e => a ≤ (e.2 : Int) ∧ (e.2 : Int) < b)).map Prod.fst

/-- One array of one particle type in the first `m` files, one after the other -/
def particlesIn (files : Nat → SnapData α) (m : Nat) (itype : Nat) (name : Name) : List α := (List.range m).flatMap (fun i => ((files i).data itype name).getD [])

/-- The number of particles in the header is the length of the array, which may be missing if there are none. -/
def SnapData.Has (f : SnapData α) (itype : Nat) (name : Name) : Prop :=
  f.npart.getD itype 0 = (((f.data itype name).getD []).length : Int) ∧ (f.data itype name = none → (f.npart.getD itype 0) = 0)

/-- Number of particles of a type in the first `m` files -/
def particlesBefore (files : Nat → SnapData α) (itype m : Nat) : Int := ((List.range m).map (fun i => (files i).npart.getD itype 0)).sum

/-- Sum of the lengths of the groups before group `i` -/
def lengthsBefore (lens : List (List Int)) (itype i : Nat) : Int := ((lens.take i).map (fun r => r.getD itype 0)).sum

/-- The arrays returned for each type by the Gadget-4 reader -/
def groupArrays : List Name := ["Coordinates".toList, "Velocities".toList, "ParticleIDs".toList]

/-- Arrays without elements are left out. -/
def presentArrays (w : Name → List α) : List (Name × List α) := (groupArrays.filter (fun n => (w n).length ≠ 0)).map (fun n => (n, w n))

/-- The first files which hold the last particle of each type or are followed by it: no file after these is read. -/
def StopsAfter (files : Nat → SnapData α) (last : Nat → Int) (num m : Nat) : Prop :=
  m ≤ num ∧ (m = num ∨ 0 < m ∧ ∀ t < 6, last t ≤ particlesBefore files t m) ∧ ∀ j, 0 < j → j < m → ∃ t < 6, particlesBefore files t j < last t

/-- The number of the subhalo of each particle of a group: subhalos `first`, `first + 1`, ... have the given lengths and lie one after the other at the start of the group, and particles after them are in no subhalo. -/
def IsSubNr (lens : List Int) (first : Int) (out : List Int) : Prop :=
  (∀ k < lens.length, ∀ p : Nat, (lens.take k).sum ≤ (p : Int) → (p : Int) < (lens.take (k + 1)).sum → out[p]? = some (first + k)) ∧
  ∀ p < out.length, lens.sum ≤ (p : Int) → out[p]? = some (-1)

end Verif
