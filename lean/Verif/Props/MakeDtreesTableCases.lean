import Verif.Props.MakeDtreesTable

/-! Cases of C87: the trees of C57 in two files -/

namespace Verif

namespace ExTable

/-- Any sorting function -/
def lexsort (l : List (Int ×ₗ Int)) : List Nat := (List.range l.length).insertionSort (fun a b => l.getD a default ≤ l.getD b default)

theorem lexsort_isArgsort (l : List (Int ×ₗ Int)) : IsArgsort l (lexsort l) := by
  refine ⟨List.perm_insertionSort _ _, ?_⟩
  unfold fancy
  rw [Sorted, List.pairwise_map]
  exact List.pairwise_insertionSort _ _

/-- Masses are integers here. -/
def ops : TreeOps Int := ⟨intValue, intBytes 4, sortOrder, sortOrder, lexsort, fun n => List.replicate n 77⟩

theorem good : ops.Good := ⟨sortOrder_isArgsort, sortOrder_isArgsort, lexsort_isArgsort, fun n => List.length_replicate⟩

/-- The smallest and the largest number of four bytes -/
example : intBytes 4 (-2147483648) = [0, 0, 0, 128] ∧ intValue [0, 0, 0, 128] = -2147483648 ∧ intValue [255, 255, 255, 127] = 2147483647 := by decide +kernel

def ints (t : SqlDType) (l : List Int) : Arr := newArray t (l.map (intBytes t.itemsize))

def file (k n : Nat) : TreeFile where
  numberOfFiles := 2
  haloTrees := [("descendantIndex".toList, ints npInt32 (slice exDesc k n)), ("nodeIndex".toList, ints npInt32 (slice exNode k n)), ("nodeMass".toList, ints npFloat32 (slice exMass k n)),
    ("position".toList, ⟨npFloat32, [3], (List.range n).map (fun i => [intBytes 4 (k + i), intBytes 4 1, intBytes 4 2])⟩), ("snapshotNumber".toList, ints npInt32 (slice exSnap k n))]

def files : Nat → Option TreeFile
  | 0 => some (file 0 4)
  | 1 => some (file 4 3)
  | _ => none

theorem input : TreeInput files (file 0 4) 7 (ints npInt32 exNode) (ints npInt32 exDesc) (ints npInt32 exSnap) (ints npFloat32 exMass) where
  first := rfl
  names := by decide +kernel
  later := by
    intro i h0 h1
    obtain rfl : i = 1 := by have : (file 0 4).numberOfFiles = 2 := rfl; omega
    refine ⟨file 4 3, rfl, by decide +kernel, ?_⟩
    intro e he
    simp only [file, List.mem_cons, List.not_mem_nil, or_false] at he
    rcases he with rfl | rfl | rfl | rfl | rfl
    · exact ⟨ints npInt32 (slice exDesc 0 4), by decide +kernel, rfl, rfl⟩
    · exact ⟨ints npInt32 (slice exNode 0 4), by decide +kernel, rfl, rfl⟩
    · exact ⟨ints npFloat32 (slice exMass 0 4), by decide +kernel, rfl, rfl⟩
    · exact ⟨⟨npFloat32, [3], (List.range 4).map (fun i => [intBytes 4 (0 + i), intBytes 4 1, intBytes 4 2])⟩, by decide +kernel, rfl, rfl⟩
    · exact ⟨ints npInt32 (slice exSnap 0 4), by decide +kernel, rfl, rfl⟩
  arrays := by
    unfold TableArray
    decide +kernel
  node := ⟨by decide +kernel, by decide⟩
  desc := ⟨by decide +kernel, by decide⟩
  snap := ⟨by decide +kernel, by decide⟩
  mass := ⟨by decide +kernel, by decide⟩
  unique := by decide +kernel

theorem node_eq : (ints npInt32 exNode).elements.map intValue = exNode := by decide +kernel
theorem desc_eq : (ints npInt32 exDesc).elements.map intValue = exDesc := by decide +kernel
theorem snap_eq : (ints npInt32 exSnap).elements.map intValue = exSnap := by decide +kernel

theorem forward : Forward ((ints npInt32 exNode).elements.map intValue) ((ints npInt32 exDesc).elements.map intValue) ((ints npInt32 exSnap).elements.map intValue) := by
  rw [node_eq, desc_eq, snap_eq]
  exact exForward

/-- The hypotheses of `C87_table` hold. -/
example := C87_table good input forward (by unfold SqlSupported; decide +kernel) (by decide +kernel) (by decide +kernel) (by decide) (fun v => length_intBytes 4 v) (fun _ _ => []) "Trees".toList

/-- Numbers in the table: eleven columns of four bytes -/
def cells (t : TableOut) : List (List Int) :=
  match t.dataFile with
  | none => []
  | some file => (List.range 7).map (fun r => (List.range 11).map (fun j => intValue (slice file (44 * r + 4 * j) 4)))

example : cells (makeDtreesTable ops (fun _ _ => [1]) "Trees".toList files 100) =
    [[20, 50, 1, 0, 1, 2, 1, 1, 6, 6, 6], [10, 20, 2, 1, 1, 2, 2, 3, 5, 6, 6], [-1, 10, 9, 2, 1, 2, 3, 22, 1, 3, 6], [99, 70, 2, 3, 1, 2, 3, 2, 7, 7, 7], [10, 30, 8, 4, 1, 2, 2, 13, 2, 3, 3],
     [30, 60, 5, 5, 1, 2, 1, 5, 3, 3, 3], [10, 40, 3, 6, 1, 2, 2, 3, 4, 4, 4]] := by decide +kernel

example : (makeDtreesTable ops (fun _ _ => [1]) "Trees".toList files 100).script = .ok
    ("create table Trees (\n  descendantIndex integer NOT NULL,\n  nodeIndex integer NOT NULL,\n  nodeMass real NOT NULL,\n  position_x real NOT NULL,\n  position_y real NOT NULL,\n  position_z real NOT NULL,\n" ++
     "  snapshotNumber integer NOT NULL,\n  mBranch real NOT NULL,\n  depthFirst integer NOT NULL,\n  endMainBranch integer NOT NULL,\n  lastProgenitor integer NOT NULL,\n)\n").toList := by decide +kernel

/-- Without masses -/
def fewFiles : Nat → Option TreeFile
  | 0 => some ⟨1, [("descendantIndex".toList, ints npInt32 exDesc), ("nodeIndex".toList, ints npInt32 exNode), ("snapshotNumber".toList, ints npInt32 exSnap)]⟩
  | _ => none

example : makeDtreesTable ops (fun _ _ => []) "Trees".toList fewFiles 5 = ⟨none, .error .keyError⟩ :=
  C87_missing (f0 := ⟨1, [("descendantIndex".toList, ints npInt32 exDesc), ("nodeIndex".toList, ints npInt32 exNode), ("snapshotNumber".toList, ints npInt32 exSnap)]⟩) rfl (by decide +kernel)
    (fun i h0 h1 => absurd h1 (by simp only [not_lt]; omega)) ⟨"nodeMass".toList, by decide, by decide +kernel⟩ _ _ _

/-- 20 is a progenitor of its progenitor 50. -/
def cycle : List Int := [20, 50, -1, 99, 10, 30, 10]

def cycleFiles : Nat → Option TreeFile
  | 0 => some ⟨1, [("descendantIndex".toList, ints npInt32 cycle), ("nodeIndex".toList, ints npInt32 exNode), ("nodeMass".toList, ints npFloat32 exMass), ("snapshotNumber".toList, ints npInt32 exSnap)]⟩
  | _ => none

theorem cycleInput : TreeInput cycleFiles ⟨1, [("descendantIndex".toList, ints npInt32 cycle), ("nodeIndex".toList, ints npInt32 exNode), ("nodeMass".toList, ints npFloat32 exMass), ("snapshotNumber".toList, ints npInt32 exSnap)]⟩
    7 (ints npInt32 exNode) (ints npInt32 cycle) (ints npInt32 exSnap) (ints npFloat32 exMass) where
  first := rfl
  names := by decide +kernel
  later := fun i h0 h1 => absurd h1 (by simp only [not_lt]; omega)
  arrays := by
    unfold TableArray
    decide +kernel
  node := ⟨by decide +kernel, by decide⟩
  desc := ⟨by decide +kernel, by decide⟩
  snap := ⟨by decide +kernel, by decide⟩
  mass := ⟨by decide +kernel, by decide⟩
  unique := by decide +kernel

example : Returns (fun fuel => .ok (makeDtreesTable ops (fun _ _ => []) "Trees".toList cycleFiles fuel)) (.ok ⟨none, .error .assertion⟩) := by
  refine C87_cycle good cycleInput ?_ _ _
  intro h
  have e1 : (ints npInt32 exNode).elements.map intValue = exNode := node_eq
  have e2 : (ints npInt32 cycle).elements.map intValue = cycle := by decide +kernel
  rw [e1, e2] at h
  exact h 0 (Relation.TransGen.tail (Relation.TransGen.single (⟨20, rfl, rfl⟩ : IsDesc exNode cycle 0 1)) ⟨50, rfl, rfl⟩)

end ExTable

end Verif
