import Verif.Props.GroupCatalogue

/-! Cases for C84: a catalogue of two files. -/

namespace Verif.ExCatalogue

/-- One group and no subhalos, big endian, with other bytes at the end -/
def file0 : CatFile := ⟨sampleContent (Files.gadget4SubTab 8 4 1 0) [("Ngroups", 1), ("Nsubgroups", 0), ("flag_dp", 0), ("NFiles", 2)], true, [1, 2, 3], 1, 0⟩

/-- Two groups and a subhalo, little endian -/
def file1 : CatFile := ⟨sampleContent (Files.gadget4SubTab 8 4 2 1) [("Ngroups", 2), ("Nsubgroups", 1), ("flag_dp", 0), ("NFiles", 2)], false, [], 2, 1⟩

def fileName (stem : String) (i : Nat) : Name := ("/data/groups_063/" ++ stem ++ "063.").toList ++ [Nat.digitChar i]

example : catalogueFile "fof_subhalo_tab_" "/data".toList 63 1 = fileName "fof_subhalo_tab_" 1 := by decide +kernel

def fs : ByteFS := fun name =>
  if name = fileName "fof_subhalo_tab_" 0 then some ((Files.gadget4SubTab 8 4 1 0).bytes true file0.content ++ [1, 2, 3])
  else if name = fileName "fof_subhalo_tab_" 1 then some ((Files.gadget4SubTab 8 4 2 1).bytes false file1.content)
  else none

theorem stored : Stored fs (Files.gadget4SubTab 8 4) "fof_subhalo_tab_" "/data".toList 63 [file0, file1] := by
  intro i c h
  match i, h with
  | 0, h => cases h; decide +kernel
  | 1, h => cases h; decide +kernel
  | (i + 2), h => simp at h

theorem files_ok : ∀ c ∈ [file0, file1], Gadget4File 8 4 c := by
  intro c hc
  simp only [List.mem_cons, List.not_mem_nil, or_false] at hc
  rcases hc with rfl | rfl
  · exact ⟨by decide +kernel, by decide +kernel, by decide +kernel, Layout.fits_of _ _ (by decide +kernel)⟩
  · exact ⟨by decide +kernel, by decide +kernel, by decide +kernel, Layout.fits_of _ _ (by decide +kernel)⟩

def names : List Name := ["SubMostBoundID".toList, "GroupPos".toList]

def noRows : TypedArray Nat (List (List Byte)) → Except Err (TypedArray Nat (List (List Byte))) := fun _ => .error .valueError

/-- All hypotheses hold for two arrays, one of which is in the second file only. -/
example : ∃ d, gadget4Catalogue true fs 8 noRows "/data".toList 63 names = .ok d ∧ d.map Prod.fst = names ∧
    ∀ n ∈ names, ∃ a, d.get n = some (.array a) ∧ IsCatalogue [file0, file1] (n == "SubMostBoundID".toList) n (if n = "SubMostBoundID".toList then 8 else 4) (if n = "SubMostBoundID".toList then [] else [3]) a :=
  C84_gadget4 (s := true) (fs := fs) noRows 63 _ _ _ (Or.inr rfl) (by decide +kernel) stored files_ok (by simp) (by intro c h; cases h; decide +kernel) (by decide +kernel)
    (by
      intro n hn
      rw [gadget4_isArray]
      simp only [names, List.mem_cons, List.not_mem_nil, or_false] at hn
      rcases hn with rfl | rfl <;> decide +kernel)
    (by
      intro n hn
      refine ⟨file1, by simp, ?_⟩
      simp only [names, List.mem_cons, List.not_mem_nil, or_false] at hn
      rcases hn with rfl | rfl <;> decide +kernel)

/-- The result -/
def rowsOf (r : Except Err (RmDict Name (TypedArray Nat (List (List Byte))))) (n : Name) : Option (Nat × List Nat × List (List Nat)) :=
  match r with
  | .error _ => none
  | .ok d => match d.get n with
    | some (.array a) => some (a.dtype, a.dims, a.rows.map (fun r => r.map leNat))
    | _ => none

example : rowsOf (gadget4Catalogue true fs 8 noRows "/data".toList 63 names) "SubMostBoundID".toList = some (8, [], [[14001]]) := by decide +kernel
example : rowsOf (gadget4Catalogue false fs 8 noRows "/data".toList 63 names) "GroupPos".toList = some (4, [3], [[8001, 8008, 8015], [8001, 8008, 8015], [8022, 8029, 8036]]) := by decide +kernel

/-- Only the first file, which has no subhalos and says that there are two files -/
def fs' : ByteFS := fun name => if name = fileName "fof_subhalo_tab_" 0 then fs name else none

def errorOf {α : Type*} (r : Except Err α) : Option Err :=
  match r with
  | .error e => some e
  | .ok _ => none

example : errorOf (gadget4Catalogue true fs' 8 noRows "/data".toList 63 names) = some .ioError := by decide +kernel

/-- One file without subhalos -/
def file2 : CatFile := ⟨sampleContent (Files.gadget4SubTab 8 4 1 0) [("Ngroups", 1), ("Nsubgroups", 0), ("flag_dp", 0), ("NFiles", 1)], true, [], 1, 0⟩

def fs2 : ByteFS := fun name => if name = fileName "fof_subhalo_tab_" 0 then some ((Files.gadget4SubTab 8 4 1 0).bytes true file2.content) else none

example : errorOf (gadget4Catalogue true fs2 8 noRows "/data".toList 63 gadget4Default) = some .valueError := by decide +kernel
example : rowsOf (gadget4Catalogue true fs2 8 noRows "/data".toList 63 ["GroupLen".toList]) "GroupLen".toList = some (4, [], [[8001]]) := by decide +kernel

/-- P-Gadget3: no groups at all are not a problem. -/
def file3 : CatFile := ⟨sampleContent (Files.pgadget3SubTab false 4 4 0 0) [("Ngroups", 0), ("Nsubgroups", 0), ("NTask", 1)], true, [], 0, 0⟩

def fs3 : ByteFS := fun name => if name = fileName "subhalo_tab_" 0 then some ((Files.pgadget3SubTab false 4 4 0 0).bytes true file3.content) else none

example : rowsOf (pgadget3Catalogue true fs3 false 4 4 noRows "/data".toList 63 (pgadget3Default false)) "SubSpin".toList = some (4, [3], []) := by decide +kernel
example : Pgadget3File false 4 4 file3 := ⟨by decide +kernel, by decide +kernel, by unfold FileCount; decide +kernel, Layout.fits_of _ _ (by decide +kernel)⟩

/-- The directory exists, but another one is looked for. -/
def fs4 : ByteFS := fun name => if name = "/d%%a/groups_063/subhalo_tab_063.0".toList then fs3 (fileName "subhalo_tab_" 0) else none
example : errorOf (pgadget3Catalogue true fs4 false 4 4 noRows "/d%%a".toList 63 (pgadget3Default false)) = some .ioError := by decide +kernel

end Verif.ExCatalogue
