import Verif.Props.Formats

/-! Cases for C69 and C52, and a reader which never works. -/

namespace Verif

/-- Some content for a layout: given numbers, and otherwise values which are all different -/
def sampleContent (L : Layout) (given : List (String × Nat)) : Content := fun name =>
  match given.find? (fun p => p.1.toList == name) with
  | some p => [leBytes 4 p.2]
  | none => match (L.flatMap Section.rows).find? (fun r => r.name == name) with
    | some r => (List.range r.shape.prod).map (fun i => leBytes r.width (1000 * r.name.length + 7 * i + 1))
    | none => []

instance (C : Content) (r : Row) : Decidable (r.Fits C) := by unfold Row.Fits; infer_instance

def Layout.fitsB (C : Content) (L : Layout) : Bool :=
  L.all (fun sec => sec.rows.all (fun r => decide (r.Fits C)) && (!sec.record || decide ((sec.payload false C).length < 2147483648)))

theorem Layout.fits_of (C : Content) (L : Layout) (h : L.fitsB C = true) : L.Fits C := by
  simp only [Layout.fitsB, List.all_eq_true, Bool.and_eq_true, decide_eq_true_eq, Bool.or_eq_true, Bool.not_eq_true'] at h
  exact ⟨fun sec hs r hr => (h sec hs).1 r hr, fun sec hs hr => by rcases (h sec hs).2 with h1 | h1; rw [hr] at h1; cases h1; exact h1⟩

def exGroupTab : Content := sampleContent (Files.lgadget2GroupTab 2 3) [("Ngroups", 2), ("GroupMinLen", 3), ("NTask", 512)]

example : (Files.lgadget2GroupTab 2 3).ReadBy exGroupTab (fun s file => lgadget2GroupTab.parse s file) :=
  C69_lgadget2_group_tab exGroupTab 2 3 (by decide +kernel) (by decide +kernel) (by unfold FileCount; decide +kernel) (Layout.fits_of _ _ (by decide +kernel))

def exSubTab : Content := sampleContent (Files.lgadget2SubTab 8 2 3) [("Ngroups", 2), ("Nsubhalos", 3), ("NFiles", 65535)]

example : (Files.lgadget2SubTab 8 2 3).ReadBy exSubTab (fun s file => (lgadget2SubTab 8).parse s file) :=
  C69_lgadget2_sub_tab exSubTab 8 2 3 (Or.inr rfl) (by decide +kernel) (by decide +kernel) (by unfold FileCount; decide +kernel) (Layout.fits_of _ _ (by decide +kernel))

def exSubIDs : Content := sampleContent (Files.lgadget2SubIDs 8 3) [("Nids", 3), ("NFiles", 256)]

example : (Files.lgadget2SubIDs 8 3).ReadBy exSubIDs (fun s file => (lgadget2SubIDs 8).parse s file) :=
  C69_lgadget2_sub_ids exSubIDs 8 3 (Or.inr rfl) (by decide +kernel) (by unfold FileCount; decide +kernel) (Layout.fits_of _ _ (by decide +kernel))

/-- The bytes of this file, which is big endian, and the particle IDs found in it on a little endian machine -/
example : (Files.lgadget2SubIDs 8 3).bytes true exSubIDs = [0, 0, 27, 89, 0, 0, 0, 3, 0, 0, 39, 17, 0, 0, 1, 0, 0, 0, 0, 0, 0, 0, 31, 65, 0, 0, 0, 0, 0, 0, 31, 72, 0, 0, 0, 0, 0, 0, 31, 79] := by decide +kernel
example : (match (lgadget2SubIDs 8).parse true ((Files.lgadget2SubIDs 8 3).bytes true exSubIDs) with
    | .ok f => (f.dataset true ((Files.lgadget2SubIDs 8 3).bytes true exSubIDs) "GroupIDs".toList).toOption.map (List.map leNat)
    | .error _ => none) = some [8001, 8008, 8015] := by decide +kernel

def exSnapshot : Content := fun name => if name = "Header/NumPart_ThisFile".toList then [leBytes 4 0, leBytes 4 2, leBytes 4 0, leBytes 4 0, leBytes 4 0, leBytes 4 0]
  else sampleContent (Files.lgadget2Snapshot 2 3) [("first_hash_cell", 40), ("last_hash_cell", 42)] name

example : (Files.lgadget2Snapshot 2 3).ReadBy exSnapshot (fun s file => lgadget2Snapshot.parse s file) :=
  C69_lgadget2_snapshot exSnapshot 2 3 (by decide +kernel) (by decide +kernel) (Layout.fits_of _ _ (by decide +kernel))

def exSubTab3 : Content := sampleContent (Files.lgadget3SubTab true true 8 2 1) [("Ngroups", 2), ("Nsubgroups", 1), ("NTask", 1)]

example : (Files.lgadget3SubTab true true 8 2 1).ReadBy exSubTab3 (fun s file => (lgadget3SubTab true true 8).parse s file) :=
  C69_lgadget3_sub_tab exSubTab3 true true 8 2 1 (Or.inr rfl) (by decide +kernel) (by decide +kernel) (by unfold FileCount; decide +kernel) (Layout.fits_of _ _ (by decide +kernel))

def exSubIDs3 : Content := sampleContent (Files.lgadget3SubIDs 4 2) [("Nids", 2), ("NTask", 77)]

example : (Files.lgadget3SubIDs 4 2).ReadBy exSubIDs3 (fun s file => (lgadget3SubIDs 4).parse s file) :=
  C69_lgadget3_sub_ids exSubIDs3 4 2 (Or.inl rfl) (by decide +kernel) (by unfold FileCount; decide +kernel) (Layout.fits_of _ _ (by decide +kernel))

def exIDsP : Content := sampleContent (Files.pgadget3IDs 4 2) [("Nids", 2), ("NTask", 300)]

example : (Files.pgadget3IDs 4 2).ReadBy exIDsP (fun s file => (pgadget3IDs 4).parse s file) :=
  C69_pgadget3_ids exIDsP 4 2 (Or.inl rfl) (by decide +kernel) (by unfold FileCount; decide +kernel) (Layout.fits_of _ _ (by decide +kernel))

def exGroupTabP : Content := sampleContent (Files.pgadget3GroupTab 4 2) [("Ngroups", 2), ("NTask", 300)]

example : (Files.pgadget3GroupTab 4 2).ReadBy exGroupTabP (fun s file => (pgadget3GroupTab 4).parse s file) :=
  C69_pgadget3_group_tab exGroupTabP 4 2 (Or.inl rfl) (by decide +kernel) (by unfold FileCount; decide +kernel) (Layout.fits_of _ _ (by decide +kernel))

def exSubTabP : Content := sampleContent (Files.pgadget3SubTab true 8 4 2 1) [("Ngroups", 2), ("Nsubgroups", 1), ("NTask", 300)]

example : (Files.pgadget3SubTab true 8 4 2 1).ReadBy exSubTabP (fun s file => (pgadget3SubTab true 8 4).parse s file) :=
  C69_pgadget3_sub_tab exSubTabP true 8 4 2 1 (Or.inr rfl) (Or.inl rfl) (by decide +kernel) (by decide +kernel) (by unfold FileCount; decide +kernel) (Layout.fits_of _ _ (by decide +kernel))

/-- Gadget-4 in double precision, with one group and no subhalos: the records of the subhalos are not there. -/
def exSubTab4 : Content := sampleContent (Files.gadget4SubTab 8 8 1 0) [("Ngroups", 1), ("Nsubgroups", 0), ("flag_dp", 1)]

example : (Files.gadget4SubTab 8 8 1 0).ReadBy exSubTab4 (fun s file => (gadget4SubTab 8).parse s file) :=
  C69_gadget4_sub_tab exSubTab4 8 8 1 0 (Or.inr rfl) (by decide +kernel) (by decide +kernel) (by decide +kernel) (Layout.fits_of _ _ (by decide +kernel))
example : (Files.gadget4SubTab 8 8 1 0).length = 15 ∧ ((Files.gadget4SubTab 8 8 1 0).bytes true exSubTab4).length = 96 + 14 * 8 + 1 * (4 * 9 + 8 * 19) := by decide +kernel

/-! ### C52 -/

/-- A number of files between 1 and 65535, read in the wrong byte order, is not between 1 and 65535. -/
theorem C52_reversed {v : List Byte} (hl : v.length = 4) (h1 : 1 ≤ int32Value v) (h2 : int32Value v ≤ 65535) : ¬(1 ≤ int32Value v.reverse ∧ int32Value v.reverse ≤ 65535) := by
  rcases reverse_out_of_range hl h1 h2 with h | h <;> omega

example : int32Value [0, 2, 0, 0] = 512 ∧ int32Value [0, 0, 2, 0] = 131072 ∧ int32Value [0, 0, 0, 128] = -2147483648 := by decide +kernel

/-- The limit can not be larger: 65536 is a number of files in one order and 256 in the other. -/
example : int32Value [0, 0, 1, 0] = 65536 ∧ int32Value [0, 1, 0, 0] = 256 := by decide +kernel

/-- `GroupIDsFile` of `subfind_lgadget2` asks for a dataset which has another name, so that no file can be opened. -/
theorem C69_lgadget2_group_ids_defect (s : Bool) (file : List Byte) (id : Nat) : (lgadget2GroupIDs id).parse s file = .error .keyError := rfl

end Verif
