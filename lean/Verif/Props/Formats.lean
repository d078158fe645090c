import Verif.Proofs.Formats
import Verif.Spec.FormatLayouts

/-! C69: readers of group catalogues and Millennium snapshots. C52: detection of the byte order. -/

namespace Verif

/-- Sizes and shapes are constants or in the list. -/
def FExpr.within (E : List FExpr) : FExpr → Bool
  | .const _ => true
  | .ifZero _ _ _ => true
  | .ifAttrGe _ _ _ _ _ => true
  | e => E.contains e

def Format.within (F : Format) (E : List FExpr) : Bool := F.allFields.all (fun fld => fld.size.within E && fld.dims.all (FExpr.within E))

theorem within_nonneg {C : Content} {E : List FExpr} (hE : ∀ e ∈ E, 0 ≤ e.value C) {e : FExpr} (h : e.within E = true) : 0 ≤ e.value C := by
  cases e with
  | const n => simp [FExpr.value]
  | ifZero n a b => simp only [FExpr.value]; split <;> omega
  | ifAttrGe g n k a b => simp only [FExpr.value]; split <;> omega
  | attrInt64 g n => exact hE _ (by simpa [FExpr.within] using h)
  | item n => exact hE _ (by simpa [FExpr.within] using h)
  | attrItem g n i => exact hE _ (by simpa [FExpr.within] using h)
  | span a b => exact hE _ (by simpa [FExpr.within] using h)

theorem Format.reads' (F : Format) (L : Layout) (C : Content) (E : List FExpr) (hF : F.scoped = true) (hw : F.within E = true) (hE : ∀ e ∈ E, 0 ≤ e.value C) (hL : F.layout C = L) (hfit : L.Fits C)
    (hcheck : ∀ n, F.check = some n → 1 ≤ scalarInt C n ∧ scalarInt C n ≤ 65535)
    (hhead : F.check = none → 0 < (F.header.map (fun fld => (fld.row C).width * (fld.row C).shape.prod)).sum ∧ (F.header.map (fun fld => (fld.row C).width * (fld.row C).shape.prod)).sum ≤ 65535) :
    L.ReadBy C (fun s file => F.parse s file) := by
  subst hL
  refine F.reads hF C ?_ hfit hcheck hhead
  intro fld hfl
  have hm : fld ∈ F.allFields := by
    simp only [List.mem_append, List.mem_flatMap, List.mem_filter] at hfl
    simp only [Format.allFields, List.mem_append, List.mem_flatMap]
    rcases hfl with h | ⟨p, ⟨hp, -⟩, h⟩
    · exact Or.inl h
    · exact Or.inr ⟨p, hp, h⟩
  have := List.all_eq_true.1 hw fld hm
  simp only [Bool.and_eq_true] at this
  exact ⟨within_nonneg hE this.1, fun e he => within_nonneg hE (List.all_eq_true.1 this.2 e he)⟩

theorem nonneg1 {C : Content} {e : FExpr} {n : Nat} (h : e.value C = n) : ∀ x ∈ [e], 0 ≤ x.value C := by
  intro x hx; simp at hx; subst hx; omega

theorem nonneg2 {C : Content} {e e' : FExpr} {n m : Nat} (h : e.value C = n) (h' : e'.value C = m) : ∀ x ∈ [e, e'], 0 ≤ x.value C := by
  intro x hx; simp at hx; rcases hx with rfl | rfl <;> omega

theorem filter_guard {C : Content} {name : Name} {n : Nat} (h : scalarInt C name = n) (l : List BField) :
    ((l.map (fun fld => (⟨some name, true, [fld]⟩ : FPart))).filter (FPart.active C)).map (FPart.section C) = if n = 0 then [] else l.map (fun fld => ⟨true, [fld.row C]⟩) := by
  by_cases hn : n = 0
  · rw [if_pos hn, List.filter_eq_nil_iff.2, List.map_nil]
    intro p hp
    obtain ⟨fld, -, rfl⟩ := List.mem_map.1 hp
    simp [FPart.active, h, hn]
  · rw [if_neg hn, List.filter_eq_self.2]
    · simp [FPart.section, Function.comp_def]
    · intro p hp
      obtain ⟨fld, -, rfl⟩ := List.mem_map.1 hp
      simp [FPart.active, h]; omega

/-- Hypothesis about the number of files in the header -/
def FileCount (C : Content) (name : String) : Prop := 1 ≤ scalarInt C name.toList ∧ scalarInt C name.toList ≤ 65535

theorem C69_lgadget2_group_tab (C : Content) (ng minlen : Nat) (h1 : scalarInt C "Ngroups".toList = ng) (h2 : scalarInt C "GroupMinLen".toList = minlen) (hn : FileCount C "NTask")
    (hfit : (Files.lgadget2GroupTab ng minlen).Fits C) : (Files.lgadget2GroupTab ng minlen).ReadBy C (fun s file => lgadget2GroupTab.parse s file) := by
  refine Format.reads' _ _ C [.item "Ngroups".toList, .item "GroupMinLen".toList] (by decide +kernel) (by decide +kernel) (nonneg2 h1 h2) ?_ hfit (by intro n h; cases h; exact hn) (by intro h; cases h)
  obtain rfl : (scalarInt C "Ngroups".toList).toNat = ng := by omega
  obtain rfl : (scalarInt C "GroupMinLen".toList).toNat = minlen := by omega
  rfl

theorem C69_lgadget2_sub_tab (C : Content) (id ng ns : Nat) (hid : id = 4 ∨ id = 8) (h1 : scalarInt C "Ngroups".toList = ng) (h2 : scalarInt C "Nsubhalos".toList = ns) (hn : FileCount C "NFiles")
    (hfit : (Files.lgadget2SubTab id ng ns).Fits C) : (Files.lgadget2SubTab id ng ns).ReadBy C (fun s file => (lgadget2SubTab id).parse s file) := by
  refine Format.reads' _ _ C [.item "Ngroups".toList, .item "Nsubhalos".toList] (by rcases hid with rfl | rfl <;> decide +kernel) (by rcases hid with rfl | rfl <;> decide +kernel)
    (nonneg2 h1 h2) ?_ hfit (by intro n h; cases h; exact hn) (by intro h; cases h)
  obtain rfl : (scalarInt C "Ngroups".toList).toNat = ng := by omega
  obtain rfl : (scalarInt C "Nsubhalos".toList).toNat = ns := by omega
  rfl

theorem C69_lgadget2_sub_ids (C : Content) (id ni : Nat) (hid : id = 4 ∨ id = 8) (h1 : scalarInt C "Nids".toList = ni) (hn : FileCount C "NFiles")
    (hfit : (Files.lgadget2SubIDs id ni).Fits C) : (Files.lgadget2SubIDs id ni).ReadBy C (fun s file => (lgadget2SubIDs id).parse s file) := by
  refine Format.reads' _ _ C [.item "Nids".toList] (by rcases hid with rfl | rfl <;> decide +kernel) (by rcases hid with rfl | rfl <;> decide +kernel)
    (nonneg1 h1) ?_ hfit (by intro n h; cases h; exact hn) (by intro h; cases h)
  obtain rfl : (scalarInt C "Nids".toList).toNat = ni := by omega
  rfl

/-- Millennium snapshots: the number of particles is that of type 1, and the number of cells follows from the first and the last one. -/
theorem C69_lgadget2_snapshot (C : Content) (n cells : Nat) (h1 : leNat ((C "Header/NumPart_ThisFile".toList).getD 1 []) = n)
    (h2 : scalarInt C "last_hash_cell".toList - scalarInt C "first_hash_cell".toList + 1 = cells)
    (hfit : (Files.lgadget2Snapshot n cells).Fits C) : (Files.lgadget2Snapshot n cells).ReadBy C (fun s file => lgadget2Snapshot.parse s file) := by
  refine Format.reads' _ _ C [.attrItem "Header".toList "NumPart_ThisFile".toList 1, .span "first_hash_cell".toList "last_hash_cell".toList] (by decide +kernel) (by decide +kernel)
    (by simp only [List.mem_cons, List.not_mem_nil, or_false, forall_eq_or_imp, forall_eq, FExpr.value, h2]; constructor <;> omega) ?_ hfit (by intro n h; cases h) (by intro _; simp only [lgadget2Snapshot, attr4, attr8, List.map_cons, List.map_nil, BField.row, FExpr.value]; simp)
  obtain rfl : (scalarInt C "last_hash_cell".toList - scalarInt C "first_hash_cell".toList + 1).toNat = cells := by omega
  subst h1
  rfl

theorem C69_lgadget3_sub_tab (C : Content) (so shapes : Bool) (fl ng ns : Nat) (hfl : fl = 4 ∨ fl = 8) (h1 : scalarInt C "Ngroups".toList = ng) (h2 : scalarInt C "Nsubgroups".toList = ns) (hn : FileCount C "NTask")
    (hfit : (Files.lgadget3SubTab so shapes fl ng ns).Fits C) : (Files.lgadget3SubTab so shapes fl ng ns).ReadBy C (fun s file => (lgadget3SubTab so shapes fl).parse s file) := by
  refine Format.reads' _ _ C [.item "Ngroups".toList, .item "Nsubgroups".toList] (by rcases hfl with rfl | rfl <;> cases so <;> cases shapes <;> decide +kernel)
    (by rcases hfl with rfl | rfl <;> cases so <;> cases shapes <;> decide +kernel)
    (nonneg2 h1 h2) ?_ hfit (by intro n h; cases h; exact hn) (by intro h; cases h)
  obtain rfl : (scalarInt C "Ngroups".toList).toNat = ng := by omega
  obtain rfl : (scalarInt C "Nsubgroups".toList).toNat = ns := by omega
  cases so <;> cases shapes <;> rfl

theorem C69_lgadget3_sub_ids (C : Content) (id ni : Nat) (hid : id = 4 ∨ id = 8) (h1 : scalarInt C "Nids".toList = ni) (hn : FileCount C "NTask")
    (hfit : (Files.lgadget3SubIDs id ni).Fits C) : (Files.lgadget3SubIDs id ni).ReadBy C (fun s file => (lgadget3SubIDs id).parse s file) := by
  refine Format.reads' _ _ C [.item "Nids".toList] (by rcases hid with rfl | rfl <;> decide +kernel) (by rcases hid with rfl | rfl <;> decide +kernel)
    (nonneg1 h1) ?_ hfit (by intro n h; cases h; exact hn) (by intro h; cases h)
  obtain rfl : (scalarInt C "Nids".toList).toNat = ni := by omega
  rfl

theorem C69_pgadget3_ids (C : Content) (id ni : Nat) (hid : id = 4 ∨ id = 8) (h1 : scalarInt C "Nids".toList = ni) (hn : FileCount C "NTask")
    (hfit : (Files.pgadget3IDs id ni).Fits C) : (Files.pgadget3IDs id ni).ReadBy C (fun s file => (pgadget3IDs id).parse s file) := by
  refine Format.reads' _ _ C [.item "Nids".toList] (by rcases hid with rfl | rfl <;> decide +kernel) (by rcases hid with rfl | rfl <;> decide +kernel)
    (nonneg1 h1) ?_ hfit (by intro n h; cases h; exact hn) (by intro h; cases h)
  obtain rfl : (scalarInt C "Nids".toList).toNat = ni := by omega
  rfl

theorem C69_pgadget3_group_tab (C : Content) (fl ng : Nat) (hfl : fl = 4 ∨ fl = 8) (h1 : scalarInt C "Ngroups".toList = ng) (hn : FileCount C "NTask")
    (hfit : (Files.pgadget3GroupTab fl ng).Fits C) : (Files.pgadget3GroupTab fl ng).ReadBy C (fun s file => (pgadget3GroupTab fl).parse s file) := by
  refine Format.reads' _ _ C [.item "Ngroups".toList] (by rcases hfl with rfl | rfl <;> decide +kernel) (by rcases hfl with rfl | rfl <;> decide +kernel)
    (nonneg1 h1) ?_ hfit (by intro n h; cases h; exact hn) (by intro h; cases h)
  obtain rfl : (scalarInt C "Ngroups".toList).toNat = ng := by omega
  rfl

theorem C69_pgadget3_sub_tab (C : Content) (so : Bool) (id fl ng ns : Nat) (hid : id = 4 ∨ id = 8) (hfl : fl = 4 ∨ fl = 8) (h1 : scalarInt C "Ngroups".toList = ng) (h2 : scalarInt C "Nsubgroups".toList = ns)
    (hn : FileCount C "NTask") (hfit : (Files.pgadget3SubTab so id fl ng ns).Fits C) : (Files.pgadget3SubTab so id fl ng ns).ReadBy C (fun s file => (pgadget3SubTab so id fl).parse s file) := by
  refine Format.reads' _ _ C [.item "Ngroups".toList, .item "Nsubgroups".toList] (by rcases hid with rfl | rfl <;> rcases hfl with rfl | rfl <;> cases so <;> decide +kernel)
    (by rcases hid with rfl | rfl <;> rcases hfl with rfl | rfl <;> cases so <;> decide +kernel)
    (nonneg2 h1 h2) ?_ hfit (by intro n h; cases h; exact hn) (by intro h; cases h)
  obtain rfl : (scalarInt C "Ngroups".toList).toNat = ng := by omega
  obtain rfl : (scalarInt C "Nsubgroups".toList).toNat = ns := by omega
  cases so <;> rfl

/-- Gadget-4: floating point numbers have 8 bytes if `flag_dp` is set and 4 otherwise. -/
theorem C69_gadget4_sub_tab (C : Content) (id fl ng ns : Nat) (hid : id = 4 ∨ id = 8) (hfl : fl = if scalarInt C "flag_dp".toList = 0 then 4 else 8) (h1 : scalarInt C "Ngroups".toList = ng)
    (h2 : scalarInt C "Nsubgroups".toList = ns) (hfit : (Files.gadget4SubTab id fl ng ns).Fits C) : (Files.gadget4SubTab id fl ng ns).ReadBy C (fun s file => (gadget4SubTab id).parse s file) := by
  refine Format.reads' _ _ C [.item "Ngroups".toList, .item "Nsubgroups".toList] (by rcases hid with rfl | rfl <;> decide +kernel) (by rcases hid with rfl | rfl <;> decide +kernel)
    (nonneg2 h1 h2) ?_ hfit (by intro n h; cases h) (by intro _; simp only [gadget4SubTab, dset4, dset8, List.map_cons, List.map_nil, BField.row, FExpr.value]; simp)
  obtain rfl : (FExpr.value C (.ifZero "flag_dp".toList 4 8)).toNat = fl := by simp only [FExpr.value, hfl]; split <;> rfl
  unfold Format.layout gadget4SubTab
  simp only [List.filter_append, List.map_append]
  rw [filter_guard h1, filter_guard h2]
  obtain rfl : (scalarInt C "Ngroups".toList).toNat = ng := by omega
  obtain rfl : (scalarInt C "Nsubgroups".toList).toNat = ns := by omega
  unfold Files.gadget4SubTab
  split <;> split <;> rfl

end Verif
