import Verif.Props.FormatsCases
import Verif.Proofs.FormatsPlain

/-! C81: files in native byte order and arrays of structures. C82: the sanity check of Rockstar halos. C83: density fields of the Millennium-XXL simulation. -/

namespace Verif

def PlainFormat.within (F : PlainFormat) (E : List FExpr) : Bool := F.allFields.all (fun fld => fld.size.within E && fld.dims.all (FExpr.within E))

theorem PlainFormat.reads' (F : PlainFormat) (L : Layout) (C : Content) (E : List FExpr) (hF : F.scoped = true) (hw : F.within E = true) (hE : ∀ e ∈ E, 0 ≤ e.value C) (hL : F.layout C = L) (hfit : L.Fits C)
    (n : Nat) (hn : (F.header.map (fun fld => (fld.row C).width * (fld.row C).shape.prod)).sum = n) (hpos : 0 < n) (hsize : F.size = none ∨ F.size = some n) : L.ReadOn true C (fun s file => F.parse s file) := by
  subst hL
  refine F.reads hF C ?_ hfit (by omega) (by intro m hm; rcases hsize with h | h <;> rw [h] at hm <;> simp at hm; omega)
  intro fld hfl
  have hm : fld ∈ F.allFields := by
    simp only [List.mem_append, List.mem_flatMap, List.mem_filter] at hfl
    simp only [PlainFormat.allFields, List.mem_append, List.mem_flatMap]
    rcases hfl with h | ⟨p, ⟨hp, -⟩, h⟩
    · exact Or.inl h
    · exact Or.inr ⟨p, hp, h⟩
  have := List.all_eq_true.1 hw fld hm
  simp only [Bool.and_eq_true] at this
  exact ⟨within_nonneg hE this.1, fun e he => within_nonneg hE (List.all_eq_true.1 this.2 e he)⟩

theorem C81_sub_desc (C : Content) (n : Nat) (h1 : scalarInt C "TotNsubhalos".toList = n) (hfit : (Files.mpaSubDesc n).Fits C) : (Files.mpaSubDesc n).ReadOn true C (fun s file => mpaSubDesc.parse s file) := by
  refine PlainFormat.reads' _ _ C [.item "TotNsubhalos".toList] (by decide +kernel) (by decide +kernel) (nonneg1 h1) ?_ hfit 4 (by simp [mpaSubDesc, dset4, BField.row, FExpr.value]) (by omega) (Or.inl rfl)
  obtain rfl : (scalarInt C "TotNsubhalos".toList).toNat = n := by omega
  rfl

theorem C81_mxxl_sub_desc (C : Content) (n : Nat) (h1 : scalarInt C "Nsubgroups".toList = n) (hfit : (Files.mxxlSubDesc n).Fits C) : (Files.mxxlSubDesc n).ReadOn true C (fun s file => mxxlSubDesc.parse s file) := by
  refine PlainFormat.reads' _ _ C [.item "Nsubgroups".toList] (by decide +kernel) (by decide +kernel) (nonneg1 h1) ?_ hfit 4 (by simp [mxxlSubDesc, dset4, BField.row, FExpr.value]) (by omega) (Or.inl rfl)
  obtain rfl : (scalarInt C "Nsubgroups".toList).toNat = n := by omega
  rfl

theorem C81_tree_aux (C : Content) (id halos unique trees snaps : Nat) (hid : id = 4 ∨ id = 8) (h1 : scalarInt C "TotHalos".toList = halos) (h2 : scalarInt C "Totunique".toList = unique)
    (h3 : scalarInt C "Ntrees".toList = trees) (h4 : scalarInt C "TotSnaps".toList = snaps) (hfit : (Files.mpaTreeAux id halos unique trees snaps).Fits C) :
    (Files.mpaTreeAux id halos unique trees snaps).ReadOn true C (fun s file => (mpaTreeAux id).parse s file) := by
  refine PlainFormat.reads' _ _ C [.item "TotHalos".toList, .item "Totunique".toList, .item "Ntrees".toList, .item "TotSnaps".toList] (by rcases hid with rfl | rfl <;> decide +kernel) (by rcases hid with rfl | rfl <;> decide +kernel)
    (by simp only [List.mem_cons, List.not_mem_nil, or_false, forall_eq_or_imp, forall_eq, FExpr.value]; omega) ?_ hfit 16 (by simp [mpaTreeAux, dset4, BField.row, FExpr.value]) (by omega) (Or.inl rfl)
  obtain rfl : (scalarInt C "TotHalos".toList).toNat = halos := by omega
  obtain rfl : (scalarInt C "Totunique".toList).toNat = unique := by omega
  obtain rfl : (scalarInt C "Ntrees".toList).toNat = trees := by omega
  obtain rfl : (scalarInt C "TotSnaps".toList).toNat = snaps := by omega
  rfl

theorem C81_tree (C : Content) (id : Nat) (masses : Bool) (trees halos : Nat) (hid : id = 4 ∨ id = 8) (h1 : scalarInt C "Ntrees".toList = trees) (h2 : scalarInt C "Nhalos".toList = halos)
    (hfit : (Files.mpaTree id masses trees halos).Fits C) : (Files.mpaTree id masses trees halos).ReadOn true C (fun s file => (mpaTree id masses).parse s file) := by
  refine PlainFormat.reads' _ _ C [.item "Ntrees".toList, .item "Nhalos".toList] (by rcases hid with rfl | rfl <;> cases masses <;> decide +kernel) (by rcases hid with rfl | rfl <;> cases masses <;> decide +kernel)
    (nonneg2 h1 h2) ?_ hfit 8 (by simp [mpaTree, dset4, BField.row, FExpr.value]) (by omega) (Or.inl rfl)
  obtain rfl : (scalarInt C "Ntrees".toList).toNat = trees := by omega
  obtain rfl : (scalarInt C "Nhalos".toList).toNat = halos := by omega
  have hs : structSize (Files.mpaHalo id masses) = dtypeSize false (mpaHaloFields id masses) := by rcases hid with rfl | rfl <;> cases masses <;> decide +kernel
  rw [Files.mpaTree, hs]
  rfl

/-- Rockstar: the structure of the halos depends on `format_revision`, whose value is `rev`. -/
theorem C81_rockstar (C : Content) (galaxies : Bool) (halos particles : Nat) (rev : Int) (hr : scalarInt C "Header/format_revision".toList = rev) (h1 : int64Value ((C "Header/num_halos".toList).headD []) = halos)
    (h2 : int64Value ((C "Header/num_particles".toList).headD []) = particles) (hfit : (Files.rockstar (decide (2 ≤ rev)) galaxies halos particles).Fits C) :
    (Files.rockstar (decide (2 ≤ rev)) galaxies halos particles).ReadOn true C (fun s file => (rockstarHalos galaxies).parse s file) := by
  refine PlainFormat.reads' _ _ C [.attrInt64 "Header".toList "num_halos".toList, .attrInt64 "Header".toList "num_particles".toList] (by cases galaxies <;> decide +kernel) (by cases galaxies <;> decide +kernel)
    (by simp only [List.mem_cons, List.not_mem_nil, or_false, forall_eq_or_imp, forall_eq, FExpr.value]
        change 0 ≤ int64Value ((C "Header/num_halos".toList).headD []) ∧ 0 ≤ int64Value ((C "Header/num_particles".toList).headD [])
        omega) ?_ hfit 256 (by simp [rockstarHalos, attr4, attr8, BField.row, FExpr.value]) (by omega) (Or.inr rfl)
  obtain rfl : (int64Value ((C "Header/num_halos".toList).headD [])).toNat = halos := by omega
  obtain rfl : (int64Value ((C "Header/num_particles".toList).headD [])).toNat = particles := by omega
  have hs : structSize (Files.rockstarHalo (decide (2 ≤ rev)) galaxies) =
      (if scalarInt C "Header/format_revision".toList ≥ (2 : Nat) then (dtypeSize true (rockstarFields true galaxies) : Int) else dtypeSize true (rockstarFields false galaxies)).toNat := by
    rw [hr]
    by_cases h : 2 ≤ rev
    · rw [decide_eq_true h, if_pos (by exact_mod_cast h)]; cases galaxies <;> decide +kernel
    · rw [decide_eq_false h, if_neg (by exact_mod_cast h)]; cases galaxies <;> decide +kernel
  rw [Files.rockstar, hs]
  rfl

/-! ### Elements of the arrays of structures -/

/-- Fields of a structured type with `align=True` are the members of the C structure, and elements have its size. -/
theorem C81_struct (ms : List Member) (pad : Nat → Byte) (value : String → List Byte) (hf : ∀ m ∈ ms, m.Fits value) (ha : ∀ m ∈ ms, 0 < m.align) :
    (structBytes pad value ms).length = dtypeSize true (ms.map Member.toField) ∧
    ∀ m ∈ ms, recordField true (ms.map Member.toField) (structBytes pad value ms) m.name = some (value m.name) :=
  ⟨length_structBytes ms (fun m hm => ⟨hf m hm, ha m hm⟩), fun m hm => recordField_struct ms (fun m hm => ⟨hf m hm, ha m hm⟩) m hm⟩

/-- Halos of Rockstar -/
theorem C81_rockstar_halo (halfmass galaxies : Bool) (pad : Nat → Byte) (value : String → List Byte) (hf : ∀ m ∈ Files.rockstarHalo halfmass galaxies, m.Fits value) :
    (structBytes pad value (Files.rockstarHalo halfmass galaxies)).length = structSize (Files.rockstarHalo halfmass galaxies) ∧
    ∀ m ∈ Files.rockstarHalo halfmass galaxies, recordField true (rockstarFields halfmass galaxies) (structBytes pad value (Files.rockstarHalo halfmass galaxies)) m.name = some (value m.name) := by
  have ha : ∀ m ∈ Files.rockstarHalo halfmass galaxies, 0 < m.align := by cases halfmass <;> cases galaxies <;> decide +kernel
  have he : (Files.rockstarHalo halfmass galaxies).map Member.toField = rockstarFields halfmass galaxies := by cases halfmass <;> cases galaxies <;> rfl
  obtain ⟨h1, h2⟩ := C81_struct _ pad value hf ha
  rw [he] at h1 h2
  exact ⟨h1.trans (by cases halfmass <;> cases galaxies <;> decide +kernel), h2⟩

/-- Halos of merger trees: although the type is not aligned, it agrees with the C structure. -/
theorem C81_tree_halo (id : Nat) (hid : id = 4 ∨ id = 8) (masses : Bool) (pad : Nat → Byte) (value : String → List Byte) (hf : ∀ m ∈ Files.mpaHalo id masses, m.Fits value) :
    (structBytes pad value (Files.mpaHalo id masses)).length = structSize (Files.mpaHalo id masses) ∧
    ∀ m ∈ Files.mpaHalo id masses, recordField false (mpaHaloFields id masses) (structBytes pad value (Files.mpaHalo id masses)) m.name = some (value m.name) := by
  have ha : ∀ m ∈ Files.mpaHalo id masses, 0 < m.align := by rcases hid with rfl | rfl <;> cases masses <;> decide +kernel
  have he : (Files.mpaHalo id masses).map Member.toField = mpaHaloFields id masses := by rcases hid with rfl | rfl <;> cases masses <;> rfl
  have ho : dtypeOffsets false 0 (mpaHaloFields id masses) = dtypeOffsets true 0 (mpaHaloFields id masses) := by rcases hid with rfl | rfl <;> cases masses <;> decide +kernel
  obtain ⟨h1, h2⟩ := C81_struct _ pad value hf ha
  rw [he] at h1 h2
  refine ⟨h1.trans (by rcases hid with rfl | rfl <;> cases masses <;> decide +kernel), fun m hm => ?_⟩
  rw [← h2 m hm]
  simp only [recordField, ho]

/-! ### C82 -/

/-- If no sum overflows, the check passes exactly if the particles of every halo are in the array of IDs. -/
theorem C82_sanity_check (halos : List (Int × Int)) (nids : Nat) (hr : ∀ h ∈ halos, h.1 + h.2 < 9223372036854775808 ∧ -9223372036854775808 ≤ h.1 + h.2) :
    rockstarSanityCheck (halos.map Prod.fst) (halos.map Prod.snd) nids = .ok () ↔ ∀ h ∈ halos, 0 ≤ h.1 ∧ h.1 + h.2 ≤ nids := by
  have hz : ∀ l : List (Int × Int), (∀ h ∈ l, h.1 + h.2 < 9223372036854775808 ∧ -9223372036854775808 ≤ h.1 + h.2) → List.zipWith add64 (l.map Prod.fst) (l.map Prod.snd) = l.map (fun h => h.1 + h.2) := by
    intro l hl
    induction l with
    | nil => rfl
    | cons h l ih =>
      simp only [List.map_cons, List.zipWith_cons_cons, ih (fun x hx => hl x (by simp [hx]))]
      have := hl h (by simp)
      congr 1
      unfold add64
      omega
  unfold rockstarSanityCheck
  rw [hz halos hr]
  constructor
  · intro h
    split at h
    · cases h
    · split at h
      · cases h
      · rename_i h1 h2
        simp at h1 h2
        intro x hx
        exact ⟨h2 x.1 x.2 hx, h1 x.1 x.2 hx⟩
  · intro h
    rw [if_neg (by simp; exact fun a b hab => (h (a, b) hab).2), if_neg (by simp; exact fun a b hab => (h (a, b) hab).1)]

/-- The failure is always the exception for failed sanity checks. -/
theorem C82_fails_as_intended (p_start num_p : List Int) (nids : Nat) (e : Err) (h : rockstarSanityCheck p_start num_p nids = .error e) : e = .sanityCheck := by
  unfold rockstarSanityCheck at h
  split at h
  · simpa using h.symm
  · split at h
    · simpa using h.symm
    · cases h

/-- If the sum overflows, halos outside the array pass: for any number of IDs, a halo with any `p_start` from 2^62 on and 2^62 particles. -/
theorem C82_overflow_defect (p : Int) (nids : Nat) (h1 : 4611686018427387904 ≤ p) (h2 : p < 9223372036854775808) : rockstarSanityCheck [p] [4611686018427387904] nids = .ok () := by
  have : add64 p 4611686018427387904 < 0 := by unfold add64; omega
  unfold rockstarSanityCheck
  rw [if_neg (by simp; omega), if_neg (by simp; omega)]

example : rockstarSanityCheck [0, 3] [3, 4] 7 = .ok () ∧ rockstarSanityCheck [0, 3] [3, 5] 7 = .error .sanityCheck ∧ rockstarSanityCheck [0, -1] [3, 5] 7 = .error .sanityCheck := by decide +kernel

end Verif
