import Verif.Proofs.Formats
import Verif.Model.GadgetSnapshot
import Verif.Spec.GadgetSnapshot
import Mathlib.Data.List.GetD
import Mathlib.Tactic.IntervalCases
import Mathlib.Algebra.BigOperators.Ring.List

/-! Invariant of the loop over datasets of a Gadget snapshot. -/

set_option linter.unusedSectionVars false

namespace Verif

open Files

theorem leNat_inj {v w : List Byte} (hl : v.length = w.length) (h : leNat v = leNat w) : v = w := by
  induction v generalizing w with
  | nil => cases w with
    | nil => rfl
    | cons b w => simp at hl
  | cons a v ih => cases w with
    | nil => simp at hl
    | cons b w =>
      simp only [leNat] at h
      have ha := a.isLt
      have hb := b.isLt
      have h1 : a.val = b.val := by omega
      rw [ih (w := w) (by simpa using hl) (by omega), Fin.ext h1]

theorem isZero_iff {v : List Byte} (hl : v.length = 8) : isZeroFloat64 v = decide (zeroDouble v) := by
  rw [Bool.eq_iff_iff, decide_eq_true_eq]
  unfold isZeroFloat64 zeroDouble
  rw [Bool.or_eq_true, beq_iff_eq, beq_iff_eq]
  constructor
  · rintro (rfl | rfl)
    · left; decide
    · right; decide
  · rintro (h | h)
    · left; exact leNat_inj (by simp [hl]) (by rw [h]; decide)
    · right; exact leNat_inj (by simp [hl]) (by rw [h]; decide)

/-- An element of `all_datasets` describes a quantity. -/
structure Matches (b : SnapBlock) (q : Quantity) : Prop where
  name : b.name = q.name
  shape : b.shape = q.shape
  types : ∀ i < 6, b.ptypes i = q.types i
  type : b.typestr ≠ .other

def quantityFields (np : Nat → Nat) (q : Quantity) : List BField :=
  ((List.range 6).filter (fun i => q.types i = true ∧ np i ≠ 0)).map (fun i => ⟨partTypeName i q.name, false, true, .const q.width, .const (np i) :: q.shape.map .const⟩)

def quantityTotal (np : Nat → Nat) (q : Quantity) : Nat := (((List.range 6).filter q.types).map np).sum

theorem snapFields_eq {np : Nat → Nat} {npart : List Int} (hnp : ∀ i < 6, npart.getD i 0 = np i) {b : SnapBlock} {q : Quantity} (h : Matches b q) : snapFields npart b q.width = quantityFields np q := by
  unfold snapFields quantityFields
  rw [List.filter_congr (q := fun i => decide (q.types i = true ∧ np i ≠ 0)) (by
    intro i hi
    have hi := List.mem_range.1 hi
    rw [hnp i hi, h.types i hi, Bool.eq_iff_iff]
    simp [Nat.pos_iff_ne_zero])]
  apply List.map_congr_left
  intro i hi
  have hi := List.mem_range.1 (List.mem_filter.1 hi).1
  rw [hnp i hi, h.name, h.shape, Int.toNat_natCast]

theorem nextra_eq {np : Nat → Nat} {npart : List Int} (hnp : ∀ i < 6, npart.getD i 0 = np i) {b : SnapBlock} {q : Quantity} (h : Matches b q) : nextra npart b.ptypes = quantityTotal np q := by
  unfold nextra quantityTotal
  rw [List.filter_congr (q := q.types) (by intro i hi; exact h.types i (List.mem_range.1 hi))]
  rw [List.map_congr_left (g := fun i => (np i : Int)) (by
    intro i hi
    exact hnp i (List.mem_range.1 (List.mem_filter.1 hi).1))]
  generalize (List.range 6).filter q.types = l
  induction l with
  | nil => rfl
  | cons a l ih => simp only [List.map_cons, List.sum_cons, ih]; push_cast; rfl

theorem partType_eq {i : Nat} (hi : i < 6) (name : Name) : partTypeName i name = partType i name := by
  unfold partTypeName partType
  have : (toString i).toList = [Nat.digitChar i] := by interval_cases i <;> rfl
  rw [this]
  simp

theorem quantityFields_rows (C : Content) (np : Nat → Nat) (q : Quantity) : (quantityFields np q).map (BField.row C) = q.rows np := by
  unfold quantityFields Quantity.rows
  rw [List.map_map]
  apply List.map_congr_left
  intro i hi
  have hi := List.mem_range.1 (List.mem_filter.1 hi).1
  simp only [Function.comp_apply, BField.row, BField.group, FExpr.value, partType_eq hi, List.map_cons, Int.toNat_natCast, List.map_map]
  congr 2
  rw [List.map_congr_left (g := id) (by intro x _; rfl), List.map_id]

theorem sum_filter_pos (np : Nat → Nat) (ty : Nat → Bool) (c : Nat) (l : List Nat) :
    ((l.filter (fun i => ty i = true ∧ np i ≠ 0)).map (fun i => c * np i)).sum = c * ((l.filter ty).map np).sum := by
  induction l with
  | nil => rfl
  | cons a l ih =>
    by_cases h1 : ty a = true
    · by_cases h2 : np a = 0
      · simp [h1, h2] at ih ⊢; exact ih
      · simp [h1, h2, Nat.mul_add] at ih ⊢; exact ih
    · simp [h1] at ih ⊢; exact ih

theorem sum_zero_iff (l : List Nat) : l.sum = 0 ↔ ∀ x ∈ l, x = 0 := by
  induction l with
  | nil => simp
  | cons a l ih => simp [ih]

theorem rows_nil_iff (np : Nat → Nat) (q : Quantity) : q.rows np = [] ↔ quantityTotal np q = 0 := by
  unfold Quantity.rows quantityTotal
  rw [List.map_eq_nil_iff, List.filter_eq_nil_iff, sum_zero_iff]
  constructor
  · intro h x hx
    obtain ⟨i, hi, rfl⟩ := List.mem_map.1 hx
    obtain ⟨h1, h2⟩ := List.mem_filter.1 hi
    have := h i h1
    simp [h2] at this
    exact this
  · intro h i hi
    simp only [decide_eq_true_eq, not_and, not_not]
    intro ht
    exact h _ (List.mem_map.2 ⟨i, List.mem_filter.2 ⟨hi, ht⟩, rfl⟩)

theorem payload_total {C : Content} {np : Nat → Nat} {q : Quantity} (hfit : ∀ r ∈ q.rows np, r.Fits C) (big : Bool) :
    (Section.payload big C ⟨true, q.rows np⟩).length = q.width * q.shape.prod * quantityTotal np q := by
  have : ∀ l : List Row, (∀ r ∈ l, r.Fits C) → (l.flatMap (Row.bytes big C)).length = (l.map (fun r => r.width * r.shape.prod)).sum := by
    intro l hl
    induction l with
    | nil => rfl
    | cons r l ih => simp [length_rowBytes (hl r (by simp)), ih (fun x hx => hl x (by simp [hx]))]
  rw [Section.payload, this _ hfit]
  unfold quantityTotal
  rw [← sum_filter_pos]
  unfold Quantity.rows
  rw [List.map_map]
  congr 1
  apply List.map_congr_left
  intro i _
  simp only [Function.comp_apply, List.prod_cons]
  ring

theorem fieldsScoped_const (fs : List BField) (h : ∀ f ∈ fs, f.size.scoped [] = true ∧ f.dims.all (FExpr.scoped []) = true) : fieldsScoped false [] fs = true := by
  induction fs with
  | nil => rfl
  | cons f fs ih =>
    simp only [fieldsScoped, (h f (by simp)).1, (h f (by simp)).2, Bool.and_self, Bool.true_and]
    exact ih (fun g hg => h g (by simp [hg]))

theorem quantityFields_scoped (np : Nat → Nat) (q : Quantity) : fieldsScoped false [] (quantityFields np q) = true := by
  apply fieldsScoped_const
  intro f hf
  obtain ⟨i, -, rfl⟩ := List.mem_map.1 hf
  refine ⟨rfl, ?_⟩
  simp [FExpr.scoped]

theorem quantityFields_ok {C : Content} {np : Nat → Nat} {q : Quantity} (hfit : ∀ r ∈ q.rows np, r.Fits C) : ∀ fld ∈ quantityFields np q, fld.Ok C := by
  intro fld hf
  refine ⟨?_, ?_, hfit _ (by rw [← quantityFields_rows C]; exact List.mem_map_of_mem hf)⟩
  all_goals obtain ⟨i, -, rfl⟩ := List.mem_map.1 hf
  · simp [FExpr.value]
  · simp [FExpr.value]

/-! ### Names -/

/-- A name which is neither empty nor a path -/
def SimpleName (n : Name) : Prop := n ≠ [] ∧ '/' ∉ n

def typeGroup (i : Nat) : Name := "PartType".toList ++ [Nat.digitChar i]

theorem typeGroup_plain {i : Nat} (hi : i < 6) : SimpleName (typeGroup i) := by
  unfold SimpleName
  interval_cases i <;> decide

theorem typeGroup_inj {i j : Nat} (hi : i < 6) (hj : j < 6) (h : typeGroup i = typeGroup j) : i = j := by
  revert h
  interval_cases i <;> interval_cases j <;> decide

theorem comps_pair {g n : Name} (hg : SimpleName g) (hn : SimpleName n) : comps (g ++ '/' :: n) = [g, n] := by
  unfold comps pieces
  rw [splitSlash_append _ _ hg.2, splitSlash_noslash _ hn.2]
  simp [hg.1, hn.1]

theorem comps_partType {i : Nat} (hi : i < 6) {name : Name} (hn : SimpleName name) : comps (partTypeName i name) = [typeGroup i, name] := comps_pair (typeGroup_plain hi) hn

theorem mem_quantityFields {np : Nat → Nat} {q : Quantity} {fld : BField} (h : fld ∈ quantityFields np q) : ∃ i < 6, fld.name = partTypeName i q.name ∧ fld.attr = false := by
  obtain ⟨i, hi, rfl⟩ := List.mem_map.1 h
  exact ⟨i, List.mem_range.1 (List.mem_filter.1 hi).1, rfl, rfl⟩

theorem compat_data {a b : BField} (ha : a.attr = false) (hb : b.attr = false) (hlen : (comps a.name).length = (comps b.name).length) (hne : comps a.name ≠ comps b.name) : a.compat b = true := by
  simp only [BField.compat, ha, hb, Bool.false_or, Bool.not_false, Bool.true_or, Bool.and_true, Bool.and_eq_true, Bool.not_eq_true', decide_eq_false_iff_not]
  exact ⟨fun h => hne (h.eq_of_length hlen), fun h => hne (h.eq_of_length hlen.symm).symm⟩

theorem header_compat : ∀ a ∈ snapHeader, ∃ n, comps a.name = ["Header".toList, n] ∧ a.attr = true := by
  intro a ha
  have : ∀ a ∈ snapHeader, (comps a.name).head? = some "Header".toList ∧ (comps a.name).length = 2 ∧ a.attr = true := by decide +kernel
  obtain ⟨h1, h2, h3⟩ := this a ha
  generalize comps a.name = l at *
  match l, h2 with
  | [x, y], _ => exact ⟨y, by simp only [List.head?_cons, Option.some.injEq] at h1; rw [h1], h3⟩

theorem typeGroup_header {i : Nat} (hi : i < 6) : typeGroup i ≠ "Header".toList := by interval_cases i <;> decide

theorem fields_pairwise (np : Nat → Nat) (qs : List Quantity) (hn : ∀ q ∈ qs, SimpleName q.name) (hd : (qs.map Quantity.name).Nodup) :
    (snapHeader ++ qs.flatMap (quantityFields np)).Pairwise (fun a b => a.compat b = true) := by
  rw [List.pairwise_append]
  refine ⟨by decide +kernel, ?_, ?_⟩
  · rw [List.pairwise_flatMap]
    constructor
    · intro q hq
      unfold quantityFields
      rw [List.pairwise_map]
      refine List.Pairwise.imp_of_mem ?_ ((List.nodup_range (n := 6)).filter _)
      intro i j hi hj hij
      have hi := List.mem_range.1 (List.mem_filter.1 hi).1
      have hj := List.mem_range.1 (List.mem_filter.1 hj).1
      apply compat_data rfl rfl
      · simp only [comps_partType hi (hn q hq), comps_partType hj (hn q hq)]; rfl
      · simp only [comps_partType hi (hn q hq), comps_partType hj (hn q hq)]
        intro h
        exact hij (typeGroup_inj hi hj (List.cons.inj h).1)
    · rw [List.nodup_iff_pairwise_ne, List.pairwise_map] at hd
      refine List.Pairwise.imp_of_mem ?_ hd
      intro q q' hq hq' hne x hx y hy
      obtain ⟨i, hi, hi2, hi3⟩ := mem_quantityFields hx
      obtain ⟨j, hj, hj2, hj3⟩ := mem_quantityFields hy
      apply compat_data hi3 hj3
      · rw [hi2, hj2, comps_partType hi (hn q hq), comps_partType hj (hn q' hq')]; rfl
      · rw [hi2, hj2, comps_partType hi (hn q hq), comps_partType hj (hn q' hq')]
        intro h
        exact hne (List.cons.inj (List.cons.inj h).2).1
  · intro a ha b hb
    obtain ⟨q, hq, hb⟩ := List.mem_flatMap.1 hb
    obtain ⟨i, hi, hi2, hi3⟩ := mem_quantityFields hb
    obtain ⟨n, hn1, hn2⟩ := header_compat a ha
    simp only [BField.compat, hn2, hi3, Bool.true_or, Bool.true_and, Bool.false_or, Bool.not_false, Bool.or_true, Bool.and_true, Bool.not_eq_true', decide_eq_false_iff_not, Bool.not_true, hi2]
    rw [hn1, comps_partType hi (hn q hq)]
    intro h
    rw [List.cons_prefix_cons] at h
    exact typeGroup_header hi h.1

/-! ### The loop -/

variable {file : List Byte} {big s : Bool} {C : Content} {S : List (BField × Nat)} {f : BFile} {np : Nat → Nat} {npart : List Int}

theorem Inv.skip (h : Inv false file big C S f) {o : Int} (ho : 0 ≤ o) : Inv false file big C S { f with offset := o } where
  endian := h.endian
  blocksEndian := h.blocksEndian
  data := h.data
  groups := h.groups
  top := h.top
  attrs := h.attrs
  attrs' := h.attrs'
  holds := h.holds
  chain := by simp
  offset := ho

theorem eof_marker (h0 : 0 ≤ f.offset) (hf : file ≠ []) (hend : (file.length : Int) < f.offset + 4) : f.readAndSkip s file uint32Type [] = (f, .error .ioError) := by
  have hn : (⟨uint32Type, f.offset, [], f.endian⟩ : Block).nbytes = 4 := rfl
  have : (⟨uint32Type, f.offset, [], f.endian⟩ : Block).readAll s file = .error .ioError := by
    unfold Block.readAll Block.read
    rw [if_neg hf, if_neg (by simpa using h0), if_pos (by rw [hn]; push_cast; omega)]
  simp only [BFile.readAndSkip, this]

theorem snapDataset_reads {b : SnapBlock} {q : Quantity} (hnp : ∀ i < 6, npart.getD i 0 = np i) (hm : Matches b q) (h : Inv false file big C S f) (hf : file ≠ []) (ho : OrderIs s f.endian big)
    (hw : q.width = 4 ∨ q.width = 8) (h0 : 0 ∉ q.shape) (hrow : q.rows np ≠ []) (hfit : ∀ r ∈ q.rows np, r.Fits C) (hlt : (Section.payload big C ⟨true, q.rows np⟩).length < 4294967296)
    (hc : (S.map Prod.fst ++ quantityFields np q).Pairwise (fun a b => a.compat b = true)) (count : Nat)
    {pre post : List Byte} (hfile : file = pre ++ Section.bytes big C ⟨true, q.rows np⟩ ++ post) (hpre : (pre.length : Int) = f.offset) :
    ∃ f' S', snapDataset s file npart f count b = .ok (.next f' (count + 1)) ∧ Inv false file big C S' f' ∧ S'.map Prod.fst = S.map Prod.fst ++ quantityFields np q ∧
      f'.offset = f.offset + (Section.bytes big C ⟨true, q.rows np⟩).length ∧ f'.endian = f.endian := by
  have htot : quantityTotal np q ≠ 0 := fun hz => hrow ((rows_nil_iff np q).2 hz)
  have hlen := payload_total hfit big
  have hprod : q.shape.prod ≠ 0 := fun hz => h0 (List.prod_eq_zero_iff.1 hz)
  set P := Section.payload big C ⟨true, q.rows np⟩ with hP
  have hbytes : Section.bytes big C ⟨true, q.rows np⟩ = markerBytes big P.length ++ P ++ markerBytes big P.length := by
    simp [Section.bytes, ← hP]
  rw [hbytes] at hfile ⊢
  -- first marker
  have hm1 := h.marker (s := s) (n := P.length) (pre := pre) (post := P ++ markerBytes big P.length ++ post) (by rw [hfile]; simp) hpre
  have hv : fileValue s f.endian true (markerBytes big P.length) = leBytes 4 P.length := by rw [markerBytes, fileValue_store ho]
  rw [hv] at hm1
  have hap := h.append ⟨int32Type, f.offset, [], f.endian⟩ rfl rfl f.record
  -- the fields
  have hPf : P = (quantityFields np q).flatMap (fun fld => (fld.row C).bytes big C) := by
    rw [hP, ← quantityFields_rows C, payload_rows]
  obtain ⟨f2, S2, b1, b2, b3, b4, b5, b6⟩ := hap.fields (s := s) hf false [] (quantityFields np q) (by simp) (by simp) (quantityFields_scoped np q)
    (by intro fld hfl; obtain ⟨i, -, -, hi⟩ := mem_quantityFields hfl; simp [BField.nameOk, hi]) hc (quantityFields_ok hfit)
    (pre := pre ++ markerBytes big P.length) (post := markerBytes big P.length ++ post) (by rw [← hPf, hfile]; simp) (by
      change _ = f.offset + ((⟨int32Type, f.offset, [], f.endian⟩ : Block).nbytes : Int)
      have : (⟨int32Type, f.offset, [], f.endian⟩ : Block).nbytes = 4 := rfl
      rw [this]; simp; omega)
  rw [← hPf] at b4
  have hoff : f2.offset = f.offset + 4 + P.length := b4
  have hm2 := b2.marker (s := s) (n := P.length) (pre := pre ++ markerBytes big P.length ++ P) (post := post) (by rw [hfile]; simp) (by rw [hoff]; simp; omega)
  have he2 : f2.endian = f.endian := b5
  have hv2 : fileValue s f2.endian true (markerBytes big P.length) = leBytes 4 P.length := by rw [he2]; exact hv
  rw [hv2] at hm2
  refine ⟨_, S2, ?_, b2.append ⟨int32Type, f2.offset, [], f2.endian⟩ rfl rfl f2.record, b3, ?_, he2⟩
  · have hnum : leNat (leBytes 4 P.length) = P.length := leNat_leBytes 4 _ (by norm_num; omega)
    have hnx := nextra_eq hnp hm
    have hnb : ((P.length : Nat) : Int) / (((b.shape.foldl (fun n s => n * s) 1 : Nat) : Int) * nextra npart b.ptypes) = q.width := by
      rw [hnx, hm.shape, size_eq_prod, hlen]
      push_cast
      rw [mul_assoc]
      exact Int.mul_ediv_cancel _ (by
        have h1 : (q.shape.prod : Int) ≠ 0 := by exact_mod_cast hprod
        have h2 : (quantityTotal np q : Int) ≠ 0 := by exact_mod_cast htot
        exact mul_ne_zero (by exact_mod_cast hprod) h2)
    have hrec : snapRecord s file npart { f with offset := f.offset + 4, blocks := f.blocks ++ [⟨int32Type, f.offset, [], f.endian⟩] } (P.length : Int) b =
        .ok { f2 with offset := f2.offset + 4, blocks := f2.blocks ++ [⟨int32Type, f2.offset, [], f2.endian⟩] } := by
      unfold snapRecord
      simp only [hnb, Int.toNat_natCast, snapFields_eq hnp hm]
      rw [if_neg (by
        rw [hnx, hm.shape, size_eq_prod, hlen]
        push_cast
        rintro (⟨h1, h2⟩ | h1)
        · rcases hw with hw | hw <;> rw [hw] at h1 h2 <;> simp at h1 h2
        · exact h1 rfl), if_neg hm.type]
      have b1' : addFields s file { f with offset := f.offset + 4, blocks := f.blocks ++ [⟨int32Type, f.offset, [], f.endian⟩] } (quantityFields np q) = .ok f2 := b1
      rw [b1']
      have hm2' : f2.readAndSkip s file uint32Type [] = ({ f2 with offset := f2.offset + 4, blocks := f2.blocks ++ [⟨int32Type, f2.offset, [], f2.endian⟩] }, .ok [leBytes 4 P.length]) := hm2
      simp only [hm2', List.headD_cons, hnum]
      rw [if_neg (by
        rw [hnx, hm.shape, size_eq_prod, hlen]
        push_cast
        rw [mul_comm (q.shape.prod : Int)]
        simp)]
    unfold snapDataset
    have hm1' : f.readAndSkip s file uint32Type [] = ({ f with offset := f.offset + 4, blocks := f.blocks ++ [⟨int32Type, f.offset, [], f.endian⟩] }, .ok [leBytes 4 P.length]) := hm1
    rw [if_pos (by rw [hnx]; have := Nat.pos_of_ne_zero htot; exact_mod_cast this)]
    simp only [hm1', List.headD_cons, hnum, hrec]
    rfl
  · change f2.offset + 4 = _
    rw [hoff]; simp; omega

theorem snapDataset_skip {b : SnapBlock} {q : Quantity} (hnp : ∀ i < 6, npart.getD i 0 = np i) (hm : Matches b q) (hrow : q.rows np = []) (count : Nat) :
    snapDataset s file npart f count b = .ok (.next f count) := by
  unfold snapDataset
  rw [if_neg (by rw [nextra_eq hnp hm, (rows_nil_iff np q).1 hrow]; simp)]

theorem snapDataset_eof {b : SnapBlock} {q : Quantity} (hnp : ∀ i < 6, npart.getD i 0 = np i) (hm : Matches b q) (hrow : q.rows np ≠ []) (h0 : 0 ≤ f.offset) (hf : file ≠ [])
    (hend : (file.length : Int) < f.offset + 4) (count : Nat) : snapDataset s file npart f count b = if count < 3 then .error .ioError else .ok (.stop f) := by
  unfold snapDataset
  rw [if_pos (by
    rw [nextra_eq hnp hm]
    have := Nat.pos_of_ne_zero (fun hz => hrow ((rows_nil_iff np q).2 hz))
    exact_mod_cast this)]
  simp only [eof_marker h0 hf hend, if_true]

/-- Quantities with particles -/
def presentQuantities (np : Nat → Nat) (qs : List Quantity) : List Quantity := qs.filter (fun q => q.rows np ≠ [])

theorem snapLoop_reads (hnp : ∀ i < 6, npart.getD i 0 = np i) (hf : file ≠ []) {rest : List Byte} {bs : List SnapBlock} {qs : List Quantity} (hm : List.Forall₂ Matches bs qs) :
    ∀ {S : List (BField × Nat)} {f : BFile} {pre : List Byte} {k count : Nat}, Inv false file big C S f → OrderIs s f.endian big →
    (∀ q ∈ (presentQuantities np qs).take k, (q.width = 4 ∨ q.width = 8) ∧ 0 ∉ q.shape ∧ (∀ r ∈ q.rows np, r.Fits C) ∧ (Section.payload big C ⟨true, q.rows np⟩).length < 4294967296) →
    (S.map Prod.fst ++ qs.flatMap (quantityFields np)).Pairwise (fun a b => a.compat b = true) →
    file = pre ++ (((presentQuantities np qs).take k).map (fun q => Section.mk true (q.rows np))).flatMap (Section.bytes big C) ++ rest → (pre.length : Int) = f.offset →
    ((presentQuantities np qs).length ≤ k ∨ rest.length < 4) →
    if (presentQuantities np qs).length ≤ k ∨ 3 ≤ count + k then
      ∃ f' S', snapLoop s file npart f count bs = .ok f' ∧ Inv false file big C S' f' ∧ OrderIs s f'.endian big ∧ S'.map Prod.fst = S.map Prod.fst ++ ((presentQuantities np qs).take k).flatMap (quantityFields np)
    else snapLoop s file npart f count bs = .error .ioError := by
  induction hm with
  | nil =>
    intro S f pre k count h ho _ _ _ _ _
    rw [if_pos (Or.inl (by simp [presentQuantities]))]
    exact ⟨f, S, rfl, h, ho, by simp [presentQuantities]⟩
  | @cons b q bs qs hbq hrest ih =>
    intro S f pre k count h ho hq hc hfile hpre hk
    by_cases hrow : q.rows np = []
    · have hp : presentQuantities np (q :: qs) = presentQuantities np qs := by simp [presentQuantities, hrow]
      have hl : snapLoop s file npart f count (b :: bs) = snapLoop s file npart f count bs := by
        simp only [snapLoop, snapDataset_skip hnp hbq hrow]
      rw [hp] at hq hfile hk ⊢
      rw [hl]
      exact ih h ho hq (hc.sublist ((List.Sublist.refl _).append (by rw [List.flatMap_cons]; exact List.sublist_append_right _ _))) hfile hpre hk
    · have hp : presentQuantities np (q :: qs) = q :: presentQuantities np qs := by simp [presentQuantities, hrow]
      rw [hp] at hq hfile hk ⊢
      cases k with
      | zero =>
        simp only [List.take_zero, List.map_nil, List.flatMap_nil, List.append_nil] at hfile
        have hr4 : rest.length < 4 := by rcases hk with hk | hk; simp at hk; exact hk
        have he := snapDataset_eof (s := s) hnp hbq hrow h.offset hf (by rw [hfile]; simp; omega) count
        simp only [List.length_cons, Nat.le_zero, Nat.add_eq_zero_iff, one_ne_zero, and_false, false_or, add_zero]
        by_cases hcount : 3 ≤ count
        · rw [if_pos hcount]
          rw [if_neg (by omega)] at he
          exact ⟨f, S, by simp only [snapLoop, he], h, ho, by simp⟩
        · rw [if_neg hcount]
          rw [if_pos (by omega)] at he
          simp only [snapLoop, he]
      | succ k =>
        simp only [List.take_succ_cons, List.mem_cons, forall_eq_or_imp, List.map_cons, List.flatMap_cons] at hq hfile
        obtain ⟨⟨q1, q2, q3, q4⟩, hq⟩ := hq
        rw [List.flatMap_cons, ← List.append_assoc] at hc
        obtain ⟨f', S', a1, a2, a3, a4, a5⟩ := snapDataset_reads hnp hbq h hf ho q1 q2 hrow q3 q4 (hc.sublist (List.sublist_append_left _ _)) count
          (pre := pre) (post := (((presentQuantities np qs).take k).map (fun q => Section.mk true (q.rows np))).flatMap (Section.bytes big C) ++ rest) (by rw [hfile]; simp) hpre
        have hl : snapLoop s file npart f count (b :: bs) = snapLoop s file npart f' (count + 1) bs := by simp only [snapLoop, a1]
        have := ih (S := S') (f := f') (pre := pre ++ Section.bytes big C ⟨true, q.rows np⟩) (k := k) (count := count + 1) a2 (by rw [a5]; exact ho) hq (by rw [a3]; exact hc) (by rw [hfile]; simp)
          (by rw [a4]; simp; omega) (by simp at hk; omega)
        rw [hl]
        by_cases hcond : (presentQuantities np qs).length ≤ k ∨ 3 ≤ count + 1 + k
        · rw [if_pos hcond] at this
          rw [if_pos (by simp; omega)]
          obtain ⟨f2, S2, c1, c2, c3, c4⟩ := this
          exact ⟨f2, S2, c1, c2, c3, by rw [c4, a3]; simp⟩
        · rw [if_neg hcond] at this
          rw [if_neg (by simp; omega)]
          exact this

end Verif
