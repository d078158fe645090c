import Verif.Proofs.Formats
import Verif.Spec.FormatsPlain
import Verif.Model.FormatsPlain

/-! Proofs about files in native byte order and structured types -/

namespace Verif

/-! ### Structures -/

theorem roundUp_eq (x a : Nat) (ha : 0 < a) : roundUp x a = x + (a - x % a) % a := by
  unfold roundUp
  have h1 := Nat.div_add_mod x a
  have h2 := Nat.mod_lt x ha
  generalize x / a = q at h1
  generalize hr : x % a = r at h1 h2
  by_cases h0 : r = 0
  · rw [h0, Nat.sub_zero, Nat.mod_self, show x + a - 1 = a * q + (a - 1) by omega, Nat.mul_add_div ha, Nat.div_eq_of_lt (show a - 1 < a by omega), Nat.add_zero, Nat.mul_comm]
    omega
  · rw [Nat.mod_eq_of_lt (show a - r < a by omega), show x + a - 1 = a * (q + 1) + (r - 1) by rw [Nat.mul_add]; omega, Nat.mul_add_div ha, Nat.div_eq_of_lt (show r - 1 < a by omega), Nat.add_zero, Nat.mul_comm,
      Nat.mul_add]
    omega

/-- The field of a structured type for a member of a structure -/
def Member.toField (m : Member) : SField := ⟨m.name, m.align, m.count⟩

section
variable {pad : Nat → Byte} {value : String → List Byte}

theorem structBody_prefix (acc : List Byte) (ms : List Member) : acc <+: structBody pad value acc ms := by
  induction ms generalizing acc with
  | nil => exact List.prefix_rfl
  | cons m ms ih => exact List.IsPrefix.trans (by rw [List.append_assoc]; exact List.prefix_append _ _) (ih _)

theorem length_structBody (acc : List Byte) (ms : List Member) (hf : ∀ m ∈ ms, m.Fits value ∧ 0 < m.align) :
    (structBody pad value acc ms).length = dtypeEnd true acc.length (ms.map Member.toField) := by
  induction ms generalizing acc with
  | nil => rfl
  | cons m ms ih =>
    obtain ⟨h1, h2⟩ := hf m (by simp)
    rw [structBody, ih _ (fun m hm => hf m (by simp [hm])), List.map_cons, dtypeEnd]
    congr 1
    simp only [List.length_append, List.length_map, List.length_range, SField.offset, if_true, Member.toField, roundUp_eq _ _ h2]
    rw [h1]

theorem slice_structBody (acc : List Byte) (ms : List Member) (hf : ∀ m ∈ ms, m.Fits value ∧ 0 < m.align) :
    ∀ p ∈ (ms.map Member.toField).zip (dtypeOffsets true acc.length (ms.map Member.toField)), slice (structBody pad value acc ms) p.2 (p.1.size * p.1.count) = value p.1.name ∧ p.2 + p.1.size * p.1.count ≤ (structBody pad value acc ms).length := by
  induction ms generalizing acc with
  | nil => simp
  | cons m ms ih =>
    obtain ⟨h1, h2⟩ := hf m (by simp)
    have hlen : (acc ++ (List.range ((m.align - acc.length % m.align) % m.align)).map pad ++ value m.name).length = m.toField.offset true acc.length + m.toField.size * m.toField.count := by
      simp only [List.length_append, List.length_map, List.length_range, SField.offset, if_true, Member.toField, roundUp_eq _ _ h2]
      rw [h1]
    intro p hp
    simp only [List.map_cons, dtypeOffsets, List.zip_cons_cons, List.mem_cons] at hp
    rw [structBody]
    rcases hp with rfl | hp
    · obtain ⟨post, hpost⟩ := structBody_prefix (pad := pad) (value := value) (acc ++ (List.range ((m.align - acc.length % m.align) % m.align)).map pad ++ value m.name) ms
      rw [← hpost]
      have ho : m.toField.offset true acc.length = (acc ++ (List.range ((m.align - acc.length % m.align) % m.align)).map pad).length := by
        simp [SField.offset, Member.toField, roundUp_eq _ _ h2]
      have hw : m.toField.size * m.toField.count = (value m.name).length := h1.symm
      refine ⟨?_, ?_⟩
      · simp only [slice]
        rw [ho, hw, List.append_assoc, List.drop_left, List.take_left]
        rfl
      · rw [List.length_append, hlen]; simp
    · have := ih (acc ++ (List.range ((m.align - acc.length % m.align) % m.align)).map pad ++ value m.name) (fun m hm => hf m (by simp [hm])) p
      rw [hlen] at this
      exact this hp

theorem slice_append_left {l l' : List Byte} {o n : Nat} (h : o + n ≤ l.length) : slice (l ++ l') o n = slice l o n := by
  simp only [slice]
  rw [List.drop_append_of_le_length (by omega), List.take_append_of_le_length (by simp; omega)]

theorem dtypeOffsets_length (align : Bool) (pos : Nat) (fields : List SField) : (dtypeOffsets align pos fields).length = fields.length := by
  induction fields generalizing pos with
  | nil => rfl
  | cons f l ih => simp [dtypeOffsets, ih]

theorem structAlign_eq (ms : List Member) (hf : ∀ m ∈ ms, 0 < m.align) : structAlign ms = maxSize (ms.map Member.toField) := by
  unfold structAlign maxSize
  rw [List.foldl_map]
  cases ms with
  | nil => rfl
  | cons m ms =>
    have h0 := hf m (by simp)
    simp only [List.map_cons, List.max?_cons', Option.getD_some, List.foldl_cons, List.foldl_map, Member.toField]
    rw [Nat.max_eq_right (show 1 ≤ m.align from h0)]

theorem structAlign_pos (ms : List Member) (hf : ∀ m ∈ ms, 0 < m.align) : 0 < structAlign ms := by
  rw [structAlign_eq ms hf]
  have : ∀ (l : List SField) (k : Nat), k ≤ l.foldl (fun m fld => max m fld.size) k := by
    intro l
    induction l with
    | nil => intro k; exact le_rfl
    | cons f l ih => intro k; exact le_trans (le_max_left _ _) (ih _)
  exact this _ 1

theorem length_structBytes (ms : List Member) (hf : ∀ m ∈ ms, m.Fits value ∧ 0 < m.align) : (structBytes pad value ms).length = dtypeSize true (ms.map Member.toField) := by
  have ha := structAlign_pos ms (fun m hm => (hf m hm).2)
  have hl := length_structBody (pad := pad) [] ms hf
  simp only [structBytes, List.length_append, List.length_map, List.length_range, dtypeSize, if_true]
  rw [← structAlign_eq ms (fun m hm => (hf m hm).2), roundUp_eq _ _ ha, hl]
  simp

theorem recordField_struct (ms : List Member) (hf : ∀ m ∈ ms, m.Fits value ∧ 0 < m.align) (m : Member) (hm : m ∈ ms) :
    recordField true (ms.map Member.toField) (structBytes pad value ms) m.name = some (value m.name) := by
  unfold recordField
  have hfind : ((ms.map Member.toField).zip (dtypeOffsets true 0 (ms.map Member.toField))).find? (fun p => p.1.name == m.name) ≠ none := by
    rw [Ne, List.find?_eq_none]
    push Not
    obtain ⟨k, hk, rfl⟩ := List.getElem_of_mem hm
    have hk2 : k < (dtypeOffsets true 0 (ms.map Member.toField)).length := by rw [dtypeOffsets_length]; simpa using hk
    refine ⟨((ms[k]).toField, (dtypeOffsets true 0 (ms.map Member.toField))[k]), ?_, by simp [Member.toField]⟩
    rw [List.mem_iff_getElem]
    exact ⟨k, by simp [hk2]; omega, by simp⟩
  cases hq : ((ms.map Member.toField).zip (dtypeOffsets true 0 (ms.map Member.toField))).find? (fun p => p.1.name == m.name) with
  | none => exact absurd hq hfind
  | some p =>
    obtain ⟨h1, h2⟩ := slice_structBody (pad := pad) (value := value) [] ms hf p (by simpa using List.mem_of_find?_eq_some hq)
    have hn := List.find?_some hq
    simp only [beq_iff_eq] at hn
    simp only [structBytes]
    rw [slice_append_left h2, h1, hn]

end

/-! ### Files -/

def PlainFormat.allFields (F : PlainFormat) : List BField := F.header ++ F.body.flatMap FPart.fields

def PlainFormat.scoped (F : PlainFormat) : Bool :=
  decide (F.allFields.Pairwise (fun a b => a.compat b = true)) && F.allFields.all BField.nameOk && partsScoped [] (plain F.header :: F.body)

def PlainFormat.layout (C : Content) (F : PlainFormat) : Layout := ⟨false, F.header.map (BField.row C)⟩ :: (F.body.filter (FPart.active C)).map (FPart.section C)

theorem PlainFormat.reads (F : PlainFormat) (hF : F.scoped = true) (C : Content)
    (hnn : ∀ fld ∈ F.header ++ (F.body.filter (FPart.active C)).flatMap FPart.fields, 0 ≤ fld.size.value C ∧ ∀ e ∈ fld.dims, 0 ≤ e.value C)
    (hfit : (F.layout C).Fits C) (hhead : 0 < (F.header.map (fun fld => (fld.row C).width * (fld.row C).shape.prod)).sum)
    (hsize : ∀ n, F.size = some n → (F.header.map (fun fld => (fld.row C).width * (fld.row C).shape.prod)).sum = n) :
    (F.layout C).ReadOn true C (fun s file => F.parse s file) := by
  intro s rest
  set big := (s != true) with hbig
  simp only [PlainFormat.scoped, Bool.and_eq_true, decide_eq_true_eq] at hF
  obtain ⟨⟨hpw, hname⟩, hsc⟩ := hF
  have hnameH : ∀ fld ∈ F.header, fld.nameOk = true := fun fld hfl => List.all_eq_true.1 hname fld (by simp [PlainFormat.allFields, hfl])
  have hnameB : ∀ p ∈ F.body, ∀ fld ∈ p.fields, fld.nameOk = true := fun p hp fld hfl => List.all_eq_true.1 hname fld (by
    simp only [PlainFormat.allFields, List.mem_append, List.mem_flatMap]; exact Or.inr ⟨p, hp, hfl⟩)
  have hokH : ∀ fld ∈ F.header, fld.Ok C := fun fld hfl => ⟨(hnn fld (by simp [hfl])).1, (hnn fld (by simp [hfl])).2, hfit.rows _ (by rw [PlainFormat.layout]; exact List.mem_cons_self) _ (List.mem_map_of_mem hfl)⟩
  have hokB : ∀ p ∈ F.body, p.active C = true → ∀ fld ∈ p.fields, fld.Ok C := by
    intro p hp ha fld hfl
    have hm : fld ∈ F.header ++ (F.body.filter (FPart.active C)).flatMap FPart.fields :=
      List.mem_append_right _ (List.mem_flatMap.2 ⟨p, List.mem_filter.2 ⟨hp, ha⟩, hfl⟩)
    exact ⟨(hnn fld hm).1, (hnn fld hm).2, hfit.rows (p.section C) (by
      rw [PlainFormat.layout]; exact List.mem_cons_of_mem _ (List.mem_map_of_mem (List.mem_filter.2 ⟨hp, ha⟩))) _ (List.mem_map_of_mem hfl)⟩
  have hlenH : ∀ fs : List BField, (∀ fld ∈ fs, fld.Ok C) → (fs.flatMap (fun fld => (fld.row C).bytes big C)).length = (fs.map (fun fld => (fld.row C).width * (fld.row C).shape.prod)).sum := by
    intro fs hfs
    induction fs with
    | nil => rfl
    | cons g fs ih => simp [ih (fun x hx => hfs x (by simp [hx])), length_rowBytes (hfs g (by simp)).2.2]
  rw [← hlenH F.header hokH] at hhead hsize
  set L := F.layout C with hLdef
  set bodyBytes := ((F.body.filter (FPart.active C)).map (FPart.section C)).flatMap (Section.bytes big C) with hbb
  set headBytes := F.header.flatMap (fun fld => (fld.row C).bytes big C) with hhb
  have hfile : L.bytes big C ++ rest = headBytes ++ bodyBytes ++ rest := by
    rw [hLdef, PlainFormat.layout]
    simp only [Layout.bytes, List.flatMap_cons, Section.bytes, Bool.false_eq_true, if_false, payload_rows, hbb, hhb]
  have hne : L.bytes big C ++ rest ≠ [] := by
    rw [hfile]; intro hc
    have := congrArg List.length hc
    simp only [List.length_append, List.length_nil] at this
    omega
  simp only [partsScoped, Bool.and_eq_true] at hsc
  obtain ⟨⟨-, g2⟩, g3⟩ := hsc
  have hord : OrderIs s '=' big := by rw [hbig]; cases s <;> simp [OrderIs]
  obtain ⟨f, S, o1, o2, o3, o4, o5, o6⟩ := (inv_new true (L.bytes big C ++ rest) big C).fields (s := s) hne true [] F.header (by simp) (fun _ => hord) g2 hnameH
    (by simpa using hpw.sublist (List.sublist_append_left _ _)) hokH (pre := []) (post := bodyBytes ++ rest) (by rw [hfile]; simp [hhb]) (by simp [BFile.new])
  have hoff : f.offset = headBytes.length := by rw [o4]; simp [BFile.new, hhb]
  simp only [List.map_nil, List.nil_append] at o3
  obtain ⟨f', S', p1, p2, p3, p4, p5⟩ := o2.parts hne o6 (by rw [o5]; exact hord) F.header F.body (by rw [o3]; exact fun g hg => hg) (by simpa [plain] using g3) hnameB (by rw [o3]; exact hpw) hokB
    (by
      intro p hp ha hr
      exact hfit.records (p.section C) (by rw [hLdef, PlainFormat.layout]; exact List.mem_cons_of_mem _ (List.mem_map_of_mem (List.mem_filter.2 ⟨hp, ha⟩))) hr)
    hfile hoff.symm
  refine ⟨f', ?_, ?_, ?_, ?_⟩
  rotate_left 2
  · intro name hn
    apply p2.absent
    intro e he
    have hm : e.1 ∈ S'.map Prod.fst := List.mem_map_of_mem he
    rw [p3, o3, List.mem_append, List.mem_flatMap] at hm
    rcases hm with hm | ⟨p, hp, hm⟩
    · exact hn ⟨false, F.header.map (BField.row C)⟩ (by rw [hLdef, PlainFormat.layout]; exact List.mem_cons_self) (e.1.row C) (List.mem_map_of_mem hm)
    · exact hn (p.section C) (by rw [hLdef, PlainFormat.layout]; exact List.mem_cons_of_mem _ (List.mem_map_of_mem hp)) (e.1.row C) (List.mem_map_of_mem hm)
  rotate_right 2
  · have h1 : addParts s (L.bytes big C ++ rest) .new [plain F.header] = .ok f := by
      simp only [addParts, addPart, plain, Bool.false_eq_true, if_false, o1]
    simp only [PlainFormat.parse, h1]
    cases hz : F.size with
    | none => exact p1
    | some n =>
      have : f.offset = n := by rw [hoff, hsize n hz]
      simp only [this, ne_eq, not_true_eq_false, if_false]
      exact p1
  · intro sec hsec r hr
    have hback : ∀ fld, fld.nameOk = true → fld ∈ S'.map Prod.fst → (fld.row C).ReadBack s (L.bytes big C ++ rest) C f' := by
      intro fld hn hm
      obtain ⟨e, he, rfl⟩ := List.mem_map.1 hm
      exact p2.readBack hne p5 he hn
    rw [hLdef, PlainFormat.layout] at hsec
    rcases List.mem_cons.1 hsec with rfl | hsec
    · obtain ⟨fld, hfl, rfl⟩ := List.mem_map.1 hr
      exact hback fld (hnameH fld hfl) (by rw [p3, o3]; simp [hfl])
    · obtain ⟨p, hp, rfl⟩ := List.mem_map.1 hsec
      obtain ⟨fld, hfl, rfl⟩ := List.mem_map.1 hr
      refine hback fld (hnameB p (List.mem_filter.1 hp).1 fld hfl) ?_
      rw [p3]
      exact List.mem_append_right _ (List.mem_flatMap.2 ⟨p, hp, hfl⟩)
  · rw [p2.used, p4, hoff, hfile, ← hbb]
    simp only [List.length_append]
    push_cast
    constructor
    · intro hh
      exact List.eq_nil_of_length_eq_zero (by omega)
    · rintro rfl; simp

end Verif
