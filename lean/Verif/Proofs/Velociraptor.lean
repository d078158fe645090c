import Verif.Spec.Velociraptor
import Verif.Proofs.FormatsPlain
import Verif.Proofs.GadgetSnapshot
import Verif.Proofs.FilePresence

/-! Proofs about the reader of Velociraptor files -/

namespace Verif

/-! ### Names -/

theorem stripSlashes_id {p : Name} (h1 : p.head? ≠ some '/') (h2 : p.getLast? ≠ some '/') : stripSlashes p = p := by
  unfold stripSlashes
  have e1 : p.dropWhile (fun c => c == '/') = p := by
    cases p with
    | nil => rfl
    | cons c p =>
      rw [List.dropWhile_cons_of_neg]
      intro hc
      exact h1 (by rw [show c = '/' by simpa using hc]; rfl)
  rw [e1]
  have e2 : p.reverse.dropWhile (fun c => c == '/') = p.reverse := by
    cases hr : p.reverse with
    | nil => rfl
    | cons c l =>
      rw [List.dropWhile_cons_of_neg]
      intro hc
      apply h2
      rw [List.getLast?_eq_head?_reverse, hr, show c = '/' by simpa using hc]
      rfl
  rw [e2, List.reverse_reverse]

theorem simple_ends {a : Name} (h : SimpleName a) : a.head? ≠ some '/' ∧ a.getLast? ≠ some '/' :=
  ⟨fun hc => h.2 (List.mem_of_head? hc), fun hc => h.2 (List.mem_of_getLast? hc)⟩

theorem splitPath_simple {a : Name} (h : SimpleName a) : splitPath a = (none, a) := by
  unfold splitPath
  simp only
  rw [stripSlashes_id (simple_ends h).1 (simple_ends h).2]
  have : a.dropWhile (fun c => c != '/') = [] := by
    rw [List.dropWhile_eq_nil_iff]
    intro c hc
    simpa using fun he : c = '/' => h.2 (he ▸ hc)
  rw [this]

theorem splitPath_pair {g a : Name} (hg : SimpleName g) (ha : SimpleName a) : splitPath (g ++ '/' :: a) = (some g, a) := by
  unfold splitPath
  simp only
  have h1 : (g ++ '/' :: a).head? ≠ some '/' := by
    obtain ⟨x, l, rfl⟩ := List.exists_cons_of_ne_nil hg.1
    exact (simple_ends hg).1
  have h2 : (g ++ '/' :: a).getLast? ≠ some '/' := by
    rw [List.getLast?_append]
    obtain ⟨x, l, rfl⟩ := List.exists_cons_of_ne_nil ha.1
    rw [List.getLast?_cons_cons]
    have := (simple_ends ha).2
    cases hl : (x :: l).getLast? with
    | none => simp at hl
    | some y => rw [hl] at this; simpa using this
  rw [stripSlashes_id h1 h2]
  have hall : ∀ c ∈ g, (c != '/') = true := by
    intro c hc
    simpa using fun he : c = '/' => hg.2 (he ▸ hc)
  rw [List.dropWhile_append_of_pos hall, List.takeWhile_append_of_pos hall, List.dropWhile_cons_of_neg (by simp), List.takeWhile_cons_of_neg (by simp), List.append_nil]

theorem ofDigitChars_zeros (k : Nat) (l : List Char) : Nat.ofDigitChars 10 (List.replicate k '0' ++ l) 0 = Nat.ofDigitChars 10 l 0 := by
  induction k with
  | zero => rfl
  | succ k ih =>
    rw [List.replicate_succ, List.cons_append]
    simpa [Nat.ofDigitChars] using ih

theorem decimal3_inj {a b : Nat} (h : decimal3 a = decimal3 b) : a = b := by
  have h1 := congrArg (fun l => Nat.ofDigitChars 10 l 0) h
  simp only [decimal3, ofDigitChars_zeros] at h1
  unfold decimal at h1
  simpa [Nat.ofDigitChars_ten_toDigits] using h1

theorem entry_simple (i : Nat) : SimpleName ("entry".toList ++ decimal3 i) := by
  refine ⟨by simp, ?_⟩
  rw [decimal3_eq]
  intro h
  rcases List.mem_append.1 h with h | h
  · revert h; decide
  · exact slash_not_three i h

theorem header_simple : SimpleName "Header".toList := ⟨by decide, by decide⟩

theorem entry_name (i : Nat) : (velociraptorEntry i).name = "Header".toList ++ '/' :: ("entry".toList ++ decimal3 i) := rfl

/-! ### The header -/

/-- Everything before the names of the columns -/
def velociraptorFixed : List BField := [attr4 "Header/ThisTask" [], attr4 "Header/NProcs" [], attr8 "Header/ng" [], attr8 "Header/ngtot" [], attr8 "Header/hsize" []]

/-- The class for a file with `n` columns -/
def velociraptorFormat (keep : Bool) (n : Nat) : PlainFormat :=
  { header := velociraptorFixed ++ (List.range n).map velociraptorEntry, size := none, body := [plain [velociraptorHalo keep]] }

theorem fieldsScoped_fixed {fs : List BField} (h : ∀ f ∈ fs, (∃ k, f.size = .const k) ∧ f.dims = []) (g : Bool) (before : List BField) : fieldsScoped g before fs = true := by
  induction fs generalizing before with
  | nil => rfl
  | cons f fs ih =>
    obtain ⟨⟨k, hk⟩, hd⟩ := h f (by simp)
    rw [fieldsScoped, hk, hd]
    simp [FExpr.scoped, ih (fun x hx => h x (by simp [hx]))]

theorem velociraptor_header {n : Nat} {fld : BField} (h : fld ∈ velociraptorFixed ++ (List.range n).map velociraptorEntry) :
    ((∃ k, fld.size = .const k) ∧ fld.dims = []) ∧ fld.attr = true ∧ ∃ a, SimpleName a ∧ fld.name = "Header".toList ++ '/' :: a := by
  rcases List.mem_append.1 h with h | h
  · simp only [velociraptorFixed, List.mem_cons, List.not_mem_nil, or_false] at h
    rcases h with rfl | rfl | rfl | rfl | rfl
    · exact ⟨⟨⟨_, rfl⟩, rfl⟩, rfl, "ThisTask".toList, ⟨by decide, by decide⟩, by decide⟩
    · exact ⟨⟨⟨_, rfl⟩, rfl⟩, rfl, "NProcs".toList, ⟨by decide, by decide⟩, by decide⟩
    · exact ⟨⟨⟨_, rfl⟩, rfl⟩, rfl, "ng".toList, ⟨by decide, by decide⟩, by decide⟩
    · exact ⟨⟨⟨_, rfl⟩, rfl⟩, rfl, "ngtot".toList, ⟨by decide, by decide⟩, by decide⟩
    · exact ⟨⟨⟨_, rfl⟩, rfl⟩, rfl, "hsize".toList, ⟨by decide, by decide⟩, by decide⟩
  · obtain ⟨i, _, rfl⟩ := List.mem_map.1 h
    exact ⟨⟨⟨_, rfl⟩, rfl⟩, rfl, _, entry_simple i, entry_name i⟩

theorem fixed_not_entry {fld : BField} (h : fld ∈ velociraptorFixed) (i : Nat) : fld.name ≠ (velociraptorEntry i).name := by
  intro he
  have := congrArg (fun l => (l.drop 7).take 5) he
  have hr : ((velociraptorEntry i).name.drop 7).take 5 = "entry".toList := rfl
  simp only [hr] at this
  simp only [velociraptorFixed, List.mem_cons, List.not_mem_nil, or_false] at h
  rcases h with rfl | rfl | rfl | rfl | rfl <;> exact absurd this (by decide)

theorem compat_attrs {a b : BField} (ha : a.attr = true) (hb : b.attr = true) (h : a.name ≠ b.name) : a.compat b = true := by
  simp [BField.compat, ha, hb, h]

theorem nameOk_pair {f : BField} {a : Name} (h1 : SimpleName a) (h2 : f.name = "Header".toList ++ '/' :: a) : f.nameOk = true := by
  unfold BField.nameOk
  rw [h2, splitPath_pair header_simple h1]
  simp only
  rw [splitPath_simple h1, splitPath_simple header_simple]
  simp

theorem velociraptor_pairwise (n : Nat) : (velociraptorFixed ++ (List.range n).map velociraptorEntry).Pairwise (fun a b => a.compat b = true) := by
  rw [List.pairwise_append]
  refine ⟨by decide +kernel, ?_, ?_⟩
  · rw [List.pairwise_map]
    exact List.pairwise_lt_range.imp (fun {i j} hij => compat_attrs rfl rfl (fun he => by
      rw [entry_name, entry_name] at he
      have := decimal3_inj (List.append_cancel_left (List.cons.inj (List.append_cancel_left he)).2)
      omega))
  · intro f hf g hg
    obtain ⟨i, _, rfl⟩ := List.mem_map.1 hg
    exact compat_attrs (velociraptor_header (n := n) (List.mem_append_left _ hf)).2.1 rfl (fixed_not_entry hf i)

theorem velociraptor_names {n : Nat} {fld : BField} (h : fld ∈ velociraptorFixed ++ (List.range n).map velociraptorEntry) : fld.nameOk = true := by
  obtain ⟨_, _, a, h3, h4⟩ := velociraptor_header h
  exact nameOk_pair h3 h4

theorem velociraptor_scoped (keep : Bool) (n : Nat) : (velociraptorFormat keep n).scoped = true := by
  have hall : (velociraptorFormat keep n).allFields = (velociraptorFixed ++ (List.range n).map velociraptorEntry) ++ [velociraptorHalo keep] := rfl
  unfold PlainFormat.scoped
  rw [hall]
  simp only [Bool.and_eq_true, decide_eq_true_eq]
  refine ⟨⟨?_, ?_⟩, ?_⟩
  · rw [List.pairwise_append]
    refine ⟨velociraptor_pairwise n, by simp, ?_⟩
    intro f hf g hg
    obtain ⟨_, h2, a, h3, h4⟩ := velociraptor_header hf
    rw [List.mem_singleton.1 hg]
    have hc : comps (velociraptorHalo keep).name = ["Halo".toList] := splitPath_none (by cases keep <;> decide +kernel)
    have hf : comps f.name = ["Header".toList, a] := by rw [h4]; exact comps_pair header_simple h3
    unfold BField.compat
    rw [hc, hf, h2]
    simp [velociraptorHalo]
  · rw [List.all_eq_true]
    intro f hf
    rcases List.mem_append.1 hf with hf | hf
    · exact velociraptor_names hf
    · rw [List.mem_singleton.1 hf]
      rfl
  · show (true && fieldsScoped true [] (velociraptorFixed ++ (List.range n).map velociraptorEntry) && partsScoped ([] ++ (velociraptorFixed ++ (List.range n).map velociraptorEntry)) [plain [velociraptorHalo keep]]) = true
    rw [fieldsScoped_fixed (fun f hf => (velociraptor_header hf).1)]
    simp only [partsScoped, plain, fieldsScoped, List.nil_append, Bool.and_true, Bool.true_and, velociraptorHalo, FExpr.scoped, List.all_cons, List.all_nil]
    rw [List.any_append]
    rw [Bool.and_eq_true, Bool.and_eq_true, Bool.or_eq_true]
    exact ⟨⟨by decide +kernel, by decide +kernel⟩, Or.inl (by decide +kernel)⟩

theorem addFields_append (s : Bool) (file : List Byte) (f : BFile) (l l' : List BField) :
    addFields s file f (l ++ l') = match addFields s file f l with | .error e => .error e | .ok f => addFields s file f l' := by
  induction l generalizing f with
  | nil => rfl
  | cons a l ih =>
    rw [List.cons_append, addFields, addFields]
    cases addField s file f a with
    | error e => rfl
    | ok f1 => exact ih f1

/-- The constructor reads a file with the given number of columns in this way. -/
theorem velociraptorParse_eq {keep flags : Bool} {s : Bool} {file : List Byte} {f5 : BFile} {vals : List (List Byte)} (h5 : addFields s file .new velociraptorFixed = .ok f5)
    (hv : f5.attribute s file "Header".toList "hsize".toList = .ok vals) :
    velociraptorParse true keep flags s file = if flags then
        (match addFields s file .new (velociraptorFixed ++ (List.range (int64Value (vals.headD [])).toNat).map velociraptorEntry) with | .error e => .error e | .ok _ => .error .other)
      else (velociraptorFormat keep (int64Value (vals.headD [])).toNat).parse s file := by
  have hsplit : velociraptorFixed = [attr4 "Header/ThisTask" [], attr4 "Header/NProcs" [], attr8 "Header/ng" [], attr8 "Header/ngtot" []] ++ [attr8 "Header/hsize" []] := rfl
  have h5' := h5
  rw [hsplit, addFields_append] at h5
  unfold velociraptorParse
  cases h4 : addFields s file .new [attr4 "Header/ThisTask" [], attr4 "Header/NProcs" [], attr8 "Header/ng" [], attr8 "Header/ngtot" []] with
  | error e => rw [h4] at h5; simp at h5
  | ok f4 =>
    rw [h4] at h5
    simp only at h5
    simp only [Bool.true_eq_false, if_false, h5, hv]
    rw [addFields_append, h5']
    simp only
    unfold PlainFormat.parse velociraptorFormat
    simp only [addParts, addPart, plain, Bool.false_eq_true, if_false, addFields_append, h5']
    cases addFields s file f5 ((List.range (int64Value (vals.headD [])).toNat).map velociraptorEntry) with
    | error e => cases flags <;> rfl
    | ok f6 =>
      cases flags
      · simp only [Bool.false_eq_true, if_false]
        cases addFields s file f6 [velociraptorHalo keep] <;> rfl
      · rfl

theorem velociraptor_layout (keep : Bool) (C : Content) (n m : Nat) (hm : leNat ((C "Header/ng".toList).headD []) = m) : (velociraptorFormat keep n).layout C = Files.velociraptor keep n m := by
  unfold PlainFormat.layout Files.velociraptor velociraptorFormat
  have hactive : [plain [velociraptorHalo keep]].filter (FPart.active C) = [plain [velociraptorHalo keep]] := rfl
  have hrow : ∀ i, (velociraptorEntry i).row C = ⟨"Header/entry".toList ++ threeDigits i, 40, [], false, some ("Header".toList, "entry".toList ++ threeDigits i)⟩ := by
    intro i
    unfold BField.row BField.group
    rw [entry_name, splitPath_pair header_simple (entry_simple i), ← decimal3_eq]
    rfl
  simp only [hactive, List.map_append, List.map_map, List.map_cons, List.map_nil]
  have h1 : velociraptorFixed.map (BField.row C) = [Files.head 4 [] "ThisTask", Files.head 4 [] "NProcs", Files.head 8 [] "ng", Files.head 8 [] "ngtot", Files.head 8 [] "hsize"] := by
    rfl
  have h2 : (List.range n).map (BField.row C ∘ velociraptorEntry) = (List.range n).map (fun i => (⟨"Header/entry".toList ++ threeDigits i, 40, [], false, some ("Header".toList, "entry".toList ++ threeDigits i)⟩ : Row)) :=
    List.map_congr_left (fun i _ => hrow i)
  rw [h1, h2]
  have h3 : (plain [velociraptorHalo keep]).section C = ⟨false, [Files.structs (packedSize (Files.velociraptorHalo keep)) m "Halo"]⟩ := by
    have hs : dtypeSize false (velociraptorFields keep) = packedSize (Files.velociraptorHalo keep) := by cases keep <;> decide +kernel
    have hv : leNat ((C ("Header".toList ++ '/' :: "ng".toList)).getD 0 []) = m := by
      rw [← hm]
      show leNat ((C "Header/ng".toList).getD 0 []) = _
      cases C "Header/ng".toList <;> rfl
    unfold FPart.section plain BField.row velociraptorHalo Files.structs
    simp only [List.map_cons, List.map_nil, FExpr.value, hv, hs]
    rfl
  rw [h3]

/-! ### Structures without gaps -/

theorem packed_offsets (ms : List Member) (value : String → List Byte) (hf : ∀ m ∈ ms, m.Fits value) (pre : List Byte) :
    ∀ p ∈ ms.zip (dtypeOffsets false pre.length (ms.map Member.toField)), slice (pre ++ packedBytes value ms) p.2 (p.1.align * p.1.count) = value p.1.name := by
  induction ms generalizing pre with
  | nil => simp
  | cons m ms ih =>
    have hm := hf m (by simp)
    unfold Member.Fits at hm
    intro p hp
    rw [List.map_cons, dtypeOffsets, List.zip_cons_cons, List.mem_cons] at hp
    have hb : packedBytes value (m :: ms) = value m.name ++ packedBytes value ms := rfl
    rcases hp with rfl | hp
    · simp only [SField.offset, Bool.false_eq_true, if_false]
      rw [hb]
      unfold slice
      rw [List.drop_left' rfl, ← hm, List.take_left' rfl]
    · have := ih (fun x hx => hf x (by simp [hx])) (pre ++ value m.name) p (by
        rw [List.length_append, hm]
        exact hp)
      rw [hb, ← List.append_assoc]
      exact this

end Verif
