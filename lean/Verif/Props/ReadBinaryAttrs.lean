import Verif.Proofs.ReadBinaryAttrs
import Verif.Props.ReadBinaryNames

/-! C46 and C48 for attributes of a binary file. -/

namespace Verif

theorem run_clean (s : Bool) (file : List Byte) (ops : List BOp) : Clean (BFile.run s file ops).root := by
  induction ops using List.reverseRecOn with
  | nil => exact clean_empty
  | append_singleton ops op ih =>
    have hrun : BFile.run s file (ops ++ [op]) = ((BFile.run s file ops).step s file op).1 := by rw [run_append]; rfl
    rw [hrun]
    have hv := run_valid s file ops
    generalize BFile.run s file ops = f at *
    cases op with
    | addDataset name d sh =>
      simp only [BFile.step, BFile.addBlock, hv, Bool.not_true, Bool.false_eq_true, if_false]
      rcases hq : BGroup.addBlock false f.blocks.length (name.length + 1) f.root name with e | ⟨r, fl⟩
      · exact ih
      · exact clean_dataset _ _ _ _ _ _ ih hq
    | addAttribute name d sh =>
      simp only [BFile.step, BFile.addBlock, hv, Bool.not_true, Bool.false_eq_true, if_false]
      obtain ⟨cs, x, -, ⟨-, h⟩ | ⟨-, g', fl, h, hc, -⟩⟩ := addBlock_attr_at f.blocks.length (name.length + 1) f.root name (by omega) ih
      · rw [h]; exact ih
      · rw [h]; exact hc
    | _ => rw [(step_root s file _ _ hv).2 (by intros; simp) (by intros; simp)]; exact ih

/-- What the declaration of an attribute does -/
theorem step_attr (s : Bool) (file : List Byte) (ops : List BOp) (name : Name) (d : DType) (sh : List Nat) :
    ∃ cs x, (∀ cs' x', AttrTarget (BFile.run s file ops).root name cs' x' ↔ cs' = cs ∧ x' = x) ∧
      ((attrAtPath (BFile.run s file ops).root cs x ≠ none ∧ (BFile.run s file ops).step s file (.addAttribute name d sh) = (BFile.run s file ops, some .keyError)) ∨
       (attrAtPath (BFile.run s file ops).root cs x = none ∧ ((BFile.run s file ops).step s file (.addAttribute name d sh)).2 = none ∧
        (∀ cs' x', attrAtPath ((BFile.run s file ops).step s file (.addAttribute name d sh)).1.root cs' x' =
          if cs' = cs ∧ x' = x then some (BFile.run s file ops).blocks.length else attrAtPath (BFile.run s file ops).root cs' x') ∧
        ∃ e, ((BFile.run s file ops).step s file (.addAttribute name d sh)).1.blocks = (BFile.run s file ops).blocks ++ [⟨d, (BFile.run s file ops).offset, sh, e⟩] ∧
          e = if ((kindAt (BFile.run s file ops).root cs).bind id).isSome then '=' else (BFile.run s file ops).endian)) := by
  have hv := run_valid s file ops
  have hc := run_clean s file ops
  generalize BFile.run s file ops = f at *
  obtain ⟨cs, x, h1, h2⟩ := addBlock_attr_at f.blocks.length (name.length + 1) f.root name (by omega) hc
  refine ⟨cs, x, h1, ?_⟩
  simp only [BFile.step, BFile.addBlock, hv, Bool.not_true, Bool.false_eq_true, if_false]
  rcases h2 with ⟨h3, h4⟩ | ⟨h3, g', fl, h4, -, h5, h6⟩
  · left; rw [h4]; exact ⟨h3, rfl⟩
  · right
    rw [h4]
    refine ⟨h3, rfl, h6, _, rfl, ?_⟩
    cases fl with
    | false =>
      obtain ⟨k, hk⟩ := h5.1 rfl
      simp [hk]
    | true =>
      rw [if_pos rfl, if_neg]
      intro hsome
      rcases hk : kindAt f.root cs with _ | _ | k
      · simp [hk] at hsome
      · simp [hk] at hsome
      · have := h5.2 ⟨k, hk⟩; cases this

/-- An attribute can be declared, after any calls, exactly if what it belongs to has no attribute of that name yet; otherwise `KeyError` is raised. -/
theorem C46_declare_attribute (s : Bool) (file : List Byte) (ops : List BOp) (name : Name) (d : DType) (sh : List Nat) :
    ((BFile.step s file (BFile.run s file ops) (.addAttribute name d sh)).2 = none ↔
      ∀ cs x, AttrTarget (BFile.run s file ops).root name cs x → attrAtPath (BFile.run s file ops).root cs x = none) ∧
    ((BFile.step s file (BFile.run s file ops) (.addAttribute name d sh)).2 = none ∨ (BFile.step s file (BFile.run s file ops) (.addAttribute name d sh)).2 = some .keyError) := by
  obtain ⟨cs, x, h1, ⟨h2, h3⟩ | ⟨h2, h3, -⟩⟩ := step_attr s file ops name d sh
  · rw [h3]
    refine ⟨⟨fun h => (by cases h), fun h => absurd (h cs x ((h1 _ _).2 ⟨rfl, rfl⟩)) h2⟩, Or.inr rfl⟩
  · rw [h3]
    refine ⟨⟨fun _ cs' x' ht => ?_, fun _ => rfl⟩, Or.inl rfl⟩
    obtain ⟨rfl, rfl⟩ := (h1 _ _).1 ht
    exact h2

/-- After any calls, what is at some components has an attribute exactly if it was declared for it. -/
theorem attr_history (s : Bool) (file : List Byte) (ops : List BOp) (cs : List Name) (x : Name) (id : Nat) :
    attrAtPath (BFile.run s file ops).root cs x = some id ↔
      ∃ before name d sh after, ops = before ++ .addAttribute name d sh :: after ∧ ((BFile.run s file before).step s file (.addAttribute name d sh)).2 = none ∧
        id = (BFile.run s file before).blocks.length ∧ AttrTarget (BFile.run s file before).root name cs x := by
  induction ops using List.reverseRecOn with
  | nil =>
    constructor
    · intro h
      have : attrAtPath (BFile.run s file []).root cs x = none := attrAtPath_empty cs x
      rw [this] at h; cases h
    · rintro ⟨b, n, d, sh, a, h, -⟩
      simp at h
  | append_singleton ops op ih =>
    have hrun : BFile.run s file (ops ++ [op]) = ((BFile.run s file ops).step s file op).1 := by rw [run_append]; rfl
    rw [hrun]
    have hv := run_valid s file ops
    have hc := run_clean s file ops
    have other : (∀ n d sh, op ≠ .addAttribute n d sh) → attrAtPath ((BFile.run s file ops).step s file op).1.root cs x = attrAtPath (BFile.run s file ops).root cs x := by
      intro hop
      cases op with
      | addDataset name d sh =>
        simp only [BFile.step, BFile.addBlock, hv, Bool.not_true, Bool.false_eq_true, if_false]
        rcases hq : BGroup.addBlock false (BFile.run s file ops).blocks.length (name.length + 1) (BFile.run s file ops).root name with e | ⟨r, fl⟩
        · rfl
        · exact attrAtPath_dataset _ _ _ _ _ _ hc hq cs x
      | addAttribute name d sh => exact absurd rfl (hop name d sh)
      | _ => rw [(step_root s file _ _ hv).2 (by intros; simp) (by intros; simp)]
    have keep : attrAtPath (BFile.run s file ops).root cs x = some id → attrAtPath ((BFile.run s file ops).step s file op).1.root cs x = some id := by
      intro h
      by_cases hop : ∀ n d sh, op ≠ .addAttribute n d sh
      · rw [other hop]; exact h
      · push Not at hop
        obtain ⟨name, d, sh, rfl⟩ := hop
        obtain ⟨cs0, x0, h1, ⟨h2, h3⟩ | ⟨h2, h3, h4, -⟩⟩ := step_attr s file ops name d sh
        · rw [h3]; exact h
        · rw [h4, if_neg]
          · exact h
          · rintro ⟨rfl, rfl⟩; rw [h2] at h; cases h
    have back : attrAtPath ((BFile.run s file ops).step s file op).1.root cs x = some id → attrAtPath (BFile.run s file ops).root cs x = some id ∨
        ∃ name d sh, op = .addAttribute name d sh ∧ ((BFile.run s file ops).step s file op).2 = none ∧ id = (BFile.run s file ops).blocks.length ∧ AttrTarget (BFile.run s file ops).root name cs x := by
      intro h
      by_cases hop : ∀ n d sh, op ≠ .addAttribute n d sh
      · rw [other hop] at h; exact Or.inl h
      · push Not at hop
        obtain ⟨name, d, sh, rfl⟩ := hop
        obtain ⟨cs0, x0, h1, ⟨h2, h3⟩ | ⟨h2, h3, h4, -⟩⟩ := step_attr s file ops name d sh
        · rw [h3] at h; exact Or.inl h
        · rw [h4] at h
          split at h
          · rename_i ht
            cases h
            exact Or.inr ⟨name, d, sh, rfl, h3, rfl, (h1 _ _).2 ht⟩
          · exact Or.inl h
    constructor
    · intro h
      rcases back h with h | ⟨name, d, sh, rfl, h0, h1, h2⟩
      · obtain ⟨b, n, d, sh, a, rfl, h0, h1, h2⟩ := ih.1 h
        exact ⟨b, n, d, sh, a ++ [op], by simp, h0, h1, h2⟩
      · exact ⟨ops, name, d, sh, [], rfl, h0, h1, h2⟩
    · rintro ⟨b, n, d, sh, a, hops, h0, h1, h2⟩
      rcases List.eq_nil_or_concat a with rfl | ⟨a', o, rfl⟩
      · obtain ⟨rfl, ho⟩ := List.append_inj' hops rfl
        simp only [List.cons.injEq, and_true] at ho
        subst ho
        obtain ⟨cs0, x0, h3, ⟨-, h4⟩ | ⟨-, -, h5, -⟩⟩ := step_attr s file ops n d sh
        · rw [h4] at h0; cases h0
        · rw [h5, if_pos ((h3 _ _).1 h2), h1]
      · rw [List.concat_eq_append, ← List.cons_append, ← List.append_assoc] at hops
        obtain ⟨rfl, ho⟩ := List.append_inj' hops rfl
        exact keep (ih.2 ⟨b, n, d, sh, a', rfl, h0, h1, h2⟩)

/-- After any calls, `f[path].attrs[x]` (`f.attrs[x]` for `path = none`) is the attribute which was declared, without exception, for what is at that path, whatever was declared before or after it; without
one `KeyError` is raised. -/
theorem C46_lookup_attribute (s : Bool) (file : List Byte) (ops : List BOp) (path : Option Name) (x : Name) :
    (∀ id, BGroup.getAttr (BFile.run s file ops).root path x = .ok id ↔
      ∃ before name d sh after, ops = before ++ .addAttribute name d sh :: after ∧ ((BFile.run s file before).step s file (.addAttribute name d sh)).2 = none ∧
        id = (BFile.run s file before).blocks.length ∧ AttrTarget (BFile.run s file before).root name (path.elim [] comps) x) ∧
    ∀ e, BGroup.getAttr (BFile.run s file ops).root path x = .error e → e = .keyError := by
  rw [getAttr_at]
  refine ⟨fun id => ?_, fun e => ?_⟩
  · rw [← attr_history]
    cases attrAtPath (BFile.run s file ops).root (path.elim [] comps) x <;> simp
  · cases attrAtPath (BFile.run s file ops).root (path.elim [] comps) x with
    | none => simp only [Except.error.injEq]; exact fun h => h.symm
    | some v => intro h; cases h

/-- The block of an attribute has the declared type and shape. -/
theorem C46_attribute_block (s : Bool) (file : List Byte) (before after : List BOp) (name : Name) (d : DType) (sh : List Nat)
    (h : ((BFile.run s file before).step s file (.addAttribute name d sh)).2 = none) :
    ∃ b, (BFile.run s file (before ++ .addAttribute name d sh :: after)).blocks[(BFile.run s file before).blocks.length]? = some b ∧ b.dtype = d ∧ b.shape = sh ∧
      b.offset = (BFile.run s file before).offset := by
  obtain ⟨e, h1, -⟩ := C44_declared (BFile.run s file before) name d sh true h
  have h2 : BFile.run s file (before ++ .addAttribute name d sh :: after) = (((BFile.run s file before).step s file (.addAttribute name d sh)).1).runFrom s file after := by rw [run_append]; rfl
  rw [h2]
  obtain ⟨new, hl, -⟩ := runFrom_frame s file after ((BFile.run s file before).step s file (.addAttribute name d sh)).1
  rw [show ((BFile.run s file before).step s file (.addAttribute name d sh)).1.blocks = _ from h1] at hl
  generalize (((BFile.run s file before).step s file (.addAttribute name d sh)).1).runFrom s file after = g at *
  have hk := congrArg (fun l => l[(BFile.run s file before).blocks.length]?) hl
  simp only [List.map_append, List.append_assoc] at hk
  rw [List.getElem?_map, List.getElem?_append_right (by simp)] at hk
  simp at hk
  obtain ⟨b, hb, hb2⟩ := hk
  exact ⟨b, hb, congrArg Block.dtype hb2, congrArg Block.shape hb2, congrArg Block.offset hb2⟩

/-- An attribute of a group, at any depth, gets the byte order of the file; one of a dataset gets the native order. -/
theorem C48_attribute (s : Bool) (file : List Byte) (ops : List BOp) (name : Name) (d : DType) (sh : List Nat) {cs : List Name} {x : Name}
    (ht : AttrTarget (BFile.run s file ops).root name cs x) (h : ((BFile.run s file ops).step s file (.addAttribute name d sh)).2 = none) :
    ∃ e, ((BFile.run s file ops).step s file (.addAttribute name d sh)).1.blocks = (BFile.run s file ops).blocks ++ [⟨d, (BFile.run s file ops).offset, sh, e⟩] ∧
      ((∃ k, kindAt (BFile.run s file ops).root cs = some (some k)) → e = '=') ∧ ((∀ k, kindAt (BFile.run s file ops).root cs ≠ some (some k)) → e = (BFile.run s file ops).endian) := by
  obtain ⟨cs0, x0, h1, ⟨-, h3⟩ | ⟨-, -, -, e, h4, h5⟩⟩ := step_attr s file ops name d sh
  · rw [h3] at h; cases h
  · obtain ⟨rfl, rfl⟩ := (h1 _ _).1 ht
    refine ⟨e, h4, ?_, ?_⟩
    · rintro ⟨k, hk⟩; rw [h5, hk]; rfl
    · intro hk
      rw [h5, if_neg]
      rcases hq : kindAt (BFile.run s file ops).root cs with _ | _ | k
      · simp
      · simp
      · exact absurd hq (hk k)

/-- Not as intended: slashes are only stripped in the names of groups. The attribute `d//x` of the dataset `d` has the name `/x`, and there is no attribute `x`. -/
theorem C46_attribute_slash_defect :
    let f := BFile.run true [] [.addDataset "d".toList i4 [2], .addAttribute "d//x".toList i4 [], .addAttribute "g//x".toList i4 []]
    BGroup.getAttr f.root (some "d".toList) "x".toList = .error .keyError ∧ BGroup.getAttr f.root (some "d".toList) "/x".toList = .ok 1 ∧
      BGroup.getAttr f.root (some "g".toList) "x".toList = .ok 2 := by decide +kernel

/-! ### Cases -/

def exAttrOps : List BOp := [.setEndian '>', .addDataset "g/a".toList i4 [2], .addAttribute "/g//x/".toList ⟨8, '<'⟩ [], .addAttribute "g/a/x".toList i4 [], .addAttribute "x".toList i4 [],
  .addAttribute "g/a/y/z".toList i4 [], .addAttribute "g/a/x".toList i4 []]

example : (BFile.run true [] exAttrOps).blocks.map (fun b => (b.offset, b.endian)) = [(0, '>'), (8, '>'), (16, '='), (20, '>'), (24, '=')] := by decide +kernel
example : BGroup.getAttr (BFile.run true [] exAttrOps).root (some "g".toList) "x".toList = .ok 1 ∧ BGroup.getAttr (BFile.run true [] exAttrOps).root (some "/g/a".toList) "x".toList = .ok 2 ∧
    BGroup.getAttr (BFile.run true [] exAttrOps).root none "x".toList = .ok 3 ∧ BGroup.getAttr (BFile.run true [] exAttrOps).root (some "g/a".toList) "y/z".toList = .ok 4 ∧
    BGroup.getAttr (BFile.run true [] exAttrOps).root (some "g/a".toList) "z".toList = .error .keyError := by decide +kernel
example : AttrTarget (BFile.run true [] exAttrOps).root "g/a/y/z".toList ["g".toList, "a".toList] "y/z".toList :=
  Or.inl ⟨by decide +kernel, by decide +kernel, ⟨0, by decide +kernel⟩, by decide +kernel⟩
example : ((BFile.run true [] exAttrOps).step true [] (.addAttribute "x/".toList i4 [])).2 = some .keyError ∧ ((BFile.run true [] exAttrOps).step true [] (.addAttribute "/y".toList i4 [])).2 = none := by
  decide +kernel

end Verif
