import Verif.Proofs.ReadBinaryNames
import Verif.Props.ReadBinary

/-! C46: names in a binary file. -/

namespace Verif

theorem setEndian_valid (f : BFile) (e : Char) (h : validEndian f.endian = true) : validEndian (f.setEndian e).1.endian = true ∧ (f.setEndian e).1.root = f.root := by
  unfold BFile.setEndian
  split
  · exact ⟨h, rfl⟩
  · rename_i hv; exact ⟨by simpa using hv, rfl⟩

theorem toggle_valid (s : Bool) (f : BFile) (h : validEndian f.endian = true) : validEndian (f.toggleByteswap s).1.endian = true ∧ (f.toggleByteswap s).1.root = f.root := by
  unfold BFile.toggleByteswap
  split
  · exact ⟨rfl, rfl⟩
  · split
    · exact ⟨rfl, rfl⟩
    · split
      · exact setEndian_valid f _ h
      · exact ⟨h, rfl⟩

theorem readAndSkip_root (s : Bool) (file : List Byte) (f : BFile) (d : DType) (sh : List Nat) :
    (f.readAndSkip s file d sh).1.endian = f.endian ∧ (f.readAndSkip s file d sh).1.root = f.root := by
  unfold BFile.readAndSkip
  dsimp only
  split <;> exact ⟨rfl, rfl⟩

/-- The byte order stays valid, and only declarations change the names. -/
theorem step_root (s : Bool) (file : List Byte) (f : BFile) (op : BOp) (h : validEndian f.endian = true) :
    validEndian (f.step s file op).1.endian = true ∧ ((∀ n d sh, op ≠ .addDataset n d sh) → (∀ n d sh, op ≠ .addAttribute n d sh) → (f.step s file op).1.root = f.root) := by
  have hadd : ∀ n d sh a, validEndian (f.addBlock n d sh a).1.endian = true := by
    intro n d sh a
    unfold BFile.addBlock
    split
    · exact h
    · split <;> exact h
  cases op with
  | addDataset n d sh => exact ⟨hadd n d sh false, fun h => absurd rfl (h n d sh)⟩
  | addAttribute n d sh => exact ⟨hadd n d sh true, fun _ h => absurd rfl (h n d sh)⟩
  | skipBytes n => exact ⟨h, fun _ _ => rfl⟩
  | readAndSkip d sh =>
    have := readAndSkip_root s file f d sh
    simp only [BFile.step]
    rcases hq : f.readAndSkip s file d sh with ⟨g, e | v⟩ <;> rw [hq] at this <;> exact ⟨by rw [this.1]; exact h, fun _ _ => this.2⟩
  | setEndian e => exact ⟨(setEndian_valid f e h).1, fun _ _ => (setEndian_valid f e h).2⟩
  | enableByteswap b => exact ⟨(setEndian_valid f _ h).1, fun _ _ => (setEndian_valid f _ h).2⟩
  | toggleByteswap => exact ⟨(toggle_valid s f h).1, fun _ _ => (toggle_valid s f h).2⟩
  | startRecord a =>
    have := readAndSkip_root s file f int32Type []
    simp only [BFile.step, BFile.startRecord]
    split
    · exact ⟨h, fun _ _ => rfl⟩
    · rcases hq : f.readAndSkip s file int32Type [] with ⟨g, e | v⟩ <;> rw [hq] at this <;> exact ⟨by rw [this.1]; exact h, fun _ _ => this.2⟩
  | endRecord =>
    have := readAndSkip_root s file f int32Type []
    simp only [BFile.step, BFile.endRecord]
    split
    · exact ⟨h, fun _ _ => rfl⟩
    · rcases hq : f.readAndSkip s file int32Type [] with ⟨g, e | v⟩ <;> rw [hq] at this
      · exact ⟨by rw [this.1]; exact h, fun _ _ => this.2⟩
      · have hg : validEndian g.endian = true := by rw [this.1]; exact h
        dsimp only
        split
        · exact ⟨hg, fun _ _ => this.2⟩
        · split
          · exact ⟨hg, fun _ _ => this.2⟩
          · split
            · exact ⟨(toggle_valid s g hg).1, fun _ _ => (toggle_valid s g hg).2.trans this.2⟩
            · split <;> exact ⟨hg, fun _ _ => this.2⟩

theorem run_valid (s : Bool) (file : List Byte) (ops : List BOp) : validEndian (BFile.run s file ops).endian = true := by
  induction ops using List.reverseRecOn with
  | nil => rfl
  | append_singleton ops op ih =>
    rw [run_append]
    exact (step_root s file _ op ih).1

/-- A dataset can be declared, after any calls, exactly if nothing has its path yet and no dataset is on the way; otherwise `KeyError` is raised. -/
theorem C46_declare (s : Bool) (file : List Byte) (ops : List BOp) (name : Name) (d : DType) (sh : List Nat) :
    ((BFile.step s file (BFile.run s file ops) (.addDataset name d sh)).2 = none ↔
      kindAt (BFile.run s file ops).root (comps name) = none ∧ ∀ cs k, cs <+: comps name → kindAt (BFile.run s file ops).root cs ≠ some (some k)) ∧
    ((BFile.step s file (BFile.run s file ops) (.addDataset name d sh)).2 = none ∨ (BFile.step s file (BFile.run s file ops) (.addDataset name d sh)).2 = some .keyError) := by
  have hv := run_valid s file ops
  generalize BFile.run s file ops = f at *
  obtain ⟨h1, h2⟩ := addBlock_dataset_ok f.blocks.length (name.length + 1) f.root name (by omega)
  rw [← h1]
  simp only [BFile.step, BFile.addBlock, hv, Bool.not_true, Bool.false_eq_true, if_false]
  rcases hq : BGroup.addBlock false f.blocks.length (name.length + 1) f.root name with e | ⟨r, fl⟩
  · rw [h2 e hq]; simp
  · simp

theorem step_dataset_kind (s : Bool) (file : List Byte) (f : BFile) (name : Name) (d : DType) (sh : List Nat) (h : (f.step s file (.addDataset name d sh)).2 = none) (cs : List Name) :
    kindAt (f.step s file (.addDataset name d sh)).1.root cs =
      if cs = comps name then some (some f.blocks.length) else if cs ≠ [] ∧ cs <+: comps name then some none else kindAt f.root cs := by
  simp only [BFile.step, BFile.addBlock] at h ⊢
  split at h
  · simp at h
  · rename_i hv
    rw [if_neg hv]
    rcases hq : BGroup.addBlock false f.blocks.length (name.length + 1) f.root name with e | ⟨r, fl⟩
    · rw [hq] at h; simp at h
    · exact addBlock_dataset _ _ _ _ _ _ hq cs

theorem step_attr_kind (s : Bool) (file : List Byte) (f : BFile) (name : Name) (d : DType) (sh : List Nat) (cs : List Name) :
    kindAt (f.step s file (.addAttribute name d sh)).1.root cs = kindAt f.root cs ∨
      (kindAt f.root cs = none ∧ kindAt (f.step s file (.addAttribute name d sh)).1.root cs = some none ∧ cs <+: comps name ∧ cs ≠ comps name) := by
  simp only [BFile.step, BFile.addBlock]
  split
  · exact Or.inl rfl
  · rcases hq : BGroup.addBlock true f.blocks.length (name.length + 1) f.root name with e | ⟨r, fl⟩
    · exact Or.inl rfl
    · exact addBlock_attr _ _ _ _ _ _ hq cs

/-- After any calls, a dataset is at some components exactly if it was declared with them, and stays there. -/
theorem kind_history (s : Bool) (file : List Byte) (ops : List BOp) (cs : List Name) (id : Nat) :
    kindAt (BFile.run s file ops).root cs = some (some id) ↔
      ∃ before name d sh after, ops = before ++ .addDataset name d sh :: after ∧ ((BFile.run s file before).step s file (.addDataset name d sh)).2 = none ∧
        id = (BFile.run s file before).blocks.length ∧ comps name = cs := by
  induction ops using List.reverseRecOn with
  | nil =>
    constructor
    · intro h
      have : kindAt (BFile.run s file []).root cs = none := kindAt_empty cs
      rw [this] at h; cases h
    · rintro ⟨b, n, d, sh, a, h, -⟩
      simp at h
  | append_singleton ops op ih =>
    have hrun : BFile.run s file (ops ++ [op]) = ((BFile.run s file ops).step s file op).1 := by rw [run_append]; rfl
    rw [hrun]
    -- what a call does to a dataset which is there, or not
    have keep : kindAt (BFile.run s file ops).root cs = some (some id) → kindAt ((BFile.run s file ops).step s file op).1.root cs = some (some id) := by
      intro h
      cases op with
      | addDataset name d sh =>
        have hd := C46_declare s file ops name d sh
        rcases hd.2 with h0 | h0
        · rw [step_dataset_kind s file _ name d sh h0]
          obtain ⟨h1, h2⟩ := hd.1.1 h0
          rw [if_neg (by rintro rfl; rw [h1] at h; cases h), if_neg (by rintro ⟨-, hp⟩; exact h2 cs id hp h)]
          exact h
        · rw [show ((BFile.run s file ops).step s file (.addDataset name d sh)).1 = BFile.run s file ops from C44_failed _ name d sh false h0]
          exact h
      | addAttribute name d sh =>
        rcases step_attr_kind s file (BFile.run s file ops) name d sh cs with h1 | ⟨h1, -⟩
        · rw [h1]; exact h
        · rw [h1] at h; cases h
      | _ => rw [(step_root s file _ _ (run_valid s file ops)).2 (by intros; simp) (by intros; simp)]; exact h
    have back : kindAt ((BFile.run s file ops).step s file op).1.root cs = some (some id) → kindAt (BFile.run s file ops).root cs = some (some id) ∨
        ∃ name d sh, op = .addDataset name d sh ∧ ((BFile.run s file ops).step s file op).2 = none ∧ id = (BFile.run s file ops).blocks.length ∧ comps name = cs := by
      intro h
      cases op with
      | addDataset name d sh =>
        rcases (C46_declare s file ops name d sh).2 with h0 | h0
        · rw [step_dataset_kind s file _ name d sh h0] at h
          split at h
          · rename_i hc
            simp only [Option.some.injEq] at h
            exact Or.inr ⟨name, d, sh, rfl, h0, h.symm, hc.symm⟩
          · split at h
            · simp at h
            · exact Or.inl h
        · rw [show ((BFile.run s file ops).step s file (.addDataset name d sh)).1 = BFile.run s file ops from C44_failed _ name d sh false h0] at h
          exact Or.inl h
      | addAttribute name d sh =>
        rcases step_attr_kind s file (BFile.run s file ops) name d sh cs with h1 | ⟨-, h1, -⟩
        · rw [h1] at h; exact Or.inl h
        · rw [h1] at h; simp at h
      | _ =>
        rw [(step_root s file _ _ (run_valid s file ops)).2 (by intros; simp) (by intros; simp)] at h
        exact Or.inl h
    constructor
    · intro h
      rcases back h with h | ⟨name, d, sh, rfl, h0, h1, h2⟩
      · obtain ⟨b, n, d, sh, a, rfl, h0, h1, h2⟩ := ih.1 h
        exact ⟨b, n, d, sh, a ++ [op], by simp, h0, h1, h2⟩
      · exact ⟨ops, name, d, sh, [], rfl, h0, h1, h2⟩
    · rintro ⟨b, n, d, sh, a, hops, h0, h1, h2⟩
      rcases List.eq_nil_or_concat a with rfl | ⟨a', o, rfl⟩
      · obtain ⟨rfl, ho⟩ := List.append_inj' hops rfl
        simp only [List.cons.injEq, and_true] at ho
        subst ho
        rw [step_dataset_kind s file _ n d sh h0, if_pos h2.symm, h1]
      · rw [List.concat_eq_append, ← List.cons_append, ← List.append_assoc] at hops
        obtain ⟨rfl, ho⟩ := List.append_inj' hops rfl
        exact keep (ih.2 ⟨b, n, d, sh, a', rfl, h0, h1, h2⟩)

/-- After any calls, looking up a path gives a dataset exactly if a dataset was declared (without exception) with the same components, whatever was declared before or after it, and it is that dataset. -/
theorem C46_lookup (s : Bool) (file : List Byte) (ops : List BOp) (p : Name) (id : Nat) :
    (∃ attrs, BGroup.getItem (p.length + 1) (BFile.run s file ops).root p = .ok (.dataset id attrs)) ↔
      ∃ before name d sh after, ops = before ++ .addDataset name d sh :: after ∧ ((BFile.run s file before).step s file (.addDataset name d sh)).2 = none ∧
        id = (BFile.run s file before).blocks.length ∧ comps name = comps p := by
  rw [← kind_history, ← (getItem_kind (p.length + 1) (BFile.run s file ops).root p (by omega)).1]
  rcases hq : BGroup.getItem (p.length + 1) (BFile.run s file ops).root p with e | ⟨i, a⟩ | g
  · simp [Except.toOption]
  · simp [Except.toOption, BNode.kind]
  · simp [Except.toOption, BNode.kind]

/-- The block of that dataset has the declared type and shape. -/
theorem C46_block (s : Bool) (file : List Byte) (before after : List BOp) (name : Name) (d : DType) (sh : List Nat)
    (h : ((BFile.run s file before).step s file (.addDataset name d sh)).2 = none) :
    ∃ b, (BFile.run s file (before ++ .addDataset name d sh :: after)).blocks[(BFile.run s file before).blocks.length]? = some b ∧ b.dtype = d ∧ b.shape = sh ∧
      b.offset = (BFile.run s file before).offset := by
  obtain ⟨e, h1, -⟩ := C44_declared (BFile.run s file before) name d sh false h
  have h2 : BFile.run s file (before ++ .addDataset name d sh :: after) = (((BFile.run s file before).step s file (.addDataset name d sh)).1).runFrom s file after := by rw [run_append]; rfl
  rw [h2]
  obtain ⟨new, hl, -⟩ := runFrom_frame s file after ((BFile.run s file before).step s file (.addDataset name d sh)).1
  rw [show ((BFile.run s file before).step s file (.addDataset name d sh)).1.blocks = _ from h1] at hl
  generalize (((BFile.run s file before).step s file (.addDataset name d sh)).1).runFrom s file after = g at *
  have hk := congrArg (fun l => l[(BFile.run s file before).blocks.length]?) hl
  simp only [List.map_append, List.append_assoc] at hk
  rw [List.getElem?_map, List.getElem?_append_right (by simp)] at hk
  simp at hk
  obtain ⟨b, hb, hb2⟩ := hk
  exact ⟨b, hb, congrArg Block.dtype hb2, congrArg Block.shape hb2, congrArg Block.offset hb2⟩

/-- Anything which is not there raises `KeyError`. -/
theorem C46_missing (s : Bool) (file : List Byte) (ops : List BOp) (p : Name) {e : Err} (h : BGroup.getItem (p.length + 1) (BFile.run s file ops).root p = .error e) : e = .keyError :=
  (getItem_kind (p.length + 1) _ p (by omega)).2 e h

/-! ### Cases -/

example : comps "//g//a/".toList = ["g".toList, "a".toList] ∧ comps "/".toList = [[]] ∧ comps "a".toList = ["a".toList] := by decide +kernel
example : kindAt (BFile.run true [] exOps).root ["g".toList, "a".toList] = some (some 0) ∧ kindAt (BFile.run true [] exOps).root ["h".toList, "k".toList] = some none := by decide +kernel
example : (BGroup.getItem 20 (BFile.run true [] exOps).root "//h/k//c/".toList).toOption.map BNode.kind = some (some 2) := by decide +kernel
example : ((BFile.run true [] exOps).step true [] (.addDataset "/g/a/b".toList i4 [])).2 = some .keyError ∧ ((BFile.run true [] exOps).step true [] (.addDataset "h".toList i4 [])).2 = some .keyError ∧
    ((BFile.run true [] exOps).step true [] (.addDataset "h/k/d".toList i4 [])).2 = none := by decide +kernel

end Verif
