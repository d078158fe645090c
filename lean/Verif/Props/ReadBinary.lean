import Verif.Proofs.ReadBinary
import Mathlib.Data.List.Induction

/-! C44, C45, C47, C48: layout of the blocks of a binary file, byte order. -/

namespace Verif

/-! ### C44 -/

/-- The block added by a call has the offset given by the sizes of all earlier blocks and the bytes skipped before the call, whatever comes later. -/
theorem C44_offset (s : Bool) (file : List Byte) (before after : List BOp) (op : BOp) {b : Block}
    (hadd : (BFile.run s file before).blocks.length < (BFile.run s file (before ++ [op])).blocks.length)
    (hb : (BFile.run s file (before ++ op :: after)).blocks[(BFile.run s file before).blocks.length]? = some b) :
    b.offset = ((((BFile.run s file (before ++ op :: after)).blocks.take (BFile.run s file before).blocks.length).map Block.nbytes).sum : Nat) + skipped before := by
  have hro := run_offset s file before
  have h1 : BFile.run s file (before ++ [op]) = ((BFile.run s file before).step s file op).1 := by rw [run_append]; rfl
  have h2 : BFile.run s file (before ++ op :: after) = (((BFile.run s file before).step s file op).1).runFrom s file after := by rw [run_append]; rfl
  rw [h1] at hadd
  rw [h2] at hb ⊢
  generalize BFile.run s file before = f at *
  obtain ⟨new, hf⟩ := step_frame s file f op
  obtain ⟨later, hl, -⟩ := runFrom_frame s file after (f.step s file op).1
  rw [hf.blocks] at hl
  have hlen := congrArg List.length hf.blocks
  simp only [List.length_map, List.length_append] at hlen
  rcases hf.added with hn | ⟨c, hn, hc⟩
  · rw [hn] at hlen; simp at hlen; omega
  · subst hn
    generalize ((f.step s file op).1).runFrom s file after = g at *
    have hk := congrArg (fun l => l[f.blocks.length]?) hl
    simp only [List.getElem?_map, hb, Option.map_some] at hk
    rw [List.append_assoc, List.getElem?_append_right (by simp)] at hk
    simp at hk
    have htake := congrArg (fun l => (l.take f.blocks.length).map Block.nbytes) hl
    simp only [List.append_assoc] at htake
    rw [List.take_append_of_le_length (by simp), ← List.map_take, ← List.map_take, List.take_length] at htake
    simp only [List.map_map, Function.comp_def, Block.nbytes_strip] at htake
    have : b.offset = c.offset := by rw [← Block.offset_strip b, hk, Block.offset_strip]
    rw [this, hc, hro, htake]

/-- A declared dataset gives a block with its type and shape at the current offset, in whichever group it is. -/
theorem C44_declared (f : BFile) (name : Name) (dtype : DType) (shape : List Nat) (a : Bool) (h : (f.addBlock name dtype shape a).2 = none) :
    ∃ e, (f.addBlock name dtype shape a).1.blocks = f.blocks ++ [⟨dtype, f.offset, shape, e⟩] ∧
      (f.addBlock name dtype shape a).1.offset = f.offset + (dtype.itemsize * shape.foldl (fun n s => n * s) 1 : Nat) := by
  unfold BFile.addBlock at h ⊢
  split at h
  · simp at h
  · rename_i hv
    rw [if_neg hv]
    split at h
    · simp at h
    · exact ⟨_, rfl, rfl⟩

/-- A declaration which fails changes nothing. -/
theorem C44_failed (f : BFile) (name : Name) (dtype : DType) (shape : List Nat) (a : Bool) {e : Err} (h : (f.addBlock name dtype shape a).2 = some e) :
    (f.addBlock name dtype shape a).1 = f := by
  unfold BFile.addBlock at h ⊢
  split at h
  · rename_i hv; rw [if_pos hv]
  · rename_i hv
    rw [if_neg hv]
    split at h
    · rfl
    · simp at h

/-- Without negative skips the blocks are in the order of the file and do not overlap. -/
theorem C44_disjoint (s : Bool) (file : List Byte) (ops : List BOp) (hs : ∀ n, BOp.skipBytes n ∈ ops → 0 ≤ n) :
    (BFile.run s file ops).blocks.Pairwise (fun a b : Block => a.offset + (a.nbytes : Int) ≤ b.offset) := by
  have key : ((BFile.run s file ops).blocks.map Block.strip).Pairwise (fun a b : Block => a.offset + (a.nbytes : Int) ≤ b.offset) ∧
      ∀ b ∈ (BFile.run s file ops).blocks.map Block.strip, b.offset + (b.nbytes : Int) ≤ (BFile.run s file ops).offset := by
    induction ops using List.reverseRecOn with
    | nil => simp [BFile.run, BFile.new]
    | append_singleton ops op ih =>
      obtain ⟨i1, i2⟩ := ih (fun n hn => hs n (by simp [hn]))
      have h1 : BFile.run s file (ops ++ [op]) = ((BFile.run s file ops).step s file op).1 := by rw [run_append]; rfl
      rw [h1]
      obtain ⟨new, hf⟩ := step_frame s file (BFile.run s file ops) op
      have hsk : 0 ≤ skipOf op := by
        cases op with
        | skipBytes n => exact hs n (by simp)
        | _ => exact le_refl _
      rw [hf.blocks, hf.offset]
      rcases hf.added with rfl | ⟨c, rfl, hc⟩
      · simp only [List.map_nil, List.append_nil, List.sum_nil, Nat.cast_zero, add_zero]
        exact ⟨i1, fun b hb => by have := i2 b hb; omega⟩
      · simp only [List.map_cons, List.map_nil, List.sum_cons, List.sum_nil, Nat.add_zero]
        refine ⟨List.pairwise_append.2 ⟨i1, by simp, ?_⟩, ?_⟩
        · intro a ha b hb
          simp only [List.mem_singleton] at hb
          have := i2 a ha
          rw [hb, Block.offset_strip, hc]
          exact this
        · intro b hb
          rcases List.mem_append.1 hb with hb | hb
          · have := i2 b hb; omega
          · simp only [List.mem_singleton] at hb
            rw [hb, Block.offset_strip, Block.nbytes_strip, hc]
            omega
  have := key.1
  rw [List.pairwise_map] at this
  exact this

/-! ### C45 -/

/-- If `all_bytes_used` returns true then every byte of the file is in exactly one block. -/
theorem C45_sound {bs : List Block} {n : Nat} (h : allBytesUsed bs n = true) : Tiles bs n := by
  intro i
  obtain ⟨h0, h1, h2⟩ := (allBytesUsed_iff bs n).1 h
  rw [← (sortByOffset_perm bs).countP_eq, count_consecutive _ 0 h0 h1, h2]
  simp

/-- For non-empty blocks the converse holds as well. -/
theorem C45_iff {bs : List Block} {n : Nat} (hp : ∀ b ∈ bs, 0 < b.nbytes) : allBytesUsed bs n = true ↔ Tiles bs n := by
  refine ⟨C45_sound, fun h => ?_⟩
  rw [allBytesUsed_iff]
  obtain ⟨a, b, c⟩ := consecutive_of_count (sortByOffset bs) 0 n (by omega) (sortByOffset_sorted bs)
    (fun x hx => hp x ((sortByOffset_perm bs).mem_iff.1 hx)) (fun i => by rw [(sortByOffset_perm bs).countP_eq]; exact h i)
  exact ⟨a, b, by omega⟩

/-! ### C47 -/

/-- Values read are those in the file in its declared byte order, on any machine and for any byte order of the type in memory. -/
theorem C47_read (s : Bool) (file : List Byte) (b : Block) (key : List Nat) (hd : b.dtype.Valid) (he : validEndian b.endian = true) (hf : file ≠ [])
    (h0 : 0 ≤ b.offset) (h1 : b.offset + b.nbytes ≤ file.length) (hk : ∀ i ∈ key, i < b.size) :
    b.read s file key = .ok (key.map (fun i => fileValue s b.endian (b.dtype.byteorder != '|') (elementBytes file b.offset.toNat b.dtype.itemsize i))) := by
  have hitem : ∀ i, elementBytes file b.offset.toNat b.dtype.itemsize i = b.item file i := by
    intro i; simp only [elementBytes, Block.item, slice, Nat.mul_comm]
  simp only [hitem]
  have hany : key.any (fun i => decide (i ≥ b.size)) = false := by
    rw [List.any_eq_false]; intro i hi; have := hk i hi; simp; omega
  have he' : b.endian = '<' ∨ b.endian = '>' ∨ b.endian = '=' := by
    simp only [validEndian, Bool.or_eq_true, beq_iff_eq] at he; tauto
  unfold Block.read
  rw [if_neg hf, if_neg (by omega), if_neg (by omega)]
  unfold needByteswap
  rcases hd with h | h | h | h <;> rcases he' with e | e | e <;> cases s <;>
    simp [h, e, hany, validEndian, bigOrLittle, memValue, swapItem, fileValue]

/-- A file and its byte swapped copy give the same values when read with opposite byte orders. -/
theorem C47_swapped (s : Bool) (file file' : List Byte) (b b' : Block) (key : List Nat) (hd : b.dtype.Valid) (hd' : b'.dtype.Valid)
    (ho : (b.dtype.byteorder != '|') = true) (ho' : (b'.dtype.byteorder != '|') = true) (he : b.endian = '<') (he' : b'.endian = '>')
    (hf : file ≠ []) (hf' : file' ≠ []) (h0 : 0 ≤ b.offset) (h0' : 0 ≤ b'.offset) (h1 : b.offset + b.nbytes ≤ file.length) (h1' : b'.offset + b'.nbytes ≤ file'.length)
    (hk : ∀ i ∈ key, i < b.size) (hs : b'.size = b.size) (hswap : ∀ i < b.size, elementBytes file' b'.offset.toNat b'.dtype.itemsize i = (elementBytes file b.offset.toNat b.dtype.itemsize i).reverse) :
    b.read s file key = b'.read s file' key := by
  rw [C47_read s file b key hd (by simp [validEndian, he]) hf h0 h1 hk, C47_read s file' b' key hd' (by simp [validEndian, he']) hf' h0' h1' (by rw [hs]; exact hk)]
  refine congrArg Except.ok (List.map_congr_left ?_)
  intro i hi
  simp only [fileValue, ho, ho', he, he', hswap i (hk i hi), List.reverse_reverse]
  simp

/-- Reads outside the file raise. -/
theorem C47_outside (s : Bool) (file : List Byte) (b : Block) (key : List Nat) (hf : file ≠ []) (h : b.offset < 0 ∨ (file.length : Int) < b.offset + b.nbytes) :
    b.read s file key = .error .ioError := by
  unfold Block.read
  rw [if_neg hf]
  by_cases h0 : b.offset < 0
  · rw [if_pos h0]
  · rw [if_neg h0, if_pos (by omega)]

/-! ### C48 -/

/-- `set_endian` changes the byte order of every existing block and nothing else about them. -/
theorem C48_set_endian (f : BFile) {e : Char} (he : validEndian e = true) : (f.setEndian e).2 = none ∧ (f.setEndian e).1.endian = e ∧
    (f.setEndian e).1.blocks = f.blocks.map (fun b => ⟨b.dtype, b.offset, b.shape, e⟩) := by
  simp [BFile.setEndian, he]

/-- Calls which neither change the byte order nor declare an attribute -/
def BOp.keepsOrder : BOp → Bool
  | .addDataset .. | .skipBytes _ | .readAndSkip .. | .startRecord _ => true
  | _ => false

theorem addBlock_dataset_flag (id : Nat) (fuel : Nat) (g g' : BGroup) (name : Name) (flag : Bool) (h : BGroup.addBlock false id fuel g name = .ok (g', flag)) : flag = true := by
  induction fuel generalizing g name g' flag with
  | zero => cases g; simp [BGroup.addBlock] at h
  | succ n ih =>
    obtain ⟨attrs, datasets, groups⟩ := g
    simp only [BGroup.addBlock] at h
    rcases hsp : splitPath name with ⟨_ | head, tail⟩
    · simp only [hsp, Bool.false_eq_true, if_false] at h
      split at h
      · cases h
      · split at h
        · cases h
        · simp only [Except.ok.injEq, Prod.mk.injEq] at h; exact h.2.symm
    · simp only [hsp] at h
      split at h
      · simp at h
      · rcases hq : BGroup.addBlock false id n ((dget groups head).getD .empty) tail with e | ⟨g2, fl⟩
        · simp only [hq] at h; cases h
        · simp only [hq, Except.ok.injEq, Prod.mk.injEq] at h
          rw [← h.2]; exact ih _ _ _ _ hq

theorem step_keeps (s : Bool) (file : List Byte) (f : BFile) (op : BOp) (hop : op.keepsOrder = true) (e : Char) (h : f.endian = e) (hb : ∀ b ∈ f.blocks, b.endian = e) :
    (f.step s file op).1.endian = e ∧ ∀ b ∈ (f.step s file op).1.blocks, b.endian = e := by
  have hread : ∀ d sh, (f.readAndSkip s file d sh).1.endian = e ∧ ∀ b ∈ (f.readAndSkip s file d sh).1.blocks, b.endian = e := by
    intro d sh
    unfold BFile.readAndSkip
    dsimp only
    split
    · exact ⟨h, hb⟩
    · refine ⟨h, fun b hm => ?_⟩
      rcases List.mem_append.1 hm with hm | hm
      · exact hb b hm
      · simp only [List.mem_singleton] at hm; rw [hm]; exact h
  cases op with
  | addDataset n d sh =>
    simp only [BFile.step, BFile.addBlock]
    split
    · exact ⟨h, hb⟩
    · split
      · exact ⟨h, hb⟩
      · rename_i root flag hq
        have := addBlock_dataset_flag _ _ _ _ _ _ hq
        subst this
        refine ⟨h, fun b hm => ?_⟩
        rcases List.mem_append.1 hm with hm | hm
        · exact hb b hm
        · simp only [List.mem_singleton] at hm; rw [hm]; exact h
  | skipBytes n => exact ⟨h, hb⟩
  | readAndSkip d sh =>
    have := hread d sh
    simp only [BFile.step]
    rcases hq : f.readAndSkip s file d sh with ⟨g, e' | v⟩ <;> rw [hq] at this <;> exact this
  | startRecord a =>
    have := hread int32Type []
    simp only [BFile.step, BFile.startRecord]
    split
    · exact ⟨h, hb⟩
    · rcases hq : f.readAndSkip s file int32Type [] with ⟨g, e' | v⟩ <;> rw [hq] at this <;> exact this
  | _ => simp [BOp.keepsOrder] at hop

/-- After `set_endian` all blocks, declared before or after, are read with the new byte order, as long as no attribute is declared later. -/
theorem C48_history (s : Bool) (file : List Byte) (before after : List BOp) {e : Char} (he : validEndian e = true) (ha : ∀ op ∈ after, op.keepsOrder = true) :
    ∀ b ∈ (BFile.run s file (before ++ .setEndian e :: after)).blocks, b.endian = e := by
  rw [run_append]
  change ∀ b ∈ (BFile.runFrom s file ((BFile.run s file before).setEndian e).1 after).blocks, b.endian = e
  obtain ⟨-, h1, h2⟩ := C48_set_endian (BFile.run s file before) he
  have h3 : ∀ b ∈ ((BFile.run s file before).setEndian e).1.blocks, b.endian = e := by
    rw [h2]; intro b hb; obtain ⟨c, -, rfl⟩ := List.mem_map.1 hb; rfl
  generalize ((BFile.run s file before).setEndian e).1 = f at *
  clear h2
  induction after generalizing f with
  | nil => exact h3
  | cons op ops ih =>
    obtain ⟨a, b⟩ := step_keeps s file f op (ha op (by simp)) e h1 h3
    exact ih (fun o ho => ha o (by simp [ho])) _ a b

/-- `enable_byteswap(True)` is `set_endian` of the order which is not that of the machine. -/
theorem C48_enable_byteswap (s swap : Bool) (f : BFile) : ∃ e, f.enableByteswap s swap = f.setEndian e ∧ (e = '<' ∨ e = '>') ∧ ((e = '<') ↔ (s = true ↔ swap = false)) := by
  refine ⟨_, rfl, ?_⟩
  cases s <;> cases swap <;> simp

/-- An attribute of the group itself gets the byte order of the file. -/
theorem C48_group_attribute (f : BFile) (name tail : Name) (dtype : DType) (shape : List Nat) (hp : splitPath name = (none, tail)) (h : (f.addBlock name dtype shape true).2 = none) :
    (f.addBlock name dtype shape true).1.blocks = f.blocks ++ [⟨dtype, f.offset, shape, f.endian⟩] := by
  rcases f with ⟨⟨attrs, datasets, groups⟩, o, e, bs, r⟩
  simp only [BFile.addBlock, BGroup.addBlock, hp] at h ⊢
  split at h
  · simp at h
  · rename_i hv
    rw [if_neg hv]
    by_cases hq : (dget attrs tail).isSome = true
    · simp [hq] at h
    · simp [hq]

/-- Switching from the native order affects all blocks. -/
theorem C48_toggle_native (s : Bool) (f : BFile) (h : f.endian = '=') : f.toggleByteswap s = f.setEndian (if s then '>' else '<') := by
  simp [BFile.toggleByteswap, h, BFile.enableByteswap]

def i4 : DType := ⟨4, '='⟩

/-- Not what the documentation says: once a byte order has been set explicitly, `toggle_byteswap` leaves the blocks declared before as they are. -/
theorem C48_toggle_defect : (BFile.run true [] [.setEndian '<', .addDataset "a".toList i4 [2], .toggleByteswap, .addDataset "b".toList i4 [2]]).blocks.map Block.endian = ['<', '>'] := by
  decide +kernel

/-- Not what the documentation says: an attribute of a dataset which is declared after `set_endian` is read in native order. -/
theorem C48_dataset_attribute_defect : (BFile.run true [] [.setEndian '>', .addDataset "d".toList i4 [2], .addAttribute "d/x".toList i4 []]).blocks.map Block.endian = ['>', '='] := by
  decide +kernel

/-! ### Cases which meet the hypotheses -/

def exOps : List BOp := [.addDataset "g/a".toList i4 [2], .skipBytes 3, .addAttribute "/g//x/".toList ⟨8, '<'⟩ [], .addDataset "g/a".toList i4 [2], .addDataset "h/k/c".toList i4 [3, 2]]

example : (BFile.run true [] exOps).blocks.map (fun b => (b.offset, b.nbytes)) = [(0, 8), (11, 8), (19, 24)] := by decide +kernel
example : (BFile.run true [] (exOps.take 2)).blocks.length < (BFile.run true [] (exOps.take 2 ++ [.addAttribute "/g//x/".toList ⟨8, '<'⟩ []])).blocks.length := by decide +kernel
example : skipped exOps = 3 := by decide +kernel
example : ((BFile.run true [] (exOps.take 3)).addBlock "g/a".toList i4 [2] false).2 = some .keyError := by decide +kernel

def exBlocks : List Block := [⟨i4, 8, [2], '<'⟩, ⟨⟨8, '<'⟩, 0, [], '<'⟩]
example : allBytesUsed exBlocks 16 = true := by decide +kernel
example : allBytesUsed exBlocks 17 = false ∧ allBytesUsed (⟨i4, 12, [1], '<'⟩ :: exBlocks) 16 = false := by constructor <;> decide +kernel
example : ∀ b ∈ exBlocks, 0 < b.nbytes := by decide +kernel

/-- The condition of `C45_iff` is needed: an empty block after the end of the file. -/
example : allBytesUsed (⟨i4, 20, [0], '<'⟩ :: exBlocks) 16 = false := by decide +kernel

example : Block.read true [9, 1, 2, 3, 4, 5, 6, 7, 8] ⟨⟨4, '<'⟩, 1, [2], '>'⟩ [1, 0] = .ok [[8, 7, 6, 5], [4, 3, 2, 1]] := by decide +kernel
example : Block.read false [4, 3, 2, 1, 8, 7, 6, 5] ⟨⟨4, '='⟩, 0, [2], '<'⟩ [1, 0] = .ok [[8, 7, 6, 5], [4, 3, 2, 1]] := by decide +kernel
example : Block.readAll true [9, 1, 2] ⟨i4, 0, [], '='⟩ = .error .ioError := by decide +kernel
example : ∀ op ∈ [BOp.addDataset "b".toList i4 [2], .skipBytes 4], op.keepsOrder = true := by decide +kernel

end Verif
