import Verif.Props.ReadBinary

/-! C51: `write_binary` and `hash`. -/

namespace Verif

/-- The block can be read: known byte orders, inside the file. -/
structure Block.Readable (b : Block) (file : List Byte) : Prop where
  dtype : b.dtype.Valid
  endian : validEndian b.endian = true
  start : 0 ≤ b.offset
  stop : b.offset + b.nbytes ≤ file.length

/-- The values of a block as they are in the file -/
def Block.values (s : Bool) (file : List Byte) (b : Block) : List (List Byte) :=
  (List.range b.size).map (fun i => fileValue s b.endian (b.dtype.byteorder != '|') (elementBytes file b.offset.toNat b.dtype.itemsize i))

theorem readAll_values {s : Bool} {file : List Byte} {b : Block} (hf : file ≠ []) (h : b.Readable file) : b.readAll s file = .ok (b.values s file) := by
  unfold Block.readAll
  rw [C47_read s file b _ h.dtype h.endian hf h.start h.stop (by intro i hi; exact List.mem_range.1 hi)]
  rfl

theorem length_elementBytes {file : List Byte} {b : Block} (h : b.Readable file) {i : Nat} (hi : i < b.size) :
    (elementBytes file b.offset.toNat b.dtype.itemsize i).length = b.dtype.itemsize := by
  have h1 := h.stop
  have h0 := h.start
  have h2 : b.dtype.itemsize * i + b.dtype.itemsize ≤ b.nbytes := by
    rw [Block.nbytes, ← Nat.mul_succ]; exact Nat.mul_le_mul_left _ hi
  simp only [elementBytes, List.length_take, List.length_drop]
  omega

theorem length_fileValue (s : Bool) (e : Char) (o : Bool) (x : List Byte) : (fileValue s e o x).length = x.length := by
  unfold fileValue; split <;> simp

/-- `memBytes` with the bytes of a file in the same order -/
theorem memBytes_length (s : Bool) (d : DType) (x : List Byte) : (memBytes s d x).length = x.length := by
  unfold memBytes; split
  · rfl
  · split <;> simp

/-- Elements written one after the other -/
theorem flatMap_range_slice {n size : Nat} {f : Nat → List Byte} (h : ∀ i < n, (f i).length = size) :
    ((List.range n).flatMap f).length = n * size ∧ ∀ i < n, (((List.range n).flatMap f).drop (size * i)).take size = f i := by
  induction n with
  | zero => simp
  | succ n ih =>
    obtain ⟨h1, h2⟩ := ih (fun i hi => h i (by omega))
    rw [List.range_succ, List.flatMap_append]
    simp only [List.flatMap_cons, List.flatMap_nil, List.append_nil]
    refine ⟨by rw [List.length_append, h1, h n (by omega), Nat.succ_mul], ?_⟩
    intro i hi
    by_cases hin : i < n
    · have hle : size * i + size ≤ n * size := by
        rw [← Nat.mul_succ, Nat.mul_comm n]; exact Nat.mul_le_mul_left _ hin
      rw [List.drop_append_of_le_length (by omega), List.take_append_of_le_length (by rw [List.length_drop]; omega), h2 i hin]
    · have : i = n := by omega
      subst this
      rw [Nat.mul_comm, ← h1, List.drop_left, List.take_of_length_le (by rw [h i (by omega)])]

/-- The type with which a block is written -/
def outType (endian : Option Char) (d : DType) : DType :=
  match endian with
  | some e => if d.byteorder = '|' then d else { d with byteorder := e }
  | none => d

/-- Bytes written for a block -/
def blockBytes (s : Bool) (file : List Byte) (endian : Option Char) (b : Block) : List Byte := (b.values s file).flatMap (memBytes s (outType endian b.dtype))

theorem length_blockBytes {s : Bool} {file : List Byte} {endian : Option Char} {b : Block} (h : b.Readable file) : (blockBytes s file endian b).length = b.nbytes := by
  simp only [blockBytes, Block.values, List.flatMap_map]
  rw [(flatMap_range_slice (size := b.dtype.itemsize) (fun i hi => by rw [memBytes_length, length_fileValue, length_elementBytes h hi])).1, Block.nbytes, Nat.mul_comm]

theorem writeAt_end (out bytes : List Byte) (o : Nat) (h : out.length ≤ o) (hb : bytes ≠ []) : writeAt out o bytes = out ++ List.replicate (o - out.length) 0 ++ bytes := by
  rw [writeAt, if_neg hb, overlay]
  have e1 : (out ++ List.replicate (o + bytes.length - out.length) (0 : Byte)).take o = out ++ List.replicate (o - out.length) 0 := by
    rw [List.take_append, List.take_of_length_le h, List.take_replicate]
    congr 2; omega
  have e2 : (out ++ List.replicate (o + bytes.length - out.length) (0 : Byte)).drop (o + bytes.length) = [] := by
    apply List.drop_of_length_le
    simp; omega
  rw [e1, e2, List.append_nil]

/-- Blocks in the order of the file which do not overlap: each one ends up at its place. -/
theorem writeBlocks_ok (s : Bool) (file : List Byte) (hf : file ≠ []) (endian : Option Char) (bs : List Block) (out : List Byte) (hr : ∀ b ∈ bs, b.Readable file)
    (hd : bs.Pairwise (fun a b : Block => a.offset + (a.nbytes : Int) ≤ b.offset)) (ho : ∀ b ∈ bs, (out.length : Int) ≤ b.offset) :
    ∃ tail, writeBlocks s file endian bs out = .ok (out ++ tail) ∧
      ∀ b ∈ bs, 0 < b.nbytes → (((out ++ tail).drop b.offset.toNat).take b.nbytes = blockBytes s file endian b ∧ b.offset.toNat + b.nbytes ≤ (out ++ tail).length) := by
  induction bs generalizing out with
  | nil => exact ⟨[], by simp [writeBlocks], by simp⟩
  | cons b bs ih =>
    have hb := hr b (by simp)
    have hlen := length_blockBytes (s := s) (endian := endian) hb
    rw [List.pairwise_cons] at hd
    have hout := ho b (by simp)
    have hstep : writeBlocks s file endian (b :: bs) out = writeBlocks s file endian bs (writeAt out b.offset.toNat (blockBytes s file endian b)) := by
      conv_lhs => unfold writeBlocks
      simp only [readAll_values hf hb]
      rfl
    rw [hstep]
    by_cases hz : blockBytes s file endian b = []
    · rw [writeAt, if_pos hz]
      obtain ⟨tail, h1, h2⟩ := ih out (fun c hc => hr c (by simp [hc])) hd.2 (fun c hc => ho c (by simp [hc]))
      refine ⟨tail, h1, ?_⟩
      intro c hc hpos
      rcases List.mem_cons.1 hc with rfl | hc
      · rw [hz] at hlen; simp at hlen; omega
      · exact h2 c hc hpos
    · rw [writeAt_end _ _ _ (by omega) hz]
      have hb0 := hb.start
      have hl2 : (out ++ List.replicate (b.offset.toNat - out.length) 0 ++ blockBytes s file endian b).length = b.offset.toNat + b.nbytes := by
        simp only [List.length_append, List.length_replicate, hlen]; omega
      obtain ⟨tail, h1, h2⟩ := ih (out ++ List.replicate (b.offset.toNat - out.length) 0 ++ blockBytes s file endian b) (fun c hc => hr c (by simp [hc])) hd.2
        (fun c hc => by have := hd.1 c hc; rw [hl2]; omega)
      refine ⟨List.replicate (b.offset.toNat - out.length) 0 ++ blockBytes s file endian b ++ tail, by rw [h1]; simp [List.append_assoc], ?_⟩
      have hassoc : out ++ (List.replicate (b.offset.toNat - out.length) 0 ++ blockBytes s file endian b ++ tail) =
          out ++ List.replicate (b.offset.toNat - out.length) 0 ++ blockBytes s file endian b ++ tail := by simp [List.append_assoc]
      rw [hassoc]
      intro c hc hpos
      rcases List.mem_cons.1 hc with rfl | hc
      · refine ⟨?_, by rw [List.length_append, hl2]; omega⟩
        rw [List.append_assoc (out ++ _) (blockBytes s file endian c) tail]
        have hl3 : (out ++ List.replicate (c.offset.toNat - out.length) (0 : Byte)).length = c.offset.toNat := by
          simp only [List.length_append, List.length_replicate]; omega
        generalize out ++ List.replicate (c.offset.toNat - out.length) (0 : Byte) = pad at hl3 ⊢
        rw [← hl3, List.drop_left, ← hlen, List.take_left]
      · exact h2 c hc hpos

/-- The byte order in which a block is found in the new file -/
def readOrder (endian : Option Char) (d : DType) : Char :=
  match endian with
  | some e => e
  | none => if d.byteorder = '|' then '=' else d.byteorder

theorem write_read (s : Bool) {file : List Byte} (hf : file ≠ []) {bs : List Block} (hr : ∀ b ∈ bs, b.Readable file)
    (hd : (sortByOffset bs).Pairwise (fun a b : Block => a.offset + (a.nbytes : Int) ≤ b.offset)) (endian : Option Char) (he : ∀ e ∈ endian, validEndian e = true) :
    ∃ out, writeBinary s file bs "wb".toList endian = .ok out ∧
      ∀ b ∈ bs, 0 < b.nbytes → (⟨b.dtype, b.offset, b.shape, readOrder endian b.dtype⟩ : Block).readAll s out = b.readAll s file := by
  have hr' : ∀ b ∈ sortByOffset bs, b.Readable file := fun b hb => hr b ((sortByOffset_perm bs).mem_iff.1 hb)
  obtain ⟨tail, h1, h2⟩ := writeBlocks_ok s file hf endian (sortByOffset bs) [] hr' hd (fun b hb => by simpa using (hr' b hb).start)
  rw [List.nil_append] at h1 h2
  refine ⟨tail, by simpa [writeBinary, validMode] using h1, ?_⟩
  intro b hb hpos
  obtain ⟨h3, h4⟩ := h2 b ((sortByOffset_perm bs).mem_iff.2 hb) hpos
  have hbr := hr b hb
  have htail : tail ≠ [] := by rintro rfl; simp at h4; omega
  have hord : validEndian (readOrder endian b.dtype) = true := by
    cases endian with
    | some e => exact he e rfl
    | none => rcases hbr.dtype with h | h | h | h <;> simp [readOrder, h, validEndian]
  have hread : (⟨b.dtype, b.offset, b.shape, readOrder endian b.dtype⟩ : Block).Readable tail := ⟨hbr.dtype, hord, hbr.start, by have := hbr.start; change b.offset + (b.nbytes : Int) ≤ _; omega⟩
  rw [readAll_values hf hbr, readAll_values htail hread]
  refine congrArg Except.ok ?_
  unfold Block.values
  refine List.map_congr_left ?_
  intro i hi
  have hi : i < b.size := List.mem_range.1 hi
  have hel : elementBytes tail b.offset.toNat b.dtype.itemsize i = memBytes s (outType endian b.dtype) (fileValue s b.endian (b.dtype.byteorder != '|') (elementBytes file b.offset.toNat b.dtype.itemsize i)) := by
    have hle : b.dtype.itemsize * i + b.dtype.itemsize ≤ b.nbytes := by
      rw [Block.nbytes, ← Nat.mul_succ]; exact Nat.mul_le_mul_left _ hi
    have h5 : elementBytes tail b.offset.toNat b.dtype.itemsize i = ((blockBytes s file endian b).drop (b.dtype.itemsize * i)).take b.dtype.itemsize := by
      rw [← h3, List.drop_take, List.take_take, List.drop_drop, elementBytes, min_eq_left (by omega)]
    rw [h5]
    simp only [blockBytes, Block.values, List.flatMap_map]
    rw [(flatMap_range_slice (size := b.dtype.itemsize) (fun i hi => by rw [memBytes_length, length_fileValue, length_elementBytes hbr hi])).2 i hi]
  change fileValue s (readOrder endian b.dtype) (b.dtype.byteorder != '|') (elementBytes tail b.offset.toNat b.dtype.itemsize i) = _
  rw [hel]
  generalize fileValue s b.endian (b.dtype.byteorder != '|') (elementBytes file b.offset.toNat b.dtype.itemsize i) = v
  cases endian with
  | some e =>
    have he' : e = '<' ∨ e = '>' ∨ e = '=' := by
      have := he e rfl
      simp only [validEndian, Bool.or_eq_true, beq_iff_eq] at this; tauto
    by_cases hbo : b.dtype.byteorder = '|'
    · simp [fileValue, outType, memBytes, hbo]
    · rcases he' with rfl | rfl | rfl <;> cases s <;> simp [fileValue, outType, memBytes, bigOrLittle, hbo, readOrder]
  | none => rcases hbr.dtype with h | h | h | h <;> cases s <;> simp [fileValue, outType, memBytes, bigOrLittle, h, readOrder]

/-- Blocks which do not overlap are written so that reading the new file at the same places, in the byte order it was written with, gives the same values. -/
theorem C51_write_read (s : Bool) {file : List Byte} (hf : file ≠ []) {bs : List Block} (hr : ∀ b ∈ bs, b.Readable file)
    (hd : (sortByOffset bs).Pairwise (fun a b : Block => a.offset + (a.nbytes : Int) ≤ b.offset)) {e : Char} (he : validEndian e = true) :
    ∃ out, writeBinary s file bs "wb".toList (some e) = .ok out ∧
      ∀ b ∈ bs, 0 < b.nbytes → (⟨b.dtype, b.offset, b.shape, e⟩ : Block).readAll s out = b.readAll s file :=
  write_read s hf hr hd (some e) (by simpa using he)

/-- Without a byte order each block is written in the order of its type, whatever order the original file has: reading the new file in that order gives the same values. -/
theorem C51_write_read_default (s : Bool) {file : List Byte} (hf : file ≠ []) {bs : List Block} (hr : ∀ b ∈ bs, b.Readable file)
    (hd : (sortByOffset bs).Pairwise (fun a b : Block => a.offset + (a.nbytes : Int) ≤ b.offset)) :
    ∃ out, writeBinary s file bs "wb".toList none = .ok out ∧
      ∀ b ∈ bs, 0 < b.nbytes → (⟨b.dtype, b.offset, b.shape, if b.dtype.byteorder = '|' then '=' else b.dtype.byteorder⟩ : Block).readAll s out = b.readAll s file :=
  write_read s hf hr hd none (by simp)

/-- Not as intended: the default `mode="wb-"` is not accepted by `open`. -/
theorem C51_default_mode_defect (s : Bool) (file : List Byte) (bs : List Block) (endian : Option Char) : writeBinary s file bs "wb-".toList endian = .error .valueError := rfl

theorem mapM_values {s : Bool} {file : List Byte} (hf : file ≠ []) (bs : List Block) (hr : ∀ b ∈ bs, b.Readable file) :
    bs.mapM (fun b => b.readAll s file) = .ok (bs.map (fun b => b.values s file)) := by
  induction bs with
  | nil => rfl
  | cons b bs ih =>
    rw [List.mapM_cons, readAll_values hf (hr b (by simp)), ih (fun c hc => hr c (by simp [hc]))]
    rfl

/-- What is hashed: the values of all blocks in the order of the file, in little endian order. -/
theorem C51_hash_input (s : Bool) {file : List Byte} (hf : file ≠ []) {bs : List Block} (hr : ∀ b ∈ bs, b.Readable file) (hu : Tiles bs file.length) (hp : ∀ b ∈ bs, 0 < b.nbytes) :
    hashInput s file bs = .ok ((sortByOffset bs).flatMap (fun b => (b.values s file).flatten)) := by
  rw [hashInput, (C45_iff hp).2 hu]
  simp only [Bool.not_true, Bool.false_eq_true, if_false]
  rw [mapM_values hf _ (fun b hb => hr b ((sortByOffset_perm bs).mem_iff.1 hb))]
  simp [List.flatMap_map]

theorem sortByOffset_map (f : Block → Block) (hf : ∀ b, (f b).offset = b.offset) (bs : List Block) : sortByOffset (bs.map f) = (sortByOffset bs).map f := by
  have hins : ∀ b l, insertByOffset (f b) (l.map f) = (insertByOffset b l).map f := by
    intro b l
    induction l with
    | nil => rfl
    | cons c l ih =>
      simp only [List.map_cons, insertByOffset, hf]
      split
      · rfl
      · rw [ih]; rfl
  induction bs with
  | nil => rfl
  | cons b bs ih => rw [List.map_cons]; simp only [sortByOffset, List.foldr_cons] at ih ⊢; rw [ih, hins]

/-- A file and its byte swapped copy have the same hash, on machines of either kind. -/
theorem C51_hash_swapped (s s' : Bool) {file file' : List Byte} (hf : file ≠ []) (hlen : file'.length = file.length) {bs : List Block} (hr : ∀ b ∈ bs, b.Readable file) (hu : Tiles bs file.length)
    (hp : ∀ b ∈ bs, 0 < b.nbytes) (he : ∀ b ∈ bs, b.endian = '<') (ho : ∀ b ∈ bs, b.dtype.byteorder ≠ '|')
    (hswap : ∀ b ∈ bs, ∀ i < b.size, elementBytes file' b.offset.toNat b.dtype.itemsize i = (elementBytes file b.offset.toNat b.dtype.itemsize i).reverse) :
    hashInput s' file' (bs.map (fun b : Block => (⟨b.dtype, b.offset, b.shape, '>'⟩ : Block))) = hashInput s file bs := by
  have hf' : file' ≠ [] := by rintro rfl; exact hf (List.eq_nil_of_length_eq_zero hlen.symm)
  rw [C51_hash_input s hf hr hu hp, C51_hash_input s' hf']
  · rw [sortByOffset_map (fun b : Block => (⟨b.dtype, b.offset, b.shape, '>'⟩ : Block)) (fun _ => rfl), List.flatMap_map]
    refine congrArg Except.ok (List.flatMap_congr fun b hb => ?_)
    have hb' := (sortByOffset_perm bs).mem_iff.1 hb
    refine congrArg List.flatten ?_
    unfold Block.values
    refine List.map_congr_left fun i hi => ?_
    have := hswap b hb' i (List.mem_range.1 hi)
    simp [fileValue, this, he b hb', ho b hb']
  · intro c hc
    obtain ⟨b, hb, rfl⟩ := List.mem_map.1 hc
    have := hr b hb
    exact ⟨this.dtype, rfl, this.start, by rw [hlen]; exact this.stop⟩
  · intro i
    rw [List.countP_map, hlen]
    exact hu i
  · intro c hc
    obtain ⟨b, hb, rfl⟩ := List.mem_map.1 hc
    exact hp b hb

/-- In a little endian file the bytes which are hashed are those of the file. -/
theorem C51_hash_file (s : Bool) {file : List Byte} (hf : file ≠ []) {bs : List Block} (hr : ∀ b ∈ bs, b.Readable file) (hu : Tiles bs file.length) (hp : ∀ b ∈ bs, 0 < b.nbytes)
    (he : ∀ b ∈ bs, b.endian = '<') : hashInput s file bs = .ok file := by
  rw [C51_hash_input s hf hr hu hp]
  refine congrArg Except.ok ?_
  obtain ⟨h0, h1, h2⟩ := (allBytesUsed_iff bs file.length).1 ((C45_iff hp).2 hu)
  have hvals : ∀ b ∈ sortByOffset bs, (b.values s file).flatten = (file.drop b.offset.toNat).take b.nbytes := by
    intro b hb
    have hb' := (sortByOffset_perm bs).mem_iff.1 hb
    have hv : b.values s file = (List.range b.size).map (fun i => elementBytes file b.offset.toNat b.dtype.itemsize i) := by
      unfold Block.values
      refine List.map_congr_left fun i _ => ?_
      simp [fileValue, he b hb']
    rw [hv, Block.nbytes]
    clear hv
    generalize b.size = n
    induction n with
    | zero => simp
    | succ n ih =>
      rw [List.range_succ, List.map_append, List.flatten_append, ih, Nat.mul_succ, List.take_add, List.drop_drop]
      simp [elementBytes]
  rw [List.flatMap_congr hvals]
  have hpos : ∀ b ∈ sortByOffset bs, 0 ≤ b.offset := fun b hb => (hr b ((sortByOffset_perm bs).mem_iff.1 hb)).start
  have key : ∀ (l : List Block) (o : Nat), (∀ b ∈ l.head?, b.offset = o) → consecutive l = true →
      l.flatMap (fun b => (file.drop b.offset.toNat).take b.nbytes) = (file.drop o).take ((l.map Block.nbytes).sum) := by
    intro l
    induction l with
    | nil => intro o _ _; simp
    | cons a l ih =>
      intro o ha hc
      have hao : a.offset = o := ha a (by simp)
      have hnext : ∀ b ∈ l.head?, b.offset = ((o + a.nbytes : Nat) : Int) := by
        intro b hb
        cases l with
        | nil => simp at hb
        | cons c l =>
          simp only [consecutive, Bool.and_eq_true, decide_eq_true_eq] at hc
          simp only [List.head?_cons, Option.mem_def, Option.some.injEq] at hb
          rw [← hb, hc.1, hao]; push_cast; rfl
      have hcl : consecutive l = true := by
        cases l with
        | nil => rfl
        | cons c l => simp only [consecutive, Bool.and_eq_true] at hc; exact hc.2
      rw [List.flatMap_cons, ih (o + a.nbytes) hnext hcl, List.map_cons, List.sum_cons, List.take_add, List.drop_drop, hao]
      rfl
  rw [key _ 0 (by simpa using h0) h1, ← h2]
  simp

/-- A file with bytes outside the blocks is not hashed. -/
theorem C51_hash_refused (s : Bool) (file : List Byte) (bs : List Block) (h : ¬ Tiles bs file.length) : hashInput s file bs = .error .ioError := by
  have : allBytesUsed bs file.length = false := by
    by_contra hc
    exact h (C45_sound (by simpa using hc))
  simp [hashInput, this]

/-! ### Cases -/

def exFile : List Byte := [1, 2, 3, 4, 5, 6, 7, 8, 9, 10, 11, 12, 13, 14, 15, 16]
example : ∀ b ∈ exBlocks, b.Readable exFile := by
  intro b hb
  simp only [exBlocks, List.mem_cons, List.not_mem_nil, or_false] at hb
  rcases hb with rfl | rfl
  · exact ⟨Or.inr (Or.inr (Or.inl rfl)), by decide +kernel, by decide +kernel, by decide +kernel⟩
  · exact ⟨Or.inl rfl, by decide +kernel, by decide +kernel, by decide +kernel⟩
example : Tiles exBlocks exFile.length := C45_sound (by decide +kernel)
example : (sortByOffset exBlocks).map Block.offset = [0, 8] := by decide +kernel
example : writeBinary true exFile exBlocks "wb".toList (some '>') = .ok [8, 7, 6, 5, 4, 3, 2, 1, 12, 11, 10, 9, 16, 15, 14, 13] := by decide +kernel
example : hashInput true exFile exBlocks = .ok exFile ∧ hashInput true exFile (exBlocks.take 1) = .error .ioError := by decide +kernel

end Verif
