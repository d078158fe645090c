import Verif.Props.ReadBinary
import Mathlib.Tactic.NormNum

/-! C49: Fortran records. -/

namespace Verif

/-- The record marker at a position of the file, in the given byte order -/
def markerAt (s : Bool) (file : List Byte) (endian : Char) (o : Int) : Int := int32Value (fileValue s endian true (slice file o.toNat 4))

/-- The byte order which is not that of the machine -/
def otherEndian (s : Bool) : Char := if s then '>' else '<'

/-- Calls which may be made inside a record -/
def BOp.inRecord : BOp → Bool
  | .addDataset .. | .addAttribute .. | .skipBytes _ | .readAndSkip .. => true
  | _ => false

theorem readAndSkip_marker (s : Bool) (file : List Byte) (f : BFile) (he : validEndian f.endian = true) (h0 : 0 ≤ f.offset) (h1 : f.offset + 4 ≤ file.length) :
    f.readAndSkip s file int32Type [] = ({ f with offset := f.offset + 4, blocks := f.blocks ++ [⟨int32Type, f.offset, [], f.endian⟩] }, .ok [fileValue s f.endian true (slice file f.offset.toNat 4)]) := by
  have hf : file ≠ [] := by rintro rfl; simp at h1; omega
  have hn : (⟨int32Type, f.offset, [], f.endian⟩ : Block).nbytes = 4 := rfl
  have hr : (⟨int32Type, f.offset, [], f.endian⟩ : Block).readAll s file = .ok [fileValue s f.endian true (slice file f.offset.toNat 4)] := by
    unfold Block.readAll
    rw [C47_read s file _ _ (Or.inr (Or.inr (Or.inl rfl))) he hf h0 (by rw [hn]; exact h1) (by intro i hi; exact List.mem_range.1 hi)]
    simp [Block.size, elementBytes, slice, int32Type]
  unfold BFile.readAndSkip
  simp only [hr, hn]
  rfl

theorem step_inRecord (s : Bool) (file : List Byte) (f : BFile) (op : BOp) (h : op.inRecord = true) :
    (f.step s file op).1.record = f.record ∧ (f.step s file op).1.endian = f.endian := by
  have hadd : ∀ n d sh a, (f.addBlock n d sh a).1.record = f.record ∧ (f.addBlock n d sh a).1.endian = f.endian := by
    intro n d sh a
    unfold BFile.addBlock
    split
    · exact ⟨rfl, rfl⟩
    · split <;> exact ⟨rfl, rfl⟩
  cases op with
  | addDataset n d sh => exact hadd n d sh false
  | addAttribute n d sh => exact hadd n d sh true
  | skipBytes n => exact ⟨rfl, rfl⟩
  | readAndSkip d sh =>
    simp only [BFile.step, BFile.readAndSkip]
    rcases hq : (⟨d, f.offset, sh, f.endian⟩ : Block).readAll s file with e | v <;> exact ⟨rfl, rfl⟩
  | _ => simp [BOp.inRecord] at h

theorem runFrom_inRecord (s : Bool) (file : List Byte) (ops : List BOp) (h : ∀ op ∈ ops, op.inRecord = true) (f : BFile) :
    (f.runFrom s file ops).record = f.record ∧ (f.runFrom s file ops).endian = f.endian := by
  induction ops generalizing f with
  | nil => exact ⟨rfl, rfl⟩
  | cons op ops ih =>
    obtain ⟨a, b⟩ := step_inRecord s file f op (h op (by simp))
    obtain ⟨c, d⟩ := ih (fun o ho => h o (by simp [ho])) (f.step s file op).1
    exact ⟨c.trans a, d.trans b⟩

/-- A record: the start, calls inside and the end, from a state outside any record -/
structure RecordRun (s : Bool) (file : List Byte) (f : BFile) (auto : Bool) (ops : List BOp) (f2 : BFile) : Prop where
  outside : f.record = none
  endian : validEndian f.endian = true
  first : 0 ≤ f.offset ∧ f.offset + 4 ≤ file.length
  inside : ∀ op ∈ ops, op.inRecord = true
  body : f2 = (f.startRecord s file auto).1.runFrom s file ops
  last : 0 ≤ f2.offset ∧ f2.offset + 4 ≤ file.length

/-- State after the marker at the end has been read -/
def afterMarker (f : BFile) : BFile := { f with offset := f.offset + 4, blocks := f.blocks ++ [⟨int32Type, f.offset, [], f.endian⟩] }

theorem RecordRun.end_eq {s : Bool} {file : List Byte} {f f2 : BFile} {auto : Bool} {ops : List BOp} (h : RecordRun s file f auto ops f2) :
    (f.startRecord s file auto).2 = none ∧ f2.endian = f.endian ∧ f2.endRecord s file =
      if markerAt s file f.endian f.offset ≠ markerAt s file f.endian f2.offset then (afterMarker f2, some .ioError)
      else if auto ∧ f2.offset - (f.offset + 4) > 65535 then (afterMarker f2, some .ioError)
      else if f2.offset - (f.offset + 4) = int32Value (fileValue s f.endian true (slice file f.offset.toNat 4)).reverse ∧
          f2.offset - (f.offset + 4) ≠ markerAt s file f.endian f.offset ∧ auto then ({ ((afterMarker f2).toggleByteswap s).1 with record := none }, none)
      else if f2.offset - (f.offset + 4) ≠ markerAt s file f.endian f.offset then (afterMarker f2, some .ioError)
      else ({ afterMarker f2 with record := none }, none) := by
  have hs : f.startRecord s file auto = ({ f with offset := f.offset + 4, blocks := f.blocks ++ [⟨int32Type, f.offset, [], f.endian⟩], record := some (fileValue s f.endian true (slice file f.offset.toNat 4), f.offset + 4, auto) }, none) := by
    unfold BFile.startRecord
    rw [h.outside, readAndSkip_marker s file f h.endian h.first.1 h.first.2]
    rfl
  have hb := h.body
  rw [hs] at hb
  obtain ⟨r1, r2⟩ := runFrom_inRecord s file ops h.inside { f with offset := f.offset + 4, blocks := f.blocks ++ [⟨int32Type, f.offset, [], f.endian⟩], record := some (fileValue s f.endian true (slice file f.offset.toNat 4), f.offset + 4, auto) }
  rw [← hb] at r1 r2
  have r2' : f2.endian = f.endian := r2
  refine ⟨by rw [hs], r2', ?_⟩
  unfold BFile.endRecord
  rw [r1, readAndSkip_marker s file f2 (by rw [r2']; exact h.endian) h.last.1 h.last.2]
  simp only [List.headD_cons, r2', swapItem]
  rw [← r2']
  rfl

/-- Without detection of the byte order a record is accepted exactly if both markers give the number of bytes in between. -/
theorem C49_accept {s : Bool} {file : List Byte} {f f2 : BFile} {ops : List BOp} (h : RecordRun s file f false ops f2) :
    (f2.endRecord s file).2 = none ↔
      markerAt s file f.endian f.offset = f2.offset - (f.offset + 4) ∧ markerAt s file f.endian f2.offset = f2.offset - (f.offset + 4) := by
  obtain ⟨-, -, he⟩ := h.end_eq
  rw [he]
  simp only [Bool.false_eq_true, false_and, and_false, if_false]
  split_ifs with h1 h2
  · simp only [reduceCtorEq, false_iff]; omega
  · simp only [reduceCtorEq, false_iff]; omega
  · simp only [true_iff]; omega

/-- A record which is not accepted raises `IOError`; after one which is accepted the next may start behind the marker, and the byte order is as before. -/
theorem C49_outcome {s : Bool} {file : List Byte} {f f2 : BFile} {ops : List BOp} (h : RecordRun s file f false ops f2) :
    ((f2.endRecord s file).2 = some .ioError ∨ ((f2.endRecord s file).2 = none ∧ (f2.endRecord s file).1.record = none)) ∧
    (f2.endRecord s file).1.offset = f2.offset + 4 ∧ (f2.endRecord s file).1.endian = f.endian := by
  obtain ⟨-, h2, he⟩ := h.end_eq
  rw [he]
  simp only [Bool.false_eq_true, false_and, and_false, if_false]
  split_ifs <;> simp [afterMarker, h2]

theorem leNat_lt (v : List Byte) : leNat v < 256 ^ v.length := by
  induction v with
  | nil => simp [leNat]
  | cons b v ih =>
    have := b.isLt
    simp only [leNat, List.length_cons, pow_succ]
    omega

theorem int32_of_nonneg {v : List Byte} (hl : v.length = 4) (h : 0 ≤ int32Value v) : (leNat v : Int) = int32Value v := by
  have := leNat_lt v
  rw [hl] at this
  norm_num at this
  unfold int32Value at h ⊢
  split at h
  · omega
  · rename_i hc; rw [if_neg hc]

theorem int32_reverse_eq {v : List Byte} (hl : v.length = 4) {L : Int} (h0 : 0 ≤ L) (h1 : L ≤ 65535) (ha : int32Value v = L) (hb : int32Value v.reverse = L) : L = 0 := by
  have ha' := int32_of_nonneg hl (by omega)
  have hb' := int32_of_nonneg (v := v.reverse) (by simpa using hl) (by omega)
  rw [ha] at ha'
  rw [hb] at hb'
  clear ha hb
  match v, hl with
  | [⟨a, _⟩, ⟨b, _⟩, ⟨c, _⟩, ⟨d, _⟩], _ =>
    simp only [leNat, List.reverse_cons, List.reverse_nil, List.nil_append, List.cons_append] at ha' hb'
    push_cast at ha' hb'
    have hd : d = 0 := by omega
    have hc : c = 0 := by omega
    have ha0 : a = 0 := by omega
    have hb0 : b = 0 := by omega
    omega

theorem marker_other (s : Bool) (file : List Byte) (o : Int) :
    markerAt s file (otherEndian s) o = int32Value (fileValue s '=' true (slice file o.toNat 4)).reverse := by
  cases s <;> simp [markerAt, otherEndian, fileValue]

/-- With detection of the byte order, in a file of native order so far: a record in native order is accepted and nothing else changes. -/
theorem C49_auto_native {s : Bool} {file : List Byte} {f f2 : BFile} {ops : List BOp} (h : RecordRun s file f true ops f2)
    (hL : f2.offset - (f.offset + 4) ≤ 65535)
    (ha : markerAt s file f.endian f.offset = f2.offset - (f.offset + 4)) (hb : markerAt s file f.endian f2.offset = f2.offset - (f.offset + 4)) :
    (f2.endRecord s file).2 = none ∧ (f2.endRecord s file).1.endian = f.endian ∧ (f2.endRecord s file).1.record = none ∧
    (f2.endRecord s file).1.blocks = f2.blocks ++ [⟨int32Type, f2.offset, [], f.endian⟩] := by
  obtain ⟨-, h2, he⟩ := h.end_eq
  rw [he, if_neg (by omega), if_neg (by omega), if_neg (by omega), if_neg (by omega)]
  simp [afterMarker, h2]

/-- A non-empty record in the other order is accepted, and from then on every block of the file, including those declared before, is read in that order. -/
theorem C49_auto_swapped {s : Bool} {file : List Byte} {f f2 : BFile} {ops : List BOp} (h : RecordRun s file f true ops f2) (hn : f.endian = '=')
    (hpos : 0 < f2.offset - (f.offset + 4)) (hL : f2.offset - (f.offset + 4) ≤ 65535)
    (ha : markerAt s file (otherEndian s) f.offset = f2.offset - (f.offset + 4)) (hb : slice file f2.offset.toNat 4 = slice file f.offset.toNat 4) :
    (f2.endRecord s file).2 = none ∧ (f2.endRecord s file).1.endian = otherEndian s ∧ (f2.endRecord s file).1.record = none ∧
    (f2.endRecord s file).1.blocks = (f2.blocks ++ [(⟨int32Type, f2.offset, [], '='⟩ : Block)]).map (fun b : Block => (⟨b.dtype, b.offset, b.shape, otherEndian s⟩ : Block)) := by
  obtain ⟨-, h2, he⟩ := h.end_eq
  rw [marker_other] at ha
  have hlen : (fileValue s '=' true (slice file f.offset.toNat 4)).length = 4 := by
    have : (slice file f.offset.toNat 4).length = 4 := length_slice_of_le (by have := h.first; omega)
    unfold fileValue; split <;> simp [this]
  have hne : f2.offset - (f.offset + 4) ≠ markerAt s file f.endian f.offset := by
    intro hc
    have := int32_reverse_eq hlen (by omega) hL (by rw [hc, hn]; rfl) ha
    omega
  have hm : markerAt s file f.endian f.offset = markerAt s file f.endian f2.offset := by simp [markerAt, hb]
  rw [he, if_neg (by simpa using hm), if_neg (by omega), if_pos ⟨by rw [hn]; exact ha.symm, hne, rfl⟩]
  have h3 : (afterMarker f2).endian = '=' := by simp [afterMarker, h2, hn]
  have hv : validEndian (otherEndian s) = true := by cases s <;> rfl
  have ht := C48_toggle_native s (afterMarker f2) h3
  have hse := C48_set_endian (afterMarker f2) hv
  have ho : (if s = true then '>' else '<') = otherEndian s := rfl
  rw [ht, ho]
  refine ⟨rfl, hse.2.1, rfl, ?_⟩
  change ((afterMarker f2).setEndian (otherEndian s)).1.blocks = _
  rw [hse.2.2]
  simp [afterMarker, h2, hn]

/-- With detection, records of more than 65535 bytes raise. -/
theorem C49_auto_long {s : Bool} {file : List Byte} {f f2 : BFile} {ops : List BOp} (h : RecordRun s file f true ops f2) (hL : 65535 < f2.offset - (f.offset + 4)) :
    (f2.endRecord s file).2 = some .ioError := by
  obtain ⟨-, -, he⟩ := h.end_eq
  rw [he]
  split_ifs <;> simp_all <;> omega

/-- With detection, a record is accepted only if the two markers are the same and are its length in one of the two byte orders. -/
theorem C49_auto_only {s : Bool} {file : List Byte} {f f2 : BFile} {ops : List BOp} (h : RecordRun s file f true ops f2) (hn : f.endian = '=')
    (hok : (f2.endRecord s file).2 = none) :
    markerAt s file '=' f.offset = markerAt s file '=' f2.offset ∧ f2.offset - (f.offset + 4) ≤ 65535 ∧
    (markerAt s file '=' f.offset = f2.offset - (f.offset + 4) ∨ markerAt s file (otherEndian s) f.offset = f2.offset - (f.offset + 4)) := by
  obtain ⟨-, -, he⟩ := h.end_eq
  rw [he, hn] at hok
  rw [marker_other]
  split_ifs at hok with h1 h2 h3 h4 <;> simp_all <;> omega

/-! ### Cases -/

/-- A big endian record of 8 bytes -/
def exRecord : List Byte := [0, 0, 0, 8, 0, 0, 0, 1, 0, 0, 0, 2, 0, 0, 0, 8]
def exBody : List BOp := [.addDataset "x".toList i4 [2]]
def exState (e : Char) : BFile := { BFile.new with endian := e }
def exEnd (e : Char) (auto : Bool) : BFile := ((exState e).startRecord true exRecord auto).1.runFrom true exRecord exBody

theorem exRun (e : Char) (he : e = '=' ∨ e = '>' ∨ e = '<') (auto : Bool) : RecordRun true exRecord (exState e) auto exBody (exEnd e auto) := by
  rcases he with rfl | rfl | rfl <;> cases auto <;>
    exact ⟨rfl, by decide +kernel, by decide +kernel, by decide +kernel, rfl, by decide +kernel⟩

example : (exEnd '>' false).offset = 12 ∧ markerAt true exRecord '>' 0 = 8 ∧ markerAt true exRecord '>' 12 = 8 := by decide +kernel
example : ((exEnd '>' false).endRecord true exRecord).2 = none ∧ ((exEnd '=' false).endRecord true exRecord).2 = some .ioError := by decide +kernel
example : markerAt true exRecord (otherEndian true) 0 = 8 ∧ slice exRecord 12 4 = slice exRecord 0 4 := by decide +kernel
example : ((exEnd '=' true).endRecord true exRecord).2 = none ∧ ((exEnd '=' true).endRecord true exRecord).1.blocks.map Block.endian = ['>', '>', '>'] := by decide +kernel

/-- Not as documented: if the (wrong) byte order had been set explicitly, the record is accepted with detection, but its contents are still read in the wrong order. -/
theorem C49_explicit_order_defect : ((exEnd '<' true).endRecord true exRecord).2 = none ∧ ((exEnd '<' true).endRecord true exRecord).1.endian = '>' ∧
    ((exEnd '<' true).endRecord true exRecord).1.blocks.map Block.endian = ['<', '<', '<'] := by decide +kernel

end Verif
