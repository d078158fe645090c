import Verif.Spec.ReadBinary
import Mathlib.Tactic.Ring
import Mathlib.Data.List.Perm.Basic
import Mathlib.Algebra.BigOperators.Group.List.Basic

namespace Verif

/-- A block apart from its byte order -/
def Block.strip (b : Block) : Block := { b with endian := '=' }

theorem Block.nbytes_strip (b : Block) : b.strip.nbytes = b.nbytes := rfl
theorem Block.offset_strip (b : Block) : b.strip.offset = b.offset := rfl

def skipOf : BOp → Int
  | .skipBytes n => n
  | _ => 0

theorem skipped_cons (op : BOp) (ops : List BOp) : skipped (op :: ops) = skipOf op + skipped ops := by
  cases op <;> simp [skipped, skipOf]

theorem skipped_append (a b : List BOp) : skipped (a ++ b) = skipped a + skipped b := by
  induction a with
  | nil => simp [skipped]
  | cons x l ih => rw [List.cons_append, skipped_cons, skipped_cons, ih]; ring

/-- What a call does to the blocks -/
structure Frame (f g : BFile) (skip : Int) (new : List Block) : Prop where
  blocks : g.blocks.map Block.strip = f.blocks.map Block.strip ++ new.map Block.strip
  added : new = [] ∨ ∃ b, new = [b] ∧ b.offset = f.offset
  offset : g.offset = f.offset + ((new.map Block.nbytes).sum : Nat) + skip

theorem Frame.refl (f : BFile) : Frame f f 0 [] := ⟨by simp, Or.inl rfl, by simp⟩

theorem addBlock_frame (f : BFile) (name : Name) (dtype : DType) (shape : List Nat) (a : Bool) :
    ∃ new, Frame f (f.addBlock name dtype shape a).1 0 new := by
  unfold BFile.addBlock
  split
  · exact ⟨[], Frame.refl f⟩
  · split
    · exact ⟨[], Frame.refl f⟩
    · rename_i root flag _
      exact ⟨[⟨dtype, f.offset, shape, if flag then f.endian else '='⟩], by simp, Or.inr ⟨_, rfl, rfl⟩, by simp⟩

theorem readAndSkip_frame (s : Bool) (file : List Byte) (f : BFile) (dtype : DType) (shape : List Nat) :
    ∃ new, Frame f (f.readAndSkip s file dtype shape).1 0 new := by
  unfold BFile.readAndSkip
  dsimp only
  split
  · exact ⟨[], Frame.refl f⟩
  · exact ⟨[⟨dtype, f.offset, shape, f.endian⟩], by simp, Or.inr ⟨_, rfl, rfl⟩, by simp⟩

theorem setEndian_frame (f : BFile) (e : Char) : Frame f (f.setEndian e).1 0 [] := by
  unfold BFile.setEndian
  split
  · exact Frame.refl f
  · refine ⟨?_, Or.inl rfl, by simp⟩
    simp [List.map_map, Function.comp_def, Block.strip]

theorem toggle_frame (s : Bool) (f : BFile) : Frame f (f.toggleByteswap s).1 0 [] := by
  unfold BFile.toggleByteswap
  split
  · exact ⟨by simp, Or.inl rfl, by simp⟩
  · split
    · exact ⟨by simp, Or.inl rfl, by simp⟩
    · split
      · exact setEndian_frame f _
      · exact Frame.refl f

theorem Frame.trans_nil {f g h : BFile} {new : List Block} (a : Frame f g 0 new) (b : Frame g h 0 []) : Frame f h 0 new := by
  refine ⟨?_, a.added, ?_⟩
  · rw [b.blocks, a.blocks]; simp
  · rw [b.offset, a.offset]; simp

theorem Frame.of_record {f g : BFile} {new : List Block} (a : Frame f g 0 new) (r : Option (List Byte × Int × Bool)) : Frame f { g with record := r } 0 new :=
  ⟨a.blocks, a.added, a.offset⟩

theorem step_frame (s : Bool) (file : List Byte) (f : BFile) (op : BOp) : ∃ new, Frame f (f.step s file op).1 (skipOf op) new := by
  cases op with
  | addDataset n d sh => exact addBlock_frame f n d sh false
  | addAttribute n d sh => exact addBlock_frame f n d sh true
  | skipBytes n => exact ⟨[], by simp [BFile.step], Or.inl rfl, by simp [BFile.step, skipOf]⟩
  | readAndSkip d sh =>
    obtain ⟨new, h⟩ := readAndSkip_frame s file f d sh
    refine ⟨new, ?_⟩
    simp only [BFile.step, skipOf]
    rcases hq : f.readAndSkip s file d sh with ⟨g, e | v⟩ <;> rw [hq] at h <;> exact h
  | setEndian e => exact ⟨[], setEndian_frame f e⟩
  | enableByteswap b => exact ⟨[], setEndian_frame f _⟩
  | toggleByteswap => exact ⟨[], toggle_frame s f⟩
  | startRecord a =>
    simp only [BFile.step, skipOf, BFile.startRecord]
    split
    · exact ⟨[], Frame.refl f⟩
    · obtain ⟨new, h⟩ := readAndSkip_frame s file f int32Type []
      refine ⟨new, ?_⟩
      rcases hq : f.readAndSkip s file int32Type [] with ⟨g, e | v⟩ <;> rw [hq] at h
      · exact h
      · exact h.of_record _
  | endRecord =>
    simp only [BFile.step, skipOf, BFile.endRecord]
    split
    · exact ⟨[], Frame.refl f⟩
    · obtain ⟨new, h⟩ := readAndSkip_frame s file f int32Type []
      refine ⟨new, ?_⟩
      rcases hq : f.readAndSkip s file int32Type [] with ⟨g, e | v⟩ <;> rw [hq] at h
      · exact h
      · dsimp only
        split
        · exact h
        · split
          · exact h
          · split
            · exact (h.trans_nil (toggle_frame s g)).of_record _
            · split
              · exact h
              · exact h.of_record _

/-- A sequence of calls from any state -/
def BFile.runFrom (s : Bool) (file : List Byte) (f : BFile) (ops : List BOp) : BFile := ops.foldl (fun f op => (f.step s file op).1) f

theorem run_append (s : Bool) (file : List Byte) (a b : List BOp) : BFile.run s file (a ++ b) = (BFile.run s file a).runFrom s file b := by
  simp [BFile.run, BFile.runFrom, List.foldl_append]

theorem runFrom_frame (s : Bool) (file : List Byte) (ops : List BOp) (f : BFile) :
    ∃ new, (f.runFrom s file ops).blocks.map Block.strip = f.blocks.map Block.strip ++ new ∧
      (f.runFrom s file ops).offset = f.offset + ((new.map Block.nbytes).sum : Nat) + skipped ops := by
  induction ops generalizing f with
  | nil => exact ⟨[], by simp [BFile.runFrom], by simp [BFile.runFrom, skipped]⟩
  | cons op ops ih =>
    obtain ⟨n1, h1⟩ := step_frame s file f op
    obtain ⟨n2, h2, h3⟩ := ih (f.step s file op).1
    refine ⟨n1.map Block.strip ++ n2, ?_, ?_⟩
    · change (BFile.runFrom s file (f.step s file op).1 ops).blocks.map Block.strip = _
      rw [h2, h1.blocks, List.append_assoc]
    · change (BFile.runFrom s file (f.step s file op).1 ops).offset = _
      rw [h3, h1.offset, skipped_cons]
      have : ((n1.map Block.strip).map Block.nbytes) = n1.map Block.nbytes := by simp [List.map_map, Function.comp_def, Block.nbytes_strip]
      rw [List.map_append, List.sum_append, this]
      push_cast
      ring

theorem run_offset (s : Bool) (file : List Byte) (ops : List BOp) :
    (BFile.run s file ops).offset = (((BFile.run s file ops).blocks.map Block.nbytes).sum : Nat) + skipped ops := by
  obtain ⟨new, h1, h2⟩ := runFrom_frame s file ops .new
  change (BFile.runFrom s file .new ops).offset = (((BFile.runFrom s file .new ops).blocks.map Block.nbytes).sum : Nat) + _
  have : (BFile.runFrom s file .new ops).blocks.map Block.nbytes = new.map Block.nbytes := by
    have := congrArg (List.map Block.nbytes) h1
    simpa [List.map_map, Function.comp_def, Block.nbytes_strip, BFile.new] using this
  rw [h2, this]
  simp [BFile.new]

/-! ### Sorting and tiling -/

theorem insertByOffset_perm (b : Block) (l : List Block) : (insertByOffset b l).Perm (b :: l) := by
  induction l with
  | nil => exact List.Perm.refl _
  | cons c l ih =>
    simp only [insertByOffset]
    split
    · exact List.Perm.refl _
    · exact (ih.cons c).trans (List.Perm.swap b c l)

theorem sortByOffset_perm (l : List Block) : (sortByOffset l).Perm l := by
  induction l with
  | nil => exact List.Perm.refl _
  | cons b l ih => exact (insertByOffset_perm b _).trans (ih.cons b)

theorem insertByOffset_sorted (b : Block) (l : List Block) (h : l.Pairwise (fun x y => x.offset ≤ y.offset)) :
    (insertByOffset b l).Pairwise (fun x y => x.offset ≤ y.offset) := by
  induction l with
  | nil => simp [insertByOffset]
  | cons c l ih =>
    rw [List.pairwise_cons] at h
    simp only [insertByOffset]
    split
    · rename_i hb
      refine List.pairwise_cons.2 ⟨?_, List.pairwise_cons.2 h⟩
      intro y hy
      rcases List.mem_cons.1 hy with rfl | hy
      · exact hb
      · exact hb.trans (h.1 y hy)
    · rename_i hb
      refine List.pairwise_cons.2 ⟨?_, ih h.2⟩
      intro y hy
      rcases List.mem_cons.1 ((insertByOffset_perm b l).mem_iff.1 hy) with rfl | hy
      · omega
      · exact h.1 y hy

theorem sortByOffset_sorted (l : List Block) : (sortByOffset l).Pairwise (fun x y => x.offset ≤ y.offset) := by
  induction l with
  | nil => exact List.Pairwise.nil
  | cons b l ih => exact insertByOffset_sorted b _ ih

/-- Consecutive blocks from `s` cover each byte up to their end once. -/
theorem count_consecutive (l : List Block) (s : Int) (h0 : ∀ b ∈ l.head?, b.offset = s) (h : consecutive l = true) (i : Int) :
    l.countP (Block.covers i) = if s ≤ i ∧ i < s + ((l.map Block.nbytes).sum : Nat) then 1 else 0 := by
  induction l generalizing s with
  | nil =>
    rw [if_neg (by simp)]; rfl
  | cons a l ih =>
    have ha : a.offset = s := h0 a (by simp)
    have ht : l.countP (Block.covers i) = if s + a.nbytes ≤ i ∧ i < s + a.nbytes + ((l.map Block.nbytes).sum : Nat) then 1 else 0 := by
      apply ih
      · intro b hb
        cases l with
        | nil => simp at hb
        | cons c l =>
          simp only [consecutive, Bool.and_eq_true, decide_eq_true_eq] at h
          simp only [List.head?_cons, Option.mem_def, Option.some.injEq] at hb
          rw [← hb, h.1, ha]
      · cases l with
        | nil => rfl
        | cons c l => simp only [consecutive, Bool.and_eq_true] at h; exact h.2
    rw [List.countP_cons, ht]
    simp only [Block.covers, ha, decide_eq_true_eq, List.map_cons, List.sum_cons]
    push_cast
    split_ifs <;> omega

/-- Non-empty sorted blocks which cover the bytes from `s` to `e` once are consecutive. -/
theorem consecutive_of_count (l : List Block) (s e : Int) (hse : s ≤ e) (hs : l.Pairwise (fun x y => x.offset ≤ y.offset)) (hp : ∀ b ∈ l, 0 < b.nbytes)
    (h : ∀ i, l.countP (Block.covers i) = if s ≤ i ∧ i < e then 1 else 0) :
    (∀ b ∈ l.head?, b.offset = s) ∧ consecutive l = true ∧ s + ((l.map Block.nbytes).sum : Nat) = e := by
  induction l generalizing s with
  | nil =>
    refine ⟨by simp, rfl, ?_⟩
    by_contra hne
    have := h s
    rw [if_pos ⟨le_refl _, by simp at hne; omega⟩] at this
    simp at this
  | cons a l ih =>
    rw [List.pairwise_cons] at hs
    have hpa := hp a (by simp)
    have hca : Block.covers a.offset a = true := by simp [Block.covers, hpa]
    have h1 := h a.offset
    rw [List.countP_cons_of_pos hca] at h1
    have hin : s ≤ a.offset ∧ a.offset < e := by
      by_contra hc
      rw [if_neg hc] at h1
      omega
    have hle : a.offset ≤ s := by
      have h2 := h s
      rw [if_pos ⟨le_refl _, by omega⟩] at h2
      have : 0 < (a :: l).countP (Block.covers s) := by omega
      obtain ⟨b, hb, hcb⟩ := List.countP_pos_iff.1 this
      simp only [Block.covers, decide_eq_true_eq] at hcb
      rcases List.mem_cons.1 hb with rfl | hb
      · exact hcb.1
      · exact (hs.1 b hb).trans hcb.1
    have hoff : a.offset = s := by omega
    have hend : s + a.nbytes ≤ e := by
      have h2 := h (s + a.nbytes - 1)
      rw [List.countP_cons_of_pos (by simp [Block.covers]; omega)] at h2
      by_contra hc
      rw [if_neg (by omega)] at h2
      omega
    have ht : ∀ i, l.countP (Block.covers i) = if s + a.nbytes ≤ i ∧ i < e then 1 else 0 := by
      intro i
      have h2 := h i
      rw [List.countP_cons] at h2
      simp only [Block.covers, hoff, decide_eq_true_eq] at h2 ⊢
      split_ifs at h2 ⊢ <;> omega
    obtain ⟨i1, i2, i3⟩ := ih (s + a.nbytes) hend hs.2 (fun b hb => hp b (by simp [hb])) ht
    refine ⟨by simp [hoff], ?_, ?_⟩
    · cases l with
      | nil => rfl
      | cons c l =>
        simp only [consecutive, Bool.and_eq_true, decide_eq_true_eq]
        exact ⟨by rw [hoff]; exact i1 c (by simp), i2⟩
    · simp only [List.map_cons, List.sum_cons]
      push_cast
      omega

theorem allBytesUsed_iff (bs : List Block) (n : Nat) : allBytesUsed bs n = true ↔
    (∀ b ∈ (sortByOffset bs).head?, b.offset = 0) ∧ consecutive (sortByOffset bs) = true ∧ n = ((sortByOffset bs).map Block.nbytes).sum := by
  simp only [allBytesUsed]
  generalize sortByOffset bs = l
  rcases l with _ | ⟨a, l⟩
  · simp [consecutive]
  · rcases l with _ | ⟨c, l⟩
    · by_cases h : a.offset = 0 <;> simp [h, consecutive]
    · by_cases h : a.offset = 0 <;> by_cases h2 : consecutive (a :: c :: l) = true <;> simp [h, h2]

end Verif
