import Verif.Proofs.WriteHdf5
import Verif.Props.ReadBinaryAttrs
import Verif.Props.WriteBinary
import Mathlib.Algebra.BigOperators.Group.List.Basic

/-! C103: the HDF5 copy of a binary file. -/

namespace Verif.WriteHdf5

theorem run_tidy (s : Bool) (file : List Byte) (ops : List BOp) : Tidy true (BFile.run s file ops).root := by
  induction ops using List.reverseRecOn with
  | nil => exact tidy_empty true
  | append_singleton ops op ih =>
    have hrun : BFile.run s file (ops ++ [op]) = ((BFile.run s file ops).step s file op).1 := by rw [run_append]; rfl
    rw [hrun]
    have hv := run_valid s file ops
    generalize BFile.run s file ops = f at *
    cases op with
    | addDataset name d sh =>
      simp only [BFile.step, BFile.addBlock, hv, Bool.not_true, Bool.false_eq_true, if_false]
      rcases hq : BGroup.addBlock false f.blocks.length (name.length + 1) f.root name with e | ⟨r, fl⟩
      · exact ih
      · exact tidy_add _ _ _ _ _ _ _ _ ih (by simp) hq
    | addAttribute name d sh =>
      simp only [BFile.step, BFile.addBlock, hv, Bool.not_true, Bool.false_eq_true, if_false]
      rcases hq : BGroup.addBlock true f.blocks.length (name.length + 1) f.root name with e | ⟨r, fl⟩
      · exact ih
      · exact tidy_add _ _ _ _ _ _ _ _ ih (by simp) hq
    | _ => rw [(step_root s file _ _ hv).2 (by intros; simp) (by intros; simp)]; exact ih

/-- A dataset of a group below is at its path. -/
theorem kindAt_groupAt (g h : BGroup) (cs : List Name) (hg : groupAt g cs = some h) (n : Name) : kindAt g (cs ++ [n]) = kindAt h [n] := by
  induction cs generalizing g with
  | nil => simp only [groupAt, Option.some.injEq] at hg; subst hg; rfl
  | cons m rest ih =>
    simp only [groupAt] at hg
    split at hg
    · rename_i k hk
      have := ih k hg
      cases rest with
      | nil => simp only [List.nil_append, List.cons_append, kindAt, hk] at this ⊢; exact this
      | cons a b => simp only [List.cons_append, kindAt, hk] at this ⊢; exact this
    · cases hg

theorem attrAtPath_groupAt (g h : BGroup) (cs : List Name) (hg : groupAt g cs = some h) (ds : List Name) (x : Name) : attrAtPath g (cs ++ ds) x = attrAtPath h ds x := by
  induction cs generalizing g with
  | nil => simp only [groupAt, Option.some.injEq] at hg; subst hg; rfl
  | cons m rest ih =>
    simp only [groupAt] at hg
    split at hg
    · rename_i k hk
      rw [List.cons_append, attrAtPath, hk]
      exact ih k hg
    · cases hg

/-- Values of a block which can be read -/
def blockVal (s : Bool) (file : List Byte) (blocks : List Block) (id : Nat) : HData :=
  match blocks[id]? with
  | none => ⟨⟨0, '='⟩, [], []⟩
  | some b => ⟨b.dtype, b.shape, b.values s file⟩

theorem blockData_ok {s : Bool} {file : List Byte} {blocks : List Block} (hf : file ≠ []) (hr : ∀ b ∈ blocks, b.Readable file) {id : Nat} {b : Block} (hb : blocks[id]? = some b) :
    blockData s file blocks id = .ok (blockVal s file blocks id) := by
  simp only [blockData, blockVal, hb]
  rw [readAll_values hf (hr b (List.mem_of_getElem? hb))]

/-- The dataset can be stored with compression: no empty dimension, and chunks of less than 4 GiB. -/
def Chunkable (d : DType) (shape : List Nat) : Prop := (∀ n ∈ shape, 0 < n) ∧ d.itemsize * (shape.map (min 81920)).prod < 4294967296

theorem chunksOk_iff (d : DType) (shape : List Nat) : chunksOk d.itemsize (hdf5Chunks shape) = true ↔ Chunkable d shape := by
  have hmap : hdf5Chunks shape = shape.map (min 81920) := by
    refine List.map_congr_left fun n _ => ?_
    split <;> omega
  unfold chunksOk Chunkable
  rw [hmap, Bool.and_eq_true, decide_eq_true_eq, List.prod_eq_foldl, List.all_eq_true]
  refine and_congr_left fun _ => ?_
  simp only [List.mem_map, decide_eq_true_eq, forall_exists_index, and_imp, forall_apply_eq_imp_iff₂]
  refine forall₂_congr fun n _ => ?_
  omega

/-- `v` is what is in the file for the block declared as number `id` with this type and shape. -/
def Holds (s : Bool) (file : List Byte) (blocks : List Block) (id : Nat) (d : DType) (sh : List Nat) (v : HData) : Prop :=
  ∃ b, blocks[id]? = some b ∧ b.dtype = d ∧ b.shape = sh ∧ v.dtype = d ∧ v.shape = sh ∧
    v.values = (List.range b.size).map (fun i => fileValue s b.endian (d.byteorder != '|') (elementBytes file b.offset.toNat d.itemsize i))

theorem holds_iff {s : Bool} {file : List Byte} {blocks : List Block} {id : Nat} {d : DType} {sh : List Nat} {v : HData}
    (hb : ∃ b, blocks[id]? = some b ∧ b.dtype = d ∧ b.shape = sh) : Holds s file blocks id d sh v ↔ v = blockVal s file blocks id := by
  obtain ⟨b, h1, h2, h3⟩ := hb
  subst h2 h3
  simp only [Holds, blockVal, h1]
  constructor
  · rintro ⟨b', e, -, -, e1, e2, e3⟩
    cases e
    obtain ⟨vd, vs, vv⟩ := v
    simp only at e1 e2 e3
    rw [e1, e2, e3]; rfl
  · rintro rfl
    exact ⟨b, rfl, rfl, rfl, rfl, rfl, rfl⟩

/-- After any calls, if all blocks can be read, no dataset has an empty path, and with compression all datasets can be stored, the file is written: the datasets in the HDF5 file are those which were declared, with their
type, shape and values, groups are where groups are, and attributes of datasets and groups are those which were declared. -/
theorem C103_write (s : Bool) (file : List Byte) (ops : List BOp) (gzip : Int) (hf : file ≠ []) (hr : ∀ b ∈ (BFile.run s file ops).blocks, b.Readable file)
    (hn : ∀ name d sh, .addDataset name d sh ∈ ops → pieces name ≠ [])
    (hz : gzip ≤ 0 ∨ (gzip ≤ 9 ∧ ∀ name d sh, .addDataset name d sh ∈ ops → Chunkable d sh)) :
    ∃ h, fileHdf5 s file (BFile.run s file ops) gzip = .ok h ∧
      (∀ cs v, h5Dataset h cs = some v ↔ ∃ before name d sh after, ops = before ++ .addDataset name d sh :: after ∧ ((BFile.run s file before).step s file (.addDataset name d sh)).2 = none ∧
        comps name = cs ∧ Holds s file (BFile.run s file ops).blocks (BFile.run s file before).blocks.length d sh v) ∧
      (∀ cs, cs ≠ [] → (h5IsGroup h cs = true ↔ kindAt (BFile.run s file ops).root cs = some none)) ∧
      (∀ cs x v, cs ≠ [] → (h5Attr h cs x = some v ↔ ∃ before name d sh after, ops = before ++ .addAttribute name d sh :: after ∧
        ((BFile.run s file before).step s file (.addAttribute name d sh)).2 = none ∧ AttrTarget (BFile.run s file before).root name cs x ∧
        Holds s file (BFile.run s file ops).blocks (BFile.run s file before).blocks.length d sh v)) := by
  have ht := run_tidy s file ops
  set f := BFile.run s file ops with hfdef
  have hdsb : ∀ cs id, kindAt f.root cs = some (some id) → ∃ name d sh b, .addDataset name d sh ∈ ops ∧ comps name = cs ∧ f.blocks[id]? = some b ∧ b.dtype = d ∧ b.shape = sh := by
    intro cs id hk
    obtain ⟨before, name, d, sh, after, h1, h2, h3, h4⟩ := (kind_history s file ops cs id).1 hk
    obtain ⟨b, b1, b2, b3, -⟩ := C46_block s file before after name d sh h2
    rw [← h1, ← h3] at b1
    exact ⟨name, d, sh, b, by rw [h1]; simp, h4, b1, b2, b3⟩
  have hatb : ∀ cs x id, attrAtPath f.root cs x = some id → ∃ b, f.blocks[id]? = some b := by
    intro cs x id hk
    obtain ⟨before, name, d, sh, after, h1, h2, h3, h4⟩ := (attr_history s file ops cs x id).1 hk
    obtain ⟨b, b1, -⟩ := C46_attribute_block s file before after name d sh h2
    rw [← h1, ← h3] at b1
    exact ⟨b, b1⟩
  have hgood : Good (blockData s file f.blocks) gzip (blockVal s file f.blocks) true f.root := by
    intro cs h hh
    have tl := ht cs h hh
    refine ⟨fun e he => ?_, fun htop x hx => ?_⟩
    · obtain ⟨n, id, at'⟩ := e
      have hd := dget_of_mem tl.ds he
      have hk : kindAt f.root (cs ++ [n]) = some (some id) := by
        rw [kindAt_groupAt _ _ _ hh]
        simp [kindAt, tl.disj n _ hd, hd]
      obtain ⟨name, d, sh, b, m1, m2, m3, m4, m5⟩ := hdsb _ _ hk
      refine ⟨comps_nonempty (hn _ _ _ m1) n (by rw [m2]; simp), ⟨blockData_ok hf hr m3, ?_⟩, fun x hx => ?_⟩
      · rcases hz with hz | ⟨hz, hc⟩
        · exact Or.inr (Or.inl hz)
        · right; right
          refine ⟨hz, ?_⟩
          rw [chunksOk_iff]
          simp only [blockVal, m3, m4, m5]
          exact hc _ _ _ m1
      · have ha : attrAtPath f.root (cs ++ [n]) x.1 = some x.2 := by
          rw [attrAtPath_groupAt _ _ _ hh]
          simp [attrAtPath, tl.disj n _ hd, hd, dget_of_mem (tl.da _ he).1 hx]
        obtain ⟨b, hb⟩ := hatb _ _ _ ha
        exact blockData_ok hf hr hb
    · have ha : attrAtPath f.root (cs ++ []) x.1 = some x.2 := by
        rw [attrAtPath_groupAt _ _ _ hh]
        simp [attrAtPath, dget_of_mem tl.ats hx]
      obtain ⟨b, hb⟩ := hatb _ _ _ ha
      exact blockData_ok hf hr hb
  refine ⟨_, writeHdf5_ok f.root true ht hgood [], ?_, ?_, ?_⟩
  · intro cs v
    rw [h5Dataset_conv _ true ht]
    constructor
    · intro h
      rcases hk : kindAt f.root cs with _ | _ | id
      · simp [hk] at h
      · simp [hk] at h
      · simp only [hk, Option.bind_some, Option.map_some, Option.some.injEq] at h
        obtain ⟨before, name, d, sh, after, h1, h2, h3, h4⟩ := (kind_history s file ops cs id).1 hk
        obtain ⟨b, b1, b2, b3, -⟩ := C46_block s file before after name d sh h2
        rw [← h1] at b1
        exact ⟨before, name, d, sh, after, h1, h2, h4, (holds_iff ⟨b, b1, b2, b3⟩).2 (by rw [← h, h3])⟩
    · rintro ⟨before, name, d, sh, after, h1, h2, h4, h5⟩
      obtain ⟨b, b1, b2, b3, -⟩ := C46_block s file before after name d sh h2
      rw [← h1] at b1
      have hk := (kind_history s file ops cs _).2 ⟨before, name, d, sh, after, h1, h2, rfl, h4⟩
      rw [hk, (holds_iff ⟨b, b1, b2, b3⟩).1 h5]; rfl
  · intro cs hcs
    exact h5IsGroup_conv f.root [] cs hcs
  · intro cs x v hcs
    obtain ⟨n, rest, rfl⟩ := List.exists_cons_of_ne_nil hcs
    rw [h5Attr_cons, h5Attr_conv]
    constructor
    · intro h
      cases hk : attrAtPath f.root (n :: rest) x with
      | none => simp [hk] at h
      | some id =>
        simp only [hk, Option.map_some, Option.some.injEq] at h
        obtain ⟨before, name, d, sh, after, h1, h2, h3, h4⟩ := (attr_history s file ops _ x id).1 hk
        obtain ⟨b, b1, b2, b3, -⟩ := C46_attribute_block s file before after name d sh h2
        rw [← h1] at b1
        exact ⟨before, name, d, sh, after, h1, h2, h4, (holds_iff ⟨b, b1, b2, b3⟩).2 (by rw [← h, h3])⟩
    · rintro ⟨before, name, d, sh, after, h1, h2, h4, h5⟩
      obtain ⟨b, b1, b2, b3, -⟩ := C46_attribute_block s file before after name d sh h2
      rw [← h1] at b1
      have hk := (attr_history s file ops (n :: rest) x _).2 ⟨before, name, d, sh, after, h1, h2, rfl, h4⟩
      rw [hk, (holds_iff ⟨b, b1, b2, b3⟩).1 h5]; rfl

/-- Not as intended: attributes of the file itself are not written. -/
theorem C103_file_attributes_defect (s : Bool) (file : List Byte) (f : BFile) (gzip : Int) {h : HGroup} (hw : fileHdf5 s file f gzip = .ok h) (x : Name) : h5Attr h [] x = none := by
  have := (writeHdf5_inv _ _ _ hw).1
  rw [h5Attr, this]; rfl

/-- Not as intended: with compression, which is the default, a file with a dataset in which a dimension is zero can not be written. -/
theorem C103_empty_defect (s : Bool) (file : List Byte) (f : BFile) {gzip : Int} (hz : 0 < gzip) {cs : List Name} {id : Nat} (hk : kindAt f.root cs = some (some id)) {b : Block}
    (hb : f.blocks[id]? = some b) (h0 : 0 ∈ b.shape) : ∃ e, fileHdf5 s file f gzip = .error e := by
  cases hw : fileHdf5 s file f gzip with
  | error e => exact ⟨e, rfl⟩
  | ok h =>
    exfalso
    obtain ⟨v, h1, h2⟩ := (writeHdf5_inv _ _ _ hw).2 cs id hk
    simp only [blockData, hb] at h1
    split at h1
    · cases h1
    · simp only [Except.ok.injEq] at h1
      subst h1
      obtain ⟨-, h3⟩ := h2 (by intro h; simp only at h; rw [h] at h0; cases h0) hz
      have := ((chunksOk_iff _ _).1 h3).1 0 h0
      omega

/-! ### Cases -/

namespace ExWriteHdf5

def ops : List BOp := [.setEndian '>', .addAttribute "v".toList i4 [], .addDataset "g/a".toList i4 [2], .addAttribute "g/x".toList i4 [], .addAttribute "g/a/u".toList i4 [], .setEndian '>', .addDataset "b".toList ⟨2, '<'⟩ []]
def file : List Byte := [0, 0, 0, 9, 0, 0, 0, 1, 0, 0, 0, 2, 0, 0, 0, 3, 0, 0, 0, 4, 1, 2]

example : ∀ b ∈ (BFile.run true file ops).blocks, 0 ≤ b.offset ∧ b.offset + b.nbytes ≤ file.length := by decide +kernel
example : ∀ b ∈ (BFile.run true file ops).blocks, validEndian b.endian = true ∧ (b.dtype.byteorder = '=' ∨ b.dtype.byteorder = '<') := by decide +kernel
example : Chunkable i4 [2] ∧ Chunkable i4 [] ∧ Chunkable ⟨8, '<'⟩ [100000000, 3] ∧ ¬ Chunkable ⟨8, '<'⟩ [100000, 100000] := by
  simp [Chunkable, i4]

/-- What the file looks like -/
def look (gzip : Int) : Except Err (Option HData × Option HData × Option HData × Option HData × Bool) :=
  match fileHdf5 true file (BFile.run true file ops) gzip with
  | .error e => .error e
  | .ok h => .ok (h5Dataset h ["g".toList, "a".toList], h5Dataset h ["b".toList], h5Attr h ["g".toList] "x".toList, h5Attr h ["g".toList, "a".toList] "u".toList, h5IsGroup h ["g".toList])

example : look 6 = .ok (some ⟨i4, [2], [[1, 0, 0, 0], [2, 0, 0, 0]]⟩, some ⟨⟨2, '<'⟩, [], [[2, 1]]⟩, some ⟨i4, [], [[3, 0, 0, 0]]⟩, some ⟨i4, [], [[4, 0, 0, 0]]⟩, true) := by decide +kernel
example : look 12 = .error .valueError := by decide +kernel
example : (BGroup.getAttr (BFile.run true file ops).root none "v".toList).toOption = some 0 := by decide +kernel
example : (fileHdf5 true [1] (BFile.run true [1] [.addDataset "e".toList i4 [0]]) 6).toOption.isNone = true ∧ (fileHdf5 true [1] (BFile.run true [1] [.addDataset "e".toList i4 [0]]) 0).toOption.isSome = true := by
  decide +kernel

end ExWriteHdf5

end Verif.WriteHdf5
