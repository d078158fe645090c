import Verif.Proofs.FormatsTree
import Verif.Props.FortranRecord
import Verif.Spec.Formats
import Mathlib.Data.List.GetD

set_option linter.unusedSectionVars false

/-! A file written with the layout of a format is read back by the format. -/

namespace Verif

/-! ### Values and bytes -/

/-- The byte order `e` is that of the file. -/
def OrderIs (s : Bool) (e : Char) (big : Bool) : Prop := big = true ↔ (e = '>' ∨ (e = '=' ∧ s = false))

theorem fileValue_store {s : Bool} {e : Char} {big : Bool} (h : OrderIs s e big) (order : Bool) (v : List Byte) : fileValue s e order (storeItem big order v) = v := by
  unfold OrderIs at h
  unfold fileValue storeItem
  by_cases hb : big = true
  · have := h.1 hb
    cases order <;> simp [hb, this]
  · have : ¬(e = '>' ∨ (e = '=' ∧ s = false)) := fun hc => hb (h.2 hc)
    cases order <;> simp [hb, this]

@[simp] theorem length_storeItem (big order : Bool) (v : List Byte) : (storeItem big order v).length = v.length := by
  unfold storeItem; split <;> simp

@[simp] theorem length_leBytes (n x : Nat) : (leBytes n x).length = n := by
  induction n generalizing x with
  | zero => rfl
  | succ n ih => simp [leBytes, ih]

@[simp] theorem length_markerBytes (big : Bool) (x : Nat) : (markerBytes big x).length = 4 := by simp [markerBytes]

theorem leNat_leBytes (n x : Nat) (h : x < 256 ^ n) : leNat (leBytes n x) = x := by
  induction n generalizing x with
  | zero => simp at h; simp [leBytes, leNat, h]
  | succ n ih =>
    have : x / 256 < 256 ^ n := by
      rw [Nat.div_lt_iff_lt_mul (by omega)]
      rw [pow_succ] at h; exact h
    simp only [leBytes, leNat, ih _ this]
    omega

theorem int32_leBytes (x : Nat) (h : x < 2147483648) : int32Value (leBytes 4 x) = x := by
  unfold int32Value
  rw [leNat_leBytes 4 x (by norm_num; omega), if_neg (by omega)]

theorem elementBytes_flatten (l : List (List Byte)) (w : Nat) (h : ∀ v ∈ l, v.length = w) (pre post : List Byte) (i : Nat) (hi : i < l.length) :
    elementBytes (pre ++ l.flatten ++ post) pre.length w i = l[i] := by
  unfold elementBytes
  rw [List.append_assoc, List.drop_append, List.drop_eq_nil_of_le (by omega), List.nil_append, Nat.add_sub_cancel_left]
  induction l generalizing i with
  | nil => simp at hi
  | cons v l ih =>
    have hv := h v (by simp)
    cases i with
    | zero => simp [← hv]
    | succ i =>
      have := ih (fun u hu => h u (by simp [hu])) i (by simpa using hi)
      rw [List.getElem_cons_succ, ← this]
      simp only [List.flatten_cons, List.append_assoc]
      rw [List.drop_append, List.drop_eq_nil_of_le (by rw [hv, Nat.mul_succ]; omega), List.nil_append, hv, Nat.mul_succ, Nat.add_sub_cancel]

theorem size_eq_prod (sh : List Nat) : sh.foldl (fun n s => n * s) 1 = sh.prod := by
  rw [List.prod_eq_foldl]

theorem length_rowBytes {C : Content} {r : Row} (h : r.Fits C) (big : Bool) : (r.bytes big C).length = r.width * r.shape.prod := by
  obtain ⟨h1, h2⟩ := h
  rw [← h1]
  unfold Row.bytes
  generalize C r.name = l at h2
  induction l with
  | nil => simp
  | cons v l ih => simp [ih (fun u hu => h2 u (by simp [hu])), h2 v (by simp), Nat.mul_succ]; omega

/-- The block describes the row, and the row is in the file at its place. -/
def Holds (file : List Byte) (big : Bool) (C : Content) (r : Row) (b : Block) : Prop :=
  b.dtype = ⟨r.width, if r.order then '=' else '|'⟩ ∧ b.shape = r.shape ∧ 0 ≤ b.offset ∧
  ∃ pre post, file = pre ++ r.bytes big C ++ post ∧ pre.length = b.offset.toNat

theorem readAll_holds {s : Bool} {file : List Byte} {big : Bool} {C : Content} {r : Row} {b : Block} (h : Holds file big C r b) (hr : r.Fits C) (hf : file ≠ [])
    (he : validEndian b.endian = true) (ho : OrderIs s b.endian big) : b.readAll s file = .ok (C r.name) := by
  obtain ⟨hd, hs, h0, pre, post, hfile, hpre⟩ := h
  have hsz : b.size = r.shape.prod := by rw [Block.size, hs, size_eq_prod]
  have hnb : b.nbytes = r.width * r.shape.prod := by rw [Block.nbytes, hsz, hd]
  have hlen := length_rowBytes hr big
  have hfl : file.length = pre.length + r.width * r.shape.prod + post.length := by rw [hfile]; simp [hlen]; omega
  unfold Block.readAll
  have hval : b.dtype.Valid := by rw [hd]; unfold DType.Valid; cases r.order <;> simp
  rw [C47_read s file b _ hval he hf h0 (by rw [hnb, hfl]; push_cast; omega) (by intro i hi; exact List.mem_range.1 hi)]
  have hord : (b.dtype.byteorder != '|') = r.order := by rw [hd]; cases r.order <;> rfl
  rw [hord, hsz, ← hr.1]
  congr 1
  apply List.ext_getElem
  · simp
  · intro i h1 h2
    simp only [List.getElem_map, List.getElem_range]
    have := elementBytes_flatten ((C r.name).map (storeItem big r.order)) r.width (by
      intro v hv; obtain ⟨u, hu, rfl⟩ := List.mem_map.1 hv; simp [hr.2 u hu]) pre post i (by simpa using h2)
    have hb : r.bytes big C = ((C r.name).map (storeItem big r.order)).flatten := by simp [Row.bytes, List.flatMap]
    rw [hfile, hb, ← hpre, hd]
    simp only
    rw [this, List.getElem_map, fileValue_store ho]

/-! ### Values of expressions -/

def FExpr.value (C : Content) : FExpr → Int
  | .const n => n
  | .item name => scalarInt C name
  | .attrItem group name i => leNat ((C (group ++ '/' :: name)).getD i [])
  | .span first last => scalarInt C last - scalarInt C first + 1
  | .ifZero name a b => if scalarInt C name = 0 then a else b
  | .attrInt64 group name => int64Value ((C (group ++ '/' :: name)).headD [])
  | .ifAttrGe group name k a b => if scalarInt C (group ++ '/' :: name) ≥ k then b else a

def BField.group (fld : BField) : Option (Name × Name) := if fld.attr then (match splitPath fld.name with | (some g, a) => some (g, a) | _ => none) else none

def BField.row (C : Content) (fld : BField) : Row := ⟨fld.name, (fld.size.value C).toNat, fld.dims.map (fun e => (e.value C).toNat), fld.order, fld.group⟩

/-- The values of the field have the right number and size, which are not negative. -/
def BField.Ok (C : Content) (fld : BField) : Prop := 0 ≤ fld.size.value C ∧ (∀ e ∈ fld.dims, 0 ≤ e.value C) ∧ (fld.row C).Fits C

/-- The expression only uses fields given before. -/
def FExpr.scoped (before : List BField) : FExpr → Bool
  | .const _ => true
  | .item name => before.any (fun f => !f.attr && f.name == name)
  | .attrItem group name i => splitPath (group ++ '/' :: name) == (some group, name) && splitPath group == (none, group) &&
      before.any (fun f => f.attr && f.name == group ++ '/' :: name && (match f.dims with | [.const k] => decide (i < k) | [] => decide (i < 1) | _ => false))
  | .span first last => before.any (fun f => !f.attr && f.name == first) && before.any (fun f => !f.attr && f.name == last)
  | .ifZero name _ _ => before.any (fun f => !f.attr && f.name == name)
  | .attrInt64 group name => splitPath (group ++ '/' :: name) == (some group, name) && splitPath group == (none, group) && before.any (fun f => f.attr && f.name == group ++ '/' :: name)
  | .ifAttrGe group name _ _ _ => splitPath (group ++ '/' :: name) == (some group, name) && splitPath group == (none, group) && before.any (fun f => f.attr && f.name == group ++ '/' :: name)

def BField.compat (a b : BField) : Bool :=
  (a.attr || !decide (comps a.name <+: comps b.name)) && (b.attr || !decide (comps b.name <+: comps a.name)) && (!a.attr || !b.attr || a.name != b.name)

/-- Attributes belong to groups at the top level. -/
def BField.nameOk (f : BField) : Bool := !f.attr || (match splitPath f.name with
  | (some g, a) => splitPath a == (none, a) && splitPath g == (none, g) && f.name == g ++ '/' :: a
  | _ => false)

def fieldsScoped (grow : Bool) (before : List BField) : List BField → Bool
  | [] => true
  | f :: rest => f.size.scoped before && f.dims.all (FExpr.scoped before) && fieldsScoped grow (if grow then before ++ [f] else before) rest

/-! ### The state -/

def ChainTo : Int → List Block → Int → Prop
  | o, [], e => o = e
  | o, b :: bs, e => b.offset = o ∧ ChainTo (o + b.nbytes) bs e

theorem ChainTo.snoc {o e : Int} {bs : List Block} (h : ChainTo o bs e) {b : Block} (hb : b.offset = e) : ChainTo o (bs ++ [b]) (e + b.nbytes) := by
  induction bs generalizing o with
  | nil => cases h; exact ⟨hb, rfl⟩
  | cons c bs ih => exact ⟨h.1, ih h.2⟩

theorem ChainTo.endian {o e : Int} {bs : List Block} (h : ChainTo o bs e) (c : Char) : ChainTo o (bs.map (fun b => { b with endian := c })) e := by
  induction bs generalizing o with
  | nil => exact h
  | cons b bs ih => exact ⟨h.1, ih h.2⟩

/-- The state after the fields of `S` have been declared. If `t` is set, nothing has been skipped. -/
structure Inv (t : Bool) (file : List Byte) (big : Bool) (C : Content) (S : List (BField × Nat)) (f : BFile) : Prop where
  endian : validEndian f.endian = true
  blocksEndian : ∀ b ∈ f.blocks, b.endian = f.endian
  data : ∀ cs id, kindAt f.root cs = some (some id) ↔ ∃ e ∈ S, e.1.attr = false ∧ comps e.1.name = cs ∧ e.2 = id
  groups : ∀ cs, kindAt f.root cs = some none → ∃ e ∈ S, cs <+: comps e.1.name ∧ cs ≠ comps e.1.name
  top : ∀ n x, dget f.root.datasets n = some x → ∃ e ∈ S, e.1.attr = false ∧ comps e.1.name = [n]
  attrs : ∀ e ∈ S, e.1.attr = true → ∀ g a, splitPath e.1.name = (some g, a) → attrAt f.root g a = some e.2
  attrs' : ∀ g a id, attrAt f.root g a = some id → ∃ e ∈ S, e.1.attr = true ∧ e.1.name = g ++ '/' :: a
  holds : ∀ e ∈ S, e.1.Ok C ∧ ∃ b, f.blocks[e.2]? = some b ∧ Holds file big C (e.1.row C) b
  chain : t = true → ChainTo 0 f.blocks f.offset
  offset : 0 ≤ f.offset

theorem inv_new (t : Bool) (file : List Byte) (big : Bool) (C : Content) : Inv t file big C [] .new where
  endian := rfl
  blocksEndian := by simp [BFile.new]
  data := by intro cs id; simp [BFile.new, kindAt_empty]
  groups := by intro cs h; simp [BFile.new, kindAt_empty] at h
  top := by intro n x h; simp [BFile.new, BGroup.empty, BGroup.datasets, dget] at h
  attrs := by simp
  attrs' := by intro g a id h; simp [BFile.new, attrAt, BGroup.empty, BGroup.groups, dget] at h
  holds := by simp
  chain := fun _ => rfl
  offset := by simp [BFile.new]

section
variable {t : Bool} {file : List Byte} {big : Bool} {C : Content} {S : List (BField × Nat)} {f : BFile} {s : Bool}

theorem Inv.dataset (h : Inv t file big C S f) (hf : file ≠ []) (ho : OrderIs s f.endian big) {e : BField × Nat} (he : e ∈ S) (ha : e.1.attr = false) :
    f.dataset s file e.1.name = .ok (C e.1.name) := by
  obtain ⟨hok, b, hb, hh⟩ := h.holds e he
  have hk := (h.data (comps e.1.name) e.2).2 ⟨e, he, ha, rfl, rfl⟩
  obtain ⟨g1, -⟩ := getItem_kind (e.1.name.length + 1) f.root e.1.name (by omega)
  rw [hk] at g1
  have hbe := h.blocksEndian b (List.mem_of_getElem? hb)
  have hr := readAll_holds hh hok.2.2 hf (by rw [hbe]; exact h.endian) (by rw [hbe]; exact ho)
  unfold BFile.dataset
  rcases hq : BGroup.getItem (e.1.name.length + 1) f.root e.1.name with er | ⟨i, a⟩ | g
  · rw [hq] at g1; simp [Except.toOption] at g1
  · rw [hq] at g1
    simp only [Except.toOption, Option.map_some, BNode.kind, Option.some.injEq] at g1
    subst g1
    simp only [hb]
    exact hr
  · rw [hq] at g1; simp [Except.toOption, BNode.kind] at g1

theorem Inv.attribute (h : Inv t file big C S f) (hf : file ≠ []) (ho : OrderIs s f.endian big) {e : BField × Nat} (he : e ∈ S) (ha : e.1.attr = true) {g a : Name}
    (hs : splitPath e.1.name = (some g, a)) (hg : splitPath g = (none, g)) : f.attribute s file g a = .ok (C e.1.name) := by
  obtain ⟨hok, b, hb, hh⟩ := h.holds e he
  obtain ⟨k, hk1, hk2⟩ := attrAt_getItem f.root g a e.2 g.length hg (h.attrs e he ha g a hs)
  have hbe := h.blocksEndian b (List.mem_of_getElem? hb)
  have hr := readAll_holds hh hok.2.2 hf (by rw [hbe]; exact h.endian) (by rw [hbe]; exact ho)
  unfold BFile.attribute
  simp only [hk1, hk2, hb]
  exact hr

theorem Inv.int (h : Inv t file big C S f) (hf : file ≠ []) (ho : OrderIs s f.endian big) {before : List BField} (hb : ∀ g ∈ before, g ∈ S.map Prod.fst) {name : Name}
    (hn : before.any (fun f => !f.attr && f.name == name) = true) : f.int s file name = .ok (scalarInt C name) := by
  obtain ⟨g, hg, hg2⟩ := List.any_eq_true.1 hn
  obtain ⟨e, he, rfl⟩ := List.mem_map.1 (hb g hg)
  simp only [Bool.and_eq_true, Bool.not_eq_true', beq_iff_eq] at hg2
  have := h.dataset hf ho he hg2.1
  rw [hg2.2] at this
  simp only [BFile.int, this, scalarInt]

theorem Inv.attrOf (h : Inv t file big C S f) (hf : file ≠ []) (ho : OrderIs s f.endian big) {before : List BField} (hb : ∀ g ∈ before, g ∈ S.map Prod.fst) {group name : Name}
    (hx : (splitPath (group ++ '/' :: name) == (some group, name) && splitPath group == (none, group) && before.any (fun f => f.attr && f.name == group ++ '/' :: name)) = true) :
    f.attribute s file group name = .ok (C (group ++ '/' :: name)) := by
  simp only [Bool.and_eq_true, beq_iff_eq] at hx
  obtain ⟨⟨h1, h2⟩, h3⟩ := hx
  obtain ⟨g, hg, hg2⟩ := List.any_eq_true.1 h3
  obtain ⟨e, he, rfl⟩ := List.mem_map.1 (hb g hg)
  simp only [Bool.and_eq_true, beq_iff_eq] at hg2
  have hat := h.attribute hf ho he hg2.1 (by rw [hg2.2]; exact h1) h2
  rw [hg2.2] at hat
  exact hat

theorem Inv.eval (h : Inv t file big C S f) (hf : file ≠ []) {before : List BField} (hb : ∀ g ∈ before, g ∈ S.map Prod.fst) (ho : before ≠ [] → OrderIs s f.endian big) (x : FExpr)
    (hx : x.scoped before = true) : x.eval s file f = .ok (x.value C) := by
  by_cases hnil : before = []
  · subst hnil
    cases x <;> simp [FExpr.scoped] at hx
    rfl
  · have ho := ho hnil
    cases x with
    | const n => rfl
    | item name => exact h.int hf ho hb hx
    | attrItem group name i =>
      simp only [FExpr.scoped, Bool.and_eq_true, beq_iff_eq] at hx
      obtain ⟨⟨h1, h2⟩, h3⟩ := hx
      obtain ⟨g, hg, hg2⟩ := List.any_eq_true.1 h3
      obtain ⟨e, he, rfl⟩ := List.mem_map.1 (hb g hg)
      simp only [Bool.and_eq_true, beq_iff_eq] at hg2
      obtain ⟨⟨ha, hn⟩, hd⟩ := hg2
      have hat := h.attribute hf ho he ha (by rw [hn]; exact h1) h2
      have hfit := (h.holds e he).1.2.2.1
      rw [hn] at hat
      simp only [BField.row, hn] at hfit
      split at hd
      · rename_i k hk
        have hik : i < k := by simpa using hd
        rw [hk] at hfit
        have hi : i < (C (group ++ '/' :: name)).length := by rw [hfit]; simpa [FExpr.value] using hik
        simp only [FExpr.eval, hat, FExpr.value, List.getElem?_eq_getElem hi, List.getD_eq_getElem _ _ hi]
      · rename_i hk
        have hik : i < 1 := by simpa using hd
        rw [hk] at hfit
        have hi : i < (C (group ++ '/' :: name)).length := by rw [hfit]; simpa using hik
        simp only [FExpr.eval, hat, FExpr.value, List.getElem?_eq_getElem hi, List.getD_eq_getElem _ _ hi]
      · cases hd
    | span a b =>
      simp only [FExpr.scoped, Bool.and_eq_true] at hx
      simp only [FExpr.eval, h.int hf ho hb hx.1, h.int hf ho hb hx.2, FExpr.value]
    | ifZero name a b =>
      simp only [FExpr.eval, h.int hf ho hb hx, FExpr.value]
    | attrInt64 group name => simp only [FExpr.eval, h.attrOf hf ho hb hx, FExpr.value]
    | ifAttrGe group name k a b =>
      simp only [FExpr.eval, h.attrOf hf ho hb hx, FExpr.value]
      rfl

theorem Inv.evalNat (h : Inv t file big C S f) (hf : file ≠ []) {before : List BField} (hb : ∀ g ∈ before, g ∈ S.map Prod.fst) (ho : before ≠ [] → OrderIs s f.endian big) (x : FExpr)
    (hx : x.scoped before = true) (h0 : 0 ≤ x.value C) : x.evalNat s file f = .ok (x.value C).toNat := by
  simp only [FExpr.evalNat, h.eval hf hb ho x hx, if_neg (not_lt.2 h0)]

theorem Inv.evalDims (h : Inv t file big C S f) (hf : file ≠ []) {before : List BField} (hb : ∀ g ∈ before, g ∈ S.map Prod.fst) (ho : before ≠ [] → OrderIs s f.endian big) (l : List FExpr)
    (hx : l.all (FExpr.scoped before) = true) (h0 : ∀ x ∈ l, 0 ≤ x.value C) : Verif.evalDims s file f l = .ok (l.map (fun x => (x.value C).toNat)) := by
  induction l with
  | nil => rfl
  | cons x l ih =>
    simp only [List.all_cons, Bool.and_eq_true] at hx
    simp only [Verif.evalDims, h.evalNat hf hb ho x hx.1 (h0 x (by simp)), ih hx.2 (fun y hy => h0 y (by simp [hy])), List.map_cons]

/-! ### Steps -/

theorem compat_symm {a b : BField} (h : a.compat b = true) : b.compat a = true := by
  simp only [BField.compat, Bool.and_eq_true, Bool.or_eq_true, Bool.not_eq_true', decide_eq_false_iff_not, bne_iff_ne] at h ⊢
  tauto

theorem Inv.append (h : Inv t file big C S f) (b : Block) (hb : b.endian = f.endian) (ho : b.offset = f.offset) (rec : Option (List Byte × Int × Bool)) :
    Inv t file big C S { f with offset := f.offset + b.nbytes, blocks := f.blocks ++ [b], record := rec } where
  endian := h.endian
  blocksEndian := by intro c hc; rcases List.mem_append.1 hc with hc | hc; exact h.blocksEndian c hc; simp at hc; rw [hc]; exact hb
  data := h.data
  groups := h.groups
  top := h.top
  attrs := h.attrs
  attrs' := h.attrs'
  holds := by
    intro e he
    obtain ⟨h1, c, hc, h2⟩ := h.holds e he
    exact ⟨h1, c, by simp only; rw [List.getElem?_append_left (List.getElem?_eq_some_iff.1 hc).1]; exact hc, h2⟩
  chain := fun ht => (h.chain ht).snoc ho
  offset := by have := h.offset; simp only; omega

theorem Inv.swap (h : Inv t file big C S f) {c : Char} (hc : validEndian c = true) (rec : Option (List Byte × Int × Bool)) :
    Inv t file big C S { f with endian := c, blocks := f.blocks.map (fun b => { b with endian := c }), record := rec } where
  endian := hc
  blocksEndian := by intro b hb; obtain ⟨d, -, rfl⟩ := List.mem_map.1 hb; rfl
  data := h.data
  groups := h.groups
  top := h.top
  attrs := h.attrs
  attrs' := h.attrs'
  holds := by
    intro e he
    obtain ⟨h1, b, hb, h2⟩ := h.holds e he
    exact ⟨h1, { b with endian := c }, by simp [hb], h2⟩
  chain := fun ht => (h.chain ht).endian c
  offset := h.offset

theorem Inv.field (h : Inv t file big C S f) (fld : BField) (hn : fld.nameOk = true) (hc : ∀ e ∈ S, e.1.compat fld = true) (hok : fld.Ok C)
    {pre post : List Byte} (hfile : file = pre ++ (fld.row C).bytes big C ++ post) (hpre : (pre.length : Int) = f.offset) :
    ∃ f', f.addBlock fld.name ⟨(fld.row C).width, if fld.order then '=' else '|'⟩ (fld.row C).shape fld.attr = (f', none) ∧
      Inv t file big C (S ++ [(fld, f.blocks.length)]) f' ∧ f'.offset = f.offset + ((fld.row C).bytes big C).length ∧ f'.endian = f.endian ∧ f'.record = f.record := by
  have hc' : ∀ e ∈ S, (e.1.attr = true ∨ ¬ comps e.1.name <+: comps fld.name) ∧ (fld.attr = true ∨ ¬ comps fld.name <+: comps e.1.name) ∧ (e.1.attr = false ∨ fld.attr = false ∨ e.1.name ≠ fld.name) := by
    intro e he
    have := hc e he
    simp only [BField.compat, Bool.and_eq_true, Bool.or_eq_true, Bool.not_eq_true', decide_eq_false_iff_not, bne_iff_ne] at this
    tauto
  have hlen := length_rowBytes hok.2.2 big
  -- the new tree
  have tree : ∃ g', BGroup.addBlock fld.attr f.blocks.length (fld.name.length + 1) f.root fld.name = .ok (g', true) ∧
      (∀ cs id, kindAt g' cs = some (some id) ↔ ∃ e ∈ S ++ [(fld, f.blocks.length)], e.1.attr = false ∧ comps e.1.name = cs ∧ e.2 = id) ∧
      (∀ cs, kindAt g' cs = some none → ∃ e ∈ S ++ [(fld, f.blocks.length)], cs <+: comps e.1.name ∧ cs ≠ comps e.1.name) ∧
      (∀ n x, dget g'.datasets n = some x → ∃ e ∈ S ++ [(fld, f.blocks.length)], e.1.attr = false ∧ comps e.1.name = [n]) ∧
      (∀ e ∈ S ++ [(fld, f.blocks.length)], e.1.attr = true → ∀ g a, splitPath e.1.name = (some g, a) → attrAt g' g a = some e.2) ∧
      (∀ g a id, attrAt g' g a = some id → ∃ e ∈ S ++ [(fld, f.blocks.length)], e.1.attr = true ∧ e.1.name = g ++ '/' :: a) := by
    cases hattr : fld.attr with
    | false =>
      have hk : kindAt f.root (comps fld.name) = none := by
        rcases hq : kindAt f.root (comps fld.name) with _ | _ | id
        · rfl
        · obtain ⟨e, he, h1, h2⟩ := h.groups _ hq
          have := (hc' e he).2.1
          simp [hattr] at this
          exact absurd h1 this
        · obtain ⟨e, he, h1, h2, -⟩ := (h.data _ _).1 hq
          have := (hc' e he).2.1
          rw [h2] at this
          simp [hattr] at this
      have hp : ∀ cs k, cs <+: comps fld.name → kindAt f.root cs ≠ some (some k) := by
        intro cs k hcs hq
        obtain ⟨e, he, h1, h2, -⟩ := (h.data _ _).1 hq
        have := (hc' e he).1
        rw [h2, h1] at this
        simp at this
        exact this hcs
      obtain ⟨⟨g', fl⟩, hg⟩ := (addBlock_dataset_ok f.blocks.length (fld.name.length + 1) f.root fld.name (by omega)).1.2 ⟨hk, hp⟩
      have hfl := addBlock_dataset_flag _ _ _ _ _ _ hg
      subst hfl
      have hkind := addBlock_dataset _ _ _ _ _ _ hg
      obtain ⟨-, hat⟩ := addBlock_data_attrs _ _ _ _ _ _ hg
      refine ⟨g', hg, ?_, ?_, ?_, ?_, ?_⟩
      · intro cs id
        rw [hkind]
        constructor
        · intro hq
          by_cases h1 : cs = comps fld.name
          · rw [if_pos h1] at hq
            simp at hq
            exact ⟨(fld, f.blocks.length), by simp, hattr, h1.symm, hq⟩
          · rw [if_neg h1] at hq
            by_cases h2 : cs ≠ [] ∧ cs <+: comps fld.name
            · rw [if_pos h2] at hq; simp at hq
            rw [if_neg h2] at hq
            obtain ⟨e, he, h3⟩ := (h.data _ _).1 hq
            exact ⟨e, by simp [he], h3⟩
        · rintro ⟨e, he, h1, h2, h3⟩
          rcases List.mem_append.1 he with he | he
          · have hq := (h.data cs id).2 ⟨e, he, h1, h2, h3⟩
            rw [if_neg (by rintro rfl; rw [hk] at hq; cases hq), if_neg (by rintro ⟨-, hc⟩; exact hp cs id hc hq)]
            exact hq
          · simp at he
            subst he
            rw [if_pos h2.symm]
            simpa using h3
      · intro cs hq
        rw [hkind] at hq
        by_cases h1 : cs = comps fld.name
        · rw [if_pos h1] at hq; simp at hq
        rw [if_neg h1] at hq
        by_cases h2 : cs ≠ [] ∧ cs <+: comps fld.name
        · exact ⟨(fld, f.blocks.length), by simp, h2.2, h1⟩
        · rw [if_neg h2] at hq
          obtain ⟨e, he, h3⟩ := h.groups cs hq
          exact ⟨e, by simp [he], h3⟩
      · intro n x hx
        rcases addBlock_data_top _ _ _ _ _ _ hg n x hx with h1 | ⟨y, hy⟩
        · exact ⟨(fld, f.blocks.length), by simp, hattr, h1⟩
        · obtain ⟨e, he, h3⟩ := h.top n y hy
          exact ⟨e, by simp [he], h3⟩
      · intro e he ha g a hs
        rw [hat]
        rcases List.mem_append.1 he with he | he
        · exact h.attrs e he ha g a hs
        · simp at he; subst he; rw [hattr] at ha; cases ha
      · intro g a id hq
        rw [hat] at hq
        obtain ⟨e, he, h3⟩ := h.attrs' g a id hq
        exact ⟨e, by simp [he], h3⟩
    | true =>
      simp only [BField.nameOk, hattr, Bool.not_true, Bool.false_or] at hn
      rcases hsp : splitPath fld.name with ⟨_ | grp, at'⟩
      · rw [hsp] at hn; simp at hn
      rw [hsp] at hn
      simp only [Bool.and_eq_true, beq_iff_eq] at hn
      obtain ⟨⟨hsa, -⟩, hname⟩ := hn
      have hcomp : comps fld.name = [grp, at'] := by rw [(splitPath_some hsp).1, splitPath_none hsa]
      have hd : dget f.root.datasets grp = none := by
        rcases hq : dget f.root.datasets grp with _ | x
        · rfl
        · obtain ⟨e, he, h1, h2⟩ := h.top grp x hq
          have := (hc' e he).1
          rw [h2, h1, hcomp] at this
          simp at this
      have ha0 : attrAt f.root grp at' = none := by
        rcases hq : attrAt f.root grp at' with _ | x
        · rfl
        · obtain ⟨e, he, h1, h2⟩ := h.attrs' grp at' x hq
          have := (hc' e he).2.2
          rw [h1, hattr, h2, hname] at this
          simp at this
      obtain ⟨k, hk⟩ : ∃ k, fld.name.length + 1 = k + 2 := ⟨fld.name.length - 1, by
        have : 1 ≤ fld.name.length := by rw [hname]; simp; omega
        omega⟩
      obtain ⟨g', hg, hgd, hga⟩ := addBlock_attr_group f.blocks.length k f.root fld.name grp at' hsp hsa hd ha0
      rw [← hk] at hg
      have hkind := addBlock_attr _ _ _ _ _ _ hg
      refine ⟨g', hg, ?_, ?_, ?_, ?_, ?_⟩
      · intro cs id
        have : kindAt g' cs = some (some id) ↔ kindAt f.root cs = some (some id) := by
          rcases hkind cs with h1 | ⟨h1, h2, -⟩
          · rw [h1]
          · rw [h1, h2]; simp
        rw [this, h.data]
        constructor
        · rintro ⟨e, he, h3⟩; exact ⟨e, by simp [he], h3⟩
        · rintro ⟨e, he, h3⟩
          rcases List.mem_append.1 he with he | he
          · exact ⟨e, he, h3⟩
          · simp at he; subst he; rw [hattr] at h3; simp at h3
      · intro cs hq
        rcases hkind cs with h1 | ⟨h1, h2, h3, h4⟩
        · rw [h1] at hq
          obtain ⟨e, he, h3⟩ := h.groups cs hq
          exact ⟨e, by simp [he], h3⟩
        · exact ⟨(fld, f.blocks.length), by simp, h3, h4⟩
      · intro n x hx
        rw [hgd] at hx
        obtain ⟨e, he, h3⟩ := h.top n x hx
        exact ⟨e, by simp [he], h3⟩
      · intro e he ha g a hs
        rw [hga]
        rcases List.mem_append.1 he with he | he
        · have h1 := h.attrs e he ha g a hs
          rw [if_neg (by rintro ⟨rfl, rfl⟩; rw [ha0] at h1; cases h1)]
          exact h1
        · simp at he
          subst he
          simp only at hs
          rw [hsp] at hs
          simp only [Prod.mk.injEq, Option.some.injEq] at hs
          rw [if_pos ⟨hs.1.symm, hs.2.symm⟩]
      · intro g a id hq
        rw [hga] at hq
        split_ifs at hq with h1
        · obtain ⟨rfl, rfl⟩ := h1
          exact ⟨(fld, f.blocks.length), by simp, hattr, hname⟩
        · obtain ⟨e, he, h3⟩ := h.attrs' g a id hq
          exact ⟨e, by simp [he], h3⟩
  obtain ⟨g', hg, t1, t2, t3, t4, t5⟩ := tree
  let b : Block := ⟨⟨(fld.row C).width, if fld.order then '=' else '|'⟩, f.offset, (fld.row C).shape, f.endian⟩
  have hnb : b.nbytes = ((fld.row C).bytes big C).length := by rw [hlen, Block.nbytes, Block.size, size_eq_prod]
  refine ⟨{ f with root := g', offset := f.offset + b.nbytes, blocks := f.blocks ++ [b] }, ?_, ?_, ?_, rfl, rfl⟩
  · simp only [BFile.addBlock, h.endian, Bool.not_true, Bool.false_eq_true, if_false, hg, if_true]
    rfl
  · have hap := h.append b rfl rfl f.record
    refine ⟨hap.endian, hap.blocksEndian, t1, t2, t3, t4, t5, ?_, hap.chain, hap.offset⟩
    intro e he
    rcases List.mem_append.1 he with he | he
    · exact hap.holds e he
    · simp at he
      subst he
      refine ⟨hok, b, by simp, ?_⟩
      exact ⟨rfl, rfl, h.offset, pre, post, hfile, by change pre.length = f.offset.toNat; omega⟩
  · simp only [hnb]

theorem Inv.fields (h : Inv t file big C S f) (hf : file ≠ []) (grow : Bool) (before : List BField) (fs : List BField) (hb : ∀ g ∈ before, g ∈ S.map Prod.fst)
    (ho : (grow = true ∨ before ≠ []) → OrderIs s f.endian big) (hsc : fieldsScoped grow before fs = true) (hn : ∀ fld ∈ fs, fld.nameOk = true)
    (hc : (S.map Prod.fst ++ fs).Pairwise (fun a b => a.compat b = true)) (hok : ∀ fld ∈ fs, fld.Ok C)
    {pre post : List Byte} (hfile : file = pre ++ fs.flatMap (fun fld => (fld.row C).bytes big C) ++ post) (hpre : (pre.length : Int) = f.offset) :
    ∃ f' S', addFields s file f fs = .ok f' ∧ Inv t file big C S' f' ∧ S'.map Prod.fst = S.map Prod.fst ++ fs ∧
      f'.offset = f.offset + (fs.flatMap (fun fld => (fld.row C).bytes big C)).length ∧ f'.endian = f.endian ∧ f'.record = f.record := by
  induction fs generalizing f S before pre with
  | nil => exact ⟨f, S, rfl, h, by simp, by simp, rfl, rfl⟩
  | cons fld fs ih =>
    simp only [fieldsScoped, Bool.and_eq_true] at hsc
    obtain ⟨⟨s1, s2⟩, s3⟩ := hsc
    have ok := hok fld (by simp)
    have hcf : ∀ e ∈ S, e.1.compat fld = true := by
      intro e he
      exact (List.pairwise_append.1 hc).2.2 e.1 (List.mem_map_of_mem he) fld (by simp)
    obtain ⟨f1, a1, a2, a3, a4, a5⟩ := h.field fld (hn fld (by simp)) hcf ok (pre := pre) (post := fs.flatMap (fun fld => (fld.row C).bytes big C) ++ post)
      (by rw [hfile]; simp) hpre
    have hadd : addField s file f fld = .ok f1 := by
      simp only [addField, h.evalNat hf hb (fun hne => ho (Or.inr hne)) fld.size s1 ok.1, h.evalDims hf hb (fun hne => ho (Or.inr hne)) fld.dims s2 ok.2.1]
      have : f.addBlock fld.name ⟨(fld.size.value C).toNat, if fld.order then '=' else '|'⟩ (fld.dims.map (fun x => (x.value C).toNat)) fld.attr = (f1, none) := a1
      rw [this]
    obtain ⟨f2, S2, b1, b2, b3, b4, b5, b6⟩ := ih a2 (if grow then before ++ [fld] else before)
      (by
        intro g hg
        simp only [List.map_append, List.map_cons, List.map_nil, List.mem_append, List.mem_singleton]
        cases grow
        · exact Or.inl (hb g (by simpa using hg))
        · rcases List.mem_append.1 (by simpa using hg : g ∈ before ++ [fld]) with hg | hg
          · exact Or.inl (hb g hg)
          · exact Or.inr (by simpa using hg))
      (by
        intro hh
        rw [a4]
        apply ho
        cases grow
        · simpa using hh
        · exact Or.inl rfl) s3 (fun g hg => hn g (by simp [hg])) (by simpa using hc) (fun g hg => hok g (by simp [hg]))
      (pre := pre ++ (fld.row C).bytes big C) (by rw [hfile]; simp) (by rw [a3]; push_cast [List.length_append]; omega)
    refine ⟨f2, S2, ?_, b2, by rw [b3]; simp, ?_, b5.trans a4, b6.trans a5⟩
    · simp only [addFields, hadd]; exact b1
    · rw [b4, a3]; simp; omega


/-! ### Records -/

theorem slice_marker {pre post : List Byte} {n : Nat} : slice (pre ++ markerBytes big n ++ post) pre.length 4 = markerBytes big n := by
  simp [slice, List.append_assoc, List.drop_append]

theorem Inv.marker (h : Inv t file big C S f) {pre post : List Byte} {n : Nat} (hfile : file = pre ++ markerBytes big n ++ post) (hpre : (pre.length : Int) = f.offset) :
    f.readAndSkip s file int32Type [] = ({ f with offset := f.offset + 4, blocks := f.blocks ++ [⟨int32Type, f.offset, [], f.endian⟩] }, .ok [fileValue s f.endian true (markerBytes big n)]) := by
  rw [readAndSkip_marker s file f h.endian h.offset (by rw [hfile]; simp; omega)]
  have : f.offset.toNat = pre.length := by omega
  rw [this, hfile, slice_marker]

theorem Inv.start (h : Inv t file big C S f) (hr : f.record = none) (auto : Bool) {pre post : List Byte} {n : Nat} (hfile : file = pre ++ markerBytes big n ++ post) (hpre : (pre.length : Int) = f.offset) :
    ∃ f', f.startRecord s file auto = (f', none) ∧ Inv t file big C S f' ∧ f'.offset = f.offset + 4 ∧ f'.endian = f.endian ∧
      f'.record = some (fileValue s f.endian true (markerBytes big n), f.offset + 4, auto) := by
  refine ⟨_, ?_, h.append ⟨int32Type, f.offset, [], f.endian⟩ rfl rfl (some (fileValue s f.endian true (markerBytes big n), f.offset + 4, auto)), ?_, ?_, ?_⟩
  · simp only [BFile.startRecord, hr, h.marker hfile hpre, List.headD_cons]
    rfl
  · rfl
  · rfl
  · rfl

theorem Inv.record (h : Inv t file big C S f) (hf : file ≠ []) (hr : f.record = none) (ho : OrderIs s f.endian big) (before : List BField) (fs : List BField) (hb : ∀ g ∈ before, g ∈ S.map Prod.fst)
    (hsc : fieldsScoped true before fs = true) (hn : ∀ fld ∈ fs, fld.nameOk = true)
    (hc : (S.map Prod.fst ++ fs).Pairwise (fun a b => a.compat b = true)) (hok : ∀ fld ∈ fs, fld.Ok C) {n : Nat}
    (hlen : (fs.flatMap (fun fld => (fld.row C).bytes big C)).length = n) (hlt : n < 2147483648)
    {pre post : List Byte} (hfile : file = pre ++ (markerBytes big n ++ fs.flatMap (fun fld => (fld.row C).bytes big C) ++ markerBytes big n) ++ post) (hpre : (pre.length : Int) = f.offset) :
    ∃ f' S', addRecord s file f false fs = .ok f' ∧ Inv t file big C S' f' ∧ S'.map Prod.fst = S.map Prod.fst ++ fs ∧
      f'.offset = f.offset + n + 8 ∧ f'.endian = f.endian ∧ f'.record = none := by
  obtain ⟨f1, a1, a2, a3, a4, a5⟩ := h.start (s := s) hr false (pre := pre) (n := n) (post := fs.flatMap (fun fld => (fld.row C).bytes big C) ++ markerBytes big n ++ post) (by rw [hfile]; simp) hpre
  obtain ⟨f2, S2, b1, b2, b3, b4, b5, b6⟩ := a2.fields (s := s) hf true before fs hb (fun _ => by rw [a4]; exact ho) hsc hn hc hok
    (pre := pre ++ markerBytes big n) (post := markerBytes big n ++ post) (by rw [hfile]; simp) (by rw [a3]; simp; omega)
  rw [hlen] at b4
  have hm := b2.marker (s := s) (n := n) (pre := pre ++ markerBytes big n ++ fs.flatMap (fun fld => (fld.row C).bytes big C)) (post := post) (by rw [hfile]; simp) (by rw [b4, a3]; simp [hlen]; omega)
  have hv : ∀ e, e = f.endian → int32Value (fileValue s e true (markerBytes big n)) = n := by
    rintro e rfl
    rw [markerBytes, fileValue_store ho, int32_leBytes n hlt]
  refine ⟨_, S2, ?_, b2.append ⟨int32Type, f2.offset, [], f2.endian⟩ rfl rfl none, b3, ?_, b5.trans a4, rfl⟩
  · have hr2 : f2.record = some (fileValue s f.endian true (markerBytes big n), f.offset + 4, false) := b6.trans a5
    have hend : f2.endRecord s file = ({ f2 with offset := f2.offset + 4, blocks := f2.blocks ++ [⟨int32Type, f2.offset, [], f2.endian⟩], record := none }, none) := by
      simp only [BFile.endRecord, hr2, hm, List.headD_cons]
      rw [hv _ rfl, hv _ (b5.trans a4)]
      have : f2.offset - (f.offset + 4) = n := by rw [b4, a3]; omega
      simp [this]
    simp only [addRecord, a1, b1, hend]
    rfl
  · change f2.offset + 4 = _
    rw [b4, a3]; omega

theorem Inv.recordAuto (h : Inv t file big C S f) (hf : file ≠ []) (hr : f.record = none) (hnat : f.endian = '=') (fs : List BField)
    (hsc : fieldsScoped false [] fs = true) (hn : ∀ fld ∈ fs, fld.nameOk = true)
    (hc : (S.map Prod.fst ++ fs).Pairwise (fun a b => a.compat b = true)) (hok : ∀ fld ∈ fs, fld.Ok C) {n : Nat}
    (hlen : (fs.flatMap (fun fld => (fld.row C).bytes big C)).length = n) (hpos : 0 < n) (hlt : n ≤ 65535)
    {pre post : List Byte} (hfile : file = pre ++ (markerBytes big n ++ fs.flatMap (fun fld => (fld.row C).bytes big C) ++ markerBytes big n) ++ post) (hpre : (pre.length : Int) = f.offset) :
    ∃ f' S', addRecord s file f true fs = .ok f' ∧ Inv t file big C S' f' ∧ S'.map Prod.fst = S.map Prod.fst ++ fs ∧
      f'.offset = f.offset + n + 8 ∧ OrderIs s f'.endian big ∧ f'.record = none := by
  obtain ⟨f1, a1, a2, a3, a4, a5⟩ := h.start (s := s) hr true (pre := pre) (n := n) (post := fs.flatMap (fun fld => (fld.row C).bytes big C) ++ markerBytes big n ++ post) (by rw [hfile]; simp) hpre
  obtain ⟨f2, S2, b1, b2, b3, b4, b5, b6⟩ := a2.fields (s := s) hf false [] fs (by simp) (by simp) hsc hn hc hok
    (pre := pre ++ markerBytes big n) (post := markerBytes big n ++ post) (by rw [hfile]; simp) (by rw [a3]; simp; omega)
  rw [hlen] at b4
  have hm := b2.marker (s := s) (n := n) (pre := pre ++ markerBytes big n ++ fs.flatMap (fun fld => (fld.row C).bytes big C)) (post := post) (by rw [hfile]; simp) (by rw [b4, a3]; simp [hlen]; omega)
  have he2 : f2.endian = '=' := by rw [b5, a4, hnat]
  rw [he2] at hm
  have hr2 : f2.record = some (fileValue s '=' true (markerBytes big n), f.offset + 4, true) := by rw [b6, a5, hnat]
  have hL : f2.offset - (f.offset + 4) = n := by rw [b4, a3]; omega
  have hap := b2.append ⟨int32Type, f2.offset, [], '='⟩ he2.symm rfl none
  by_cases hbig : big = !s
  · -- native order
    have ho : OrderIs s '=' big := by subst hbig; cases s <;> simp [OrderIs]
    have hv : int32Value (fileValue s '=' true (markerBytes big n)) = n := by rw [markerBytes, fileValue_store ho, int32_leBytes n (by omega)]
    refine ⟨_, S2, ?_, hap, b3, ?_, by change OrderIs s f2.endian big; rw [he2]; exact ho, rfl⟩
    · have hend : f2.endRecord s file = ({ f2 with offset := f2.offset + 4, blocks := f2.blocks ++ [⟨int32Type, f2.offset, [], '='⟩], record := none }, none) := by
        simp only [BFile.endRecord, hr2, hm, List.headD_cons, hv, hL]
        rw [if_neg (by simp), if_neg (by simp; omega), if_neg (by simp), if_neg (by simp), he2]
      simp only [addRecord, a1, b1, hend]
      rfl
    · change f2.offset + 4 = _
      rw [b4, a3]; omega
  · -- the other order
    have hval : fileValue s '=' true (markerBytes big n) = (leBytes 4 n).reverse := by
      cases s <;> cases big <;> simp_all [fileValue, markerBytes, storeItem]
    have hne : int32Value (leBytes 4 n).reverse ≠ n := by
      intro hc
      have := int32_reverse_eq (v := leBytes 4 n) (by simp) (L := n) (by omega) (by omega) (int32_leBytes n (by omega)) hc
      omega
    have hvalid : validEndian (if s then '>' else '<') = true := by cases s <;> rfl
    refine ⟨_, S2, ?_, hap.swap hvalid none, b3, ?_, ?_, rfl⟩
    · have hend : f2.endRecord s file = ({ f2 with offset := f2.offset + 4, endian := if s then '>' else '<', blocks := (f2.blocks ++ [(⟨int32Type, f2.offset, [], '='⟩ : Block)]).map (fun b : Block => { b with endian := if s then '>' else '<' }), record := none }, none) := by
        simp only [BFile.endRecord, hr2, hm, List.headD_cons, hL, hval, swapItem, List.reverse_reverse]
        have h1 : ¬ (n : Int) > 65535 := by omega
        have h2 : int32Value (leBytes 4 n) = n := int32_leBytes n (by omega)
        rw [if_neg (by simp), if_neg (by rintro ⟨-, hc⟩; exact h1 hc), if_pos ⟨h2.symm, Ne.symm hne, trivial⟩]
        simp only [BFile.toggleByteswap, he2, BFile.enableByteswap, BFile.setEndian]
        cases s <;> simp [validEndian]
      simp only [addRecord, a1, b1, hend]
      rfl
    · change f2.offset + 4 = _
      rw [b4, a3]; omega
    · change OrderIs s (if s then '>' else '<') big
      cases s <;> cases big <;> simp_all [OrderIs]

/-! ### Formats -/

def FPart.active (C : Content) (p : FPart) : Bool := match p.guard with
  | none => true
  | some name => decide (scalarInt C name > 0)

def FPart.section (C : Content) (p : FPart) : Section := ⟨p.record, p.fields.map (BField.row C)⟩

/-- The layout of the files which the format describes -/
def Format.layout (C : Content) (F : Format) : Layout :=
  ⟨F.check.isNone, F.header.map (BField.row C)⟩ :: (F.body.filter (FPart.active C)).map (FPart.section C)

def partsScoped (before : List BField) : List FPart → Bool
  | [] => true
  | p :: rest =>
    (match p.guard with | none => true | some name => before.any (fun f => !f.attr && f.name == name)) &&
    fieldsScoped true before p.fields && partsScoped (if p.guard.isNone then before ++ p.fields else before) rest

def Format.allFields (F : Format) : List BField := F.header ++ F.body.flatMap FPart.fields

/-- Names are distinct and only names given before are used. -/
def Format.scoped (F : Format) : Bool :=
  decide (F.allFields.Pairwise (fun a b => a.compat b = true)) && F.allFields.all BField.nameOk && fieldsScoped false [] F.header && partsScoped F.header F.body &&
  (match F.check with | none => true | some name => F.header.any (fun f => !f.attr && f.name == name && f.order && f.size == .const 4 && f.dims == []))

theorem payload_rows (fs : List BField) (r : Bool) : (Section.mk r (fs.map (BField.row C))).payload big C = fs.flatMap (fun fld => (fld.row C).bytes big C) := by
  simp [Section.payload, List.flatMap_map]

theorem payload_length (L : Section) (h : ∀ r ∈ L.rows, r.Fits C) (b1 b2 : Bool) : (L.payload b1 C).length = (L.payload b2 C).length := by
  obtain ⟨rec, rows⟩ := L
  simp only [Section.payload]
  simp only at h
  induction rows with
  | nil => rfl
  | cons r rows ih =>
    simp only [List.flatMap_cons, List.length_append, length_rowBytes (h r (by simp)), ih (fun x hx => h x (by simp [hx]))]

theorem Inv.parts (h : Inv t file big C S f) (hf : file ≠ []) (hr : f.record = none) (ho : OrderIs s f.endian big) (before : List BField) (ps : List FPart) (hb : ∀ g ∈ before, g ∈ S.map Prod.fst)
    (hsc : partsScoped before ps = true) (hn : ∀ p ∈ ps, ∀ fld ∈ p.fields, fld.nameOk = true)
    (hc : (S.map Prod.fst ++ ps.flatMap FPart.fields).Pairwise (fun a b => a.compat b = true)) (hok : ∀ p ∈ ps, p.active C = true → ∀ fld ∈ p.fields, fld.Ok C)
    (hrec : ∀ p ∈ ps, p.active C = true → p.record = true → ((p.section C).payload false C).length < 2147483648)
    {pre post : List Byte} (hfile : file = pre ++ ((ps.filter (FPart.active C)).map (FPart.section C)).flatMap (Section.bytes big C) ++ post) (hpre : (pre.length : Int) = f.offset) :
    ∃ f' S', addParts s file f ps = .ok f' ∧ Inv t file big C S' f' ∧ S'.map Prod.fst = S.map Prod.fst ++ (ps.filter (FPart.active C)).flatMap FPart.fields ∧
      f'.offset = f.offset + (((ps.filter (FPart.active C)).map (FPart.section C)).flatMap (Section.bytes big C)).length ∧ OrderIs s f'.endian big := by
  induction ps generalizing f S before pre with
  | nil => exact ⟨f, S, rfl, h, by simp, by simp, ho⟩
  | cons p ps ih =>
    simp only [partsScoped, Bool.and_eq_true] at hsc
    obtain ⟨⟨s1, s2⟩, s3⟩ := hsc
    by_cases hact : p.active C = true
    · -- the part is there
      have hact' := hact
      have hcp : (S.map Prod.fst ++ p.fields).Pairwise (fun a b => a.compat b = true) := by
        refine hc.sublist ?_
        rw [List.flatMap_cons, ← List.append_assoc]
        exact List.sublist_append_left _ _
      rw [List.filter_cons_of_pos hact] at hfile ⊢
      simp only [List.map_cons, List.flatMap_cons] at hfile ⊢
      have hpay : (p.section C).payload big C = p.fields.flatMap (fun fld => (fld.row C).bytes big C) := payload_rows _ _
      have hgo : ∃ f1 S1, (if p.record then addRecord s file f false p.fields else addFields s file f p.fields) = .ok f1 ∧ Inv t file big C S1 f1 ∧ S1.map Prod.fst = S.map Prod.fst ++ p.fields ∧
          f1.offset = f.offset + ((p.section C).bytes big C).length ∧ f1.endian = f.endian ∧ f1.record = none := by
        cases hrc : p.record with
        | true =>
          have hl := hrec p (by simp) hact hrc
          rw [payload_length (p.section C) (by
            intro r hr'
            obtain ⟨fld, hfl, rfl⟩ := List.mem_map.1 hr'
            exact (hok p (by simp) hact fld hfl).2.2) false big] at hl
          have hbytes : (p.section C).bytes big C = markerBytes big ((p.section C).payload big C).length ++ (p.section C).payload big C ++ markerBytes big ((p.section C).payload big C).length := by
            simp [Section.bytes, FPart.section, hrc]
          rw [hbytes, hpay] at hfile
          rw [hpay] at hl
          obtain ⟨f1, S1, c1, c2, c3, c4, c5, c6⟩ := h.record hf hr ho before p.fields hb s2 (hn p (by simp)) hcp (hok p (by simp) hact) rfl hl (pre := pre)
            (post := ((ps.filter (FPart.active C)).map (FPart.section C)).flatMap (Section.bytes big C) ++ post) (by rw [hfile]; simp only [List.append_assoc]) hpre
          refine ⟨f1, S1, by simpa using c1, c2, c3, ?_, c5, c6⟩
          rw [c4, hbytes, hpay]
          simp
          omega
        | false =>
          have hbytes : (p.section C).bytes big C = (p.section C).payload big C := by simp [Section.bytes, FPart.section, hrc]
          rw [hbytes, hpay] at hfile
          obtain ⟨f1, S1, c1, c2, c3, c4, c5, c6⟩ := h.fields (s := s) hf true before p.fields hb (fun _ => ho) s2 (hn p (by simp)) hcp (hok p (by simp) hact) (pre := pre)
            (post := ((ps.filter (FPart.active C)).map (FPart.section C)).flatMap (Section.bytes big C) ++ post) (by rw [hfile]; simp only [List.append_assoc]) hpre
          exact ⟨f1, S1, by simpa using c1, c2, c3, by rw [c4, hbytes, hpay], c5, c6.trans hr⟩
      obtain ⟨f1, S1, c1, c2, c3, c4, c5, c6⟩ := hgo
      obtain ⟨f2, S2, d1, d2, d3, d4, d5⟩ := ih c2 c6 (by rw [c5]; exact ho) (if p.guard.isNone then before ++ p.fields else before)
        (by
          intro g hg
          rw [c3]
          split at hg
          · rcases List.mem_append.1 hg with hg | hg
            · exact List.mem_append_left _ (hb g hg)
            · exact List.mem_append_right _ hg
          · exact List.mem_append_left _ (hb g hg)) s3 (fun q hq => hn q (by simp [hq])) (by rw [c3]; simpa using hc) (fun q hq => hok q (by simp [hq])) (fun q hq => hrec q (by simp [hq]))
        (pre := pre ++ (p.section C).bytes big C) (by rw [hfile]; simp only [List.append_assoc]) (by rw [c4]; simp; omega)
      refine ⟨f2, S2, ?_, d2, by rw [d3, c3]; simp, by rw [d4, c4]; simp; omega, d5⟩
      have hpart : addPart s file f p = .ok f1 := by
        unfold addPart
        cases hg : p.guard with
        | none => exact c1
        | some name =>
          rw [hg] at s1
          simp only [FPart.active, hg, decide_eq_true_eq] at hact'
          simp only [h.int hf ho hb s1, if_pos hact']
          exact c1
      simp only [addParts, hpart]
      exact d1
    · -- it is not
      rw [List.filter_cons_of_neg hact] at hfile ⊢
      have hcp : (S.map Prod.fst ++ ps.flatMap FPart.fields).Pairwise (fun a b => a.compat b = true) := by
        refine hc.sublist ?_
        rw [List.flatMap_cons]
        exact List.Sublist.append (List.Sublist.refl _) (List.sublist_append_right _ _)
      cases hg : p.guard with
      | none => simp [FPart.active, hg] at hact
      | some name =>
        rw [hg] at s1 s3
        obtain ⟨f2, S2, d1, d2, d3, d4, d5⟩ := ih h hr ho before hb (by simpa using s3) (fun q hq => hn q (by simp [hq])) hcp (fun q hq => hok q (by simp [hq])) (fun q hq => hrec q (by simp [hq])) hfile hpre
        refine ⟨f2, S2, ?_, d2, d3, d4, d5⟩
        have hpart : addPart s file f p = .ok f := by
          simp only [FPart.active, hg, decide_eq_true_eq] at hact
          simp only [addPart, hg, h.int hf ho hb s1, if_neg hact]
        simp only [addParts, hpart]
        exact d1


/-! ### The whole file -/

theorem insertByOffset_head {b : Block} {l : List Block} (h : ∀ c ∈ l.head?, b.offset ≤ c.offset) : insertByOffset b l = b :: l := by
  cases l with
  | nil => rfl
  | cons c l => simp [insertByOffset, h c (by simp)]

theorem ChainTo.sort {o e : Int} {bs : List Block} (h : ChainTo o bs e) : sortByOffset bs = bs := by
  induction bs generalizing o with
  | nil => rfl
  | cons b bs ih =>
    have hi := ih h.2
    change insertByOffset b (sortByOffset bs) = _
    rw [hi]
    apply insertByOffset_head
    intro c hc
    cases bs with
    | nil => simp at hc
    | cons d bs =>
      simp at hc
      subst hc
      have h1 := h.1
      have h2 := h.2.1
      omega

theorem ChainTo.consecutive {o e : Int} {bs : List Block} (h : ChainTo o bs e) : Verif.consecutive bs = true := by
  induction bs generalizing o with
  | nil => rfl
  | cons b bs ih =>
    cases bs with
    | nil => rfl
    | cons c bs =>
      have h1 := h.1
      have h2 := h.2.1
      simp only [Verif.consecutive, ih h.2, Bool.and_true, decide_eq_true_eq]
      omega

theorem ChainTo.sum {o e : Int} {bs : List Block} (h : ChainTo o bs e) : e = o + ((bs.map Block.nbytes).sum : Nat) := by
  induction bs generalizing o with
  | nil => cases h; simp
  | cons b bs ih => rw [ih h.2]; simp; omega

theorem Inv.used (h : Inv true file big C S f) (n : Nat) : allBytesUsed f.blocks n = true ↔ (n : Int) = f.offset := by
  have hs := (h.chain rfl).sum
  rw [allBytesUsed_iff, (h.chain rfl).sort]
  constructor
  · rintro ⟨-, -, h3⟩; omega
  · intro hn
    refine ⟨?_, (h.chain rfl).consecutive, by omega⟩
    intro b hb
    have hc := (h.chain rfl)
    cases hq : f.blocks with
    | nil => rw [hq] at hb; simp at hb
    | cons c bs => rw [hq] at hb hc; simp at hb; subst hb; exact hc.1

theorem Inv.readBack (h : Inv t file big C S f) (hf : file ≠ []) (ho : OrderIs s f.endian big) {e : BField × Nat} (he : e ∈ S) (hn : e.1.nameOk = true) : (e.1.row C).ReadBack s file C f := by
  cases ha : e.1.attr with
  | true =>
    simp only [BField.nameOk, ha, Bool.not_true, Bool.false_or] at hn
    rcases hsp : splitPath e.1.name with ⟨_ | g, a⟩
    · rw [hsp] at hn; simp at hn
    · rw [hsp] at hn
      simp only [Bool.and_eq_true, beq_iff_eq] at hn
      simp only [Row.ReadBack, BField.row, BField.group, ha, if_true, hsp]
      exact h.attribute hf ho he ha hsp hn.1.2
  | false =>
    simp only [Row.ReadBack, BField.row, BField.group, ha, Bool.false_eq_true, if_false]
    refine ⟨h.dataset hf ho he ha, ?_⟩
    obtain ⟨hok, b, hb, hh⟩ := h.holds e he
    have hk := (h.data (comps e.1.name) e.2).2 ⟨e, he, ha, rfl, rfl⟩
    obtain ⟨g1, -⟩ := getItem_kind (e.1.name.length + 1) f.root e.1.name (by omega)
    rw [hk] at g1
    rcases hq : BGroup.getItem (e.1.name.length + 1) f.root e.1.name with er | ⟨i, a⟩ | g
    · rw [hq] at g1; simp [Except.toOption] at g1
    · rw [hq] at g1
      simp only [Except.toOption, Option.map_some, BNode.kind, Option.some.injEq] at g1
      subst g1
      exact ⟨e.2, a, b, rfl, hb, hh.2.1, by rw [hh.1]; rfl⟩
    · rw [hq] at g1; simp [Except.toOption, BNode.kind] at g1

/-- Names which have not been declared are not found. -/
theorem Inv.absent (h : Inv t file big C S f) {name : Name} (hn : ∀ e ∈ S, ¬comps name <+: comps e.1.name) : f.dataset s file name = .error .keyError := by
  obtain ⟨g1, g2⟩ := getItem_kind (name.length + 1) f.root name (by omega)
  have hk : kindAt f.root (comps name) = none := by
    rcases hq : kindAt f.root (comps name) with _ | _ | id
    · rfl
    · obtain ⟨e, he, h1, -⟩ := h.groups _ hq
      exact absurd h1 (hn e he)
    · obtain ⟨e, he, -, h1, -⟩ := (h.data _ _).1 hq
      exact absurd (h1 ▸ List.prefix_rfl) (hn e he)
  rw [hk] at g1
  cases hq : BGroup.getItem (name.length + 1) f.root name with
  | ok x => rw [hq] at g1; simp [Except.toOption] at g1
  | error e =>
    have := g2 e hq
    subst this
    simp only [BFile.dataset, hq]

end

theorem reverse_out_of_range {v : List Byte} (hl : v.length = 4) (h1 : 1 ≤ int32Value v) (h2 : int32Value v ≤ 65535) : int32Value v.reverse < 1 ∨ int32Value v.reverse > 65535 := by
  have ha' := int32_of_nonneg hl (by omega)
  generalize hL : int32Value v = L at *
  unfold int32Value
  clear hL
  match v, hl with
  | [⟨a, _⟩, ⟨b, _⟩, ⟨c, _⟩, ⟨d, _⟩], _ =>
    simp only [leNat, List.reverse_cons, List.reverse_nil, List.nil_append, List.cons_append] at ha' ⊢
    push_cast at ha' ⊢
    have hd : d = 0 := by omega
    have hc : c = 0 := by omega
    subst hd hc
    split <;> omega

/-- State after a file written as the format says has been opened -/
theorem Format.parse_inv (F : Format) (hF : F.scoped = true) (C : Content)
    (hnn : ∀ fld ∈ F.header ++ (F.body.filter (FPart.active C)).flatMap FPart.fields, 0 ≤ fld.size.value C ∧ ∀ e ∈ fld.dims, 0 ≤ e.value C)
    (hfit : (F.layout C).Fits C) (hcheck : ∀ n, F.check = some n → 1 ≤ scalarInt C n ∧ scalarInt C n ≤ 65535)
    (hhead : F.check = none → 0 < (F.header.map (fun fld => (fld.row C).width * (fld.row C).shape.prod)).sum ∧ (F.header.map (fun fld => (fld.row C).width * (fld.row C).shape.prod)).sum ≤ 65535) :
    ∀ (s big : Bool) (rest : List Byte), ∃ f S, F.parse s ((F.layout C).bytes big C ++ rest) = .ok f ∧ Inv true ((F.layout C).bytes big C ++ rest) big C S f ∧
      S.map Prod.fst = F.header ++ (F.body.filter (FPart.active C)).flatMap FPart.fields ∧ OrderIs s f.endian big ∧ (F.layout C).bytes big C ++ rest ≠ [] ∧ f.offset = ((F.layout C).bytes big C).length := by
  intro s big rest
  simp only [Format.scoped, Bool.and_eq_true, decide_eq_true_eq] at hF
  obtain ⟨⟨⟨⟨hpw, hname⟩, hsh⟩, hsb⟩, hsc⟩ := hF
  have hnameH : ∀ fld ∈ F.header, fld.nameOk = true := fun fld hfl => List.all_eq_true.1 hname fld (by simp [Format.allFields, hfl])
  have hnameB : ∀ p ∈ F.body, ∀ fld ∈ p.fields, fld.nameOk = true := fun p hp fld hfl => List.all_eq_true.1 hname fld (by
    simp only [Format.allFields, List.mem_append, List.mem_flatMap]; exact Or.inr ⟨p, hp, hfl⟩)
  have hokH : ∀ fld ∈ F.header, fld.Ok C := fun fld hfl => ⟨(hnn fld (by simp [hfl])).1, (hnn fld (by simp [hfl])).2, hfit.rows _ (by rw [Format.layout]; exact List.mem_cons_self) _ (List.mem_map_of_mem hfl)⟩
  have hokB : ∀ p ∈ F.body, p.active C = true → ∀ fld ∈ p.fields, fld.Ok C := by
    intro p hp ha fld hfl
    have hm : fld ∈ F.header ++ (F.body.filter (FPart.active C)).flatMap FPart.fields :=
      List.mem_append_right _ (List.mem_flatMap.2 ⟨p, List.mem_filter.2 ⟨hp, ha⟩, hfl⟩)
    exact ⟨(hnn fld hm).1, (hnn fld hm).2, hfit.rows (p.section C) (by
      rw [Format.layout]; exact List.mem_cons_of_mem _ (List.mem_map_of_mem (List.mem_filter.2 ⟨hp, ha⟩))) _ (List.mem_map_of_mem hfl)⟩
  have hlenH : ∀ fs : List BField, (∀ fld ∈ fs, fld.Ok C) → (fs.flatMap (fun fld => (fld.row C).bytes big C)).length = (fs.map (fun fld => (fld.row C).width * (fld.row C).shape.prod)).sum := by
    intro fs hfs
    induction fs with
    | nil => rfl
    | cons g fs ih => simp [ih (fun x hx => hfs x (by simp [hx])), length_rowBytes (hfs g (by simp)).2.2]
  set L := F.layout C with hLdef
  set bodyBytes := ((F.body.filter (FPart.active C)).map (FPart.section C)).flatMap (Section.bytes big C) with hbb
  have hopen : ∃ f S, F.open s (L.bytes big C ++ rest) = .ok f ∧ Inv true (L.bytes big C ++ rest) big C S f ∧ S.map Prod.fst = F.header ∧ OrderIs s f.endian big ∧ f.record = none ∧
      L.bytes big C ++ rest ≠ [] ∧ ∃ pre, L.bytes big C ++ rest = pre ++ bodyBytes ++ rest ∧ (pre.length : Int) = f.offset := by
    cases hch : F.check with
    | none =>
      obtain ⟨hp, hl⟩ := hhead hch
      rw [← hlenH F.header hokH] at hp hl
      have hfile : L.bytes big C ++ rest = [] ++ (markerBytes big (F.header.flatMap (fun fld => (fld.row C).bytes big C)).length ++ F.header.flatMap (fun fld => (fld.row C).bytes big C) ++
          markerBytes big (F.header.flatMap (fun fld => (fld.row C).bytes big C)).length) ++ (bodyBytes ++ rest) := by
        rw [hLdef, Format.layout, hch]
        simp only [Layout.bytes, List.flatMap_cons, Section.bytes, Option.isNone_none, if_true, payload_rows, List.nil_append, List.append_assoc, hbb]
      have hne : L.bytes big C ++ rest ≠ [] := by
        rw [hfile]
        intro hc
        have := congrArg List.length hc
        simp at this
      obtain ⟨f, S, a1, a2, a3, a4, a5, a6⟩ := (inv_new true (L.bytes big C ++ rest) big C).recordAuto (s := s) hne rfl rfl F.header hsh hnameH
        (by simp only [List.map_nil, List.nil_append]; exact hpw.sublist (List.sublist_append_left _ _)) hokH rfl hp hl hfile (by simp [BFile.new])
      refine ⟨f, S, ?_, a2, by simpa using a3, a5, a6, hne, _, by rw [hfile]; simp only [List.nil_append, List.append_assoc]; rw [← List.append_assoc, ← List.append_assoc, ← List.append_assoc], ?_⟩
      · simp only [Format.open, hch, a1]
      · rw [a4]; simp [BFile.new]; omega
    | some name =>
      rw [hch] at hsc
      obtain ⟨fld, hfl, hfl2⟩ := List.any_eq_true.1 hsc
      simp only [Bool.and_eq_true, Bool.not_eq_true', beq_iff_eq] at hfl2
      obtain ⟨⟨⟨⟨q1, q2⟩, q3⟩, q4⟩, q5⟩ := hfl2
      obtain ⟨c1, c2⟩ := hcheck name hch
      have hfits := (hokH fld hfl).2.2
      have hlen1 : (C name).length = 1 := by have := hfits.1; simpa [BField.row, q2, q5] using this
      obtain ⟨v, hv⟩ := List.length_eq_one_iff.1 hlen1
      have hv4 : v.length = 4 := by
        have := hfits.2 v (by simp [BField.row, q2, hv])
        simpa [BField.row, q4, FExpr.value] using this
      have hsi : scalarInt C name = int32Value v := by simp [scalarInt, hv]
      rw [hsi] at c1 c2
      have hfile : L.bytes big C ++ rest = [] ++ F.header.flatMap (fun fld => (fld.row C).bytes big C) ++ (bodyBytes ++ rest) := by
        rw [hLdef, Format.layout, hch]
        simp only [Layout.bytes, List.flatMap_cons, Section.bytes, Option.isNone_some, Bool.false_eq_true, if_false, payload_rows, List.nil_append, List.append_assoc, hbb]
      have hne : L.bytes big C ++ rest ≠ [] := by
        rw [hfile]
        intro hc
        have h0 : F.header.flatMap (fun fld => (fld.row C).bytes big C) = [] := by simp at hc; simp; exact hc.1
        have h1 := List.flatMap_eq_nil_iff.1 h0 fld hfl
        have := length_rowBytes hfits big
        rw [h1] at this
        simp [BField.row, q4, q5, FExpr.value] at this
      obtain ⟨f, S, a1, a2, a3, a4, a5, a6⟩ := (inv_new true (L.bytes big C ++ rest) big C).fields (s := s) hne false [] F.header (by simp) (by simp) hsh hnameH
        (by simp only [List.map_nil, List.nil_append]; exact hpw.sublist (List.sublist_append_left _ _)) hokH hfile (by simp [BFile.new])
      simp only [List.map_nil, List.nil_append] at a3
      have hpre : ((F.header.flatMap (fun fld => (fld.row C).bytes big C)).length : Int) = f.offset := by rw [a4]; simp [BFile.new]
      have hfe : f.endian = '=' := a5
      obtain ⟨e, he, hef⟩ : ∃ e ∈ S, e.1 = fld := by
        have : fld ∈ S.map Prod.fst := by rw [a3]; exact hfl
        simpa using this
      -- reading the number of files in native order
      by_cases hbig : big = !s
      · have ho : OrderIs s f.endian big := by rw [hfe]; subst hbig; cases s <;> simp [OrderIs]
        have hint : f.int s (L.bytes big C ++ rest) name = .ok (int32Value v) := by
          rw [← hsi]
          exact a2.int hne ho (before := [fld]) (by intro g hg; simp at hg; rw [hg, a3]; exact hfl) (by simp [q1, q2])
        refine ⟨f, S, ?_, a2, a3, ho, a6, hne, _, by rw [hfile]; simp only [List.nil_append, ← List.append_assoc], hpre⟩
        simp only [Format.open, hch, a1, hint]
        rw [if_neg (by omega)]
      · -- in the other order the value is reversed
        have hstore : (fld.row C).bytes big C = (fld.row (fun _ => [v.reverse])).bytes (!big) (fun _ => [v.reverse]) := by
          have h1 : (fld.row C).bytes big C = storeItem big true v := by simp [Row.bytes, BField.row, q2, hv, q3]
          have h2 : (fld.row (fun _ => [v.reverse])).bytes (!big) (fun _ => [v.reverse]) = storeItem (!big) true v.reverse := by simp [Row.bytes, BField.row, q3]
          rw [h1, h2]
          cases big <;> simp [storeItem]
        have hdata : f.dataset s (L.bytes big C ++ rest) name = .ok [v.reverse] := by
          obtain ⟨-, b, hb, hh⟩ := a2.holds e he
          have hk := (a2.data (comps e.1.name) e.2).2 ⟨e, he, by rw [hef]; exact q1, rfl, rfl⟩
          obtain ⟨g1, -⟩ := getItem_kind (e.1.name.length + 1) f.root e.1.name (by omega)
          rw [hk] at g1
          have hbe := a2.blocksEndian b (List.mem_of_getElem? hb)
          have hh' : Holds (L.bytes big C ++ rest) (!big) (fun _ => [v.reverse]) (fld.row C) b := by
            rw [hef] at hh
            obtain ⟨k1, k2, k3, pre, post, k4, k5⟩ := hh
            refine ⟨k1, k2, k3, pre, post, ?_, k5⟩
            rw [k4, hstore]
            rfl
          have hr := readAll_holds (s := s) hh' ⟨by simp [BField.row, q5], by intro u hu; simp at hu; subst hu; simp [BField.row, q4, FExpr.value, hv4]⟩ hne (by rw [hbe]; exact a2.endian)
            (by rw [hbe, hfe]; cases s <;> cases big <;> simp_all [OrderIs])
          unfold BFile.dataset
          rw [hef, q2] at g1
          rcases hq : BGroup.getItem (name.length + 1) f.root name with er | ⟨i, a⟩ | g
          · rw [hq] at g1; simp [Except.toOption] at g1
          · rw [hq] at g1
            simp only [Except.toOption, Option.map_some, BNode.kind, Option.some.injEq] at g1
            subst g1
            simp only [hb]
            exact hr
          · rw [hq] at g1; simp [Except.toOption, BNode.kind] at g1
        have hint : f.int s (L.bytes big C ++ rest) name = .ok (int32Value v.reverse) := by simp only [BFile.int, hdata, List.headD_cons]
        have hout := reverse_out_of_range hv4 c1 c2
        have hvalid : validEndian (if s then '>' else '<') = true := by cases s <;> rfl
        refine ⟨_, S, ?_, a2.swap hvalid f.record, a3, ?_, a6, hne, _, by rw [hfile]; simp only [List.nil_append, ← List.append_assoc], hpre⟩
        · simp only [Format.open, hch, a1, hint]
          rw [if_pos hout]
          simp only [BFile.enableByteswap, BFile.setEndian]
          cases s <;> simp [validEndian]
        · change OrderIs s (if s then '>' else '<') big
          cases s <;> cases big <;> simp_all [OrderIs]
  obtain ⟨f, S, o1, o2, o3, o4, o5, hne, pre, hfile, hpre⟩ := hopen
  obtain ⟨f', S', p1, p2, p3, p4, p5⟩ := o2.parts hne o5 o4 F.header F.body (by rw [o3]; exact fun g hg => hg) hsb hnameB (by rw [o3]; exact hpw) hokB
    (by
      intro p hp ha hr
      exact hfit.records (p.section C) (by rw [hLdef, Format.layout]; exact List.mem_cons_of_mem _ (List.mem_map_of_mem (List.mem_filter.2 ⟨hp, ha⟩))) hr)
    hfile hpre
  refine ⟨f', S', ?_, p2, by rw [p3, o3], p5, hne, ?_⟩
  · simp only [Format.parse, o1, p1]
  · have h1 := congrArg List.length hfile
    rw [p4, ← hpre]
    simp only [List.length_append] at h1 ⊢
    rw [← hbb]
    omega

/-- A file written as the format says is read back. -/
theorem Format.reads (F : Format) (hF : F.scoped = true) (C : Content)
    (hnn : ∀ fld ∈ F.header ++ (F.body.filter (FPart.active C)).flatMap FPart.fields, 0 ≤ fld.size.value C ∧ ∀ e ∈ fld.dims, 0 ≤ e.value C)
    (hfit : (F.layout C).Fits C) (hcheck : ∀ n, F.check = some n → 1 ≤ scalarInt C n ∧ scalarInt C n ≤ 65535)
    (hhead : F.check = none → 0 < (F.header.map (fun fld => (fld.row C).width * (fld.row C).shape.prod)).sum ∧ (F.header.map (fun fld => (fld.row C).width * (fld.row C).shape.prod)).sum ≤ 65535) :
    (F.layout C).ReadBy C (fun s file => F.parse s file) := by
  intro s big rest
  obtain ⟨f', S', p1, p2, p3, p5, hne, p4⟩ := F.parse_inv hF C hnn hfit hcheck hhead s big rest
  simp only [Format.scoped, Bool.and_eq_true, decide_eq_true_eq] at hF
  obtain ⟨⟨⟨⟨hpw, hname⟩, hsh⟩, hsb⟩, hsc⟩ := hF
  have hnameH : ∀ fld ∈ F.header, fld.nameOk = true := fun fld hfl => List.all_eq_true.1 hname fld (by simp [Format.allFields, hfl])
  have hnameB : ∀ p ∈ F.body, ∀ fld ∈ p.fields, fld.nameOk = true := fun p hp fld hfl => List.all_eq_true.1 hname fld (by
    simp only [Format.allFields, List.mem_append, List.mem_flatMap]; exact Or.inr ⟨p, hp, hfl⟩)
  refine ⟨f', p1, ?_, ?_, ?_⟩
  rotate_left
  · intro name hn
    apply p2.absent
    intro e he
    have hm : e.1 ∈ S'.map Prod.fst := List.mem_map_of_mem he
    rw [p3, List.mem_append, List.mem_flatMap] at hm
    rcases hm with hm | ⟨p, hp, hm⟩
    · exact hn ⟨F.check.isNone, F.header.map (BField.row C)⟩ (by rw [Format.layout]; exact List.mem_cons_self) (e.1.row C) (List.mem_map_of_mem hm)
    · exact hn (p.section C) (by rw [Format.layout]; exact List.mem_cons_of_mem _ (List.mem_map_of_mem hp)) (e.1.row C) (List.mem_map_of_mem hm)
  rotate_right
  · intro sec hsec r hr
    have hback : ∀ fld, fld.nameOk = true → fld ∈ S'.map Prod.fst → (fld.row C).ReadBack s ((F.layout C).bytes big C ++ rest) C f' := by
      intro fld hn hm
      obtain ⟨e, he, rfl⟩ := List.mem_map.1 hm
      exact p2.readBack hne p5 he hn
    rw [Format.layout] at hsec
    rcases List.mem_cons.1 hsec with rfl | hsec
    · obtain ⟨fld, hfl, rfl⟩ := List.mem_map.1 hr
      exact hback fld (hnameH fld hfl) (by rw [p3]; simp [hfl])
    · obtain ⟨p, hp, rfl⟩ := List.mem_map.1 hsec
      obtain ⟨fld, hfl, rfl⟩ := List.mem_map.1 hr
      refine hback fld (hnameB p (List.mem_filter.1 hp).1 fld hfl) ?_
      rw [p3]
      exact List.mem_append_right _ (List.mem_flatMap.2 ⟨p, hp, hfl⟩)
  · rw [p2.used, p4, List.length_append]
    push_cast
    constructor
    · intro hh
      exact List.eq_nil_of_length_eq_zero (by omega)
    · rintro rfl; simp

end Verif
