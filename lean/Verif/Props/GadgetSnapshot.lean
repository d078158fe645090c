import Verif.Proofs.GadgetSnapshot
import Verif.Props.FormatsCases

/-!
# C53: Gadget snapshots; C52: byte order from the length of the header

A snapshot consists of a header of 256 bytes and one record for each quantity which some particles have (`Files.gadgetBytes`). The theorem says that the class reads the header and all quantities, in either byte order, with the
precision given by the length of each record. Quantities at the end may be missing, if there are at least three.
-/

namespace Verif

open Files

/-- The element of `all_datasets` for a quantity -/
def blockOf (p : Quantity × TypeStr) : SnapBlock := ⟨p.1.name, p.2, p.1.shape, p.1.types⟩

/-- All quantities which may be in the file -/
def allQuantities (C : Content) (width : String → Nat) (extra : List (Quantity × TypeStr)) : List Quantity := standardQuantities C width ++ extra.map Prod.fst

/-- The quantities in a file, of which the last ones may be missing -/
def storedQuantities (C : Content) (np : Nat → Nat) (width : String → Nat) (extra : List (Quantity × TypeStr)) (k : Nat) : List Quantity :=
  ((allQuantities C width extra).filter (fun q => q.rows np ≠ [])).take k

/-- Values in the file have the right number and size; numbers are stored in 4 or 8 bytes. -/
structure SnapshotFits (C : Content) (np : Nat → Nat) (fill : List Byte) (width : String → Nat) (extra : List (Quantity × TypeStr)) (k : Nat) : Prop where
  header : ∀ r ∈ gadgetHeader, r.Fits C
  fill : fill.length = 64
  numbers : ∀ i < 6, int32Value ((C "Header/NumPart_ThisFile".toList).getD i []) = np i
  others : ∀ p ∈ extra, p.2 ≠ .other ∧ p.1.name ≠ [] ∧ '/' ∉ p.1.name
  distinct : ((allQuantities C width extra).map Quantity.name).Nodup
  stored : ∀ q ∈ storedQuantities C np width extra k, (q.width = 4 ∨ q.width = 8) ∧ 0 ∉ q.shape ∧ ∀ r ∈ q.rows np, r.Fits C
  records : ∀ q ∈ storedQuantities C np width extra k, (Section.payload false C ⟨true, q.rows np⟩).length < 4294967296

/-- The file, with something following -/
def snapshotFile (big : Bool) (C : Content) (np : Nat → Nat) (fill : List Byte) (width : String → Nat) (extra : List (Quantity × TypeStr)) (k : Nat) (rest : List Byte) : List Byte :=
  gadgetBytes big C fill ((gadgetBlocks np (allQuantities C width extra)).take k) ++ rest

theorem header_rows (C : Content) : snapHeader.map (BField.row C) = gadgetHeader := rfl

theorem header_size : (gadgetHeader.map (fun r => r.width * r.shape.prod)).sum = 192 := by decide

theorem standard_matches {C : Content} (hh : ∀ r ∈ gadgetHeader, r.Fits C) (width : String → Nat) : List.Forall₂ Matches (snapDatasets (C "Header/MassTable".toList)) (standardQuantities C width) := by
  have hmt := hh (head 8 [6] "MassTable") (by simp [gadgetHeader])
  obtain ⟨m1, m2⟩ := hmt
  have m1 : (C "Header/MassTable".toList).length = 6 := m1
  have m2 : ∀ v ∈ C "Header/MassTable".toList, v.length = 8 := m2
  refine .cons ⟨rfl, rfl, fun _ _ => rfl, by simp⟩ (.cons ⟨rfl, rfl, fun _ _ => rfl, by simp⟩ (.cons ⟨rfl, rfl, fun _ _ => rfl, by simp⟩ (.cons ⟨rfl, rfl, fun i hi => ?_, by simp⟩
    (.cons ⟨rfl, rfl, fun _ _ => rfl, by simp⟩ (.cons ⟨rfl, rfl, fun _ _ => rfl, by simp⟩ (.cons ⟨rfl, rfl, fun _ _ => rfl, by simp⟩ .nil))))))
  change isZeroFloat64 ((C "Header/MassTable".toList).getD i []) = decide (zeroDouble ((C "Header/MassTable".toList).getD i []))
  rw [List.getD_eq_getElem _ _ (by omega)]
  exact isZero_iff (m2 _ (List.getElem_mem _))

theorem all_matches {C : Content} (hh : ∀ r ∈ gadgetHeader, r.Fits C) (width : String → Nat) (extra : List (Quantity × TypeStr)) (he : ∀ p ∈ extra, p.2 ≠ .other) :
    List.Forall₂ Matches (snapDatasets (C "Header/MassTable".toList) ++ extra.map blockOf) (allQuantities C width extra) := by
  refine List.rel_append (standard_matches hh width) ?_
  induction extra with
  | nil => exact .nil
  | cons p l ih => exact .cons ⟨rfl, rfl, fun _ _ => rfl, he p (by simp)⟩ (ih (fun x hx => he x (by simp [hx])))

theorem open_marker (s : Bool) (big : Bool) (file post : List Byte) (C : Content) (hfile : file = markerBytes big 256 ++ post) :
    ∃ f : BFile, Inv false file big C [] f ∧ OrderIs s f.endian big ∧ f.offset = 4 ∧
      ∀ extra, gadgetSnapshot s file extra = match snapOpenHeader s file f with
        | .error e => .error e
        | .ok (f, npart, masstable) => snapLoop s file npart f 0 (snapDatasets masstable ++ extra) := by
  have hm := (inv_new false file big C).marker (s := s) (n := 256) (pre := []) (post := post) (by rw [hfile]; simp) (by simp [BFile.new])
  have hap := (inv_new false file big C).append ⟨int32Type, 0, [], '='⟩ rfl rfl none
  have hm' : BFile.readAndSkip s file .new uint32Type [] = ({ BFile.new with offset := BFile.new.offset + 4, blocks := BFile.new.blocks ++ [⟨int32Type, BFile.new.offset, [], BFile.new.endian⟩] },
      .ok [fileValue s '=' true (markerBytes big 256)]) := hm
  have hval : leNat (fileValue s '=' true (markerBytes big 256)) = if big = !s then 256 else 65536 := by cases s <;> cases big <;> decide
  have hvalid : validEndian (if s then (if decide (big ≠ !s) then '>' else '<') else (if decide (big ≠ !s) then '<' else '>')) = true := by cases s <;> cases big <;> decide
  refine ⟨_, hap.swap hvalid none, ?_, ?_, ?_⟩
  · cases s <;> cases big <;> simp [OrderIs]
  · rfl
  · intro extra
    unfold gadgetSnapshot
    rw [hm']
    simp only [List.headD_cons, hval]
    rw [if_neg (by by_cases h : big = !s <;> simp [h])]
    have hd : decide ((if big = !s then 256 else 65536) = 65536) = decide (big ≠ !s) := by cases s <;> cases big <;> decide
    rw [hd]
    have hswap : (BFile.enableByteswap s { BFile.new with offset := BFile.new.offset + 4, blocks := BFile.new.blocks ++ [⟨int32Type, BFile.new.offset, [], BFile.new.endian⟩] } (decide (big ≠ !s))).1 =
        { BFile.new with offset := BFile.new.offset + 4, endian := (if s then (if decide (big ≠ !s) then '>' else '<') else (if decide (big ≠ !s) then '<' else '>')),
                         blocks := (BFile.new.blocks ++ [(⟨int32Type, BFile.new.offset, [], BFile.new.endian⟩ : Block)]).map (fun b : Block => { b with endian := (if s then (if decide (big ≠ !s) then '>' else '<') else (if decide (big ≠ !s) then '<' else '>')) }), record := none } := by
      cases s <;> cases big <;> rfl
    rw [hswap]
    rfl

theorem open_header {s big : Bool} {file pre0 fill post : List Byte} {C : Content} {f : BFile} (h : Inv false file big C [] f) (ho : OrderIs s f.endian big) (hoff : f.offset = 4)
    (hh : ∀ r ∈ gadgetHeader, r.Fits C) (hfill : fill.length = 64) (h4 : pre0.length = 4)
    (hfile : file = pre0 ++ Section.payload big C ⟨true, gadgetHeader⟩ ++ fill ++ markerBytes big 256 ++ post) :
    ∃ f' S', snapOpenHeader s file f = .ok (f', (C "Header/NumPart_ThisFile".toList).map int32Value, C "Header/MassTable".toList) ∧ Inv false file big C S' f' ∧ OrderIs s f'.endian big ∧
      f'.offset = 264 ∧ S'.map Prod.fst = snapHeader := by
  have hne : file ≠ [] := by
    intro hc
    have := congrArg List.length hc
    rw [hfile] at this
    simp [h4] at this
  have hok : ∀ fld ∈ snapHeader, fld.Ok C := by
    intro fld hfl
    have hc : ∀ fld ∈ snapHeader, (match fld.size with | .const _ => true | _ => false) = true ∧ (∀ e ∈ fld.dims, (match e with | .const _ => true | _ => false) = true) := by decide +kernel
    obtain ⟨c1, c2⟩ := hc fld hfl
    refine ⟨?_, ?_, hh _ (by rw [← header_rows C]; exact List.mem_map_of_mem hfl)⟩
    · revert c1; cases fld.size <;> simp [FExpr.value]
    · intro e he
      have := c2 e he
      revert this; cases e <;> simp [FExpr.value]
  have hpay : Section.payload big C ⟨true, gadgetHeader⟩ = snapHeader.flatMap (fun fld => (fld.row C).bytes big C) := by rw [← header_rows C, payload_rows]
  have hlen : (Section.payload big C ⟨true, gadgetHeader⟩).length = 192 := by
    have : ∀ l : List Row, (∀ r ∈ l, r.Fits C) → (l.flatMap (Row.bytes big C)).length = (l.map (fun r => r.width * r.shape.prod)).sum := by
      intro l hl
      induction l with
      | nil => rfl
      | cons r l ih => simp [length_rowBytes (hl r (by simp)), ih (fun x hx => hl x (by simp [hx]))]
    rw [← header_size, ← this _ hh]
    rfl
  obtain ⟨f2, S2, b1, b2, b3, b4, b5, b6⟩ := h.fields (s := s) hne false [] snapHeader (by simp) (by simp) (by decide +kernel) (by decide +kernel) (by simp only [List.map_nil, List.nil_append]; decide +kernel) hok
    (pre := pre0) (post := fill ++ markerBytes big 256 ++ post) (by rw [← hpay, hfile]; simp) (by rw [hoff, h4]; rfl)
  rw [← hpay, hlen, hoff] at b4
  simp only [List.map_nil, List.nil_append] at b3
  have hsk := b2.skip (o := 260) (by omega)
  have hskip : ({ f2 with offset := f2.offset + (256 + 4 - f2.offset) } : BFile) = { f2 with offset := 260 } := by rw [b4]; rfl
  have ho2 : OrderIs s f2.endian big := by rw [b5]; exact ho
  have hattr : ∀ (fld : BField) (a : Name), fld ∈ snapHeader → fld.attr = true → splitPath fld.name = (some "Header".toList, a) →
      BFile.attribute s file { f2 with offset := 260 } "Header".toList a = .ok (C fld.name) := by
    intro fld a hfl hat hsp
    obtain ⟨e, he, rfl⟩ : ∃ e ∈ S2, e.1 = fld := by
      have : fld ∈ S2.map Prod.fst := by rw [b3]; exact hfl
      simpa using this
    exact hsk.attribute hne ho2 he hat hsp (by decide +kernel)
  have ha1 := hattr (attr4 "Header/NumPart_ThisFile" [.const 6]) "NumPart_ThisFile".toList (by decide +kernel) rfl (by decide +kernel)
  have ha2 := hattr (attr8 "Header/MassTable" [.const 6]) "MassTable".toList (by decide +kernel) rfl (by decide +kernel)
  have hm := hsk.marker (s := s) (n := 256) (pre := pre0 ++ Section.payload big C ⟨true, gadgetHeader⟩ ++ fill) (post := post) (by rw [hfile])
    (by simp [hlen, hfill, h4])
  have hv : fileValue s f2.endian true (markerBytes big 256) = leBytes 4 256 := by rw [markerBytes, fileValue_store ho2]
  have hm' : BFile.readAndSkip s file { f2 with offset := 260 } uint32Type [] = ({ f2 with offset := 260 + 4, blocks := f2.blocks ++ [⟨int32Type, 260, [], f2.endian⟩] }, .ok [leBytes 4 256]) := by
    rw [← hv]; exact hm
  refine ⟨_, S2, ?_, hsk.append ⟨int32Type, 260, [], f2.endian⟩ rfl rfl f2.record, ho2, rfl, b3⟩
  unfold snapOpenHeader
  have n1 : (attr4 "Header/NumPart_ThisFile" [.const 6]).name = "Header/NumPart_ThisFile".toList := rfl
  have n2 : (attr8 "Header/MassTable" [.const 6]).name = "Header/MassTable".toList := rfl
  rw [n1] at ha1
  rw [n2] at ha2
  simp only [b1, hskip, ha1, ha2, hm', List.headD_cons]
  exact if_neg (by decide)

theorem standard_plain (C : Content) (width : String → Nat) : ∀ q ∈ standardQuantities C width, SimpleName q.name := by
  intro q hq
  have : q.name ∈ ["Coordinates".toList, "Velocities".toList, "ParticleIDs".toList, "Masses".toList, "InternalEnergy".toList, "Density".toList, "SmoothingLength".toList] := List.mem_map_of_mem (f := Quantity.name) hq
  have hall : ∀ n ∈ ["Coordinates".toList, "Velocities".toList, "ParticleIDs".toList, "Masses".toList, "InternalEnergy".toList, "Density".toList, "SmoothingLength".toList], n ≠ [] ∧ '/' ∉ n := by decide +kernel
  exact hall _ this

/-- The loop, for a file of which `k` records are there -/
theorem snapshot_loop {C : Content} {np : Nat → Nat} {fill : List Byte} {width : String → Nat} {extra : List (Quantity × TypeStr)} {k : Nat} (h : SnapshotFits C np fill width extra k) (s big : Bool) (rest : List Byte)
    (hend : (gadgetBlocks np (allQuantities C width extra)).length ≤ k ∨ rest.length < 4) :
    if (gadgetBlocks np (allQuantities C width extra)).length ≤ k ∨ 3 ≤ k then
      ∃ f S, gadgetSnapshot s (snapshotFile big C np fill width extra k rest) (extra.map blockOf) = .ok f ∧ Inv false (snapshotFile big C np fill width extra k rest) big C S f ∧ OrderIs s f.endian big ∧
        S.map Prod.fst = snapHeader ++ (storedQuantities C np width extra k).flatMap (quantityFields np)
    else gadgetSnapshot s (snapshotFile big C np fill width extra k rest) (extra.map blockOf) = .error .ioError := by
  set file := snapshotFile big C np fill width extra k rest with hfile
  have hstored : (gadgetBlocks np (allQuantities C width extra)).take k = (storedQuantities C np width extra k).map (fun q => Section.mk true (q.rows np)) := by
    unfold gadgetBlocks storedQuantities
    rw [List.map_take]
  have hlenb : (gadgetBlocks np (allQuantities C width extra)).length = (presentQuantities np (allQuantities C width extra)).length := by simp [gadgetBlocks, presentQuantities]
  have hF : file = markerBytes big 256 ++ Section.payload big C ⟨true, gadgetHeader⟩ ++ fill ++ markerBytes big 256 ++
      (((storedQuantities C np width extra k).map (fun q => Section.mk true (q.rows np))).flatMap (Section.bytes big C) ++ rest) := by
    rw [hfile, snapshotFile, gadgetBytes, hstored, Layout.bytes, List.append_assoc]
  obtain ⟨f, i1, i2, i3, i4⟩ := open_marker s big file (Section.payload big C ⟨true, gadgetHeader⟩ ++ (fill ++ (markerBytes big 256 ++
      (((storedQuantities C np width extra k).map (fun q => Section.mk true (q.rows np))).flatMap (Section.bytes big C) ++ rest)))) C (hF.trans (by simp only [List.append_assoc]))
  obtain ⟨f', S', j1, j2, j3, j4, j5⟩ := open_header i1 i2 i3 h.header h.fill (by simp) hF
  have hne : file ≠ [] := by
    intro hc
    have := congrArg List.length hc
    rw [hF] at this
    simp only [List.length_append, length_markerBytes, List.length_nil] at this
    omega
  have hlenH : (Section.payload big C ⟨true, gadgetHeader⟩).length = 192 := by
    have : ∀ l : List Row, (∀ r ∈ l, r.Fits C) → (l.flatMap (Row.bytes big C)).length = (l.map (fun r => r.width * r.shape.prod)).sum := by
      intro l hl
      induction l with
      | nil => rfl
      | cons r l ih => simp [length_rowBytes (hl r (by simp)), ih (fun x hx => hl x (by simp [hx]))]
    rw [← header_size, ← this _ h.header]
    rfl
  have hN : (C "Header/NumPart_ThisFile".toList).length = 6 := (h.header (head 4 [6] "NumPart_ThisFile") (by simp [gadgetHeader])).1
  have hloop := snapLoop_reads (s := s) (file := file) (big := big) (C := C) (np := np) (npart := (C "Header/NumPart_ThisFile".toList).map int32Value)
    (by intro i hi
        rw [← h.numbers i hi, List.getD_eq_getElem _ _ (by rw [List.length_map, hN]; exact hi), List.getD_eq_getElem _ _ (by rw [hN]; exact hi), List.getElem_map]) hne (rest := rest)
    (all_matches h.header width extra (fun p hp => (h.others p hp).1)) (S := S') (f := f') (pre := markerBytes big 256 ++ Section.payload big C ⟨true, gadgetHeader⟩ ++ fill ++ markerBytes big 256) (k := k) (count := 0)
    j2 j3 (by
      intro q hq
      obtain ⟨c1, c2, c3⟩ := h.stored q hq
      refine ⟨c1, c2, c3, ?_⟩
      rw [payload_length ⟨true, q.rows np⟩ c3 big false]
      exact h.records q hq)
    (by
      rw [j5]
      refine fields_pairwise np _ ?_ h.distinct
      intro q hq
      rcases List.mem_append.1 hq with hq | hq
      · exact standard_plain C width q hq
      · obtain ⟨p, hp, rfl⟩ := List.mem_map.1 hq
        exact (h.others p hp).2)
    (hF.trans (by simp only [storedQuantities, presentQuantities, List.append_assoc]))
    (by rw [j4]; simp only [List.length_append, length_markerBytes, hlenH, h.fill]; rfl)
    (by rw [← hlenb]; exact hend)
  rw [← hlenb, zero_add] at hloop
  have hrun : gadgetSnapshot s file (extra.map blockOf) = snapLoop s file ((C "Header/NumPart_ThisFile".toList).map int32Value) f' 0 (snapDatasets (C "Header/MassTable".toList) ++ extra.map blockOf) := by
    rw [i4, j1]
  rw [hrun]
  split
  · rename_i hcond
    rw [if_pos hcond] at hloop
    obtain ⟨f2, S2, c1, c2, c3, c4⟩ := hloop
    exact ⟨f2, S2, c1, c2, c3, by rw [c4, j5]; rfl⟩
  · rename_i hcond
    rw [if_neg hcond] at hloop
    exact hloop

theorem pieces_of_comps {n a b : Name} (h : comps n = [a, b]) : [a, b] = pieces n := by
  unfold comps at h
  split at h
  · simp at h
  · exact h.symm

/-- C53: the header and all quantities in the file are read, and no other datasets are there. The file is complete, or at least three records are there and not more than three bytes follow. -/
theorem C53_snapshot {C : Content} {np : Nat → Nat} {fill : List Byte} {width : String → Nat} {extra : List (Quantity × TypeStr)} {k : Nat} (h : SnapshotFits C np fill width extra k) (s big : Bool) (rest : List Byte)
    (hend : (gadgetBlocks np (allQuantities C width extra)).length ≤ k ∨ (3 ≤ k ∧ rest.length < 4)) :
    ∃ f, gadgetSnapshot s (snapshotFile big C np fill width extra k rest) (extra.map blockOf) = .ok f ∧
      (∀ r ∈ gadgetHeader, r.ReadBack s (snapshotFile big C np fill width extra k rest) C f) ∧
      (∀ q ∈ storedQuantities C np width extra k, ∀ r ∈ q.rows np, r.ReadBack s (snapshotFile big C np fill width extra k rest) C f) ∧
      ∀ name v, f.dataset s (snapshotFile big C np fill width extra k rest) name = .ok v → ∃ q ∈ storedQuantities C np width extra k, ∃ r ∈ q.rows np, pieces r.name = pieces name ∧ v = C r.name := by
  have hl := snapshot_loop h s big rest (by tauto)
  rw [if_pos (by tauto)] at hl
  obtain ⟨f, S, h1, h2, h3, h4⟩ := hl
  have hne : snapshotFile big C np fill width extra k rest ≠ [] := by
    intro hc
    have := congrArg List.length hc
    simp [snapshotFile, gadgetBytes] at this
  have hplain : ∀ q ∈ allQuantities C width extra, SimpleName q.name := by
    intro q hq
    rcases List.mem_append.1 hq with hq | hq
    · exact standard_plain C width q hq
    · obtain ⟨p, hp, rfl⟩ := List.mem_map.1 hq
      exact (h.others p hp).2
  have hback : ∀ fld ∈ snapHeader ++ (storedQuantities C np width extra k).flatMap (quantityFields np), fld.nameOk = true → (fld.row C).ReadBack s (snapshotFile big C np fill width extra k rest) C f := by
    intro fld hfl hok
    rw [← h4] at hfl
    obtain ⟨e, he, rfl⟩ := List.mem_map.1 hfl
    exact h2.readBack hne h3 he hok
  refine ⟨f, h1, ?_, ?_, ?_⟩
  · intro r hr
    rw [← header_rows C] at hr
    obtain ⟨fld, hfl, rfl⟩ := List.mem_map.1 hr
    have hall : ∀ fld ∈ snapHeader, fld.nameOk = true := by decide +kernel
    exact hback fld (List.mem_append_left _ hfl) (hall fld hfl)
  · intro q hq r hr
    rw [← quantityFields_rows C] at hr
    obtain ⟨fld, hfl, rfl⟩ := List.mem_map.1 hr
    refine hback fld (List.mem_append_right _ (List.mem_flatMap.2 ⟨q, hq, hfl⟩)) ?_
    obtain ⟨i, -, -, hi⟩ := mem_quantityFields hfl
    simp [BField.nameOk, hi]
  · intro name v hv
    have hg : ∃ id a, BGroup.getItem (name.length + 1) f.root name = .ok (.dataset id a) := by
      unfold BFile.dataset at hv
      split at hv
      · cases hv
      · cases hv
      · rename_i id a heq; exact ⟨id, a, heq⟩
    obtain ⟨id, a, hg⟩ := hg
    obtain ⟨k1, -⟩ := getItem_kind (name.length + 1) f.root name (by omega)
    rw [hg] at k1
    obtain ⟨e, he, hea, hec, hid⟩ := (h2.data (comps name) id).1 k1.symm
    have hmem : e.1 ∈ snapHeader ++ (storedQuantities C np width extra k).flatMap (quantityFields np) := by rw [← h4]; exact List.mem_map_of_mem he
    rcases List.mem_append.1 hmem with hm | hm
    · obtain ⟨n, -, hat⟩ := header_compat _ hm
      rw [hat] at hea; cases hea
    · obtain ⟨q, hq, hfl⟩ := List.mem_flatMap.1 hm
      refine ⟨q, hq, e.1.row C, by rw [← quantityFields_rows C]; exact List.mem_map_of_mem hfl, ?_, ?_⟩
      · obtain ⟨i, hi, hn, -⟩ := mem_quantityFields hfl
        rw [hn, comps_partType hi (hplain q (List.mem_of_mem_filter (List.mem_of_mem_take hq)))] at hec
        change pieces e.1.name = pieces name
        rw [hn, ← pieces_of_comps (comps_partType hi (hplain q (List.mem_of_mem_filter (List.mem_of_mem_take hq)))), pieces_of_comps hec.symm]
      · have hd := h2.dataset hne h3 he hea
        obtain ⟨k2, -⟩ := getItem_kind (e.1.name.length + 1) f.root e.1.name (by omega)
        rw [(h2.data (comps e.1.name) e.2).2 ⟨e, he, hea, rfl, rfl⟩] at k2
        unfold BFile.dataset at hv hd
        rw [hg] at hv
        rcases hit : BGroup.getItem (e.1.name.length + 1) f.root e.1.name with er | ⟨id', a'⟩ | g'
        · rw [hit] at hd; cases hd
        · rw [hit] at hd k2
          have : id' = id := by rw [← hid]; simpa [BNode.kind, Except.toOption] using k2
          rw [this] at hd
          simp only at hd hv
          rw [hd] at hv
          exact (Except.ok.inj hv).symm
        · rw [hit] at hd; cases hd

/-- Fewer than three records and nothing more: `IOError` -/
theorem C53_truncated {C : Content} {np : Nat → Nat} {fill : List Byte} {width : String → Nat} {extra : List (Quantity × TypeStr)} {k : Nat} (h : SnapshotFits C np fill width extra k) (s big : Bool) (rest : List Byte)
    (hk : k < 3) (hmore : k < (gadgetBlocks np (allQuantities C width extra)).length) (hrest : rest.length < 4) :
    gadgetSnapshot s (snapshotFile big C np fill width extra k rest) (extra.map blockOf) = .error .ioError := by
  have hl := snapshot_loop h s big rest (Or.inr hrest)
  rwa [if_neg (by omega)] at hl

/-- C52: a file which does not begin with the length of the header in one of the byte orders is rejected. -/
theorem C52_snapshot_rejected (s : Bool) (file : List Byte) (extra : List SnapBlock) (hne : file ≠ []) (h1 : file.take 4 ≠ markerBytes false 256) (h2 : file.take 4 ≠ markerBytes true 256) :
    gadgetSnapshot s file extra = .error .ioError := by
  by_cases h4 : file.length < 4
  · unfold gadgetSnapshot
    rw [eof_marker (f := .new) (by simp [BFile.new]) hne (by simp [BFile.new]; omega)]
  · have hm := readAndSkip_marker s file .new rfl (by simp [BFile.new]) (by simp [BFile.new]; omega)
    have hm' : BFile.readAndSkip s file .new uint32Type [] = ({ BFile.new with offset := BFile.new.offset + 4, blocks := BFile.new.blocks ++ [⟨int32Type, BFile.new.offset, [], BFile.new.endian⟩] },
      .ok [fileValue s '=' true (file.take 4)]) := hm
    have hl : (file.take 4).length = 4 := by simp; omega
    unfold gadgetSnapshot
    rw [hm']
    simp only [List.headD_cons]
    generalize file.take 4 = v at *
    refine if_pos ⟨?_, ?_⟩
    · intro hc
      have : fileValue s '=' true v = leBytes 4 256 := leNat_inj (by unfold fileValue; split <;> simp [hl]) (by rw [hc]; decide)
      unfold fileValue at this
      cases s
      · rw [if_pos (by simp)] at this
        exact h2 (by rw [← List.reverse_reverse v, this]; rfl)
      · rw [if_neg (by simp)] at this
        exact h1 (by rw [this]; rfl)
    · intro hc
      have : fileValue s '=' true v = leBytes 4 65536 := leNat_inj (by unfold fileValue; split <;> simp [hl]) (by rw [hc]; decide)
      unfold fileValue at this
      cases s
      · rw [if_pos (by simp)] at this
        exact h1 (by rw [← List.reverse_reverse v, this]; decide)
      · rw [if_neg (by simp)] at this
        exact h2 (by rw [this]; decide)

/-! ### A case: gas, dark matter and stars in single precision, IDs of 8 bytes, individual masses for gas and stars, and one more quantity -/

namespace ExSnap

def np : Nat → Nat := fun i => [2, 3, 0, 0, 1, 0].getD i 0

def width : String → Nat := fun n => if n = "ParticleIDs" then 8 else 4

def metals : Quantity := ⟨"Metallicity".toList, [2], 8, fun i => i = 4⟩

/-- The mass table has zero for types 0, 2, 3, 5 and minus zero for type 4. -/
def base : Content := fun name =>
  if name = "Header/NumPart_ThisFile".toList then (List.range 6).map (fun i => leBytes 4 (np i))
  else if name = "Header/MassTable".toList then [leBytes 8 0, leBytes 8 17, leBytes 8 0, leBytes 8 0, leBytes 8 (2 ^ 63), leBytes 8 0]
  else []

def C : Content := fun name => if base name = [] then sampleContent (⟨true, gadgetHeader⟩ :: gadgetBlocks np (allQuantities base width [(metals, .float)])) [] name else base name

theorem fits : SnapshotFits C np (List.replicate 64 0) width [(metals, .float)] 8 := by
  constructor
  all_goals decide +kernel

/-- Masses are stored for gas and stars. -/
example : ((allQuantities C width [(metals, .float)]).getD 3 metals).rows np =
    [⟨"PartType0/Masses".toList, 4, [2], true, none⟩, ⟨"PartType4/Masses".toList, 4, [1], true, none⟩] := by decide +kernel

/-- A complete file, with any bytes after it -/
example (s big : Bool) (rest : List Byte) : ∃ f, gadgetSnapshot s (snapshotFile big C np (List.replicate 64 0) width [(metals, .float)] 8 rest) [blockOf (metals, .float)] = .ok f ∧
    f.dataset s (snapshotFile big C np (List.replicate 64 0) width [(metals, .float)] 8 rest) "PartType4/Metallicity".toList = .ok [leBytes 8 21001, leBytes 8 21008] := by
  obtain ⟨f, h1, -, h2, -⟩ := C53_snapshot fits s big rest (Or.inl (by decide +kernel))
  refine ⟨f, h1, ?_⟩
  have := h2 metals (by
    unfold storedQuantities
    rw [List.take_of_length_le (by decide +kernel), List.mem_filter]
    exact ⟨List.mem_append_right _ (by simp), by decide +kernel⟩) ⟨"PartType4/Metallicity".toList, 8, [1, 2], true, none⟩ (by decide +kernel)
  rw [this.1]
  decide +kernel

theorem fits4 : SnapshotFits C np (List.replicate 64 0) width [(metals, .float)] 4 := by
  constructor
  all_goals decide +kernel

/-- The file ends after four records. -/
example (s big : Bool) : ∃ f, gadgetSnapshot s (snapshotFile big C np (List.replicate 64 0) width [(metals, .float)] 4 []) [blockOf (metals, .float)] = .ok f :=
  (C53_snapshot fits4 s big [] (Or.inr (by decide))).imp (fun _ h => h.1)

theorem fits2 : SnapshotFits C np (List.replicate 64 0) width [(metals, .float)] 2 := by
  constructor
  all_goals decide +kernel

/-- The file ends after two records. -/
example (s big : Bool) : gadgetSnapshot s (snapshotFile big C np (List.replicate 64 0) width [(metals, .float)] 2 []) [blockOf (metals, .float)] = .error .ioError :=
  C53_truncated fits2 s big [] (by decide) (by decide +kernel) (by decide)

/-- An HDF5 file is rejected. -/
example (s : Bool) : gadgetSnapshot s [137, 72, 68, 70, 13, 10, 26, 10] [] = .error .ioError := C52_snapshot_rejected s _ _ (by decide) (by decide) (by decide)

end ExSnap

end Verif
