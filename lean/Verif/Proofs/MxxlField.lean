import Verif.Proofs.FormatsPlain
import Mathlib.Tactic.Ring
import Mathlib.Tactic.Positivity

/-! Proofs about the density fields of the Millennium-XXL simulation -/

namespace Verif

theorem wrapInt_small {bits : Nat} (hb : bits = 32 ∨ bits = 64) {x : Int} (h0 : 0 ≤ x) (h1 : x < 2147483648) : wrapInt bits x = x := by
  rcases hb with rfl | rfl <;> simp only [wrapInt] <;> norm_num <;> omega

theorem wrapInt_dvd {bits : Nat} (hb : bits = 32 ∨ bits = 64) {x : Int} (h : (4294967296 : Int) ∣ x) : (4294967296 : Int) ∣ wrapInt bits x ∨ wrapInt bits x = 0 := by
  rcases hb with rfl | rfl <;> simp only [wrapInt] <;> norm_num <;> omega

def mxxlHeader : List BField := [dset4 "NTask" [], dset8 "BoxSize" [], dset4 "nn" [], dset4 "isw_slabs_per_task" []]

def mxxlGrid : List BField := [dset4 "grid" [.item "isw_slabs_per_task".toList, .item "nn".toList, .item "nn".toList]]

section
variable {t : Bool} {file : List Byte} {big : Bool} {C : Content} {S : List (BField × Nat)} {f : BFile} {s : Bool}

/-- Reading four bytes -/
theorem Inv.bytes4 (h : Inv t file big C S f) {pre w post : List Byte} (hw : w.length = 4) (hfile : file = pre ++ w ++ post) (hpre : (pre.length : Int) = f.offset) :
    ∃ f', f.readAndSkip s file int32Type [] = (f', .ok [fileValue s f.endian true w]) ∧ Inv t file big C S f' ∧ f'.offset = f.offset + 4 ∧ f'.endian = f.endian := by
  refine ⟨_, ?_, h.append ⟨int32Type, f.offset, [], f.endian⟩ rfl rfl f.record, rfl, rfl⟩
  rw [readAndSkip_marker s file f h.endian h.offset (by rw [hfile]; simp; omega)]
  have : f.offset.toNat = pre.length := by omega
  rw [this, hfile]
  have : slice (pre ++ w ++ post) pre.length 4 = w := by simp [slice, List.append_assoc, List.drop_append, ← hw]
  rw [this]
  rfl

/-- Bytes in one order are the reversed bytes in the other one. -/
theorem storeItem_not (v : List Byte) : storeItem (!big) true v = storeItem big true v.reverse := by
  cases big <;> simp [storeItem]

/-- Up to the first test of the length of the grid -/
theorem mxxl_start (bits : Nat) (s : Bool) (D : Content) (w0 w1 w2 post : List Byte) (h0 : w0.length = 4) (h1 : w1.length = 4) (h2 : w2.length = 4) (h8 : int32Value (fileValue s '=' true w0) ≠ 8)
    (hok : ∀ fld ∈ mxxlHeader, fld.Ok D) (hfile : file = w0 ++ mxxlHeader.flatMap (fun fld => (fld.row D).bytes s D) ++ w1 ++ w2 ++ post) :
    ∃ f S, Inv true file s D S f ∧ S.map Prod.fst = mxxlHeader ∧ f.offset = 32 ∧ OrderIs s f.endian s ∧
      mxxlField bits s file = (if int32Value (fileValue s f.endian true w2) ≠ wrapInt bits (4 * scalarInt D "isw_slabs_per_task".toList * scalarInt D "nn".toList * scalarInt D "nn".toList) then .error .ioError
        else match addFields s file f mxxlGrid with
          | .error e => .error e
          | .ok f => match f.readAndSkip s file int32Type [] with
            | (_, .error e) => .error e
            | (f, .ok irec) => if int32Value (irec.headD []) ≠ wrapInt bits (4 * scalarInt D "isw_slabs_per_task".toList * scalarInt D "nn".toList * scalarInt D "nn".toList) then .error .ioError else .ok f) := by
  have hne : file ≠ [] := by rw [hfile]; intro hc; have := congrArg List.length hc; simp only [List.length_append, List.length_nil] at this; omega
  obtain ⟨f1, a1, a2, a3, -⟩ := (inv_new true file s D).bytes4 (s := s) (pre := []) h0 (post := mxxlHeader.flatMap (fun fld => (fld.row D).bytes s D) ++ w1 ++ w2 ++ post) (by rw [hfile]; simp) (by simp [BFile.new])
  have hsw : (int32Value (fileValue s BFile.new.endian true w0) != 8) = true := by simpa [BFile.new] using h8
  have hvalid : validEndian (if s then '>' else '<') = true := by cases s <;> rfl
  set f2 : BFile := { f1 with endian := if s then '>' else '<', blocks := f1.blocks.map (fun b => { b with endian := if s then '>' else '<' }) } with hf2
  have b1 : (f1.enableByteswap s true).1 = f2 := by cases s <;> simp [BFile.enableByteswap, BFile.setEndian, validEndian, hf2]
  have b2 : Inv true file s D [] f2 := a2.swap hvalid f1.record
  have b3 : f2.offset = 4 := by rw [hf2]; simp [a3, BFile.new]
  have hord : OrderIs s f2.endian s := by rw [hf2]; cases s <;> simp [OrderIs]
  have hlen : (mxxlHeader.flatMap (fun fld => (fld.row D).bytes s D)).length = 20 := by
    have hh : ∀ fld ∈ mxxlHeader, ((fld.row D).bytes s D).length = (fld.row D).width * (fld.row D).shape.prod := fun fld hfl => length_rowBytes (hok fld hfl).2.2 s
    simp only [mxxlHeader, List.mem_cons, List.not_mem_nil, or_false, forall_eq_or_imp, forall_eq] at hh
    obtain ⟨x1, x2, x3, x4⟩ := hh
    simp only [mxxlHeader, List.flatMap_cons, List.flatMap_nil, List.length_append, x1, x2, x3, x4]
    simp [dset4, dset8, BField.row, FExpr.value]
  obtain ⟨f3, S, c1, c2, c3, c4, c5, -⟩ := b2.fields (s := s) hne false [] mxxlHeader (by simp) (by simp) (by decide +kernel) (by decide +kernel) (by decide +kernel) hok (pre := w0) (post := w1 ++ w2 ++ post) (by rw [hfile]; simp) (by omega)
  simp only [List.map_nil, List.nil_append] at c3
  rw [hlen, b3] at c4
  obtain ⟨f4, d1, d2, d3, d4⟩ := c2.bytes4 (s := s) (w := w1) h1 (pre := w0 ++ mxxlHeader.flatMap (fun fld => (fld.row D).bytes s D)) (post := w2 ++ post) (by rw [hfile]; simp) (by rw [c4, List.length_append, hlen, h0]; norm_num)
  have hord4 : OrderIs s f4.endian s := by rw [d4, c5]; exact hord
  obtain ⟨f5, e1, e2, e3, e4⟩ := d2.bytes4 (s := s) (w := w2) h2 (pre := w0 ++ mxxlHeader.flatMap (fun fld => (fld.row D).bytes s D) ++ w1) (post := post) (by rw [hfile]) (by rw [d3, c4, List.length_append, List.length_append, hlen, h0, h1]; norm_num)
  have hin : ∀ name : Name, mxxlHeader.any (fun f => !f.attr && f.name == name) = true → f4.int s file name = .ok (scalarInt D name) := fun name hn => d2.int hne hord4 (before := mxxlHeader) (by rw [c3]; exact fun g hg => hg) hn
  refine ⟨f5, S, e2, c3, by omega, by rw [e4]; exact hord4, ?_⟩
  have c1' : addFields s file f2 [dset4 "NTask" [], dset8 "BoxSize" [], dset4 "nn" [], dset4 "isw_slabs_per_task" []] = .ok f3 := c1
  unfold mxxlField
  simp only [a1, List.headD_cons, hsw, b1, c1', d1, hin "nn".toList (by decide +kernel), hin "isw_slabs_per_task".toList (by decide +kernel), e1, List.headD_cons, e4]
  rfl

end

theorem mxxl_header_rows (C : Content) (slabs nn : Nat) : Files.mxxlField slabs nn = [⟨true, mxxlHeader.map (BField.row C)⟩, ⟨true, [⟨"grid".toList, 4, [slabs, nn, nn], true, none⟩]⟩] := rfl

theorem mxxl_ok (C : Content) (slabs nn : Nat) (hfit : (Files.mxxlField slabs nn).Fits C) : ∀ fld ∈ mxxlHeader, fld.Ok C := by
  intro fld hfl
  have hf := hfit.rows ⟨true, mxxlHeader.map (BField.row C)⟩ (by rw [mxxl_header_rows C]; simp) (fld.row C) (List.mem_map_of_mem hfl)
  refine ⟨?_, ?_, hf⟩
  · simp only [mxxlHeader, List.mem_cons, List.not_mem_nil, or_false] at hfl
    rcases hfl with rfl | rfl | rfl | rfl <;> simp [dset4, dset8, FExpr.value]
  · simp only [mxxlHeader, List.mem_cons, List.not_mem_nil, or_false] at hfl
    rcases hfl with rfl | rfl | rfl | rfl <;> simp [dset4, dset8]

/-- The bytes of the file -/
theorem mxxl_bytes (C : Content) (slabs nn : Nat) (hfit : (Files.mxxlField slabs nn).Fits C) (big : Bool) :
    (Files.mxxlField slabs nn).bytes big C = markerBytes big 20 ++ mxxlHeader.flatMap (fun fld => (fld.row C).bytes big C) ++ markerBytes big 20 ++ markerBytes big (4 * (slabs * (nn * nn))) ++
      ((C "grid".toList).flatMap (storeItem big true) ++ markerBytes big (4 * (slabs * (nn * nn)))) := by
  have hh : ∀ fld ∈ mxxlHeader, ((fld.row C).bytes big C).length = (fld.row C).width * (fld.row C).shape.prod := fun fld hfl => length_rowBytes (mxxl_ok C slabs nn hfit fld hfl).2.2 big
  simp only [mxxlHeader, List.mem_cons, List.not_mem_nil, or_false, forall_eq_or_imp, forall_eq] at hh
  obtain ⟨x1, x2, x3, x4⟩ := hh
  have hlen : (mxxlHeader.flatMap (fun fld => (fld.row C).bytes big C)).length = 20 := by
    simp only [mxxlHeader, List.flatMap_cons, List.flatMap_nil, List.length_append, x1, x2, x3, x4]
    simp [dset4, dset8, BField.row, FExpr.value]
  have hg := length_rowBytes (hfit.rows ⟨true, [⟨"grid".toList, 4, [slabs, nn, nn], true, none⟩]⟩ (by simp [Files.mxxlField]) ⟨"grid".toList, 4, [slabs, nn, nn], true, none⟩ (by simp)) big
  simp only [List.prod_cons, List.prod_nil, Nat.mul_one] at hg
  rw [mxxl_header_rows C]
  simp only [Layout.bytes, List.flatMap_cons, List.flatMap_nil, Section.bytes, if_true, payload_rows, hlen, List.append_nil]
  have hp : (Section.mk true [⟨"grid".toList, 4, [slabs, nn, nn], true, none⟩]).payload big C = (C "grid".toList).flatMap (storeItem big true) := by simp [Section.payload, Row.bytes]
  rw [hp]
  have : ((C "grid".toList).flatMap (storeItem big true)).length = 4 * (slabs * (nn * nn)) := hg
  rw [this]
  simp only [List.append_assoc]

theorem mxxl_grid_length (C : Content) (slabs nn : Nat) (hfit : (Files.mxxlField slabs nn).Fits C) (big : Bool) : ((C "grid".toList).flatMap (storeItem big true)).length = 4 * (slabs * (nn * nn)) ∧ 4 * (slabs * (nn * nn)) < 2147483648 := by
  have hg : ∀ b, ((C "grid".toList).flatMap (storeItem b true)).length = 4 * (slabs * (nn * nn)) := by
    intro b
    have hg := length_rowBytes (hfit.rows ⟨true, [⟨"grid".toList, 4, [slabs, nn, nn], true, none⟩]⟩ (by simp [Files.mxxlField]) ⟨"grid".toList, 4, [slabs, nn, nn], true, none⟩ (by simp)) b
    simp only [List.prod_cons, List.prod_nil, Nat.mul_one] at hg
    exact hg
  refine ⟨hg big, ?_⟩
  have hr := hfit.records ⟨true, [⟨"grid".toList, 4, [slabs, nn, nn], true, none⟩]⟩ (by simp [Files.mxxlField]) rfl
  have hp : (Section.mk true [⟨"grid".toList, 4, [slabs, nn, nn], true, none⟩]).payload false C = (C "grid".toList).flatMap (storeItem false true) := by simp [Section.payload, Row.bytes]
  rw [hp, hg] at hr
  exact hr

theorem marker_ne_8 (s big : Bool) : int32Value (fileValue s '=' true (markerBytes big 20)) ≠ 8 := by cases s <;> cases big <;> decide +kernel

theorem mxxl_foreign (bits : Nat) (hb : bits = 32 ∨ bits = 64) (C : Content) (slabs nn : Nat) (h1 : scalarInt C "isw_slabs_per_task".toList = slabs) (h2 : scalarInt C "nn".toList = nn) (hfit : (Files.mxxlField slabs nn).Fits C) :
    (Files.mxxlField slabs nn).ReadOn false C (mxxlField bits) := by
  intro s rest
  have hs : (s != false) = s := by simp
  rw [hs]
  set file := (Files.mxxlField slabs nn).bytes s C ++ rest with hfile
  have hbytes := mxxl_bytes C slabs nn hfit s
  obtain ⟨hgl, hlt⟩ := mxxl_grid_length C slabs nn hfit s
  set n := 4 * (slabs * (nn * nn)) with hn
  have hokH := mxxl_ok C slabs nn hfit
  have hne : file ≠ [] := by rw [hfile, hbytes]; intro hc; have := congrArg List.length hc; simp only [List.length_append, List.length_nil, length_markerBytes] at this; omega
  obtain ⟨f, S, a1, a2, a3, a4, a5⟩ := mxxl_start (file := file) bits s C (markerBytes s 20) (markerBytes s 20) (markerBytes s n) ((C "grid".toList).flatMap (storeItem s true) ++ markerBytes s n ++ rest) (by simp) (by simp) (by simp)
    (marker_ne_8 s s) hokH (by rw [hfile, hbytes]; simp only [List.append_assoc])
  have hw : wrapInt bits (4 * scalarInt C "isw_slabs_per_task".toList * scalarInt C "nn".toList * scalarInt C "nn".toList) = n := by
    rw [h1, h2, show (4 : Int) * slabs * nn * nn = (n : Nat) from by rw [hn, Nat.cast_mul, Nat.cast_mul, Nat.cast_mul]; push_cast; ring]
    exact wrapInt_small hb (by omega) (by omega)
  have hlenH : (mxxlHeader.flatMap (fun fld => (fld.row C).bytes s C)).length = 20 := by
    have hh : ∀ fld ∈ mxxlHeader, ((fld.row C).bytes s C).length = (fld.row C).width * (fld.row C).shape.prod := fun fld hfl => length_rowBytes (hokH fld hfl).2.2 s
    simp only [mxxlHeader, List.mem_cons, List.not_mem_nil, or_false, forall_eq_or_imp, forall_eq] at hh
    obtain ⟨x1, x2, x3, x4⟩ := hh
    simp only [mxxlHeader, List.flatMap_cons, List.flatMap_nil, List.length_append, x1, x2, x3, x4]
    simp [dset4, dset8, BField.row, FExpr.value]
  have hrow : ∀ fld ∈ mxxlGrid, fld.row C = ⟨"grid".toList, 4, [slabs, nn, nn], true, none⟩ := by
    intro fld hfl
    simp only [mxxlGrid, List.mem_cons, List.not_mem_nil, or_false] at hfl
    subst hfl
    simp only [dset4, BField.row, FExpr.value, BField.group, List.map_cons, List.map_nil, h1, h2, Int.toNat_natCast, Bool.false_eq_true, if_false]
  have hokG : ∀ fld ∈ mxxlGrid, fld.Ok C := by
    intro fld hfl
    have hr := hrow fld hfl
    simp only [mxxlGrid, List.mem_cons, List.not_mem_nil, or_false] at hfl
    subst hfl
    refine ⟨by simp [dset4, FExpr.value], ?_, ?_⟩
    · simp only [dset4, List.mem_cons, List.not_mem_nil, or_false, forall_eq_or_imp, forall_eq, FExpr.value, h1, h2]; omega
    · rw [hr]; exact hfit.rows ⟨true, [⟨"grid".toList, 4, [slabs, nn, nn], true, none⟩]⟩ (by simp [Files.mxxlField]) _ (by simp)
  have hgb : mxxlGrid.flatMap (fun fld => (fld.row C).bytes s C) = (C "grid".toList).flatMap (storeItem s true) := by
    have hr := hrow _ (show dset4 "grid" [.item "isw_slabs_per_task".toList, .item "nn".toList, .item "nn".toList] ∈ mxxlGrid by simp [mxxlGrid])
    simp only [mxxlGrid, List.flatMap_cons, List.flatMap_nil, List.append_nil, hr, Row.bytes]
  have hpre : (markerBytes s 20 ++ mxxlHeader.flatMap (fun fld => (fld.row C).bytes s C) ++ markerBytes s 20 ++ markerBytes s n).length = 32 := by
    simp only [List.length_append, length_markerBytes, hlenH]
  obtain ⟨f', S', b1, b2, b3, b4, b5, -⟩ := a1.fields (s := s) hne false mxxlHeader mxxlGrid (by rw [a2]; exact fun g hg => hg) (fun _ => a4) (by decide +kernel) (by decide +kernel) (by rw [a2]; decide +kernel) hokG
    (pre := markerBytes s 20 ++ mxxlHeader.flatMap (fun fld => (fld.row C).bytes s C) ++ markerBytes s 20 ++ markerBytes s n) (post := markerBytes s n ++ rest)
    (by rw [hgb, hfile, hbytes]; simp only [List.append_assoc]) (by rw [a3, hpre]; rfl)
  have ho' : OrderIs s f'.endian s := by rw [b5]; exact a4
  rw [hgb, hgl, a3] at b4
  obtain ⟨f'', c1, c2, c3, c4⟩ := b2.bytes4 (s := s) (w := markerBytes s n) (by simp) (pre := markerBytes s 20 ++ mxxlHeader.flatMap (fun fld => (fld.row C).bytes s C) ++ markerBytes s 20 ++ markerBytes s n ++ (C "grid".toList).flatMap (storeItem s true))
    (post := rest) (by rw [hfile, hbytes]; simp only [List.append_assoc]) (by rw [b4, List.length_append, hpre, hgl]; push_cast; rfl)
  have ho'' : OrderIs s f''.endian s := by rw [c4]; exact ho'
  have hv : ∀ e, OrderIs s e s → int32Value (fileValue s e true (markerBytes s n)) = n := by
    intro e he
    rw [markerBytes, fileValue_store he, int32_leBytes n hlt]
  refine ⟨f'', ?_, ?_, ?_, ?_⟩
  rotate_left 2
  · intro name hn
    apply c2.absent
    intro e he
    have hm : e.1 ∈ S'.map Prod.fst := List.mem_map_of_mem he
    rw [b3, a2, List.mem_append] at hm
    rcases hm with hm | hm
    · exact hn ⟨true, mxxlHeader.map (BField.row C)⟩ (by rw [mxxl_header_rows C]; simp) (e.1.row C) (List.mem_map_of_mem hm)
    · have := hn ⟨true, [⟨"grid".toList, 4, [slabs, nn, nn], true, none⟩]⟩ (by simp [Files.mxxlField]) ⟨"grid".toList, 4, [slabs, nn, nn], true, none⟩ (by simp)
      rw [← hrow e.1 hm] at this
      exact this
  rotate_right 2
  · rw [a5, hw, if_neg (by rw [hv _ a4]; simp)]
    simp only [b1, c1, List.headD_cons, hv _ ho']
    simp
  · intro sec hsec r hr
    have hback : ∀ fld, fld.nameOk = true → fld ∈ S'.map Prod.fst → (fld.row C).ReadBack s file C f'' := by
      intro fld hnm hm
      obtain ⟨e, he, rfl⟩ := List.mem_map.1 hm
      exact c2.readBack hne ho'' he hnm
    rw [mxxl_header_rows C] at hsec
    simp only [List.mem_cons, List.not_mem_nil, or_false] at hsec
    rcases hsec with rfl | rfl
    · obtain ⟨fld, hfl, rfl⟩ := List.mem_map.1 hr
      refine hback fld ?_ (by rw [b3, a2]; simp [hfl])
      have : ∀ fld ∈ mxxlHeader, fld.nameOk = true := by decide +kernel
      exact this fld hfl
    · simp only [List.mem_cons, List.not_mem_nil, or_false] at hr
      subst hr
      have hm : dset4 "grid" [.item "isw_slabs_per_task".toList, .item "nn".toList, .item "nn".toList] ∈ mxxlGrid := by simp [mxxlGrid]
      rw [← hrow _ hm]
      exact hback _ (by decide +kernel) (by rw [b3]; exact List.mem_append_right _ hm)
  · rw [c2.used, c3, b4, hfile, hbytes]
    simp only [List.length_append, length_markerBytes, hlenH, hgl]
    push_cast
    constructor
    · intro hh
      exact List.eq_nil_of_length_eq_zero (by omega)
    · rintro rfl; simp only [List.length_nil]; omega

theorem reverse_dvd {v : List Byte} (hl : v.length = 4) (h1 : 0 ≤ int32Value v) (h2 : int32Value v ≤ 65535) : (65536 : Int) ∣ int32Value v.reverse := by
  have ha' := int32_of_nonneg hl (by omega)
  generalize hL : int32Value v = L at *
  unfold int32Value
  clear hL
  match v, hl with
  | [⟨a, _⟩, ⟨b, _⟩, ⟨c, _⟩, ⟨d, _⟩], _ =>
    simp only [leNat, List.reverse_cons, List.reverse_nil, List.nil_append, List.cons_append] at ha' ⊢
    push_cast at ha' ⊢
    have hd : d = 0 := by omega
    have hc : c = 0 := by omega
    subst hd hc
    split <;> omega

theorem reverse_small_ne_zero {v : List Byte} (hl : v.length = 4) (h : leNat v ≠ 0) : int32Value v.reverse ≠ 0 ∧ -4294967296 < int32Value v.reverse ∧ int32Value v.reverse < 4294967296 := by
  unfold int32Value
  match v, hl with
  | [⟨a, _⟩, ⟨b, _⟩, ⟨c, _⟩, ⟨d, _⟩], _ =>
    simp only [leNat, List.reverse_cons, List.reverse_nil, List.nil_append, List.cons_append] at h ⊢
    push_cast at h ⊢
    split <;> omega

theorem mxxl_native (bits : Nat) (hb : bits = 32 ∨ bits = 64) (C : Content) (slabs nn : Nat) (h2 : scalarInt C "nn".toList = nn) (hfit : (Files.mxxlField slabs nn).Fits C)
    (hs0 : 0 < slabs) (hn0 : 0 < nn) (hn1 : nn ≤ 65535) (s : Bool) (rest : List Byte) : mxxlField bits s ((Files.mxxlField slabs nn).bytes (s != true) C ++ rest) = .error .ioError := by
  have hs : (s != true) = !s := by simp
  rw [hs]
  set D : Content := fun name => (C name).map List.reverse with hD
  have hokH := mxxl_ok C slabs nn hfit
  have hrows : ∀ fld ∈ mxxlHeader, (fld.row C).bytes (!s) C = (fld.row D).bytes s D ∧ fld.Ok D := by
    intro fld hfl
    obtain ⟨k1, k2, k3⟩ := hokH fld hfl
    simp only [mxxlHeader, List.mem_cons, List.not_mem_nil, or_false] at hfl
    rcases hfl with rfl | rfl | rfl | rfl <;>
    · refine ⟨?_, by simp [dset4, dset8, FExpr.value], by simp [dset4, dset8], ?_, ?_⟩
      · simp only [Row.bytes, BField.row, dset4, dset8, hD, List.flatMap_map, Function.comp_def]; exact List.flatMap_congr (fun v _ => storeItem_not v)
      · simpa [BField.row, dset4, dset8, hD, FExpr.value] using k3.1
      · intro v hv
        simp only [BField.row, dset4, dset8, hD, List.mem_map] at hv
        obtain ⟨u, hu, rfl⟩ := hv
        rw [List.length_reverse]
        exact k3.2 u hu
  have hH : mxxlHeader.flatMap (fun fld => (fld.row C).bytes (!s) C) = mxxlHeader.flatMap (fun fld => (fld.row D).bytes s D) := by
    have : ∀ l : List BField, (∀ fld ∈ l, fld ∈ mxxlHeader) → l.flatMap (fun fld => (fld.row C).bytes (!s) C) = l.flatMap (fun fld => (fld.row D).bytes s D) := by
      intro l hl
      induction l with
      | nil => rfl
      | cons g l ih => simp only [List.flatMap_cons, ih (fun x hx => hl x (by simp [hx])), (hrows g (hl g (by simp))).1]
    exact this _ (fun _ h => h)
  obtain ⟨-, hlt⟩ := mxxl_grid_length C slabs nn hfit s
  set n := 4 * (slabs * (nn * nn)) with hn
  have hnpos : 0 < n := by rw [hn]; positivity
  obtain ⟨f, S, a1, a2, a3, a4, a5⟩ := mxxl_start (file := (Files.mxxlField slabs nn).bytes (!s) C ++ rest) bits s D (markerBytes (!s) 20) (markerBytes (!s) 20) (markerBytes (!s) n)
    ((C "grid".toList).flatMap (storeItem (!s) true) ++ markerBytes (!s) n ++ rest) (by simp) (by simp) (by simp)
    (marker_ne_8 s _) (fun fld hfl => (hrows fld hfl).2) (by rw [mxxl_bytes C slabs nn hfit, hH]; simp only [List.append_assoc, hn])
  have hv : fileValue s f.endian true (markerBytes (!s) n) = (leBytes 4 n).reverse := by rw [markerBytes, storeItem_not, fileValue_store a4]
  have hfitn := (hokH (dset4 "nn" []) (by simp [mxxlHeader])).2.2
  have hlen1 : (C "nn".toList).length = 1 := by simpa [BField.row, dset4] using hfitn.1
  obtain ⟨v, hvn⟩ := List.length_eq_one_iff.1 hlen1
  have hv4 : v.length = 4 := by
    have := hfitn.2 v (by change v ∈ C "nn".toList; rw [hvn]; exact List.mem_singleton_self v)
    simpa [BField.row, dset4, FExpr.value] using this
  have hnv : int32Value v = nn := by rw [← h2, scalarInt, hvn]; rfl
  have hDn : scalarInt D "nn".toList = int32Value v.reverse := by simp only [scalarInt, hD, hvn]; rfl
  obtain ⟨k, hk⟩ := reverse_dvd hv4 (by omega) (by omega)
  obtain ⟨q1, q2, q3⟩ := reverse_small_ne_zero (v := leBytes 4 n) (by simp) (by rw [leNat_leBytes 4 n (by norm_num; omega)]; omega)
  have hdvd : (4294967296 : Int) ∣ 4 * scalarInt D "isw_slabs_per_task".toList * scalarInt D "nn".toList * scalarInt D "nn".toList :=
    ⟨4 * scalarInt D "isw_slabs_per_task".toList * k * k, by rw [hDn, hk]; ring⟩
  rw [a5, if_pos]
  rw [hv]
  intro hc
  rcases wrapInt_dvd hb hdvd with h | h
  · rw [← hc] at h; omega
  · omega

end Verif
