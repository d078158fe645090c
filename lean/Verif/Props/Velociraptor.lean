import Verif.Proofs.Velociraptor

/-! C100: properties files of Velociraptor -/

namespace Verif

theorem velociraptor_fit {keep : Bool} {C : Content} {n m : Nat} (hm : leNat ((C "Header/ng".toList).headD []) = m) (hfit : (Files.velociraptor keep n m).Fits C) :
    ∀ fld ∈ velociraptorFixed ++ (List.range n).map velociraptorEntry, fld.Ok C := by
  intro fld hfl
  obtain ⟨⟨⟨k, hk⟩, hd⟩, _⟩ := velociraptor_header hfl
  rw [← velociraptor_layout keep C n m hm] at hfit
  refine ⟨by rw [hk]; exact Int.natCast_nonneg k, by rw [hd]; simp, ?_⟩
  exact hfit.rows _ (by rw [PlainFormat.layout]; exact List.mem_cons_self) _ (List.mem_map_of_mem hfl)

theorem velociraptor_fixed_length (C : Content) : (velociraptorFixed.map (fun fld => (fld.row C).width * (fld.row C).shape.prod)).sum = 32 := rfl

theorem velociraptor_hsize_name : "Header".toList ++ '/' :: "hsize".toList = "Header/hsize".toList := by decide +kernel

theorem velociraptor_hsize_scoped : (splitPath ("Header".toList ++ '/' :: "hsize".toList) == (some "Header".toList, "hsize".toList) && splitPath "Header".toList == (none, "Header".toList) &&
    velociraptorFixed.any (fun f => f.attr && f.name == "Header".toList ++ '/' :: "hsize".toList)) = true := by decide +kernel

theorem velociraptor_head_bytes {C : Content} {n : Nat} (hok : ∀ fld ∈ velociraptorFixed ++ (List.range n).map velociraptorEntry, fld.Ok C) (big : Bool) :
    ((velociraptorFixed ++ (List.range n).map velociraptorEntry).flatMap (fun fld => (fld.row C).bytes big C)).length ≥ 32 := by
  rw [List.flatMap_append, List.length_append]
  have hl : ∀ fld ∈ velociraptorFixed, ((fld.row C).bytes big C).length = (fld.row C).width * (fld.row C).shape.prod := fun fld hfl => length_rowBytes (hok fld (List.mem_append_left _ hfl)).2.2 _
  have : (velociraptorFixed.flatMap (fun fld => (fld.row C).bytes big C)).length = 32 := by
    rw [List.length_flatMap, List.map_congr_left hl]
    exact velociraptor_fixed_length C
  omega

theorem velociraptor_begin {keep : Bool} {C : Content} {n m : Nat} (hm : leNat ((C "Header/ng".toList).headD []) = m) (big : Bool) (rest : List Byte) :
    ∃ post, (Files.velociraptor keep n m).bytes big C ++ rest = (velociraptorFixed ++ (List.range n).map velociraptorEntry).flatMap (fun fld => (fld.row C).bytes big C) ++ post := by
  rw [← velociraptor_layout keep C n m hm, PlainFormat.layout, Layout.bytes, List.flatMap_cons]
  refine ⟨(((velociraptorFormat keep n).body.filter (FPart.active C)).map (FPart.section C)).flatMap (Section.bytes big C) ++ rest, ?_⟩
  rw [Section.bytes, if_neg (by simp), List.append_assoc, payload_rows]
  rfl

/-- The header of a file is read up to `hsize`. -/
theorem velociraptor_start {C : Content} {n : Nat} (hok : ∀ fld ∈ velociraptorFixed ++ (List.range n).map velociraptorEntry, fld.Ok C) (s : Bool) (file post : List Byte)
    (hpost : file = (velociraptorFixed ++ (List.range n).map velociraptorEntry).flatMap (fun fld => (fld.row C).bytes (s != true) C) ++ post) :
    ∃ f5, addFields s file .new velociraptorFixed = .ok f5 ∧ f5.attribute s file "Header".toList "hsize".toList = .ok (C ("Header".toList ++ '/' :: "hsize".toList)) ∧
      ∃ f6, addFields s file .new (velociraptorFixed ++ (List.range n).map velociraptorEntry) = .ok f6 := by
  have hne : file ≠ [] := by
    intro h0
    have := congrArg List.length (hpost.symm.trans h0)
    rw [List.length_append, List.length_nil] at this
    have := velociraptor_head_bytes hok (s != true)
    omega
  have hord : OrderIs s '=' (s != true) := by cases s <;> simp [OrderIs]
  have hpw' := velociraptor_pairwise n
  have hfix : velociraptorFixed.Pairwise (fun a b => a.compat b = true) := (List.pairwise_append.1 hpw').1
  have hnm : ∀ fld ∈ velociraptorFixed ++ (List.range n).map velociraptorEntry, fld.nameOk = true := fun fld hf => velociraptor_names hf
  obtain ⟨f6, S6, q1, _⟩ := (inv_new true file (s != true) C).fields (s := s) hne true [] (velociraptorFixed ++ (List.range n).map velociraptorEntry) (by simp) (fun _ => hord)
    (fieldsScoped_fixed (fun f hf => (velociraptor_header hf).1) _ _) hnm (by simpa using hpw') hok (pre := []) (post := post) (by simpa using hpost) (by simp [BFile.new])
  obtain ⟨f5, S5, o1, o2, o3, _, o5, _⟩ := (inv_new true file (s != true) C).fields (s := s) hne true [] velociraptorFixed (by simp) (fun _ => hord)
    (fieldsScoped_fixed (fun f hf => (velociraptor_header (n := n) (List.mem_append_left _ hf)).1) _ _) (fun f hf => hnm f (List.mem_append_left _ hf))
    hfix (fun f hf => hok f (List.mem_append_left _ hf)) (pre := [])
    (post := ((List.range n).map velociraptorEntry).flatMap (fun fld => (fld.row C).bytes (s != true) C) ++ post)
    (by rw [hpost, List.flatMap_append, List.nil_append, List.append_assoc]) rfl
  exact ⟨f5, o1, o2.attrOf (before := velociraptorFixed) hne (by rw [o5]; exact hord) (by rw [o3]; simp) velociraptor_hsize_scoped, f6, q1⟩

theorem velociraptor_head {keep : Bool} {C : Content} {n m : Nat} (hm : leNat ((C "Header/ng".toList).headD []) = m) (hfit : (Files.velociraptor keep n m).Fits C) (s : Bool) (rest : List Byte) :
    ∃ f5, addFields s ((Files.velociraptor keep n m).bytes (s != true) C ++ rest) .new velociraptorFixed = .ok f5 ∧
      f5.attribute s ((Files.velociraptor keep n m).bytes (s != true) C ++ rest) "Header".toList "hsize".toList = .ok (C ("Header".toList ++ '/' :: "hsize".toList)) ∧
      ∃ f6, addFields s ((Files.velociraptor keep n m).bytes (s != true) C ++ rest) .new (velociraptorFixed ++ (List.range n).map velociraptorEntry) = .ok f6 := by
  obtain ⟨post, hpost⟩ := velociraptor_begin (keep := keep) (n := n) hm (s != true) rest
  exact velociraptor_start (velociraptor_fit hm hfit) s _ post hpost

/-- **C100**: with a version of NumPy which has `np.int`, a file with any number of columns and halos, written on the same kind of machine, is read correctly: the numbers in the header, the names of the
columns and the halos, and nothing else. -/
theorem C100_read (C : Content) (keep : Bool) (n m : Nat) (h1 : int64Value ((C "Header/hsize".toList).headD []) = n) (h2 : leNat ((C "Header/ng".toList).headD []) = m)
    (hfit : (Files.velociraptor keep n m).Fits C) : (Files.velociraptor keep n m).ReadOn true C (fun s file => velociraptorParse true keep false s file) := by
  have key : (Files.velociraptor keep n m).ReadOn true C (fun s file => (velociraptorFormat keep n).parse s file) := by
    rw [← velociraptor_layout keep C n m h2]
    have hmem : ∀ fld ∈ (velociraptorFormat keep n).header ++ ((velociraptorFormat keep n).body.filter (FPart.active C)).flatMap FPart.fields, 0 ≤ fld.size.value C ∧ ∀ e ∈ fld.dims, 0 ≤ e.value C := by
      intro fld hfl
      rcases List.mem_append.1 hfl with h | h
      · exact ⟨(velociraptor_fit h2 hfit fld h).1, (velociraptor_fit h2 hfit fld h).2.1⟩
      · obtain ⟨p, hp, hfl⟩ := List.mem_flatMap.1 h
        rw [List.mem_singleton.1 (List.mem_filter.1 hp).1] at hfl
        rw [List.mem_singleton.1 hfl]
        refine ⟨Int.natCast_nonneg _, fun e he => ?_⟩
        rw [List.mem_singleton.1 he]
        exact Int.natCast_nonneg _
    refine PlainFormat.reads _ (velociraptor_scoped keep n) C hmem (by rw [velociraptor_layout keep C n m h2]; exact hfit) ?_ (fun k hk => by cases hk)
    show 0 < ((velociraptorFixed ++ (List.range n).map velociraptorEntry).map _).sum
    rw [List.map_append, List.sum_append]
    have := velociraptor_fixed_length C
    omega
  intro s rest
  obtain ⟨f5, e1, e2, _⟩ := velociraptor_head h2 hfit s rest
  rw [velociraptor_hsize_name] at e2
  have := velociraptorParse_eq (keep := keep) (flags := false) e1 e2
  rw [h1] at this
  simp only [Bool.false_eq_true, if_false, Int.toNat_natCast] at this
  obtain ⟨f, g1, g2⟩ := key s rest
  exact ⟨f, this.trans g1, g2⟩

/-- **C100** (halos): the fields of a halo are the properties which follow each other in the file without gaps. -/
theorem C100_halo (keep : Bool) (value : String → List Byte) (hf : ∀ m ∈ Files.velociraptorHalo keep, m.Fits value) :
    (packedBytes value (Files.velociraptorHalo keep)).length = packedSize (Files.velociraptorHalo keep) ∧
    ∀ m ∈ Files.velociraptorHalo keep, recordField false (velociraptorFields keep) (packedBytes value (Files.velociraptorHalo keep)) m.name = some (value m.name) := by
  constructor
  · unfold packedBytes packedSize
    rw [List.length_flatMap]
    exact congrArg List.sum (List.map_congr_left (fun m hm => hf m hm))
  · intro m hm
    have he : (Files.velociraptorHalo keep).map Member.toField = velociraptorFields keep := by cases keep <;> rfl
    have hoff := packed_offsets (Files.velociraptorHalo keep) value hf []
    rw [he] at hoff
    have hzip : (velociraptorFields keep).zip (dtypeOffsets false 0 (velociraptorFields keep)) =
        ((Files.velociraptorHalo keep).zip (dtypeOffsets false 0 (velociraptorFields keep))).map (fun p => (p.1.toField, p.2)) := by
      have : ∀ l, ((Files.velociraptorHalo keep).map Member.toField).zip l = ((Files.velociraptorHalo keep).zip l).map (fun p : Member × Nat => (p.1.toField, p.2)) := by
        intro l
        rw [List.zip_map_left]
        rfl
      rw [← this, he]
    have hmem : ∃ o, (m, o) ∈ (Files.velociraptorHalo keep).zip (dtypeOffsets false 0 (velociraptorFields keep)) := by
      obtain ⟨i, hi, rfl⟩ := List.getElem_of_mem hm
      have hi' : i < (dtypeOffsets false 0 (velociraptorFields keep)).length := by rw [dtypeOffsets_length, ← he, List.length_map]; exact hi
      refine ⟨_, List.mem_iff_getElem.2 ⟨i, by rw [List.length_zip]; omega, List.getElem_zip⟩⟩
    obtain ⟨o, ho⟩ := hmem
    unfold recordField
    rw [hzip]
    cases hq : (((Files.velociraptorHalo keep).zip (dtypeOffsets false 0 (velociraptorFields keep))).map (fun p => (p.1.toField, p.2))).find? (fun p => p.1.name == m.name) with
    | none =>
      have := List.find?_eq_none.1 hq (m.toField, o) (List.mem_map.2 ⟨(m, o), ho, rfl⟩)
      simp [Member.toField] at this
    | some p =>
      obtain ⟨q, hq1, hq2⟩ := List.mem_map.1 (List.mem_of_find?_eq_some hq)
      have hn := List.find?_some hq
      rw [← hq2] at hn ⊢
      have hn' : q.1.name = m.name := by simpa [Member.toField] using hn
      have := hoff q hq1
      rw [List.nil_append] at this
      show some (slice _ q.2 (q.1.align * q.1.count)) = _
      rw [this, hn']

/-- Runs with gas, stars, black holes or high resolution regions are refused once the header was read. -/
theorem C100_flags (C : Content) (keep : Bool) (n m : Nat) (h1 : int64Value ((C "Header/hsize".toList).headD []) = n) (h2 : leNat ((C "Header/ng".toList).headD []) = m)
    (hfit : (Files.velociraptor keep n m).Fits C) (s keep' : Bool) (rest : List Byte) : velociraptorParse true keep' true s ((Files.velociraptor keep n m).bytes (s != true) C ++ rest) = .error .other := by
  obtain ⟨f5, e1, e2, f6, e3⟩ := velociraptor_head h2 hfit s rest
  rw [velociraptor_hsize_name] at e2
  rw [velociraptorParse_eq e1 e2, if_pos rfl, h1, Int.toNat_natCast, e3]

/-- No file is accepted with one of the flags. -/
theorem C100_flags_any (npInt keep s : Bool) (file : List Byte) (f : BFile) : velociraptorParse npInt keep true s file ≠ .ok f := by
  intro h
  unfold velociraptorParse at h
  repeat' split at h
  all_goals first | exact absurd h (by simp) | skip
  all_goals simp_all

/-- Defect: `np.int` no longer exists in NumPy 1.24 and later, where no file can be read. -/
theorem C100_numpy_defect (keep flags s : Bool) (file : List Byte) : velociraptorParse false keep flags s file = .error .attributeError := by
  have h4 : ∃ f, addFields s file .new [attr4 "Header/ThisTask" [], attr4 "Header/NProcs" [], attr8 "Header/ng" [], attr8 "Header/ngtot" []] = .ok f := ⟨_, rfl⟩
  obtain ⟨f, h4⟩ := h4
  unfold velociraptorParse
  rw [h4]
  rfl

/-- A file which ends before the number of columns is refused. -/
theorem C100_short (keep flags s : Bool) (file : List Byte) (h : file.length < 32) :
    velociraptorParse true keep flags s file = .error (if file = [] then .valueError else .ioError) := by
  have h5 : ∃ f, addFields s file .new velociraptorFixed = .ok f ∧ f.attribute s file "Header".toList "hsize".toList = Block.readAll s file ⟨⟨8, '='⟩, 24, [], '='⟩ := ⟨_, rfl, rfl⟩
  obtain ⟨f5, h5, hr⟩ := h5
  have hr2 : f5.attribute s file "Header".toList "hsize".toList = .error (if file = [] then .valueError else .ioError) := by
    rw [hr]
    unfold Block.readAll Block.read
    by_cases h0 : file = []
    · rw [if_pos h0, if_pos h0]
    · rw [if_neg h0, if_neg h0, if_neg (by decide), if_pos]
      show (24 : Int) + ((8 : Nat) : Int) > file.length
      omega
  have hsplit : velociraptorFixed = [attr4 "Header/ThisTask" [], attr4 "Header/NProcs" [], attr8 "Header/ng" [], attr8 "Header/ngtot" []] ++ [attr8 "Header/hsize" []] := rfl
  rw [hsplit, addFields_append] at h5
  unfold velociraptorParse
  cases h4 : addFields s file .new [attr4 "Header/ThisTask" [], attr4 "Header/NProcs" [], attr8 "Header/ng" [], attr8 "Header/ngtot" []] with
  | error e => rw [h4] at h5; simp at h5
  | ok f4 =>
    rw [h4] at h5
    simp only at h5
    simp only [Bool.true_eq_false, if_false, h5, hr2]

/-! ### Examples -/

namespace ExVelociraptor

/-- Two columns and one halo, of which every number is two -/
def C : Content := fun name =>
  if name = "Header/hsize".toList then [leBytes 8 2] else if name = "Header/ng".toList then [leBytes 8 1] else if name = "Header/ngtot".toList then [leBytes 8 5]
  else if name = "Header/ThisTask".toList then [leBytes 4 0] else if name = "Header/NProcs".toList then [leBytes 4 3]
  else if name = "Halo".toList then [List.replicate (packedSize (Files.velociraptorHalo false)) 2]
  else [List.replicate 40 65]

theorem fits : (Files.velociraptor false 2 1).Fits C := ⟨by unfold Row.Fits; decide +kernel, by decide +kernel⟩

example : (Files.velociraptor false 2 1).ReadOn true C (fun s file => velociraptorParse true false false s file) := C100_read C false 2 1 (by decide +kernel) (by decide +kernel) fits

/-- Sizes of the structures -/
example : packedSize (Files.velociraptorHalo false) = 692 ∧ packedSize (Files.velociraptorHalo true) = 708 := by decide +kernel

/-- The fields of the example fit. -/
example : ∀ m ∈ Files.velociraptorHalo true, m.Fits (fun name => match (Files.velociraptorHalo true).find? (fun m => m.name == name) with | some m => List.replicate (m.align * m.count) 1 | none => []) := by
  unfold Member.Fits
  decide +kernel

example : velociraptorParse true false true true ((Files.velociraptor false 2 1).bytes false C) = .error .other := by
  have := C100_flags C false 2 1 (by decide +kernel) (by decide +kernel) fits true false []
  simpa using this

end ExVelociraptor

end Verif
