import Verif.Proofs.ReadParticles

set_option linter.unusedSectionVars false

/-! C79: the C functions of the examples read the particles and the hash table of Millennium snapshots. -/

namespace Verif

open CPeano ReadParticles

variable {C : Content} {n cells : Nat}

/-- C79: coordinates of the particles `a + 1` to `a + k` (counted from one), in big and little endian files on big and little endian machines, if the code is compiled with
`BYTESWAP` exactly where the byte orders differ -/
theorem C79_coords (h : SnapshotFile C n cells) (hn : (292 : Int) + 32 * n < 2147483648) (sys big : Bool) (rest : List Byte) {a k : Nat} (hk : a + k ≤ n) :
    readpartcoords sys (big == sys) (snapshotBytes C n cells big rest) ((a : Int) + 1) ((a : Int) + k) =
      .ok (component C "PartType1/Coordinates" a k 0, component C "PartType1/Coordinates" a k 1, component C "PartType1/Coordinates" a k 2) := by
  have hr : (Files.vec 4 n 3 "PartType1/Coordinates").Fits C := h.row (s := sec1 n) (by simp) _ (by simp [sec1])
  have hp : (Files.vec 4 n 3 "PartType1/Coordinates").shape.prod = n * 3 := by simp [Files.vec]
  have hf : fread (snapshotBytes C n cells big rest) (256 + ((a : Int) + 1) * 12) 4 (3 * k) = _ :=
    fread_row big [sec0] [sec2 n, sec3 n, sec4, sec5 cells] (Files.vec 4 n 3 "PartType1/Coordinates") [] rest hr (i := 3 * a) (k := 3 * k)
      (by rw [hp]; omega) (before1 big h) (by simp only [Files.vec]; push_cast; ring)
  unfold readpartcoords
  rw [bindOk _ (nRead_eq a k (by norm_num) (by omega) (by omega) (by omega)), bindOk _ (cInt_ok (x := ((a : Int) + 1) * 12) (by omega) (by omega)),
    bindOk _ (cInt_ok (x := 256 + ((a : Int) + 1) * 12) (by omega) (by omega)), bindOk _ hf]
  exact congrArg Except.ok (columns_eq sys big hr.2 (by rw [hr.1, hp]; omega))

/-- C79: velocities -/
theorem C79_velocities (h : SnapshotFile C n cells) (hn : (292 : Int) + 32 * n < 2147483648) (sys big : Bool) (rest : List Byte) {a k : Nat} (hk : a + k ≤ n) :
    readpartvel sys (big == sys) (snapshotBytes C n cells big rest) ((a : Int) + 1) ((a : Int) + k) =
      .ok (component C "PartType1/Velocities" a k 0, component C "PartType1/Velocities" a k 1, component C "PartType1/Velocities" a k 2) := by
  have hr : (Files.vec 4 n 3 "PartType1/Velocities").Fits C := h.row (s := sec2 n) (by simp) _ (by simp [sec2])
  have hp : (Files.vec 4 n 3 "PartType1/Velocities").shape.prod = n * 3 := by simp [Files.vec]
  have hf : fread (snapshotBytes C n cells big rest) (264 + (n : Int) * 12 + ((a : Int) + 1) * 12) 4 (3 * k) = _ :=
    fread_row big [sec0, sec1 n] [sec3 n, sec4, sec5 cells] (Files.vec 4 n 3 "PartType1/Velocities") [] rest hr (i := 3 * a) (k := 3 * k)
      (by rw [hp]; omega) (before2 big h) (by simp only [Files.vec]; push_cast; ring)
  unfold readpartvel
  rw [bindOk _ (nRead_eq a k (by norm_num) (by omega) (by omega) (by omega)), bindOk _ (readNpfile_eq h sys big rest),
    bindOk _ (cInt_ok (x := (n : Int) * 12) (by omega) (by omega)), bindOk _ (cInt_ok (x := 264 + (n : Int) * 12) (by omega) (by omega)),
    bindOk _ (cInt_ok (x := ((a : Int) + 1) * 12) (by omega) (by omega)), bindOk _ (cInt_ok (x := 264 + (n : Int) * 12 + ((a : Int) + 1) * 12) (by omega) (by omega)), bindOk _ hf]
  exact congrArg Except.ok (columns_eq sys big hr.2 (by rw [hr.1, hp]; omega))

/-- C79: particle IDs -/
theorem C79_ids (h : SnapshotFile C n cells) (hn : (292 : Int) + 32 * n < 2147483648) (sys big : Bool) (rest : List Byte) {a k : Nat} (hk : a + k ≤ n) :
    readpartids sys (big == sys) (snapshotBytes C n cells big rest) ((a : Int) + 1) ((a : Int) + k) = .ok (((C "PartType1/ParticleIDs".toList).drop a).take k) := by
  have hr : (Files.col 8 n "PartType1/ParticleIDs").Fits C := h.row (s := sec3 n) (by simp) _ (by simp [sec3])
  have hp : (Files.col 8 n "PartType1/ParticleIDs").shape.prod = n := by simp [Files.col]
  have hf : fread (snapshotBytes C n cells big rest) (276 + (n : Int) * 24 + ((a : Int) + 1) * 8) 8 k = _ :=
    fread_row big [sec0, sec1 n, sec2 n] [sec4, sec5 cells] (Files.col 8 n "PartType1/ParticleIDs") [] rest hr (i := a) (k := k)
      (by rw [hp]; omega) (before3 big h) (by simp only [Files.col]; push_cast; ring)
  unfold readpartids
  rw [bindOk _ (nRead_eq a k (by norm_num) (by omega) (by omega) (by omega)), bindOk _ (readNpfile_eq h sys big rest),
    bindOk _ (cInt_ok (x := (n : Int) * 24) (by omega) (by omega)), bindOk _ (cInt_ok (x := 276 + (n : Int) * 24) (by omega) (by omega)),
    bindOk _ (cInt_ok (x := ((a : Int) + 1) * 8) (by omega) (by omega)), bindOk _ (cInt_ok (x := 276 + (n : Int) * 24 + ((a : Int) + 1) * 8) (by omega) (by omega)), bindOk _ hf]
  refine congrArg Except.ok ?_
  have hl : (C "PartType1/ParticleIDs".toList).length = n := hr.1.trans hp
  apply List.ext_getElem?
  intro i
  rw [List.map_map, List.getElem?_map, List.getElem?_take]
  by_cases hi : i < k
  · rw [List.getElem?_range hi, if_pos hi, List.getElem?_drop]
    have : a + i < (C "PartType1/ParticleIDs".toList).length := by omega
    have e : (C "PartType1/ParticleIDs".toList)[a + i]? = some ((C "PartType1/ParticleIDs".toList).getD (a + i) []) := by
      rw [List.getD_eq_getElem?_getD, List.getElem?_eq_getElem this]; rfl
    rw [e]
    exact congrArg some (value8_store big sys (getD_length hr.2 this))
  · rw [if_neg hi, List.getElem?_eq_none (by simpa using hi)]; rfl

/-- C79: a file which ends after `m` bytes. If some of the values are missing, nothing is returned. -/
theorem C79_truncated (h : SnapshotFile C n cells) (hn : (292 : Int) + 32 * n < 2147483648) (sys big : Bool) (rest : List Byte) {a k : Nat} (hk : a + k ≤ n) (h0 : 0 < k) (m : Nat) :
    (m < 268 + 12 * (a + k) → readpartcoords sys (big == sys) ((snapshotBytes C n cells big rest).take m) ((a : Int) + 1) ((a : Int) + k) = .error .abort) ∧
    (m < 276 + 12 * n + 12 * (a + k) → readpartvel sys (big == sys) ((snapshotBytes C n cells big rest).take m) ((a : Int) + 1) ((a : Int) + k) = .error .abort) ∧
    (m < 284 + 24 * n + 8 * (a + k) → readpartids sys (big == sys) ((snapshotBytes C n cells big rest).take m) ((a : Int) + 1) ((a : Int) + k) = .error .abort) := by
  refine ⟨fun hm => ?_, fun hm => ?_, fun hm => ?_⟩
  · unfold readpartcoords
    rw [bindOk _ (nRead_eq a k (by norm_num) (by omega) (by omega) (by omega)), bindOk _ (cInt_ok (x := ((a : Int) + 1) * 12) (by omega) (by omega)),
      bindOk _ (cInt_ok (x := 256 + ((a : Int) + 1) * 12) (by omega) (by omega)), bindErr _ (fread_short (by omega) (by rw [List.length_take]; omega))]
  · unfold readpartvel
    rw [bindOk _ (nRead_eq a k (by norm_num) (by omega) (by omega) (by omega))]
    rcases readNpfile_take h sys big rest m with e | e
    · rw [bindErr _ e]
    rw [bindOk _ e, bindOk _ (cInt_ok (x := (n : Int) * 12) (by omega) (by omega)), bindOk _ (cInt_ok (x := 264 + (n : Int) * 12) (by omega) (by omega)),
      bindOk _ (cInt_ok (x := ((a : Int) + 1) * 12) (by omega) (by omega)), bindOk _ (cInt_ok (x := 264 + (n : Int) * 12 + ((a : Int) + 1) * 12) (by omega) (by omega)),
      bindErr _ (fread_short (by omega) (by rw [List.length_take]; omega))]
  · unfold readpartids
    rw [bindOk _ (nRead_eq a k (by norm_num) (by omega) (by omega) (by omega))]
    rcases readNpfile_take h sys big rest m with e | e
    · rw [bindErr _ e]
    rw [bindOk _ e, bindOk _ (cInt_ok (x := (n : Int) * 24) (by omega) (by omega)), bindOk _ (cInt_ok (x := 276 + (n : Int) * 24) (by omega) (by omega)),
      bindOk _ (cInt_ok (x := ((a : Int) + 1) * 8) (by omega) (by omega)), bindOk _ (cInt_ok (x := 276 + (n : Int) * 24 + ((a : Int) + 1) * 8) (by omega) (by omega)),
      bindErr _ (fread_short (by omega) (by rw [List.length_take]; omega))]

/-- C79: the number of particles, the range of cells and the hash table -/
theorem C79_hash (h : SnapshotFile C n cells) (hn : (292 : Int) + 32 * n < 2147483648) (hc : scalarInt C "last_hash_cell".toList - scalarInt C "first_hash_cell".toList + 1 = cells)
    (hcells : (cells : Int) < 2147483648) (sys big : Bool) (rest : List Byte) :
    readhash sys (big == sys) (snapshotBytes C n cells big rest) =
      .ok ⟨scalarInt C "first_hash_cell".toList, scalarInt C "last_hash_cell".toList, (C "blockid".toList).map int32Value, n⟩ := by
  have hr1 : (Files.one 4 "first_hash_cell").Fits C := h.row (s := sec4) (by simp) _ (by simp [sec4])
  have hr2 : (Files.one 4 "last_hash_cell").Fits C := h.row (s := sec4) (by simp) _ (by simp [sec4])
  have hr : (Files.col 4 cells "blockid").Fits C := h.row (s := sec5 cells) (by simp) _ (by simp [sec5])
  have hp : (Files.col 4 cells "blockid").shape.prod = cells := by simp [Files.col]
  obtain ⟨v1, e1⟩ := List.length_eq_one_iff.1 (hr1.1.trans (by simp [Files.one]) : (C "first_hash_cell".toList).length = 1)
  obtain ⟨v2, e2⟩ := List.length_eq_one_iff.1 (hr2.1.trans (by simp [Files.one]) : (C "last_hash_cell".toList).length = 1)
  change C "first_hash_cell".toList = [v1] at e1
  have l1 : v1.length = 4 := hr1.2 v1 (by show v1 ∈ C "first_hash_cell".toList; rw [e1]; simp)
  change C "last_hash_cell".toList = [v2] at e2
  have l2 : v2.length = 4 := hr2.2 v2 (by show v2 ∈ C "last_hash_cell".toList; rw [e2]; simp)
  have hf1 : fread (snapshotBytes C n cells big rest) (292 + (n : Int) * 32) 4 2 = .ok [storeItem big true v1, storeItem big true v2] := by
    obtain ⟨A, hA, hfile⟩ : ∃ A, A.length = 292 + 32 * n ∧ ∃ B, snapshotBytes C n cells big rest = A ++ (([v1, v2].flatMap (storeItem big true)) ++ B) := by
      refine ⟨Layout.bytes big C [sec0, sec1 n, sec2 n, sec3 n] ++ markerBytes big (Section.payload big C sec4).length, ?_,
        markerBytes big (Section.payload big C sec4).length ++ (Section.bytes big C (sec5 cells) ++ rest), ?_⟩
      · rw [List.length_append, before4 big h, length_marker]; omega
      · have e : Section.bytes big C sec4 = markerBytes big (Section.payload big C sec4).length ++ (([v1, v2].flatMap (storeItem big true)) ++ markerBytes big (Section.payload big C sec4).length) := by
          unfold Section.bytes
          rw [show sec4.record = true from rfl, if_pos rfl, List.append_assoc]
          congr 2
          show (C "first_hash_cell".toList).flatMap (storeItem big true) ++ ((C "last_hash_cell".toList).flatMap (storeItem big true) ++ []) = _
          rw [e1, e2]; simp
        unfold snapshotBytes
        rw [snapshot_sections, show [sec0, sec1 n, sec2 n, sec3 n, sec4, sec5 cells] = [sec0, sec1 n, sec2 n, sec3 n] ++ [sec4, sec5 cells] from rfl, layout_append]
        have e3 : Layout.bytes big C [sec4, sec5 cells] = Section.bytes big C sec4 ++ Section.bytes big C (sec5 cells) := by simp [Layout.bytes]
        rw [e3, e]
        simp only [List.append_assoc]
    obtain ⟨B, hB⟩ := hfile
    rw [hB]
    have := fread_flat big true (w := 4) A B (vals := [v1, v2]) (by simp [l1, l2]) (i := 0) (k := 2) (by simp) (off := 292 + (n : Int) * 32) (by rw [hA]; push_cast; ring)
    rw [this]; rfl
  have hf2 : fread (snapshotBytes C n cells big rest) (292 + (n : Int) * 32 + 16) 4 cells = _ :=
    fread_row big [sec0, sec1 n, sec2 n, sec3 n, sec4] [] (Files.col 4 cells "blockid") [] rest hr (i := 0) (k := cells)
      (by rw [hp]; omega) (before5 big h) (by simp only [Files.col]; push_cast; ring)
  have s1 : scalarInt C "first_hash_cell".toList = int32Value v1 := by unfold scalarInt; rw [e1]; rfl
  have s2 : scalarInt C "last_hash_cell".toList = int32Value v2 := by unfold scalarInt; rw [e2]; rfl
  rw [s1, s2] at hc ⊢
  unfold readhash
  rw [bindOk _ (readNpfile_eq h sys big rest), bindOk _ (cInt_ok (x := (n : Int) * 32) (by omega) (by omega)), bindOk _ (cInt_ok (x := 292 + (n : Int) * 32) (by omega) (by omega)),
    bindOk _ hf1]
  have g1 : value4 sys (big == sys) ([storeItem big true v1, storeItem big true v2].getD 0 []) = v1 := value4_store big sys l1
  have g2 : value4 sys (big == sys) ([storeItem big true v1, storeItem big true v2].getD 1 []) = v2 := value4_store big sys l2
  dsimp only
  rw [g1, g2, bindOk _ (cInt_ok (x := int32Value v2 - int32Value v1) (by omega) (by omega)), bindOk _ (cInt_ok (x := int32Value v2 - int32Value v1 + 1) (by omega) (by omega)), hc,
    if_neg (by omega), Int.toNat_natCast, bindOk _ hf2]
  refine congrArg (fun t => Except.ok (HashInfo.mk _ _ t _)) ?_
  have hl : (C "blockid".toList).length = cells := hr.1.trans hp
  apply List.ext_getElem?
  intro i
  rw [List.map_map, List.getElem?_map, List.getElem?_map]
  by_cases hi : i < cells
  · have hi' : i < (C "blockid".toList).length := by omega
    have e : (C "blockid".toList)[i]? = some ((C "blockid".toList).getD (0 + i) []) := by
      rw [Nat.zero_add, List.getD_eq_getElem?_getD, List.getElem?_eq_getElem hi']; rfl
    rw [List.getElem?_range hi, e]
    exact congrArg (fun v => some (int32Value v)) (value4_store big sys (getD_length hr.2 (j := 0 + i) (by rw [Nat.zero_add]; exact hi')))
  · rw [List.getElem?_eq_none (by simpa using hi), List.getElem?_eq_none (by omega)]; rfl

/-- C79: with 67108855 particles in a file or more the position of the hash table overflows. -/
theorem C79_hash_overflow (h : SnapshotFile C n cells) (hn : 2147483648 ≤ (292 : Int) + 32 * n) (sys big : Bool) (rest : List Byte) :
    readhash sys (big == sys) (snapshotBytes C n cells big rest) = .error .other := by
  unfold readhash
  rw [bindOk _ (readNpfile_eq h sys big rest)]
  by_cases h1 : (n : Int) * 32 < 2147483648
  · rw [bindOk _ (cInt_ok (x := (n : Int) * 32) (by omega) (by omega)), bindErr _ (cInt_err (x := 292 + (n : Int) * 32) (by omega))]
  · rw [bindErr _ (cInt_err (x := (n : Int) * 32) (by omega))]

/-- C79: names of files without blanks and with fewer than 256 characters, padded with blanks by Fortran, are opened. -/
theorem C79_open_name (name : List Char) (h : ' ' ∉ name) (hl : name.length < 256) : openName (name ++ List.replicate (256 - name.length) ' ') = .ok name := by
  have e : (name ++ List.replicate (256 - name.length) ' ').take 256 = name ++ List.replicate (256 - name.length) ' ' := by
    rw [List.take_of_length_le]; simp; omega
  unfold openName
  rw [e, if_pos (by simp; omega)]
  refine congrArg Except.ok ?_
  rw [List.takeWhile_append_of_pos (by intro a ha; simp; rintro rfl; exact h ha)]
  cases hm : 256 - name.length with
  | zero => omega
  | succ m => simp [List.replicate_succ]

/-- C79: a name with a blank is cut there, and another file is opened. -/
theorem C79_open_name_blank (before after : List Char) (h : ' ' ∉ before) (hl : before.length < 256) : openName (before ++ ' ' :: after) = .ok before := by
  have e : (before ++ ' ' :: after).take 256 = before ++ ' ' :: after.take (256 - before.length - 1) := by
    rw [List.take_append, List.take_of_length_le (by omega)]
    cases hm : 256 - before.length with
    | zero => omega
    | succ m => simp
  unfold openName
  rw [e, if_pos (by simp)]
  refine congrArg Except.ok ?_
  rw [List.takeWhile_append_of_pos (by intro a ha; simp; rintro rfl; exact h ha)]
  simp

namespace ExReadParticles

/-- A file with three particles and two cells -/
def content : Content := fun name =>
  if name = "Header/NumPart_ThisFile".toList then [leBytes 4 0, leBytes 4 3, leBytes 4 0, leBytes 4 0, leBytes 4 0, leBytes 4 0]
  else if name = "Header/MassTable".toList then List.replicate 6 (leBytes 8 0)
  else if name = "Header/NumPart_Total".toList then List.replicate 6 (leBytes 4 7)
  else if name = "Header/fill".toList then List.replicate 84 (leBytes 1 0)
  else if name ∈ ["Header/Time".toList, "Header/Redshift".toList, "Header/BoxSize".toList, "Header/Omega0".toList, "Header/OmegaLambda".toList, "Header/HubbleParam".toList] then [leBytes 8 5]
  else if name = "PartType1/Coordinates".toList then (List.range 9).map (fun i => leBytes 4 (1000 + i))
  else if name = "PartType1/Velocities".toList then (List.range 9).map (fun i => leBytes 4 (2000 + i))
  else if name = "PartType1/ParticleIDs".toList then (List.range 3).map (fun i => leBytes 8 (3000 + i))
  else if name = "first_hash_cell".toList then [leBytes 4 10]
  else if name = "last_hash_cell".toList then [leBytes 4 11]
  else if name = "blockid".toList then [leBytes 4 0, leBytes 4 2]
  else [leBytes 4 0]

theorem fits : SnapshotFile content 3 2 := by
  refine ⟨⟨?_, ?_⟩, by decide +kernel⟩
  · have : ∀ sec ∈ Files.lgadget2Snapshot 3 2, ∀ r ∈ sec.rows, (content r.name).length = r.shape.prod ∧ ∀ v ∈ content r.name, v.length = r.width := by decide +kernel
    exact this
  · decide +kernel

/-- A big endian file on a little endian machine -/
example : readpartids true true (snapshotBytes content 3 2 true []) 2 3 = .ok [leBytes 8 3001, leBytes 8 3002] := by decide +kernel

/-- The last byte of the IDs is missing. -/
example : readpartids true true ((snapshotBytes content 3 2 true []).take 379) 2 3 = .error .abort ∧ readpartids true true ((snapshotBytes content 3 2 true []).take 380) 2 3 = .ok [leBytes 8 3001, leBytes 8 3002] := by
  decide +kernel

example : readhash true true (snapshotBytes content 3 2 true []) = .ok ⟨10, 11, [0, 2], 3⟩ := by decide +kernel

/-- Without `BYTESWAP` the number of particles is wrong. -/
example : readNpfile true false (snapshotBytes content 3 2 true []) = .ok 50331648 := by decide +kernel

example : openName ("/data/my snapshot".toList ++ List.replicate 239 ' ') = .ok "/data/my".toList := by decide +kernel

end ExReadParticles

end Verif
