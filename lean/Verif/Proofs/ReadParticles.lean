import Verif.Model.ReadParticles
import Verif.Spec.ReadParticles
import Verif.Proofs.CPeano

set_option linter.unusedSectionVars false

namespace Verif.ReadParticles

open CPeano

/-! ### Byte order -/

theorem byteSwap4_eq {v : List Byte} (h : v.length = 4) : byteSwap4 v = v.reverse := by
  match v, h with
  | [a, b, c, d], _ => rfl

theorem byteSwap8_eq {v : List Byte} (h : v.length = 8) : byteSwap8 v = v.reverse := by
  match v, h with
  | [a, b, c, d, e, f, g, i], _ => rfl

theorem length_storeItem (big o : Bool) (v : List Byte) : (storeItem big o v).length = v.length := by
  unfold storeItem; split_ifs <;> simp

theorem value4_store (big sys : Bool) {v : List Byte} (h : v.length = 4) : value4 sys (big == sys) (storeItem big true v) = v := by
  have h' : (storeItem big true v).length = 4 := by rw [length_storeItem, h]
  unfold value4 inMemory
  rw [byteSwap4_eq h']
  cases big <;> cases sys <;> simp [storeItem]

theorem value8_store (big sys : Bool) {v : List Byte} (h : v.length = 8) : value8 sys (big == sys) (storeItem big true v) = v := by
  have h' : (storeItem big true v).length = 8 := by rw [length_storeItem, h]
  unfold value8 inMemory
  rw [byteSwap8_eq h']
  cases big <;> cases sys <;> simp [storeItem]

/-! ### Elements of arrays in a file -/

theorem length_flat (big o : Bool) {w : Nat} : ∀ {vals : List (List Byte)}, (∀ v ∈ vals, v.length = w) →
    (vals.flatMap (storeItem big o)).length = w * vals.length := by
  intro vals
  induction vals with
  | nil => intro _; simp
  | cons v vs ih =>
    intro h
    rw [List.flatMap_cons, List.length_append, length_storeItem, h v (by simp), ih (fun x hx => h x (by simp [hx])), List.length_cons]
    ring

theorem elem_flat (big o : Bool) {w : Nat} (B : List Byte) : ∀ {vals : List (List Byte)}, (∀ v ∈ vals, v.length = w) → ∀ {j : Nat}, j < vals.length →
    ((vals.flatMap (storeItem big o) ++ B).drop (w * j)).take w = storeItem big o (vals.getD j []) := by
  intro vals
  induction vals with
  | nil => intro _ j hj; simp at hj
  | cons v vs ih =>
    intro h j hj
    have hv : (storeItem big o v).length = w := by rw [length_storeItem, h v (by simp)]
    rw [List.flatMap_cons, List.append_assoc]
    cases j with
    | zero => simp [List.take_left' hv]
    | succ j =>
      rw [show w * (j + 1) = w + w * j by ring, ← List.drop_drop, List.drop_left' hv, ih (fun x hx => h x (by simp [hx])) (by simpa using hj)]
      simp

theorem fread_flat (big o : Bool) {w : Nat} (A B : List Byte) {vals : List (List Byte)} (h : ∀ v ∈ vals, v.length = w) {i k : Nat} (hk : i + k ≤ vals.length)
    {off : Int} (hoff : off = ((A.length + w * i : Nat) : Int)) :
    fread (A ++ (vals.flatMap (storeItem big o) ++ B)) off w k = .ok ((List.range k).map (fun t => storeItem big o (vals.getD (i + t) []))) := by
  subst hoff
  unfold fread
  rw [if_neg (by omega), Int.toNat_natCast]
  have hl : w * i + w * k ≤ w * vals.length := by rw [← Nat.mul_add]; exact Nat.mul_le_mul_left _ hk
  rw [if_neg (by rw [List.length_append, List.length_append, length_flat big o h]; omega)]
  refine congrArg Except.ok (List.map_congr_left fun t ht => ?_)
  rw [List.mem_range] at ht
  rw [Nat.add_assoc, ← Nat.mul_add, ← List.drop_drop, List.drop_left, elem_flat big o B h (by omega)]

theorem getD_length {vals : List (List Byte)} {w : Nat} (h : ∀ v ∈ vals, v.length = w) {j : Nat} (hj : j < vals.length) : (vals.getD j []).length = w := by
  rw [List.getD_eq_getElem?_getD, List.getElem?_eq_getElem hj]
  exact h _ (List.getElem_mem hj)

/-! ### The file -/

theorem length_marker (big : Bool) (n : Nat) : (markerBytes big n).length = 4 := by
  unfold markerBytes; rw [length_storeItem]; rfl

theorem length_row (big : Bool) {C : Content} {r : Row} (h : r.Fits C) : (r.bytes big C).length = r.width * r.shape.prod := by
  unfold Row.bytes; rw [length_flat big r.order h.2, h.1]

theorem length_payload (big : Bool) {C : Content} {s : Section} (h : ∀ r ∈ s.rows, r.Fits C) :
    (s.payload big C).length = (s.rows.map (fun r => r.width * r.shape.prod)).sum := by
  unfold Section.payload
  rw [List.length_flatMap]
  congr 1
  exact List.map_congr_left fun r hr => length_row big (h r hr)

theorem length_section (big : Bool) {C : Content} {rows : List Row} (h : ∀ r ∈ rows, r.Fits C) :
    (Section.bytes big C ⟨true, rows⟩).length = 8 + (rows.map (fun r => r.width * r.shape.prod)).sum := by
  have := length_payload big (s := ⟨true, rows⟩) h
  dsimp only at this
  unfold Section.bytes
  rw [if_pos rfl, List.length_append, List.length_append, length_marker, this]
  omega

/-- The first row of a record -/
theorem section_row (big : Bool) (C : Content) (r : Row) (rows : List Row) : ∃ A B, A.length = 4 ∧ Section.bytes big C ⟨true, r :: rows⟩ = A ++ (r.bytes big C ++ B) := by
  refine ⟨markerBytes big (Section.payload big C ⟨true, r :: rows⟩).length, (Section.payload big C ⟨true, rows⟩) ++ markerBytes big (Section.payload big C ⟨true, r :: rows⟩).length, length_marker _ _, ?_⟩
  unfold Section.bytes
  rw [if_pos rfl]
  simp [Section.payload]

/-- The first row of the record after some others -/
theorem layout_row (big : Bool) (C : Content) (before after : Layout) (r : Row) (rows : List Row) (rest : List Byte) :
    ∃ A B, A.length = (Layout.bytes big C before).length + 4 ∧ Layout.bytes big C (before ++ ⟨true, r :: rows⟩ :: after) ++ rest = A ++ (r.bytes big C ++ B) := by
  obtain ⟨A, B, h1, h2⟩ := section_row big C r rows
  refine ⟨Layout.bytes big C before ++ A, B ++ (Layout.bytes big C after ++ rest), by rw [List.length_append, h1], ?_⟩
  unfold Layout.bytes
  rw [List.flatMap_append, List.flatMap_cons, h2]
  simp

variable {C : Content} {n cells : Nat}

theorem fread_row (big : Bool) (before after : Layout) (r : Row) (rows : List Row) (rest : List Byte) (hr : r.Fits C) {i k : Nat} (hk : i + k ≤ r.shape.prod)
    {p : Nat} (hp : (Layout.bytes big C before).length = p) {off : Int} (hoff : off = ((p + 4 + r.width * i : Nat) : Int)) :
    fread (Layout.bytes big C (before ++ ⟨true, r :: rows⟩ :: after) ++ rest) off r.width k =
      .ok ((List.range k).map (fun t => storeItem big r.order ((C r.name).getD (i + t) []))) := by
  obtain ⟨A, B, h1, h2⟩ := layout_row big C before after r rows rest
  rw [h2]
  exact fread_flat big r.order A B hr.2 (by rw [hr.1]; exact hk) (by rw [h1, hp]; exact hoff)

theorem layout_append (big : Bool) (C : Content) (L L' : Layout) : Layout.bytes big C (L ++ L') = Layout.bytes big C L ++ Layout.bytes big C L' := by
  simp [Layout.bytes]

/-- Sections of the snapshot -/
def sec0 : Section := ⟨true, [Files.head 4 [6] "NumPart_ThisFile", Files.head 8 [6] "MassTable", Files.head 8 [] "Time", Files.head 8 [] "Redshift", Files.head 4 [] "Flag_Sfr", Files.head 4 [] "Flag_Feedback", Files.head 4 [6] "NumPart_Total",
    Files.head 4 [] "Flag_Cooling", Files.head 4 [] "NumFilesPerSnapshot", Files.head 8 [] "BoxSize", Files.head 8 [] "Omega0", Files.head 8 [] "OmegaLambda", Files.head 8 [] "HubbleParam",
    Files.head 4 [] "Flag_StellarAge", Files.head 4 [] "Flag_Metals", Files.head 4 [] "HashTabSize", Files.head 1 [84] "fill" false]⟩
def sec1 (n : Nat) : Section := ⟨true, [Files.vec 4 n 3 "PartType1/Coordinates"]⟩
def sec2 (n : Nat) : Section := ⟨true, [Files.vec 4 n 3 "PartType1/Velocities"]⟩
def sec3 (n : Nat) : Section := ⟨true, [Files.col 8 n "PartType1/ParticleIDs"]⟩
def sec4 : Section := ⟨true, [Files.one 4 "first_hash_cell", Files.one 4 "last_hash_cell"]⟩
def sec5 (cells : Nat) : Section := ⟨true, [Files.col 4 cells "blockid"]⟩

theorem snapshot_sections (n cells : Nat) : Files.lgadget2Snapshot n cells = [sec0, sec1 n, sec2 n, sec3 n, sec4, sec5 cells] := rfl

theorem SnapshotFile.row (h : SnapshotFile C n cells) {s : Section} (hs : s ∈ [sec0, sec1 n, sec2 n, sec3 n, sec4, sec5 cells]) : ∀ r ∈ s.rows, r.Fits C :=
  h.fits.rows s (by rw [snapshot_sections]; exact hs)

theorem len0 (big : Bool) (h : SnapshotFile C n cells) : (Section.bytes big C sec0).length = 264 :=
  (length_section big (h.row (s := sec0) (by simp))).trans (by decide)

theorem len1 (big : Bool) (h : SnapshotFile C n cells) : (Section.bytes big C (sec1 n)).length = 8 + 12 * n := by
  refine (length_section big (h.row (s := sec1 n) (by simp))).trans ?_
  simp [sec1, sec2, Files.vec]; ring

theorem len2 (big : Bool) (h : SnapshotFile C n cells) : (Section.bytes big C (sec2 n)).length = 8 + 12 * n := by
  refine (length_section big (h.row (s := sec2 n) (by simp))).trans ?_
  simp [sec1, sec2, Files.vec]; ring

theorem len3 (big : Bool) (h : SnapshotFile C n cells) : (Section.bytes big C (sec3 n)).length = 8 + 8 * n := by
  refine (length_section big (h.row (s := sec3 n) (by simp))).trans ?_
  simp [sec3, Files.col]

theorem len4 (big : Bool) (h : SnapshotFile C n cells) : (Section.bytes big C sec4).length = 16 :=
  (length_section big (h.row (s := sec4) (by simp))).trans (by decide)

theorem before1 (big : Bool) (h : SnapshotFile C n cells) : (Layout.bytes big C [sec0]).length = 264 := by
  simp [Layout.bytes, len0 big h]
theorem before2 (big : Bool) (h : SnapshotFile C n cells) : (Layout.bytes big C [sec0, sec1 n]).length = 272 + 12 * n := by
  simp [Layout.bytes, len0 big h, len1 big h]; ring
theorem before3 (big : Bool) (h : SnapshotFile C n cells) : (Layout.bytes big C [sec0, sec1 n, sec2 n]).length = 280 + 24 * n := by
  simp [Layout.bytes, len0 big h, len1 big h, len2 big h]; ring
theorem before4 (big : Bool) (h : SnapshotFile C n cells) : (Layout.bytes big C [sec0, sec1 n, sec2 n, sec3 n]).length = 288 + 32 * n := by
  simp [Layout.bytes, len0 big h, len1 big h, len2 big h, len3 big h]; ring
theorem before5 (big : Bool) (h : SnapshotFile C n cells) : (Layout.bytes big C [sec0, sec1 n, sec2 n, sec3 n, sec4]).length = 304 + 32 * n := by
  simp [Layout.bytes, len0 big h, len1 big h, len2 big h, len3 big h, len4 big h]; ring

theorem readNpfile_eq (h : SnapshotFile C n cells) (sys big : Bool) (rest : List Byte) :
    readNpfile sys (big == sys) (snapshotBytes C n cells big rest) = .ok (n : Int) := by
  have hr : (Files.head 4 [6] "NumPart_ThisFile").Fits C := h.row (s := sec0) (by simp) _ (by simp [sec0])
  have : fread (snapshotBytes C n cells big rest) 8 4 1 = _ := fread_row big [] [sec1 n, sec2 n, sec3 n, sec4, sec5 cells] (Files.head 4 [6] "NumPart_ThisFile") sec0.rows.tail rest hr (i := 1) (k := 1) (by decide) (p := 0) rfl (off := 8) rfl
  unfold readNpfile
  rw [bindOk _ this]
  have hv : ((C "Header/NumPart_ThisFile".toList).getD 1 []).length = 4 := getD_length hr.2 (by rw [hr.1]; decide)
  have e : ((List.range 1).map (fun t => storeItem big (Files.head 4 [6] "NumPart_ThisFile").order ((C (Files.head 4 [6] "NumPart_ThisFile").name).getD (1 + t) []))).headD [] =
      storeItem big true ((C "Header/NumPart_ThisFile".toList).getD 1 []) := rfl
  rw [e, value4_store big sys hv, h.count]

theorem fread_short {file : List Byte} {offset : Int} {size count : Nat} (hc : count ≠ 0) (h : (file.length : Int) < offset + (size * count : Nat)) : fread file offset size count = .error .abort := by
  unfold fread
  split
  · rfl
  · rw [if_pos ⟨hc, by omega⟩]

theorem readNpfile_take (h : SnapshotFile C n cells) (sys big : Bool) (rest : List Byte) (m : Nat) :
    readNpfile sys (big == sys) ((snapshotBytes C n cells big rest).take m) = .error .abort ∨ readNpfile sys (big == sys) ((snapshotBytes C n cells big rest).take m) = .ok (n : Int) := by
  by_cases hm : ((snapshotBytes C n cells big rest).take m).length < 12
  · left
    unfold readNpfile
    rw [bindErr _ (fread_short (by omega) (by omega))]
  · right
    rw [← readNpfile_eq h sys big rest]
    rw [List.length_take] at hm
    have e : fread ((snapshotBytes C n cells big rest).take m) 8 4 1 = fread (snapshotBytes C n cells big rest) 8 4 1 := by
      unfold fread
      have h8 : ¬(8 : Int) < 0 := by omega
      have h9 : (8 : Int).toNat = 8 := rfl
      rw [if_neg h8, if_neg h8, if_neg (by rw [List.length_take, h9]; omega), if_neg (by rw [h9]; omega)]
      congr 1
      simp only [show List.range 1 = [0] from rfl, List.map_cons, List.map_nil]
      rw [List.drop_take, List.take_take, show min 4 (m - ((8 : Int).toNat + 4 * 0)) = 4 by omega]
    unfold readNpfile
    rw [e]

theorem nRead_eq (a k : Nat) {bytes : Int} (hb : 0 ≤ bytes) (h1 : (k : Int) < 2147483648) (h : (k : Int) * bytes < 2147483648) (h2 : (a + k : Int) < 2147483648) :
    nRead ((a : Int) + 1) ((a : Int) + k) bytes = .ok k := by
  unfold nRead
  rw [bindOk _ (cInt_ok (x := (a : Int) + k - (a + 1)) (by omega) (by omega)), bindOk _ (cInt_ok (x := (a : Int) + k - (a + 1) + 1) (by omega) (by omega))]
  have hk : (a : Int) + k - (a + 1) + 1 = k := by ring
  have h0 : 0 ≤ (k : Int) * bytes := mul_nonneg (by omega) hb
  rw [hk, bindOk _ (cInt_ok (x := (k : Int) * bytes) (by omega) h), if_neg (by omega), Int.toNat_natCast]

theorem columns_eq (sys big : Bool) {vals : List (List Byte)} (hv : ∀ v ∈ vals, v.length = 4) {a k : Nat} (hk : 3 * a + 3 * k ≤ vals.length) :
    columns sys (big == sys) k ((List.range (3 * k)).map (fun t => storeItem big true (vals.getD (3 * a + t) []))) =
      ((List.range k).map (fun i => vals.getD (3 * (a + i) + 0) []), (List.range k).map (fun i => vals.getD (3 * (a + i) + 1) []), (List.range k).map (fun i => vals.getD (3 * (a + i) + 2) [])) := by
  have key : ∀ i d, i < k → d < 3 → value4 sys (big == sys) (((List.range (3 * k)).map (fun t => storeItem big true (vals.getD (3 * a + t) []))).getD (i * 3 + d) []) =
      vals.getD (3 * (a + i) + d) [] := by
    intro i d hi hd
    have e : 3 * (a + i) + d = 3 * a + (i * 3 + d) := by ring
    rw [List.getD_eq_getElem?_getD, List.getElem?_map, List.getElem?_range (by omega), e]
    exact value4_store big sys (getD_length hv (by omega))
  unfold columns
  simp only [Prod.mk.injEq]
  refine ⟨List.map_congr_left fun i hi => ?_, List.map_congr_left fun i hi => ?_, List.map_congr_left fun i hi => ?_⟩
  · exact key i 0 (List.mem_range.1 hi) (by omega)
  · exact key i 1 (List.mem_range.1 hi) (by omega)
  · exact key i 2 (List.mem_range.1 hi) (by omega)

end Verif.ReadParticles
