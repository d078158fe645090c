import Verif.Spec.SnapshotPrograms
import Verif.Proofs.FortranReaders
import Verif.Proofs.Formats
import Verif.Props.FortranRecord

/-! Proofs for the programs which read Millennium-2 snapshots. -/

namespace Verif.SnapshotPrograms

open CPeano FortranReaders Files

/-! ### Text -/

theorem digits_length {k n : Nat} (hk : 0 < k) : (decimal n).length ≤ k ↔ n < 10 ^ k := by
  unfold decimal
  exact Nat.length_toDigits_le_iff (by omega) hk

theorem iFormat16 {n : Nat} (h : n < 10 ^ 16) : iFormat 16 1 (n : Int) = column16 n := by
  have hl := (digits_length (k := 16) (by omega)).2 h
  have h1 : decimal n ≠ [] := by rw [decimal_eq]; exact digitsOf_ne_nil n
  have h2 : 1 ≤ (decimal n).length := List.length_pos_iff.2 h1
  unfold iFormat column16
  simp only [Int.natAbs_natCast]
  rw [if_neg (by omega : ¬ ((n : Int) < 0)), show 1 - (decimal n).length = 0 by omega, List.replicate_zero, List.nil_append, List.nil_append, if_neg (by omega), decimal_eq]

theorem iFormat16_stars {n : Nat} (h : 10 ^ 16 ≤ n) : iFormat 16 1 (n : Int) = List.replicate 16 '*' := by
  have hl : ¬ (decimal n).length ≤ 16 := by
    rw [digits_length (by omega)]
    omega
  unfold iFormat
  simp only [Int.natAbs_natCast]
  rw [if_neg (by omega : ¬ ((n : Int) < 0)), show 1 - (decimal n).length = 0 by omega, List.replicate_zero, List.nil_append, List.nil_append, if_pos (by omega)]

theorem int64_small {v : List Byte} (h : leNat v < 2 ^ 63) : int64Value v = leNat v := by
  unfold int64Value
  rw [if_neg (by omega)]

theorem fortranId_small {v : List Byte} (h : leNat v < 10 ^ 16) : fortranId v = column16 (leNat v) := by
  unfold fortranId
  rw [int64_small (by omega), iFormat16 h]

theorem fortranId_stars {v : List Byte} (h : 10 ^ 16 ≤ leNat v) (h2 : leNat v < 2 ^ 63) : fortranId v = List.replicate 16 '*' := by
  unfold fortranId
  rw [int64_small h2, iFormat16_stars h]

theorem cId_eq (v : List Byte) : cId v = digitsOf (leNat v) := decimal_eq _

/-! ### Lines -/

theorem vector_eq {a : List (List Byte)} {i : Nat} (h : 3 * i + 3 ≤ a.length) : vector a i = (a.drop (3 * i)).take 3 := by
  unfold vector
  rw [List.getD_eq_getElem _ _ (by omega), List.getD_eq_getElem _ _ (by omega), List.getD_eq_getElem _ _ (by omega)]
  refine List.ext_getElem (by rw [List.length_take, List.length_drop]; simp; omega) ?_
  intro k h1 h2
  have : k < 3 := by simpa using h1
  rw [List.getElem_take, List.getElem_drop]
  match k, this with
  | 0, _ => rfl
  | 1, _ => rfl
  | 2, _ => rfl

theorem lines_eq {text : List Byte → Name} {text' : Nat → Name} {n : Nat} {pos vel ids : List (List Byte)} (h1 : 3 * n ≤ pos.length) (h2 : 3 * n ≤ vel.length) (h3 : n ≤ ids.length)
    (ht : ∀ v ∈ ids, text v = text' (leNat v)) : printLines text n pos vel ids = particleLines text' n pos vel ids := by
  unfold printLines particleLines
  refine List.map_congr_left (fun i hi => ?_)
  have hi := List.mem_range.1 hi
  rw [vector_eq (by omega), vector_eq (by omega), ht _ (by rw [List.getD_eq_getElem _ _ (by omega)]; exact List.getElem_mem _)]

/-! ### The file -/

variable {C : Content} {n : Nat} {fill : List Byte}

/-- The header as a list of values -/
def headerVals (C : Content) : List (List (List Byte)) := gadgetHeader.map (fun r => C r.name)

theorem header_arrays (h : M2File C n fill) : List.Forall₂ (fun it v => IsArray it.1 it.2 v) m2Header (headerVals C) := by
  have key : ∀ (items : List (Nat × Nat)) (l : List Row), List.Forall₂ (fun (it : Nat × Nat) (r : Row) => r.width = it.1 ∧ r.shape.prod = it.2) items l → (∀ r ∈ l, r.Fits C) →
      List.Forall₂ (fun it v => IsArray it.1 it.2 v) items (l.map (fun r => C r.name)) := by
    intro items l hl
    induction hl with
    | nil => intro _; exact .nil
    | cons h1 _ ih =>
      intro hr
      refine .cons ?_ (ih (fun r h => hr r (by simp [h])))
      have := hr _ List.mem_cons_self
      rw [Row.Fits, h1.1, h1.2] at this
      exact this
  refine key _ _ ?_ h.header
  unfold m2Header gadgetHeader
  repeat' apply List.Forall₂.cons
  all_goals first | exact ⟨rfl, rfl⟩ | exact .nil

theorem header_payload (big : Bool) (C : Content) : Section.payload big C ⟨true, gadgetHeader⟩ = (headerVals C).flatMap (arrayBytes big) := by
  unfold Section.payload headerVals
  exact rows_bytes big C (by decide +kernel)

theorem header_length (h : M2File C n fill) (big : Bool) : (Section.payload big C ⟨true, gadgetHeader⟩ ++ fill).length = 256 := by
  rw [List.length_append, ReadParticles.length_payload big (s := ⟨true, gadgetHeader⟩) h.header, h.fill]
  decide +kernel

theorem m2Bytes_eq (h : M2File C n fill) (big : Bool) : m2Bytes big C n fill = markerBytes big (Section.payload big C ⟨true, gadgetHeader⟩ ++ fill).length ++ (Section.payload big C ⟨true, gadgetHeader⟩ ++ fill) ++
    markerBytes big (Section.payload big C ⟨true, gadgetHeader⟩ ++ fill).length ++ (m2Blocks n).bytes big C := by
  rw [header_length h]
  simp [m2Bytes, gadgetBytes, List.append_assoc]

/-- `fill` as an array of bytes -/
theorem fill_bytes (big : Bool) (k : Nat) : arrayBytes big ((fill.take k).map (fun b => [b])) = fill.take k := by
  unfold arrayBytes
  induction fill.take k with
  | nil => rfl
  | cons b l ih =>
    rw [List.map_cons, List.flatMap_cons, ih]
    unfold storeItem
    split <;> simp

theorem number_eq (h : M2File C n fill) : int32Value ((C "Header/NumPart_ThisFile".toList).getD 1 []) = n := by
  have := h.numbers 1 (by omega)
  simpa using this

theorem pos_array (h : M2File C n fill) : IsArray 4 (3 * n) (C "PartType1/Coordinates".toList) := by
  have h1 := h.data (vec 4 n 3 "PartType1/Coordinates") (by simp [m2Rows])
  refine ⟨?_, h1.2⟩
  rw [show (C "PartType1/Coordinates".toList).length = _ from h1.1]
  simp [vec, Nat.mul_comm]

theorem vel_array (h : M2File C n fill) : IsArray 4 (3 * n) (C "PartType1/Velocities".toList) := by
  have h1 := h.data (vec 4 n 3 "PartType1/Velocities") (by simp [m2Rows])
  refine ⟨?_, h1.2⟩
  rw [show (C "PartType1/Velocities".toList).length = _ from h1.1]
  simp [vec, Nat.mul_comm]

theorem id_array (h : M2File C n fill) : IsArray 8 n (C "PartType1/ParticleIDs".toList) := by
  have h1 := h.data (col 8 n "PartType1/ParticleIDs") (by simp [m2Rows])
  refine ⟨?_, h1.2⟩
  rw [show (C "PartType1/ParticleIDs".toList).length = _ from h1.1]
  simp [col]

/-- A record with an array -/
def recordOf (big : Bool) (vals : List (List Byte)) : List Byte := markerBytes big (arrayBytes big vals).length ++ arrayBytes big vals ++ markerBytes big (arrayBytes big vals).length

theorem blocks_eq (big : Bool) (C : Content) (hn : n ≠ 0) : (m2Blocks n).bytes big C = recordOf big (C "PartType1/Coordinates".toList) ++ (recordOf big (C "PartType1/Velocities".toList) ++
    recordOf big (C "PartType1/ParticleIDs".toList)) := by
  unfold m2Blocks
  rw [if_neg hn]
  have : ∀ r : Row, r.order = true → Section.bytes big C ⟨true, [r]⟩ = recordOf big (C r.name) := by
    intro r hr
    have hp : Section.payload big C ⟨true, [r]⟩ = arrayBytes big (C r.name) := by
      unfold Section.payload Row.bytes arrayBytes
      simp [hr]
    unfold Section.bytes recordOf
    rw [if_pos rfl, hp]
  unfold m2Rows Layout.bytes
  rw [List.map_cons, List.map_cons, List.map_cons, List.map_nil, List.flatMap_cons, List.flatMap_cons, List.flatMap_cons, List.flatMap_nil, this _ rfl, this _ rfl, this _ rfl, List.append_nil]
  rfl

theorem record_read (big : Bool) {w k : Nat} {vals : List (List Byte)} (h : IsArray w k vals) (hl : w * k < 2147483648) (rest : List Byte) :
    recordRead big [(w, k)] (recordOf big vals ++ rest) = .ok ([vals], rest) := by
  refine recordRead_of big (.cons h .nil) _ [] rest ?_ ?_
  · simp
  · rw [length_arrayBytes big h]; exact hl

theorem headerVals_0 (C : Content) (more : List (List (List Byte))) : (headerVals C ++ more).getD 0 [] = C "Header/NumPart_ThisFile".toList := rfl
theorem headerVals_6 (C : Content) (more : List (List (List Byte))) : (headerVals C ++ more).getD 6 [] = C "Header/NumPart_Total".toList := rfl
theorem headerVals_9 (C : Content) (more : List (List (List Byte))) : (headerVals C ++ more).getD 9 [] = C "Header/BoxSize".toList := rfl
theorem headerVals_15 (C : Content) (more : List (List (List Byte))) : (headerVals C ++ more).getD 15 [] = C "Header/NumPart_Total_HighWord".toList := rfl

/-! ### Truncated files -/

theorem readItem_short (big : Bool) {w k : Nat} {bytes : List Byte} (h : bytes.length < w * k) : readItem big w k bytes = .error .ioError := by
  unfold readItem
  rw [if_pos h]

/-- A record which is not complete -/
theorem recordRead_short (big : Bool) (items : List (Nat × Nat)) (payload : List Byte) (hl : payload.length < 2147483648) {k : Nat} (hk : k < payload.length + 8) :
    recordRead big items ((markerBytes big payload.length ++ payload ++ markerBytes big payload.length).take k) = .error .ioError := by
  have hm : (markerBytes big payload.length).length = 4 := by unfold markerBytes storeItem; split <;> simp [length_leBytes]
  unfold recordRead
  by_cases h4 : k < 4
  · rw [readItem_short big (by rw [List.length_take]; omega)]
    rfl
  · obtain ⟨m, h1, h2⟩ := readItem_marker big hl ((payload ++ markerBytes big payload.length).take (k - 4))
    have hsplit : (markerBytes big payload.length ++ payload ++ markerBytes big payload.length).take k = markerBytes big payload.length ++ (payload ++ markerBytes big payload.length).take (k - 4) := by
      rw [List.append_assoc, List.take_append, hm, List.take_of_length_le (by rw [hm]; omega)]
    rw [hsplit, h1]
    simp only [bind, Except.bind, List.headD_cons, h2]
    have hlen : ((payload ++ markerBytes big payload.length).take (k - 4)).length = k - 4 := by
      rw [List.length_take, List.length_append, hm]; omega
    rw [hlen, Int.toNat_natCast]
    by_cases h5 : k - 4 < payload.length
    · rw [if_pos (by omega)]
    · rw [if_neg (by omega), readItem_short big (by rw [List.length_drop, hlen]; omega)]

/-- A record with something following, cut somewhere -/
theorem recordRead_cut (big : Bool) {w m : Nat} {vals : List (List Byte)} (h : IsArray w m vals) (hl : w * m < 2147483648) (T : List Byte) (k : Nat) :
    recordRead big [(w, m)] ((recordOf big vals ++ T).take k) = if k < w * m + 8 then .error .ioError else .ok ([vals], T.take (k - (w * m + 8))) := by
  have hlen : (recordOf big vals).length = w * m + 8 := by
    unfold recordOf
    rw [List.length_append, List.length_append, length_markerBytes, length_arrayBytes big h]; omega
  by_cases hk : k < w * m + 8
  · rw [if_pos hk, List.take_append_of_le_length (by omega)]
    exact recordRead_short big _ (arrayBytes big vals) (by rw [length_arrayBytes big h]; exact hl) (by rw [length_arrayBytes big h]; exact hk)
  · rw [if_neg hk, List.take_append, hlen, List.take_of_length_le (by omega)]
    exact record_read big h hl _

theorem cRead_of (big : Bool) {w m : Nat} {vals : List (List Byte)} (h : IsArray w m vals) (rest : List Byte) : cRead big w m (arrayBytes big vals ++ rest) = .ok (vals, rest) := by
  unfold cRead
  rw [readItem_of big h]

theorem cRead_cut (big : Bool) {w m : Nat} {vals : List (List Byte)} (h : IsArray w m vals) (T : List Byte) (k : Nat) :
    cRead big w m ((arrayBytes big vals ++ T).take k) = if k < w * m then .error .other else .ok (vals, T.take (k - w * m)) := by
  have hlen := length_arrayBytes big h
  by_cases hk : k < w * m
  · rw [if_pos hk]
    unfold cRead
    rw [readItem_short big (by rw [List.length_take]; omega)]
  · rw [if_neg hk, List.take_append, hlen, List.take_of_length_le (by omega), cRead_of big h]

/-- The records after the header -/
def tail3 (big : Bool) (n : Nat) (bytes : List Byte) : Except Err (List (List Byte) × List (List Byte) × List (List Byte)) := do
  let pos ← recordRead big [(4, 3 * n)] bytes
  let vel ← recordRead big [(4, 3 * n)] pos.2
  let id ← recordRead big [(8, n)] vel.2
  .ok (pos.1.headD [], vel.1.headD [], id.1.headD [])

theorem tail3_cut (h : M2File C n fill) (hn : n ≠ 0) (big : Bool) (T : List Byte) (k : Nat) : tail3 big n (((m2Blocks n).bytes big C ++ T).take k) =
    if k < 32 * n + 24 then .error .ioError else .ok (C "PartType1/Coordinates".toList, C "PartType1/Velocities".toList, C "PartType1/ParticleIDs".toList) := by
  have hs := h.size
  rw [blocks_eq big C hn, List.append_assoc, List.append_assoc]
  unfold tail3
  rw [recordRead_cut big (pos_array h) (by omega)]
  by_cases h1 : k < 4 * (3 * n) + 8
  · rw [if_pos h1, if_pos (by omega)]; rfl
  rw [if_neg h1]
  simp only [bind, Except.bind]
  rw [recordRead_cut big (vel_array h) (by omega)]
  by_cases h2 : k - (4 * (3 * n) + 8) < 4 * (3 * n) + 8
  · rw [if_pos h2, if_pos (by omega)]
  rw [if_neg h2]
  simp only
  rw [recordRead_cut big (id_array h) (by omega)]
  by_cases h3 : k - (4 * (3 * n) + 8) - (4 * (3 * n) + 8) < 8 * n + 8
  · rw [if_pos h3, if_pos (by omega)]
  rw [if_neg h3, if_neg (by omega)]
  rfl

theorem m2Bytes_length (h : M2File C n fill) (hn : n ≠ 0) (big : Bool) : (m2Bytes big C n fill).length = 264 + (32 * n + 24) := by
  rw [m2Bytes_eq h, blocks_eq big C hn]
  unfold recordOf
  simp only [List.length_append, length_markerBytes, length_arrayBytes big (pos_array h), length_arrayBytes big (vel_array h), length_arrayBytes big (id_array h)]
  have := header_length h big
  rw [List.length_append] at this
  omega

theorem m2Bytes_length0 (h : M2File C 0 fill) (big : Bool) : (m2Bytes big C 0 fill).length = 264 := by
  rw [m2Bytes_eq h]
  have := header_length h big
  rw [List.length_append] at this
  simp only [List.length_append, length_markerBytes, m2Blocks, if_pos, Layout.bytes, List.flatMap_nil, List.length_nil]
  omega

theorem header_cut (h : M2File C n fill) (big : Bool) {j : Nat} (hj : j ≤ 64) (T : List Byte) (k : Nat) :
    recordRead big (m2Header ++ [(1, j)]) ((m2Bytes big C n fill ++ T).take k) =
      if k < 264 then .error .ioError else .ok (headerVals C ++ [(fill.take j).map (fun b => [b])], ((m2Blocks n).bytes big C ++ T).take (k - 264)) := by
  have hl := header_length h big
  by_cases hk : k < 264
  · rw [if_pos hk, m2Bytes_eq h, List.append_assoc, List.take_append_of_le_length (by simp only [List.length_append, length_markerBytes] at hl ⊢; omega)]
    exact recordRead_short big _ _ (by rw [hl]; omega) (by rw [hl]; omega)
  · rw [if_neg hk, m2Bytes_eq h, List.append_assoc, List.take_append]
    have h2 : (markerBytes big (Section.payload big C ⟨true, gadgetHeader⟩ ++ fill).length ++ (Section.payload big C ⟨true, gadgetHeader⟩ ++ fill) ++
        markerBytes big (Section.payload big C ⟨true, gadgetHeader⟩ ++ fill).length).length = 264 := by
      simp only [List.length_append, length_markerBytes] at hl ⊢; omega
    rw [h2, List.take_of_length_le (by rw [h2]; omega)]
    refine recordRead_of big (List.rel_append (header_arrays h) (.cons ?_ .nil)) _ (fill.drop j) _ ?_ ?_
    · constructor
      · rw [List.length_map, List.length_take, h.fill]; omega
      · intro v hv
        obtain ⟨b, _, rfl⟩ := List.mem_map.1 hv
        rfl
    · rw [List.flatMap_append, header_payload, List.flatMap_cons, List.flatMap_nil, List.append_nil, fill_bytes, List.append_assoc, List.take_append_drop]
    · rw [hl]; omega

/-! ### The programs -/

theorem wrap64_of {x : Int} (h : -2 ^ 63 ≤ x) (h2 : x < 2 ^ 63) : wrap64 x = x := by
  unfold wrap64
  rw [Int.emod_eq_of_lt (by omega) (by omega)]
  omega

theorem total_eq {lo hi : List Byte} (h1 : lo.length = 4) (h2 : hi.length = 4) (h : leNat lo + 2 ^ 32 * leNat hi < 2 ^ 63) : fortranTotal lo hi = ((leNat lo + 2 ^ 32 * leNat hi : Nat) : Int) := by
  have hlo := leNat_lt lo
  have hhi := leNat_lt hi
  rw [h1] at hlo
  rw [h2] at hhi
  have e1 : (if int32Value lo < 0 then int32Value lo + 2 ^ 32 else int32Value lo) = (leNat lo : Int) := by
    unfold int32Value
    split <;> split <;> omega
  have e2 : (if int32Value hi < 0 then int32Value hi + 2 ^ 32 else int32Value hi) = (leNat hi : Int) := by
    unfold int32Value
    split <;> split <;> omega
  unfold fortranTotal
  simp only [e1, e2]
  rw [wrap64_of (x := (leNat hi : Int) * 2 ^ 32) (by omega) (by omega), wrap64_of (by omega) (by omega)]
  push_cast
  ring

theorem header_value (h : M2File C n fill) {w k : Nat} {name : String} (hr : head w [k] name ∈ gadgetHeader) {i : Nat} (hi : i < k) : ((C (head w [k] name).name).getD i []).length = w := by
  have := h.header _ hr
  have hl : (C (head w [k] name).name).length = k := this.1.trans (prod_one k)
  rw [List.getD_eq_getElem _ _ (by rw [hl]; exact hi)]
  exact this.2 _ (List.getElem_mem _)

theorem openSequential_arg {fs : ByteFS} {arg : Name} {file : List Byte} (ha : NoBlank arg) (hl : arg.length ≤ 500) (hf : fs arg = some file) : openSequential fs (assignChar 500 arg) = .ok file := by
  unfold openSequential assignChar
  rw [List.take_of_length_le hl, trim_append ha, hf]

theorem m2Fortran_cut (h : M2File C n fill) (hn : n ≠ 0) (big : Bool) {fs : ByteFS} {arg : Name} (ha : NoBlank arg) (hl : arg.length ≤ 500) {T : List Byte} {k : Nat}
    (hf : fs arg = some ((m2Bytes big C n fill ++ T).take k)) (ht : m2Total C < 2 ^ 63) : m2Fortran big fs arg = if k < 264 + (32 * n + 24) then .error .ioError
      else .ok ⟨m2Total C, (C "Header/BoxSize".toList).getD 0 [], printLines fortranId n (C "PartType1/Coordinates".toList) (C "PartType1/Velocities".toList) (C "PartType1/ParticleIDs".toList)⟩ := by
  have htail := tail3_cut h hn big T (k - 264)
  have hlo : ((C "Header/NumPart_Total".toList).getD 1 []).length = 4 := header_value h (w := 4) (k := 6) (name := "NumPart_Total") (by simp [gadgetHeader]) (by omega)
  have hhi : ((C "Header/NumPart_Total_HighWord".toList).getD 1 []).length = 4 := header_value h (w := 4) (k := 6) (name := "NumPart_Total_HighWord") (by simp [gadgetHeader]) (by omega)
  unfold m2Fortran
  rw [openSequential_arg ha hl hf]
  simp only [bind, Except.bind]
  rw [header_cut h big (j := 64) (by omega)]
  by_cases hk : k < 264
  · rw [if_pos hk, if_pos (by omega)]
  rw [if_neg hk]
  simp only [headerVals_0, headerVals_6, headerVals_9, headerVals_15, number_eq h, Int.toNat_natCast, total_eq hlo hhi ht]
  unfold tail3 at htail
  simp only [bind, Except.bind] at htail
  revert htail
  cases recordRead big [(4, 3 * n)] (((m2Blocks n).bytes big C ++ T).take (k - 264)) with
  | error e =>
    intro htail
    simp only at htail ⊢
    by_cases h2 : k - 264 < 32 * n + 24
    · rw [if_pos h2] at htail
      rw [if_pos (by omega)]
      cases htail; rfl
    · rw [if_neg h2] at htail; cases htail
  | ok pos =>
    simp only
    cases recordRead big [(4, 3 * n)] pos.2 with
    | error e =>
      intro htail
      simp only at htail ⊢
      by_cases h2 : k - 264 < 32 * n + 24
      · rw [if_pos h2] at htail
        rw [if_pos (by omega)]
        cases htail; rfl
      · rw [if_neg h2] at htail; cases htail
    | ok vel =>
      simp only
      cases recordRead big [(8, n)] vel.2 with
      | error e =>
        intro htail
        simp only at htail ⊢
        by_cases h2 : k - 264 < 32 * n + 24
        · rw [if_pos h2] at htail
          rw [if_pos (by omega)]
          cases htail; rfl
        · rw [if_neg h2] at htail; cases htail
      | ok ids =>
        intro htail
        simp only at htail ⊢
        by_cases h2 : k - 264 < 32 * n + 24
        · rw [if_pos h2] at htail; cases htail
        · rw [if_neg h2] at htail
          rw [if_neg (by omega)]
          injection htail with htail
          injection htail with e1 e2
          injection e2 with e2 e3
          rw [e1, e2, e3]
          rfl

theorem m2Idl_cut (h : M2File C n fill) (hn : n ≠ 0) (big : Bool) {fs : ByteFS} {arg : Name} {T : List Byte} {k : Nat} (hf : fs arg = some ((m2Bytes big C n fill ++ T).take k)) :
    m2Idl big fs arg = if k < 264 + (32 * n + 24) then .error .ioError else .ok (C "PartType1/Coordinates".toList, C "PartType1/Velocities".toList, C "PartType1/ParticleIDs".toList) := by
  have htail := tail3_cut h hn big T (k - 264)
  unfold m2Idl
  rw [hf]
  simp only [bind, Except.bind]
  rw [header_cut h big (j := 6) (by omega)]
  by_cases hk : k < 264
  · rw [if_pos hk, if_pos (by omega)]
  rw [if_neg hk]
  simp only [headerVals_0, number_eq h]
  unfold idlSize
  rw [if_neg (by omega), Int.toNat_natCast]
  unfold tail3 at htail
  simp only [bind, Except.bind] at htail
  simp only
  rw [htail]
  by_cases h2 : k - 264 < 32 * n + 24
  · rw [if_pos h2, if_pos (by omega)]
  · rw [if_neg h2, if_neg (by omega)]

/-- The C program until the number of particles is known -/
theorem m2C_header (h : M2File C n fill) (big : Bool) {fs : ByteFS} {arg : Name} (hl : arg.length < 500) {T : List Byte} {k : Nat} (hk : 264 ≤ k) (hf : fs arg = some ((m2Bytes big C n fill ++ T).take k)) :
    m2C big fs arg = (do
      let pos ← cRead big 4 (3 * n) ((((m2Blocks n).bytes big C ++ T).take (k - 264)).drop 4)
      let vel ← cRead big 4 (3 * n) ((pos.2.drop 4).drop 4)
      let ids ← cRead big 8 n ((vel.2.drop 4).drop 4)
      .ok ⟨n, printLines cId n pos.1 vel.1 ids.1⟩) := by
  have hs := h.size
  have hlen := header_length h big
  set P := Section.payload big C ⟨true, gadgetHeader⟩ ++ fill with hP
  set U := ((m2Blocks n).bytes big C ++ T).take (k - 264) with hU
  have hfile : (m2Bytes big C n fill ++ T).take k = markerBytes big 256 ++ (P ++ (markerBytes big 256 ++ U)) := by
    have h2 : (markerBytes big 256 ++ P ++ markerBytes big 256).length = 264 := by simp only [List.length_append, length_markerBytes] at hlen ⊢; omega
    rw [m2Bytes_eq h, ← hP, hlen, List.append_assoc, List.take_append, h2, List.take_of_length_le (by rw [h2]; omega), ← hU]
    simp only [List.append_assoc]
  obtain ⟨m, hm1, hm2⟩ := readItem_marker big (n := 256) (by omega) (P ++ (markerBytes big 256 ++ U))
  obtain ⟨m', hm1', hm2'⟩ := readItem_marker big (n := 256) (by omega) U
  have hnp : cRead big 4 6 (P ++ (markerBytes big 256 ++ U)) = .ok (C "Header/NumPart_ThisFile".toList, (P ++ (markerBytes big 256 ++ U)).drop 24) := by
    have ha : IsArray 4 6 (C "Header/NumPart_ThisFile".toList) := h.header (head 4 [6] "NumPart_ThisFile") (by simp [gadgetHeader])
    have : P ++ (markerBytes big 256 ++ U) = arrayBytes big (C "Header/NumPart_ThisFile".toList) ++ (((headerVals C).tail).flatMap (arrayBytes big) ++ (fill ++ (markerBytes big 256 ++ U))) := by
      rw [hP, header_payload, List.append_assoc, ← List.append_assoc (arrayBytes big _)]
      rfl
    rw [this, cRead_of big ha, List.drop_left' (by rw [length_arrayBytes big ha])]
  unfold m2C
  rw [if_neg (by omega), hf, hfile]
  simp only [bind, Except.bind]
  rw [show cRead big 4 1 (markerBytes big 256 ++ (P ++ (markerBytes big 256 ++ U))) = .ok ([m], P ++ (markerBytes big 256 ++ U)) by unfold cRead; rw [hm1]]
  simp only [List.headD_cons, hm2]
  rw [if_neg (by omega), if_neg (by rw [List.length_append, hlen]; omega), hnp]
  simp only
  rw [List.drop_left' hlen]
  unfold cHeaderEnd
  rw [if_neg (by intro hc; have := congrArg List.length hc; simp at this), show cRead big 4 1 (markerBytes big 256 ++ U) = .ok ([m'], U) by unfold cRead; rw [hm1']]
  simp only [bind, Except.bind, List.headD_cons, hm2']
  rw [if_neg (by omega)]
  simp only [number_eq h]
  rw [if_neg (by omega), (cInt_iff (3 * (n : Int)) _).2 ⟨rfl, by omega, by omega⟩]
  simp only [show (3 * (n : Int)).toNat = 3 * n by omega, Int.toNat_natCast]

/-- The C program: the last marker need not be there. -/
theorem m2C_cut (h : M2File C n fill) (hn : n ≠ 0) (big : Bool) {fs : ByteFS} {arg : Name} (hl : arg.length < 500) {T : List Byte} {k : Nat} (hk : 264 ≤ k)
    (hf : fs arg = some ((m2Bytes big C n fill ++ T).take k)) : m2C big fs arg = if k < 264 + (32 * n + 20) then .error .other
      else .ok ⟨n, printLines cId n (C "PartType1/Coordinates".toList) (C "PartType1/Velocities".toList) (C "PartType1/ParticleIDs".toList)⟩ := by
  rw [m2C_header h big hl hk hf, blocks_eq big C hn]
  have cut : ∀ {w m : Nat} {vals : List (List Byte)} (_ : IsArray w m vals) (U : List Byte) (j : Nat), cRead big w m (((recordOf big vals ++ U).take j).drop 4) =
      if j < w * m + 4 ∧ w * m ≠ 0 then .error .other else if j < 4 then .ok (vals, []) else .ok (vals, (markerBytes big (arrayBytes big vals).length ++ U).take (j - (w * m + 4))) := by
    intro w m vals hv U j
    unfold recordOf
    rw [List.drop_take, List.append_assoc, List.append_assoc, List.drop_left' (length_markerBytes _ _), cRead_cut big hv]
    by_cases h1 : j - 4 < w * m
    · rw [if_pos h1, if_pos (by omega)]
    · rw [if_neg h1, if_neg (by omega)]
      by_cases h2 : j < 4
      · rw [if_pos h2, show j - 4 - w * m = 0 by omega, List.take_zero]
      · rw [if_neg h2, show j - 4 - w * m = j - (w * m + 4) by omega]
  simp only [List.append_assoc, bind, Except.bind]
  rw [cut (pos_array h)]
  by_cases h1 : k - 264 < 4 * (3 * n) + 4
  · rw [if_pos ⟨h1, by omega⟩, if_pos (by omega)]
  rw [if_neg (by omega), if_neg (by omega)]
  simp only
  rw [List.drop_take (i := 4), List.drop_left' (length_markerBytes _ _), cut (vel_array h)]
  by_cases h2 : k - 264 - (4 * (3 * n) + 4) - 4 < 4 * (3 * n) + 4
  · rw [if_pos ⟨h2, by omega⟩, if_pos (by omega)]
  rw [if_neg (by omega), if_neg (by omega)]
  simp only
  rw [List.drop_take (i := 4), List.drop_left' (length_markerBytes _ _), cut (id_array h)]
  by_cases h3 : k - 264 - (4 * (3 * n) + 4) - 4 - (4 * (3 * n) + 4) - 4 < 8 * n + 4
  · rw [if_pos ⟨h3, by omega⟩, if_pos (by omega)]
  rw [if_neg (by omega), if_neg (by omega), if_neg (by omega)]

theorem cRead_short (big : Bool) {w m : Nat} {bytes : List Byte} (h : bytes.length < w * m) : cRead big w m bytes = .error .other := by
  unfold cRead
  rw [readItem_short big h]

/-- The header is not complete. -/
theorem m2C_short (h : M2File C n fill) (hn : n ≠ 0) (big : Bool) {fs : ByteFS} {arg : Name} (hl : arg.length < 500) {T : List Byte} {k : Nat} (hk : k < 264)
    (hf : fs arg = some ((m2Bytes big C n fill ++ T).take k)) : m2C big fs arg = .error .other := by
  have hs := h.size
  have hlen := header_length h big
  set P := Section.payload big C ⟨true, gadgetHeader⟩ ++ fill with hP
  have hfile : (m2Bytes big C n fill ++ T).take k = (markerBytes big 256 ++ (P ++ markerBytes big 256)).take k := by
    rw [m2Bytes_eq h, ← hP, hlen, List.append_assoc, List.take_append_of_le_length (by simp only [List.length_append, length_markerBytes] at hlen ⊢; omega), List.append_assoc]
  unfold m2C
  rw [if_neg (by omega), hf, hfile]
  simp only [bind, Except.bind]
  by_cases h4 : k < 4
  · rw [cRead_short big (by rw [List.length_take]; omega)]
  rw [List.take_append, length_markerBytes, List.take_of_length_le (by rw [length_markerBytes]; omega)]
  obtain ⟨m, hm1, hm2⟩ := readItem_marker big (n := 256) (by omega) ((P ++ markerBytes big 256).take (k - 4))
  rw [show cRead big 4 1 (markerBytes big 256 ++ (P ++ markerBytes big 256).take (k - 4)) = .ok ([m], (P ++ markerBytes big 256).take (k - 4)) by unfold cRead; rw [hm1]]
  simp only [List.headD_cons, hm2]
  rw [if_neg (by omega)]
  by_cases h5 : k < 260
  · rw [if_pos (by rw [List.length_take]; omega)]
  have hlen2 : ((P ++ markerBytes big 256).take (k - 4)).length = k - 4 := by rw [List.length_take, List.length_append, hlen, length_markerBytes]; omega
  rw [if_neg (by rw [hlen2]; omega)]
  have hnp : cRead big 4 6 ((P ++ markerBytes big 256).take (k - 4)) = .ok (C "Header/NumPart_ThisFile".toList, ((P ++ markerBytes big 256).take (k - 4)).drop 24) := by
    have ha : IsArray 4 6 (C "Header/NumPart_ThisFile".toList) := h.header (head 4 [6] "NumPart_ThisFile") (by simp [gadgetHeader])
    have : P ++ markerBytes big 256 = arrayBytes big (C "Header/NumPart_ThisFile".toList) ++ (((headerVals C).tail).flatMap (arrayBytes big) ++ (fill ++ markerBytes big 256)) := by
      rw [hP, header_payload, List.append_assoc, ← List.append_assoc (arrayBytes big _)]
      rfl
    rw [this, cRead_cut big ha, if_neg (by omega), List.drop_take, List.drop_left' (by rw [length_arrayBytes big ha])]
  rw [hnp]
  simp only
  have hdrop : ((P ++ markerBytes big 256).take (k - 4)).drop 256 = (markerBytes big 256).take (k - 260) := by
    rw [List.drop_take, List.drop_left' hlen, Nat.sub_sub]
  rw [hdrop]
  unfold cHeaderEnd
  by_cases h6 : k = 260
  · subst h6
    rw [if_pos (by rfl)]
    simp only [number_eq h]
    rw [if_neg (by omega), (cInt_iff (3 * (n : Int)) _).2 ⟨rfl, by omega, by omega⟩]
    simp only [show (3 * (n : Int)).toNat = 3 * n by omega]
    rw [cRead_short big (by simp; omega)]
  · have hl2 : ((markerBytes big 256).take (k - 260)).length = k - 260 := by rw [List.length_take, length_markerBytes]; omega
    rw [if_neg (by intro hc; rw [hc] at hl2; simp at hl2; omega)]
    simp only [bind, Except.bind]
    rw [cRead_short big (by rw [hl2]; omega)]

end Verif.SnapshotPrograms
