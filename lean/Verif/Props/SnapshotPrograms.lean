import Verif.Proofs.SnapshotPrograms
import Verif.Props.GadgetSnapshot

/-! C98: programs which print the particles in a snapshot file of the Millennium-2 simulation -/

namespace Verif.SnapshotPrograms

open CPeano FortranReaders Files

section

variable {C : Content} {n : Nat} {fill : List Byte}

theorem whole {file : List Byte} {fs : ByteFS} {arg : Name} {T : List Byte} (hf : fs arg = some (file ++ T)) : fs arg = some ((file ++ T).take (file ++ T).length) := by rw [List.take_length, hf]

/-- C98: the Fortran program prints the total number of particles, the size of the box and the particles in the file, in the byte order of the machine, whatever follows in the file. -/
theorem C98_fortran (h : M2File C n fill) (hn : n ≠ 0) (big : Bool) {fs : ByteFS} {arg : Name} (ha : NoBlank arg) (hl : arg.length ≤ 500) {rest : List Byte}
    (hf : fs arg = some (m2Bytes big C n fill ++ rest)) (ht : m2Total C < 2 ^ 63) (hi : IdsBelow (10 ^ 16) (C "PartType1/ParticleIDs".toList)) :
    m2Fortran big fs arg = .ok ⟨m2Total C, (C "Header/BoxSize".toList).getD 0 [], m2Lines column16 C n⟩ := by
  rw [m2Fortran_cut h hn big ha hl (whole hf) ht, if_neg (by rw [List.length_append, m2Bytes_length h hn]; omega),
    lines_eq (by rw [(pos_array h).1]) (by rw [(vel_array h).1]) (by rw [(id_array h).1]) (fun v hv => fortranId_small (hi v hv))]
  rfl

/-- C98: so does the C program, with all IDs. -/
theorem C98_c (h : M2File C n fill) (big : Bool) {fs : ByteFS} {arg : Name} (hl : arg.length < 500) {rest : List Byte} (hf : fs arg = some (m2Bytes big C n fill ++ rest)) :
    m2C big fs arg = .ok ⟨n, m2Lines digitsOf C n⟩ := by
  by_cases hn : n = 0
  · subst hn
    rw [m2C_header h big hl (by rw [List.length_append, m2Bytes_length0 h]; omega) (whole hf)]
    have zero : ∀ (w : Nat) (b : List Byte), cRead big w 0 b = .ok ([], b) := by
      intro w b
      have h0 : IsArray w 0 ([] : List (List Byte)) := ⟨rfl, by simp⟩
      exact cRead_of big h0 b
    simp only [bind, Except.bind, Nat.mul_zero, zero]
    rfl
  · rw [m2C_cut h hn big hl (by rw [List.length_append, m2Bytes_length h hn]; omega) (whole hf), if_neg (by rw [List.length_append, m2Bytes_length h hn]; omega),
      lines_eq (by rw [(pos_array h).1]) (by rw [(vel_array h).1]) (by rw [(id_array h).1]) (fun v _ => cId_eq v)]
    rfl

/-- C98: the IDL program has the arrays which are stored. -/
theorem C98_idl (h : M2File C n fill) (hn : n ≠ 0) (big : Bool) {fs : ByteFS} {arg : Name} {rest : List Byte} (hf : fs arg = some (m2Bytes big C n fill ++ rest)) :
    m2Idl big fs arg = .ok (C "PartType1/Coordinates".toList, C "PartType1/Velocities".toList, C "PartType1/ParticleIDs".toList) := by
  rw [m2Idl_cut h hn big (whole hf), if_neg (by rw [List.length_append, m2Bytes_length h hn]; omega)]

/-- C98: the Python class finds the same arrays in the file, if it ends there. -/
theorem C98_python (h : M2File C n fill) (hn : n ≠ 0) (s big : Bool) : ∃ f, gadgetSnapshot s (m2Bytes big C n fill) [] = .ok f ∧ ∀ r ∈ m2Rows n, r.ReadBack s (m2Bytes big C n fill) C f := by
  let np : Nat → Nat := fun i => if i = 1 then n else 0
  let width : String → Nat := fun x => if x = "ParticleIDs" then 8 else 4
  have hfilter : (List.range 6).filter (fun i => np i ≠ 0) = [1] := by simp [np, List.range, List.range.loop, hn]
  have rows : ∀ q : Quantity, q.types = (fun _ => true) → q.rows np = [⟨partType 1 q.name, q.width, n :: q.shape, true, none⟩] := by
    intro q hq
    unfold Quantity.rows
    rw [hq]
    simp only [true_and]
    rw [hfilter]
    simp [np]
  let q1 : Quantity := ⟨"Coordinates".toList, [3], width "Coordinates", fun _ => true⟩
  let q2 : Quantity := ⟨"Velocities".toList, [3], width "Velocities", fun _ => true⟩
  let q3 : Quantity := ⟨"ParticleIDs".toList, [], width "ParticleIDs", fun _ => true⟩
  have e1 : q1.rows np = [vec 4 n 3 "PartType1/Coordinates"] := (rows q1 rfl).trans rfl
  have e2 : q2.rows np = [vec 4 n 3 "PartType1/Velocities"] := (rows q2 rfl).trans rfl
  have e3 : q3.rows np = [col 8 n "PartType1/ParticleIDs"] := (rows q3 rfl).trans rfl
  have hstored : storedQuantities C np width [] 3 = [q1, q2, q3] := by
    unfold storedQuantities allQuantities standardQuantities
    rw [List.map_nil, List.append_nil]
    rw [List.filter_cons_of_pos (by rw [show Quantity.rows np _ = _ from e1]; simp), List.filter_cons_of_pos (by rw [show Quantity.rows np _ = _ from e2]; simp),
      List.filter_cons_of_pos (by rw [show Quantity.rows np _ = _ from e3]; simp)]
    rfl
  have hblocks : (gadgetBlocks np (allQuantities C width [])).take 3 = m2Blocks n := by
    have : (gadgetBlocks np (allQuantities C width [])).take 3 = (storedQuantities C np width [] 3).map (fun q => Section.mk true (q.rows np)) := by
      unfold gadgetBlocks storedQuantities
      rw [List.map_take]
    rw [this, hstored, List.map_cons, List.map_cons, List.map_cons, List.map_nil, e1, e2, e3, m2Blocks, if_neg hn]
    rfl
  have hfile : snapshotFile big C np fill width [] 3 [] = m2Bytes big C n fill := by
    unfold snapshotFile
    rw [hblocks, List.append_nil]
    rfl
  have hs := h.size
  have hfits : SnapshotFits C np fill width [] 3 := by
    refine ⟨h.header, h.fill, ?_, by simp, ?_, ?_, ?_⟩
    · intro i hi
      rw [h.numbers i hi]
      simp only [np]
      split <;> rfl
    · rw [show (allQuantities C width []).map Quantity.name = ["Coordinates".toList, "Velocities".toList, "ParticleIDs".toList, "Masses".toList, "InternalEnergy".toList, "Density".toList,
        "SmoothingLength".toList] from rfl]
      decide +kernel
    · rw [hstored]
      intro q hq
      simp only [List.mem_cons, List.not_mem_nil, or_false] at hq
      rcases hq with rfl | rfl | rfl
      · refine ⟨Or.inl rfl, by simp [q1], ?_⟩
        rw [e1]
        intro r hr
        rw [List.mem_singleton.1 hr]
        exact h.data _ (by simp [m2Rows])
      · refine ⟨Or.inl rfl, by simp [q2], ?_⟩
        rw [e2]
        intro r hr
        rw [List.mem_singleton.1 hr]
        exact h.data _ (by simp [m2Rows])
      · refine ⟨Or.inr rfl, by simp [q3], ?_⟩
        rw [e3]
        intro r hr
        rw [List.mem_singleton.1 hr]
        exact h.data _ (by simp [m2Rows])
    · rw [hstored]
      have one : ∀ r ∈ m2Rows n, (Section.payload false C ⟨true, [r]⟩).length = r.width * r.shape.prod := by
        intro r hr
        rw [ReadParticles.length_payload false (s := ⟨true, [r]⟩) (by intro r' hr'; rw [List.mem_singleton.1 hr']; exact h.data r hr)]
        simp
      intro q hq
      simp only [List.mem_cons, List.not_mem_nil, or_false] at hq
      rcases hq with rfl | rfl | rfl
      · rw [e1, one _ (by simp [m2Rows])]
        show 4 * [n, 3].prod < _
        rw [prod_vec]; omega
      · rw [e2, one _ (by simp [m2Rows])]
        show 4 * [n, 3].prod < _
        rw [prod_vec]; omega
      · rw [e3, one _ (by simp [m2Rows])]
        show 8 * [n].prod < _
        rw [prod_one]; omega
  obtain ⟨f, h1, -, h2, -⟩ := C53_snapshot hfits s big [] (Or.inr ⟨Nat.le_refl 3, by simp⟩)
  rw [hfile] at h1 h2
  refine ⟨f, h1, ?_⟩
  rw [hstored] at h2
  intro r hr
  simp only [m2Rows, List.mem_cons, List.not_mem_nil, or_false] at hr
  rcases hr with rfl | rfl | rfl
  · exact h2 q1 (by simp) _ (by rw [e1]; simp)
  · exact h2 q2 (by simp) _ (by rw [e2]; simp)
  · exact h2 q3 (by simp) _ (by rw [e3]; simp)

/-- C98: if bytes are missing at the end, the Fortran and IDL programs fail, and the C program prints something undefined unless nothing but the last marker is incomplete. -/
theorem C98_truncated (h : M2File C n fill) (hn : n ≠ 0) (big : Bool) {fs : ByteFS} {arg : Name} (ha : NoBlank arg) (hl : arg.length < 500) {k : Nat} (hk : k < (m2Bytes big C n fill).length)
    (hf : fs arg = some ((m2Bytes big C n fill).take k)) (ht : m2Total C < 2 ^ 63) :
    m2Fortran big fs arg = .error .ioError ∧ m2Idl big fs arg = .error .ioError ∧
      m2C big fs arg = if k + 4 < (m2Bytes big C n fill).length then .error .other else .ok ⟨n, m2Lines digitsOf C n⟩ := by
  rw [m2Bytes_length h hn] at hk
  have hf' : fs arg = some ((m2Bytes big C n fill ++ []).take k) := by rw [List.append_nil]; exact hf
  refine ⟨?_, ?_, ?_⟩
  · rw [m2Fortran_cut h hn big ha (by omega) hf' ht, if_pos (by omega)]
  · rw [m2Idl_cut h hn big hf', if_pos (by omega)]
  · by_cases h264 : k < 264
    · rw [m2C_short h hn big hl h264 hf', m2Bytes_length h hn, if_pos (by omega)]
    have h264 : 264 ≤ k := by omega
    rw [m2C_cut h hn big hl h264 hf', m2Bytes_length h hn]
    by_cases h2 : k < 264 + (32 * n + 20)
    · rw [if_pos h2, if_pos (by omega)]
    · rw [if_neg h2, if_neg (by omega), lines_eq (by rw [(pos_array h).1]) (by rw [(vel_array h).1]) (by rw [(id_array h).1]) (fun v _ => cId_eq v)]
      rfl

/-- C98: the C program detects any file with a header in the other byte order. -/
theorem C98_wrong_order (big : Bool) {fs : ByteFS} {arg : Name} (hl : arg.length < 500) {rest : List Byte} (hf : fs arg = some (markerBytes (!big) 256 ++ rest)) : m2C big fs arg = .error .sanityCheck := by
  unfold m2C
  rw [if_neg (by omega), hf]
  have : cRead big 4 1 (markerBytes (!big) 256 ++ rest) = .ok ([[0, 0, 1, 0]], rest) := by
    have ha : IsArray 4 1 [([0, 0, 1, 0] : List Byte)] := ⟨rfl, by simp⟩
    have e : markerBytes (!big) 256 = arrayBytes big [([0, 0, 1, 0] : List Byte)] := by cases big <;> decide
    rw [e, cRead_of big ha]
  simp only [bind, Except.bind, this]
  rw [if_pos (by decide)]

/-- C98: no particles. The Fortran and IDL programs fail; there are no records for them to read. -/
theorem C98_empty_defect (h : M2File C 0 fill) (big : Bool) {fs : ByteFS} {arg : Name} (ha : NoBlank arg) (hl : arg.length < 500) (hf : fs arg = some (m2Bytes big C 0 fill)) :
    m2Fortran big fs arg = .error .ioError ∧ m2Idl big fs arg = .error .valueError ∧ m2C big fs arg = .ok ⟨0, []⟩ := by
  have hf' : fs arg = some ((m2Bytes big C 0 fill ++ []).take 264) := by rw [List.append_nil, List.take_of_length_le (by rw [m2Bytes_length0 h]), hf]
  have hnil : ((m2Blocks 0).bytes big C ++ []).take (264 - 264) = [] := rfl
  refine ⟨?_, ?_, ?_⟩
  · unfold m2Fortran
    rw [openSequential_arg ha (by omega) hf']
    simp only [bind, Except.bind]
    rw [header_cut h big (j := 64) (by omega), if_neg (by omega), hnil]
    simp only [headerVals_0, number_eq h]
    rfl
  · unfold m2Idl
    rw [hf']
    simp only [bind, Except.bind]
    rw [header_cut h big (j := 6) (by omega), if_neg (by omega)]
    simp only [headerVals_0, number_eq h]
    rfl
  · have := C98_c h big hl (fs := fs) (rest := []) (by rw [List.append_nil]; exact hf)
    rw [this]
    rfl

/-- C98: the Fortran program prints stars instead of IDs with more than 16 digits. -/
theorem C98_id_defect (h : M2File C n fill) (big : Bool) {fs : ByteFS} {arg : Name} (ha : NoBlank arg) (hl : arg.length ≤ 500) {rest : List Byte}
    (hf : fs arg = some (m2Bytes big C n fill ++ rest)) (ht : m2Total C < 2 ^ 63) {i : Nat} (hi : i < n) (h1 : 10 ^ 16 ≤ leNat ((C "PartType1/ParticleIDs".toList).getD i []))
    (h2 : leNat ((C "PartType1/ParticleIDs".toList).getD i []) < 2 ^ 63) :
    ∃ out, m2Fortran big fs arg = .ok out ∧ out.lines.length = n ∧ (out.lines[i]?).map Line.id = some (List.replicate 16 '*') := by
  have hn : n ≠ 0 := by omega
  rw [m2Fortran_cut h hn big ha hl (whole hf) ht, if_neg (by rw [List.length_append, m2Bytes_length h hn]; omega)]
  refine ⟨_, rfl, by simp [printLines], ?_⟩
  simp only [printLines, List.getElem?_map, List.getElem?_range hi, Option.map_some]
  rw [fortranId_stars h1 h2]

end

/-! ### An example -/

namespace ExM2

def C : Content := fun name =>
  if name = "Header/NumPart_ThisFile".toList then [leBytes 4 0, leBytes 4 2, leBytes 4 0, leBytes 4 0, leBytes 4 0, leBytes 4 0]
  else if name = "Header/NumPart_Total".toList then [leBytes 4 0, leBytes 4 4294967295, leBytes 4 0, leBytes 4 0, leBytes 4 0, leBytes 4 0]
  else if name = "Header/NumPart_Total_HighWord".toList then [leBytes 4 0, leBytes 4 1, leBytes 4 0, leBytes 4 0, leBytes 4 0, leBytes 4 0]
  else if name = "Header/MassTable".toList then List.replicate 6 (leBytes 8 0)
  else if name = "Header/BoxSize".toList then [leBytes 8 100]
  else if name = "PartType1/Coordinates".toList then [leBytes 4 1, leBytes 4 2, leBytes 4 3, leBytes 4 4, leBytes 4 5, leBytes 4 6]
  else if name = "PartType1/Velocities".toList then [leBytes 4 11, leBytes 4 12, leBytes 4 13, leBytes 4 14, leBytes 4 15, leBytes 4 16]
  else if name = "PartType1/ParticleIDs".toList then [leBytes 8 77, leBytes 8 123456789012345678]
  else if name = "Header/Time".toList ∨ name = "Header/Redshift".toList ∨ name = "Header/Omega0".toList ∨ name = "Header/OmegaLambda".toList ∨ name = "Header/HubbleParam".toList then [leBytes 8 0]
  else [leBytes 4 0]

theorem file : M2File C 2 (List.replicate 64 0) := by
  constructor
  all_goals decide +kernel

def fs (big : Bool) : ByteFS := fun p => if p = "snap_000.0".toList then some (m2Bytes big C 2 (List.replicate 64 0)) else none

example (big : Bool) : m2C big (fs big) "snap_000.0".toList = .ok ⟨2, [⟨[leBytes 4 1, leBytes 4 2, leBytes 4 3], [leBytes 4 11, leBytes 4 12, leBytes 4 13], "77".toList⟩,
    ⟨[leBytes 4 4, leBytes 4 5, leBytes 4 6], [leBytes 4 14, leBytes 4 15, leBytes 4 16], "123456789012345678".toList⟩]⟩ := by
  rw [C98_c file big (by decide) (rest := []) (by rw [List.append_nil]; rfl)]
  decide +kernel

/-- The second ID is replaced. -/
example (big : Bool) : ∃ out, m2Fortran big (fs big) "snap_000.0".toList = .ok out ∧ out.lines.length = 2 ∧ (out.lines[1]?).map Line.id = some "****************".toList :=
  C98_id_defect file big (by unfold NoBlank; decide) (by decide) (rest := []) (by rw [List.append_nil]; rfl) (by decide +kernel) (by decide) (by decide +kernel) (by decide +kernel)

def C1 : Content := fun name => if name = "PartType1/ParticleIDs".toList then [leBytes 8 77, leBytes 8 1234567890123456] else C name

theorem file1 : M2File C1 2 (List.replicate 64 0) := by
  constructor
  all_goals decide +kernel

def fs1 (big : Bool) : ByteFS := fun p => if p = "snap_000.0".toList then some (m2Bytes big C1 2 (List.replicate 64 0)) else none

example (big : Bool) : m2Fortran big (fs1 big) "snap_000.0".toList = .ok ⟨8589934591, leBytes 8 100, [⟨[leBytes 4 1, leBytes 4 2, leBytes 4 3], [leBytes 4 11, leBytes 4 12, leBytes 4 13],
    "              77".toList⟩, ⟨[leBytes 4 4, leBytes 4 5, leBytes 4 6], [leBytes 4 14, leBytes 4 15, leBytes 4 16], "1234567890123456".toList⟩]⟩ := by
  rw [C98_fortran file1 (by decide) big (by unfold NoBlank; decide) (by decide) (rest := []) (by rw [List.append_nil]; rfl) (by decide +kernel) (by unfold IdsBelow; decide +kernel)]
  decide +kernel

example (big : Bool) : m2Idl big (fs1 big) "snap_000.0".toList = .ok (C1 "PartType1/Coordinates".toList, C1 "PartType1/Velocities".toList, [leBytes 8 77, leBytes 8 1234567890123456]) :=
  C98_idl file1 (by decide) big (rest := []) (by rw [List.append_nil]; rfl)

example (s big : Bool) : ∃ f, gadgetSnapshot s (m2Bytes big C 2 (List.replicate 64 0)) [] = .ok f ∧ f.dataset s (m2Bytes big C 2 (List.replicate 64 0)) "PartType1/ParticleIDs".toList =
    .ok [leBytes 8 77, leBytes 8 123456789012345678] := by
  obtain ⟨f, h1, h2⟩ := C98_python file (by decide) s big
  exact ⟨f, h1, (h2 (col 8 2 "PartType1/ParticleIDs") (by simp [m2Rows])).1⟩

/-- The last marker is not complete. -/
example (big : Bool) : m2C big (fun _ => some ((m2Bytes big C 2 (List.replicate 64 0)).take 350)) "f".toList = .ok ⟨2, m2Lines digitsOf C 2⟩ ∧
    m2Fortran big (fun _ => some ((m2Bytes big C 2 (List.replicate 64 0)).take 350)) "f".toList = .error .ioError := by
  have hlen := m2Bytes_length file (by decide) big
  obtain ⟨h1, -, h2⟩ := C98_truncated file (by decide) big (arg := "f".toList) (fs := fun _ => some ((m2Bytes big C 2 (List.replicate 64 0)).take 350)) (by unfold NoBlank; decide) (by decide) (k := 350)
    (by rw [hlen]; decide) rfl (by decide +kernel)
  refine ⟨?_, h1⟩
  rw [h2, if_neg (by rw [hlen]; decide)]
  rfl

/-- A file in big endian order on a little endian machine -/
example : m2C false (fs true) "snap_000.0".toList = .error .sanityCheck := by
  refine C98_wrong_order false (rest := (m2Bytes true C 2 (List.replicate 64 0)).drop 4) (by decide) ?_
  show some (m2Bytes true C 2 (List.replicate 64 0)) = some (markerBytes true 256 ++ (m2Bytes true C 2 (List.replicate 64 0)).drop 4)
  rw [show markerBytes true 256 = (m2Bytes true C 2 (List.replicate 64 0)).take 4 by
    unfold m2Bytes gadgetBytes
    rw [List.append_assoc, List.append_assoc, List.append_assoc, List.take_left' (length_markerBytes _ _)], List.take_append_drop]

def C0 : Content := fun name => if name = "Header/NumPart_ThisFile".toList then List.replicate 6 (leBytes 4 0) else if (m2Rows 0).any (fun r => r.name = name) then [] else C name

theorem file0 : M2File C0 0 (List.replicate 64 0) := by
  constructor
  all_goals decide +kernel

example (big : Bool) : m2Fortran big (fun _ => some (m2Bytes big C0 0 (List.replicate 64 0))) "f".toList = .error .ioError ∧ m2C big (fun _ => some (m2Bytes big C0 0 (List.replicate 64 0))) "f".toList = .ok ⟨0, []⟩ := by
  obtain ⟨h1, -, h2⟩ := C98_empty_defect file0 big (arg := "f".toList) (fs := fun _ => some (m2Bytes big C0 0 (List.replicate 64 0))) (by unfold NoBlank; decide) (by decide) rfl
  exact ⟨h1, h2⟩

end ExM2

end Verif.SnapshotPrograms
