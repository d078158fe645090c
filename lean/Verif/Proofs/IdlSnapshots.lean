import Verif.Proofs.IdlReaders

/-! Proofs for the programs in IDL which read snapshots. -/

namespace Verif.IdlReaders

open Files FortranReaders SnapshotPrograms

/-- The first variables of the header of a snapshot -/
theorem header_read (big : Bool) {C : Content} {n cells : Nat} (h : ReadParticles.SnapshotFile C n cells) {k : Nat} (hk : k ≤ 10) (rest : List Byte) :
    recordRead big (snapHeader.take k) (Section.bytes big C ReadParticles.sec0 ++ rest) = .ok ((ReadParticles.sec0.rows.take k).map (fun r => C r.name), rest) := by
  have row : ∀ r ∈ ReadParticles.sec0.rows, r.Fits C := h.row (s := ReadParticles.sec0) (by simp)
  have hall : List.Forall₂ (fun (it : Nat × Nat) (r : Row) => r.width = it.1 ∧ r.shape.prod = it.2) snapHeader (ReadParticles.sec0.rows.take 10) := by
    unfold snapHeader
    repeat' (first | exact List.Forall₂.nil | refine List.Forall₂.cons ⟨rfl, rfl⟩ ?_)
  have hitems : List.Forall₂ (fun (it : Nat × Nat) (r : Row) => r.width = it.1 ∧ r.shape.prod = it.2) (snapHeader.take k) (ReadParticles.sec0.rows.take k) := by
    have := List.forall₂_take k hall
    rwa [List.take_take, Nat.min_eq_left hk] at this
  have hlen : (Section.payload big C ReadParticles.sec0).length < 2147483648 := by
    have h1 := h.fits.records ReadParticles.sec0 (by rw [ReadParticles.snapshot_sections]; simp) rfl
    rw [ReadParticles.length_payload big row]
    rw [ReadParticles.length_payload false row] at h1
    exact h1
  have hord : ∀ r ∈ ReadParticles.sec0.rows.take k, r.order = true := by
    intro r hr
    have h10 : r ∈ ReadParticles.sec0.rows.take 10 := (List.take_subset_take_left _ hk) hr
    have : ∀ r ∈ ReadParticles.sec0.rows.take 10, r.order = true := by decide +kernel
    exact this r h10
  have hp : Section.payload big C ReadParticles.sec0 = ((ReadParticles.sec0.rows.take k).map (fun r => C r.name)).flatMap (arrayBytes big) ++ (ReadParticles.sec0.rows.drop k).flatMap (Row.bytes big C) := by
    unfold Section.payload
    rw [← rows_bytes big C hord, ← List.flatMap_append, List.take_append_drop]
  exact recordRead_of big (arrays_of_rows hitems (fun r hr => row r (List.mem_of_mem_take hr))) _ _ rest hp hlen

theorem snapshot_bytes (C : Content) (n cells : Nat) (big : Bool) (rest : List Byte) : ReadParticles.snapshotBytes C n cells big rest = Section.bytes big C ReadParticles.sec0 ++ (Section.bytes big C (ReadParticles.sec1 n) ++
    (Section.bytes big C (ReadParticles.sec2 n) ++ (Section.bytes big C (ReadParticles.sec3 n) ++ (Section.bytes big C ReadParticles.sec4 ++ Section.bytes big C (ReadParticles.sec5 cells) ++ rest)))) := by
  rw [ReadParticles.snapshotBytes, ReadParticles.snapshot_sections, Layout.bytes]
  simp only [List.flatMap_cons, List.flatMap_nil, List.append_assoc, List.nil_append]

section
variable {C : Content} {n cells : Nat}

theorem record_pos (big : Bool) (hC : ReadParticles.SnapshotFile C n cells) (rest : List Byte) :
    recordRead big [(4, 3 * n)] (Section.bytes big C (ReadParticles.sec1 n) ++ rest) = .ok ([C "PartType1/Coordinates".toList], rest) :=
  record_one big (C := C) (w := 4) (r := vec 4 n 3 "PartType1/Coordinates") (hC.row (s := ReadParticles.sec1 n) (by simp) _ (by simp [ReadParticles.sec1])) rfl rfl (prod_vec n)
    (hC.fits.records (ReadParticles.sec1 n) (by rw [ReadParticles.snapshot_sections]; simp) rfl) rest

theorem record_vel (big : Bool) (hC : ReadParticles.SnapshotFile C n cells) (rest : List Byte) :
    recordRead big [(4, 3 * n)] (Section.bytes big C (ReadParticles.sec2 n) ++ rest) = .ok ([C "PartType1/Velocities".toList], rest) :=
  record_one big (C := C) (w := 4) (r := vec 4 n 3 "PartType1/Velocities") (hC.row (s := ReadParticles.sec2 n) (by simp) _ (by simp [ReadParticles.sec2])) rfl rfl (prod_vec n)
    (hC.fits.records (ReadParticles.sec2 n) (by rw [ReadParticles.snapshot_sections]; simp) rfl) rest

theorem record_ids (big : Bool) (hC : ReadParticles.SnapshotFile C n cells) (rest : List Byte) :
    recordRead big [(8, n)] (Section.bytes big C (ReadParticles.sec3 n) ++ rest) = .ok ([C "PartType1/ParticleIDs".toList], rest) :=
  record_one big (C := C) (w := 8) (r := col 8 n "PartType1/ParticleIDs") (hC.row (s := ReadParticles.sec3 n) (by simp) _ (by simp [ReadParticles.sec3])) rfl rfl (prod_one n)
    (hC.fits.records (ReadParticles.sec3 n) (by rw [ReadParticles.snapshot_sections]; simp) rfl) rest

theorem readSingle_eq (big : Bool) {fs : ByteFS} {base snapbase : Name} (hb : Compact base) (hsb : Compact snapbase) {num : Nat} (hn : num < 1000) (i : Nat) (hC : ReadParticles.SnapshotFile C n cells)
    {rest : List Byte} (hf : fs (ownPath (.snapshot snapbase) base num i) = some (ReadParticles.snapshotBytes C n cells big rest)) :
    readSingle big fs base snapbase num i = if n = 0 then .error .valueError else .ok (C "PartType1/Coordinates".toList, C "PartType1/Velocities".toList, C "PartType1/ParticleIDs".toList) := by
  unfold readSingle
  rw [snapName_eq hb hsb hn]
  simp only [bind, Except.bind]
  rw [openr_some hf, snapshot_bytes]
  dsimp only
  rw [show snapHeader = snapHeader.take 10 from rfl, header_read big hC (Nat.le_refl 10)]
  dsimp only
  rw [show int32Value ((((ReadParticles.sec0.rows.take 10).map (fun r => C r.name)).getD 0 []).getD 1 []) = n from hC.count]
  by_cases h0 : n = 0
  · subst h0
    rw [idlSize_zero, if_pos rfl]
  rw [idlSize_pos h0, if_neg h0]
  dsimp only
  rw [record_pos big hC]
  dsimp only
  rw [record_vel big hC]
  dsimp only
  rw [record_ids big hC]
  rfl

end

/-! ### All files of a snapshot -/

theorem toLong_small {x : Int} (h1 : -2147483648 ≤ x) (h2 : x < 2147483648) : toLong x = x := by
  unfold toLong
  rw [Int.emod_eq_of_lt (by omega) (by omega)]
  omega

section
variable {C : Nat → Content} {n cells : Nat → Nat}

/-- Number of particles in the files before number `k` -/
theorem range_sum_succ (n : Nat → Nat) (k : Nat) : ((List.range (k + 1)).map n).sum = ((List.range k).map n).sum + n k := by
  rw [List.range_succ, List.map_append, List.sum_append]
  simp

theorem range_sum_le (n : Nat → Nat) {a b : Nat} (h : a ≤ b) : ((List.range a).map n).sum ≤ ((List.range b).map n).sum := by
  induction b with
  | zero => rw [Nat.le_zero.1 h]
  | succ b ih =>
    by_cases e : a = b + 1
    · rw [e]
    · rw [range_sum_succ]
      have := ih (by omega)
      omega

/-- Positions of the particles in the files before number `k` -/
def posUpTo (C : Nat → Content) (k : Nat) : List (List Byte) := (List.range k).flatMap (fun f => C f "PartType1/Coordinates".toList)

theorem posUpTo_succ (C : Nat → Content) (k : Nat) : posUpTo C (k + 1) = posUpTo C k ++ C k "PartType1/Coordinates".toList := by
  unfold posUpTo
  rw [List.range_succ, List.flatMap_append]
  simp

theorem length_posUpTo (h : ∀ f, f < k → ReadParticles.SnapshotFile (C f) (n f) (cells f)) : (posUpTo C k).length = 3 * ((List.range k).map n).sum := by
  induction k with
  | zero => rfl
  | succ k ih =>
    rw [posUpTo_succ, List.length_append, ih (fun f hf => h f (by omega)), range_sum_succ]
    have : (C k "PartType1/Coordinates".toList).length = 3 * n k := by
      have := ((h k (by omega)).row (s := ReadParticles.sec1 (n k)) (by simp) (vec 4 (n k) 3 "PartType1/Coordinates") (by simp [ReadParticles.sec1])).1
      rw [show (vec 4 (n k) 3 "PartType1/Coordinates").shape.prod = 3 * n k from prod_vec _] at this
      exact this
    omega

variable {big : Bool} {fs : ByteFS} {base snapbase : Name} {num : Nat}

/-- One file -/
theorem multiStep_eq (hb : Compact base) (hsb : Compact snapbase) (hn : num < 1000) {f : Nat} (hC : ReadParticles.SnapshotFile (C f) (n f) (cells f)) {rest : List Byte}
    (hf : fs (ownPath (.snapshot snapbase) base num f) = some (ReadParticles.snapshotBytes (C f) (n f) (cells f) big rest)) (h0 : n f ≠ 0) (s : MultiState) (room : Nat) (p : List (List Byte))
    (hp : if f = 0 then int32Value ((C 0 "Header/NumPart_Total".toList).getD 1 []) = room ∧ room ≠ 0 ∧ p = List.replicate (3 * room) (List.replicate 4 0) else s.pos = some (room, p))
    (hr : room < 2147483648) (c : Nat) (hc : s.count = c) (hcr : c ≤ room) :
    multiStep big fs base snapbase num f s = if c + n f ≤ room then .ok ⟨some (room, overlay p (3 * c) (C f "PartType1/Coordinates".toList)), (c + n f : Nat)⟩ else .error .indexError := by
  have hsmall : (n f : Int) < 2147483648 := by
    have := hC.count
    have h2 : int32Value ((C f "Header/NumPart_ThisFile".toList).getD 1 []) < 2147483648 := by
      have hfit := hC.row (s := ReadParticles.sec0) (by simp) (head 4 [6] "NumPart_ThisFile") (by simp [ReadParticles.sec0])
      have h6 : (C f "Header/NumPart_ThisFile".toList).length = 6 := hfit.1
      have h4 : ((C f "Header/NumPart_ThisFile".toList).getD 1 []).length = 4 := by
        rw [List.getD_eq_getElem _ _ (by omega)]
        exact hfit.2 _ (List.getElem_mem _)
      have := leNat_lt ((C f "Header/NumPart_ThisFile".toList).getD 1 [])
      rw [h4] at this
      unfold int32Value
      split <;> omega
    omega
  unfold multiStep
  rw [snapName_eq hb hsb hn]
  simp only [bind, Except.bind]
  rw [openr_some hf, snapshot_bytes]
  dsimp only
  rw [header_read big hC (by omega)]
  dsimp only
  rw [show int32Value ((((ReadParticles.sec0.rows.take 7).map (fun r => C f r.name)).getD 0 []).getD 1 []) = n f from hC.count, idlSize_pos h0]
  dsimp only
  rw [record_pos big hC]
  dsimp only
  have key : multiPos f (int32Value ((((ReadParticles.sec0.rows.take 7).map (fun r => C f r.name)).getD 6 []).getD 1 [])) s.pos = .ok (some (room, p)) := by
    unfold multiPos
    by_cases hf0 : f = 0
    · subst hf0
      rw [if_pos rfl] at hp ⊢
      rw [show int32Value ((((ReadParticles.sec0.rows.take 7).map (fun r => C 0 r.name)).getD 6 []).getD 1 []) = room from hp.1, idlSize_pos hp.2.1, hp.2.2]
    · rw [if_neg hf0] at hp ⊢
      rw [hp]
  rw [key]
  dsimp only
  rw [hc]
  by_cases hle : c + n f ≤ room
  · rw [if_pos hle, toLong_small (x := (c : Int) + n f) (by omega) (by omega), toLong_small (by omega) (by omega), if_neg (by omega)]
    simp
  · rw [if_neg hle, if_pos]
    by_cases hov : (c : Int) + n f < 2147483648
    · rw [toLong_small (x := (c : Int) + n f) (by omega) (by omega), toLong_small (by omega) (by omega)]
      omega
    · have e1 : toLong ((c : Int) + n f) = c + n f - 4294967296 := by
        unfold toLong
        omega
      rw [e1]
      unfold toLong
      omega

/-- The remaining files, where `c` is the number of particles before -/
theorem multiLoop_eq (hb : Compact base) (hsb : Compact snapbase) (hn : num < 1000) {k : Nat} (hC : ∀ f, f < k → ReadParticles.SnapshotFile (C f) (n f) (cells f))
    (hf : ∀ f, f < k → ∃ rest, fs (ownPath (.snapshot snapbase) base num f) = some (ReadParticles.snapshotBytes (C f) (n f) (cells f) big rest)) (h0 : ∀ f, f < k → n f ≠ 0)
    (room : Nat) (hr : room < 2147483648) :
    ∀ left f, f + left = k → f ≠ 0 → ((List.range f).map n).sum ≤ room →
      multiLoop big fs base snapbase num left f ⟨some (room, overlay (List.replicate (3 * room) (List.replicate 4 0)) 0 (posUpTo C f)), (((List.range f).map n).sum : Nat)⟩ =
        if ((List.range k).map n).sum ≤ room then .ok ⟨some (room, overlay (List.replicate (3 * room) (List.replicate 4 0)) 0 (posUpTo C k)), (((List.range k).map n).sum : Nat)⟩ else .error .indexError := by
  intro left
  induction left with
  | zero =>
    intro f hk _ hle
    rw [Nat.add_zero] at hk
    subst hk
    rw [if_pos hle]
    rfl
  | succ left ih =>
    intro f hk hf0 hle
    obtain ⟨rest, hrest⟩ := hf f (by omega)
    unfold multiLoop
    simp only [bind, Except.bind]
    rw [multiStep_eq hb hsb hn (hC f (by omega)) hrest (h0 f (by omega)) _ room (overlay (List.replicate (3 * room) (List.replicate 4 0)) 0 (posUpTo C f)) (by rw [if_neg hf0]) hr _ rfl hle]
    by_cases hle2 : ((List.range f).map n).sum + n f ≤ room
    · rw [if_pos hle2]
      dsimp only
      rw [Verif.GroupLib.overlay_append (length_posUpTo (fun g hg => hC g (by omega))).symm, ← posUpTo_succ, ← range_sum_succ]
      exact ih (f + 1) (by omega) (by omega) (by rw [range_sum_succ]; exact hle2)
    · rw [if_neg hle2, if_neg]
      have := range_sum_le n (a := f + 1) (b := k) (by omega)
      rw [range_sum_succ] at this
      omega

theorem readMulti_eq (hb : Compact base) (hsb : Compact snapbase) (hn : num < 1000) {k : Nat} (hC : ∀ f, f < k → ReadParticles.SnapshotFile (C f) (n f) (cells f))
    (hf : ∀ f, f < k → ∃ rest, fs (ownPath (.snapshot snapbase) base num f) = some (ReadParticles.snapshotBytes (C f) (n f) (cells f) big rest)) (h0 : ∀ f, f < k → n f ≠ 0)
    (hk0 : k ≠ 0) (hk : k ≤ 32767) (hnf : int32Value ((C 0 "Header/NumFilesPerSnapshot".toList).headD []) = k) :
    readMulti big fs base snapbase num = if int32Value ((C 0 "Header/NumPart_Total".toList).getD 1 []) ≤ 0 then .error .valueError
      else if (((List.range k).map n).sum : Int) ≤ int32Value ((C 0 "Header/NumPart_Total".toList).getD 1 []) then
        .ok (overlay (List.replicate (3 * (int32Value ((C 0 "Header/NumPart_Total".toList).getD 1 [])).toNat) (List.replicate 4 0)) 0 (posUpTo C k), (C 0 "Header/BoxSize".toList).headD [])
      else .error .indexError := by
  obtain ⟨left, rfl⟩ : ∃ left, k = left + 1 := ⟨k - 1, by omega⟩
  obtain ⟨rest, hrest⟩ := hf 0 (by omega)
  have hC0 := hC 0 (by omega)
  have htot : int32Value ((C 0 "Header/NumPart_Total".toList).getD 1 []) < 2147483648 := by
    have hfit := hC0.row (s := ReadParticles.sec0) (by simp) (head 4 [6] "NumPart_Total") (by simp [ReadParticles.sec0])
    have h6 : (C 0 "Header/NumPart_Total".toList).length = 6 := hfit.1
    have h4 : ((C 0 "Header/NumPart_Total".toList).getD 1 []).length = 4 := by
      rw [List.getD_eq_getElem _ _ (by omega)]
      exact hfit.2 _ (List.getElem_mem _)
    have := leNat_lt ((C 0 "Header/NumPart_Total".toList).getD 1 [])
    rw [h4] at this
    unfold int32Value
    split <;> omega
  unfold readMulti
  rw [snapName0_eq, snapName_eq hb hsb hn]
  simp only [bind, Except.bind]
  rw [openr_some hrest]
  dsimp only
  rw [snapshot_bytes, show snapHeader = snapHeader.take 10 from rfl, header_read big hC0 (Nat.le_refl 10)]
  dsimp only
  rw [show int32Value ((((ReadParticles.sec0.rows.take 10).map (fun r => C 0 r.name)).getD 8 []).headD []) = ((left + 1 : Nat) : Int) from hnf, if_neg (by omega), Int.toNat_natCast,
    show (((ReadParticles.sec0.rows.take 10).map (fun r => C 0 r.name)).getD 9 []).headD [] = (C 0 "Header/BoxSize".toList).headD [] from rfl]
  obtain ⟨tot, ht⟩ : ∃ tot, tot = int32Value ((C 0 "Header/NumPart_Total".toList).getD 1 []) := ⟨_, rfl⟩
  rw [← ht] at htot ⊢
  unfold multiLoop
  simp only [bind, Except.bind]
  by_cases hneg : tot ≤ 0
  · rw [if_pos hneg]
    have : multiStep big fs base snapbase num 0 ⟨none, 0⟩ = .error .valueError := by
      unfold multiStep
      rw [snapName_eq hb hsb hn]
      simp only [bind, Except.bind]
      rw [openr_some hrest, snapshot_bytes]
      dsimp only
      rw [header_read big hC0 (by omega)]
      dsimp only
      rw [show int32Value ((((ReadParticles.sec0.rows.take 7).map (fun r => C 0 r.name)).getD 0 []).getD 1 []) = n 0 from hC0.count, idlSize_pos (h0 0 (by omega))]
      dsimp only
      rw [record_pos big hC0]
      dsimp only
      rw [show int32Value ((((ReadParticles.sec0.rows.take 7).map (fun r => C 0 r.name)).getD 6 []).getD 1 []) = tot from ht.symm]
      unfold multiPos idlSize
      rw [if_pos rfl, if_pos hneg]
    rw [this]
  · obtain ⟨room, rfl⟩ : ∃ room : Nat, tot = room := ⟨tot.toNat, by omega⟩
    rw [if_neg hneg, Int.toNat_natCast]
    rw [multiStep_eq hb hsb hn hC0 hrest (h0 0 (by omega)) ⟨none, 0⟩ room (List.replicate (3 * room) (List.replicate 4 0)) (by rw [if_pos rfl]; exact ⟨ht.symm, by omega, rfl⟩) (by omega) 0 rfl (by omega)]
    have e1 : ((List.range 1).map n).sum = n 0 := by simp
    have e2 : posUpTo C 1 = C 0 "PartType1/Coordinates".toList := by simp [posUpTo]
    by_cases hle : 0 + n 0 ≤ room
    · rw [if_pos hle]
      dsimp only
      have := multiLoop_eq hb hsb hn hC hf h0 room (by omega) left 1 (by omega) (by omega) (by rw [e1]; omega)
      rw [e1, e2] at this
      rw [show (0 + n 0) = n 0 from Nat.zero_add _, Nat.mul_zero, show 0 + 1 = 1 from rfl, this]
      by_cases hs : ((List.range (left + 1)).map n).sum ≤ room
      · rw [if_pos hs, if_pos (by omega)]
      · rw [if_neg hs, if_neg (by omega)]
    · rw [if_neg hle, if_neg]
      have := range_sum_le n (a := 1) (b := left + 1) (by omega)
      rw [e1] at this
      omega

end

end Verif.IdlReaders
