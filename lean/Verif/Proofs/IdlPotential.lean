import Verif.Proofs.IdlSnapshots

/-! Proofs for the program in IDL which reads the potential. -/

namespace Verif.IdlReaders

open Files FortranReaders SnapshotPrograms

/-! ### Lists of lists of the same length -/

theorem flatMap_uniform_length {α β : Type*} (f : α → List β) (l : List α) {L : Nat} (h : ∀ x ∈ l, (f x).length = L) : (l.flatMap f).length = l.length * L := by
  rw [List.length_flatMap]
  rw [List.map_congr_left (g := fun _ => L) h]
  simp

theorem flatMap_uniform_getD {β : Type*} (d : β) (f : Nat → List β) {L : Nat} (h : ∀ x, (f x).length = L) : ∀ (n x i : Nat), x < n → i < L → ((List.range n).flatMap f).getD (i + L * x) d = (f x).getD i d := by
  intro n
  induction n with
  | zero => intro x i hx; omega
  | succ n ih =>
    intro x i hx hi
    rw [List.range_succ, List.flatMap_append, List.flatMap_singleton]
    have hl : ((List.range n).flatMap f).length = n * L := by rw [flatMap_uniform_length f _ (fun x _ => h x), List.length_range]
    by_cases hxn : x = n
    · subst hxn
      rw [List.getD_append_right _ _ _ _ (by rw [hl, Nat.mul_comm]; omega), hl, Nat.mul_comm x L, Nat.add_sub_cancel]
    · have hlt : i + L * x < ((List.range n).flatMap f).length := by
        rw [hl]
        calc i + L * x < L + L * x := by omega
          _ = (x + 1) * L := by rw [Nat.add_mul, Nat.one_mul, Nat.mul_comm, Nat.add_comm]
          _ ≤ n * L := Nat.mul_le_mul_right _ (by omega)
      rw [List.getD_append _ _ _ _ hlt]
      exact ih x i (by omega) hi

/-- Values of the planes of a file -/
def planes (G first slabs : Nat) (phi : Nat → Nat → Nat → List Byte) : List (List Byte) :=
  (List.range slabs).flatMap (fun x => (List.range G).flatMap (fun y => (List.range G).map (fun z => phi (first + x) y z)))

theorem length_planes (G first slabs : Nat) (phi : Nat → Nat → Nat → List Byte) : (planes G first slabs phi).length = G * G * slabs := by
  unfold planes
  rw [flatMap_uniform_length _ _ (L := G * G), List.length_range, Nat.mul_comm]
  intro x _
  rw [flatMap_uniform_length _ _ (L := G) (fun y _ => by simp), List.length_range]

theorem planes_getD (G first slabs : Nat) (phi : Nat → Nat → Nat → List Byte) {x y z : Nat} (hx : x < slabs) (hy : y < G) (hz : z < G) :
    (planes G first slabs phi).getD (z + G * (y + G * x)) [] = phi (first + x) y z := by
  unfold planes
  have hlen : ∀ x, ((List.range G).flatMap (fun y => (List.range G).map (fun z => phi (first + x) y z))).length = G * G := by
    intro x
    rw [flatMap_uniform_length _ _ (L := G) (fun y _ => by simp), List.length_range]
  have hi : z + G * y < G * G := by
    calc z + G * y < G + G * y := by omega
      _ = G * (y + 1) := by rw [Nat.mul_add, Nat.mul_one, Nat.add_comm]
      _ ≤ G * G := Nat.mul_le_mul_left _ (by omega)
  rw [show z + G * (y + G * x) = (z + G * y) + G * G * x by rw [Nat.mul_add, Nat.mul_assoc, Nat.add_assoc], flatMap_uniform_getD [] _ hlen slabs x _ hx hi,
    flatMap_uniform_getD [] _ (L := G) (fun y => by simp) G y z hy hz, List.getD_eq_getElem _ _ (by simpa using hz), List.getElem_map, List.getElem_range]

theorem planes_bytes (big : Bool) (G first slabs : Nat) (phi : Nat → Nat → Nat → List Byte) : arrayBytes big (planes G first slabs phi) =
    (List.range slabs).flatMap (fun x => (List.range G).flatMap (fun y => (List.range G).flatMap (fun z => storeItem big true (phi (first + x) y z)))) := by
  unfold arrayBytes planes
  simp only [List.flatMap_assoc, List.flatMap_map]

/-! ### Elements of the result -/

theorem flat_lt {G i j k : Nat} (hi : i < G) (hj : j < G) (hk : k < G) : i + G * (j + G * k) < G * G * G := by
  have h1 : j + G * k + 1 ≤ G * G := by
    calc j + G * k + 1 ≤ G + G * k := by omega
      _ = G * (k + 1) := by rw [Nat.mul_add, Nat.mul_one, Nat.add_comm]
      _ ≤ G * G := Nat.mul_le_mul_left _ (by omega)
  calc i + G * (j + G * k) < G + G * (j + G * k) := by omega
    _ = G * (j + G * k + 1) := by rw [Nat.mul_add G _ 1, Nat.mul_one, Nat.add_comm]
    _ ≤ G * (G * G) := Nat.mul_le_mul_left _ h1
    _ = G * G * G := (Nat.mul_assoc _ _ _).symm

theorem flat_split {G i j k : Nat} (hi : i < G) (hj : j < G) :
    (i + G * (j + G * k)) % G = i ∧ (i + G * (j + G * k)) / G % G = j ∧ (i + G * (j + G * k)) / G / G = k := by
  have h0 : 0 < G := by omega
  have e : (i + G * (j + G * k)) / G = j + G * k := by
    rw [Nat.add_mul_div_left _ _ h0, Nat.div_eq_of_lt hi, Nat.zero_add]
  refine ⟨by rw [Nat.add_mul_mod_self_left, Nat.mod_eq_of_lt hi], ?_, ?_⟩
  · rw [e, Nat.add_mul_mod_self_left, Nat.mod_eq_of_lt hj]
  · rw [e, Nat.add_mul_div_left _ _ h0, Nat.div_eq_of_lt hj, Nat.zero_add]

theorem setSlabs_getD {G grid first slabs : Nat} (potential pot : List (List Byte)) {i j k : Nat} (hi : i < G) (hj : j < G) (hk : k < G) :
    (setSlabs G grid first slabs potential pot).getD (i + G * (j + G * k)) [] =
      if i < grid ∧ j < grid ∧ first ≤ k ∧ k < first + slabs then pot.getD (i + grid * (j + grid * (k - first))) [] else potential.getD (i + G * (j + G * k)) [] := by
  unfold setSlabs
  have hlt := flat_lt hi hj hk
  rw [List.getD_eq_getElem _ _ (by rw [List.length_map, List.length_range]; exact hlt), List.getElem_map, List.getElem_range]
  obtain ⟨h1, h2, h3⟩ := flat_split (k := k) hi hj
  dsimp only
  rw [h1, h2, h3]

theorem transpose_getD {G : Nat} (a : List (List Byte)) {i j k : Nat} (hi : i < G) (hj : j < G) (hk : k < G) :
    (transpose3 G a).getD (i + G * (j + G * k)) [] = a.getD (k + G * (j + G * i)) [] := by
  unfold transpose3
  have hlt := flat_lt hi hj hk
  rw [List.getD_eq_getElem _ _ (by rw [List.length_map, List.length_range]; exact hlt), List.getElem_map, List.getElem_range]
  obtain ⟨h1, h2, h3⟩ := flat_split (k := k) hi hj
  rw [h1, h2, h3]

/-! ### The loop -/

/-- Planes of the files which were read have the right values. -/
def Filled (G : Nat) (phi : Nat → Nat → Nat → List Byte) (files : List PotFile) (p : List (List Byte)) : Prop :=
  ∀ q ∈ files, ∀ x y z, q.first ≤ x → x < q.first + q.slabs → y < G → z < G → p.getD (z + G * (y + G * x)) [] = phi x y z

theorem filled_step {G : Nat} {phi : Nat → Nat → Nat → List Byte} {files : List PotFile} {p : List (List Byte)} (h : Filled G phi files p) {q : PotFile} (hin : ∀ q' ∈ files ++ [q], q'.first + q'.slabs ≤ G) :
    Filled G phi (files ++ [q]) (setSlabs G G q.first q.slabs p (planes G q.first q.slabs phi)) := by
  intro q' hq' x y z h1 h2 hy hz
  have hx : x < G := by have := hin q' hq'; omega
  rw [setSlabs_getD _ _ hz hy hx]
  by_cases hc : q.first ≤ x ∧ x < q.first + q.slabs
  · rw [if_pos ⟨hz, hy, hc⟩, planes_getD G q.first q.slabs phi (by omega) hy hz, show q.first + (x - q.first) = x by omega]
  · rw [if_neg (fun hh => hc hh.2.2)]
    rcases List.mem_append.1 hq' with hq' | hq'
    · exact h q' hq' x y z h1 h2 hy hz
    · rw [List.mem_singleton.1 hq'] at h1 h2
      exact absurd ⟨h1, h2⟩ hc

theorem potStep_eq (big : Bool) {fs : ByteFS} {base : Name} (hb : Compact base) {num : Nat} (hn : num < 1000) {G : Nat} (hG0 : G ≠ 0) (hG : G < 2147483648) {phi : Nat → Nat → Nat → List Byte}
    (hphi : ∀ x y z, x < G → y < G → z < G → (phi x y z).length = 4) (f : Nat) {q : PotFile} (h1 : q.sizeof.length = 4 ∧ q.boxsize.length = 8 ∧ q.asmth.length = 8) (h2 : q.first + q.slabs ≤ G)
    {rest : List Byte} (hf : fs (ownPath (.snapshot "potential".toList) base num f) = some (q.bytes big G phi ++ rest)) (s : PotState) (p : List (List Byte)) (c : Nat) (hc : s.slabscount = c) (hcG : c + q.slabs ≤ G)
    (hp : if f = 0 then p = List.replicate (G * G * G) (List.replicate 4 0) else s.potential = some (G, p)) :
    potStep big fs base num f s = if q.slabs = 0 then .error .valueError else .ok (⟨some (G, setSlabs G G q.first q.slabs p (planes G q.first q.slabs phi)), (c + q.slabs : Nat)⟩, (G : Int)) := by
  have one : ∀ {v : List Byte} {w : Nat}, v.length = w → IsArray w 1 [v] := fun h => ⟨rfl, by intro x hx; rw [List.mem_singleton.1 hx]; exact h⟩
  have hh : List.Forall₂ (fun it v => IsArray it.1 it.2 v) [(4, 1), (4, 1), (4, 1), (4, 1), (8, 1), (8, 1)] [[leBytes 4 G], [q.sizeof], [leBytes 4 q.slabs], [leBytes 4 q.first], [q.boxsize], [q.asmth]] :=
    .cons (one rfl) (.cons (one h1.1) (.cons (one rfl) (.cons (one rfl) (.cons (one h1.2.1) (.cons (one h1.2.2) .nil)))))
  have hbytes : q.bytes big G phi ++ rest = [[leBytes 4 G], [q.sizeof], [leBytes 4 q.slabs], [leBytes 4 q.first], [q.boxsize], [q.asmth]].flatMap (arrayBytes big) ++
      ([planes G q.first q.slabs phi].flatMap (arrayBytes big) ++ rest) := by
    rw [List.flatMap_singleton, planes_bytes]
    unfold PotFile.bytes arrayBytes
    simp only [List.flatMap_cons, List.flatMap_nil, List.append_nil, List.append_assoc]
  have hpl : IsArray 4 (G * G * q.slabs) (planes G q.first q.slabs phi) := by
    refine ⟨length_planes _ _ _ _, ?_⟩
    intro v hv
    unfold planes at hv
    simp only [List.mem_flatMap, List.mem_map, List.mem_range] at hv
    obtain ⟨x, hx, y, hy, z, hz, rfl⟩ := hv
    exact hphi _ _ _ (by omega) hy hz
  unfold potStep
  rw [potName_eq hb hn]
  simp only [bind, Except.bind]
  rw [openr_some hf]
  dsimp only
  rw [hbytes, readu_of big hh]
  dsimp only
  rw [show long [[leBytes 4 G], [q.sizeof], [leBytes 4 q.slabs], [leBytes 4 q.first], [q.boxsize], [q.asmth]] 0 = (G : Int) from int32_leBytes G hG, idlSize_pos hG0]
  dsimp only
  rw [show long [[leBytes 4 G], [q.sizeof], [leBytes 4 q.slabs], [leBytes 4 q.first], [q.boxsize], [q.asmth]] 2 = (q.slabs : Int) from int32_leBytes q.slabs (by omega),
    show long [[leBytes 4 G], [q.sizeof], [leBytes 4 q.slabs], [leBytes 4 q.first], [q.boxsize], [q.asmth]] 3 = (q.first : Int) from int32_leBytes q.first (by omega)]
  by_cases h0 : q.slabs = 0
  · rw [if_pos h0, h0]
    rfl
  rw [if_neg h0, idlSize_pos h0]
  dsimp only
  rw [readu_of big (.cons hpl .nil)]
  dsimp only
  have hpot : (if f = 0 then some (G, List.replicate (G * G * G) (List.replicate 4 0)) else s.potential) = some (G, p) := by
    by_cases hf0 : f = 0
    · rw [if_pos hf0] at hp ⊢
      rw [hp]
    · rw [if_neg hf0] at hp ⊢
      exact hp
  rw [hpot]
  dsimp only
  rw [hc, toLong_small (x := (q.first : Int) + q.slabs) (by omega) (by omega), toLong_small (x := (c : Int) + q.slabs) (by omega) (by omega), toLong_small (by omega) (by omega), if_neg (by omega), Int.toNat_natCast]
  simp

theorem sum_take_le (files : List PotFile) (t : Nat) : ((files.take t).map PotFile.slabs).sum ≤ (files.map PotFile.slabs).sum := by
  conv_rhs => rw [← List.take_append_drop t files, List.map_append, List.sum_append]
  omega

theorem potLoop_eq (big : Bool) {fs : ByteFS} {base : Name} (hb : Compact base) {num : Nat} (hn : num < 1000) {G : Nat} (hG0 : G ≠ 0) (hG : G < 2147483648) {phi : Nat → Nat → Nat → List Byte}
    (hphi : ∀ x y z, x < G → y < G → z < G → (phi x y z).length = 4) {files : List PotFile} (hset : PotSet G files) (hlen : files.length ≤ 32767) (hpos : ∀ q ∈ files, q.slabs ≠ 0)
    (hf : ∀ f (h : f < files.length), ∃ rest, fs (ownPath (.snapshot "potential".toList) base num f) = some ((files[f]).bytes big G phi ++ rest)) :
    ∀ fuel f, files.length ≤ f + fuel → (hlt : f < files.length) → ∀ (s : PotState) (p : List (List Byte)), s.slabscount = (((files.take f).map PotFile.slabs).sum : Nat) →
      (if f = 0 then p = List.replicate (G * G * G) (List.replicate 4 0) else s.potential = some (G, p)) → Filled G phi (files.take f) p →
      ∃ p', potLoop big fs base num fuel f s = .ok ⟨some (G, p'), G⟩ ∧ Filled G phi files p' := by
  intro fuel
  induction fuel with
  | zero => intro f h1 h2; omega
  | succ fuel ih =>
    intro f h1 hlt s p hc hp hfill
    obtain ⟨rest, hrest⟩ := hf f hlt
    have hmem : files[f] ∈ files := List.getElem_mem hlt
    have htake : files.take (f + 1) = files.take f ++ [files[f]] := (List.take_concat_get' files f hlt).symm
    have hsum : ((files.take (f + 1)).map PotFile.slabs).sum = ((files.take f).map PotFile.slabs).sum + (files[f]).slabs := by
      rw [htake, List.map_append, List.sum_append]
      simp
    have hle := sum_take_le files (f + 1)
    rw [hset.number] at hle
    have hstep := potStep_eq big hb hn hG0 hG hphi f (hset.fields _ hmem) (hset.inside _ hmem) hrest s p _ hc (by omega) hp
    have hfill' := filled_step hfill (q := files[f]) (fun q' hq' => hset.inside q' (by
      rw [← htake] at hq'
      exact List.mem_of_mem_take hq'))
    rw [← htake] at hfill'
    unfold potLoop
    simp only [bind, Except.bind]
    rw [hstep, if_neg (hpos _ hmem)]
    dsimp only
    rw [if_neg (show ¬32767 < f + 1 by omega), ← hsum]
    by_cases hlast : f + 1 = files.length
    · have hall : files.take (f + 1) = files := by rw [hlast, List.take_length]
      rw [hall] at hfill' hsum ⊢
      rw [hset.number, if_pos (by omega)]
      exact ⟨_, rfl, hfill'⟩
    · have hless : ((files.take (f + 1)).map PotFile.slabs).sum < G := by
        have h2 : f + 1 < files.length := by omega
        have h3 := sum_take_le files (f + 2)
        have h4 : ((files.take (f + 2)).map PotFile.slabs).sum = ((files.take (f + 1)).map PotFile.slabs).sum + (files[f + 1]).slabs := by
          rw [← List.take_concat_get' files (f + 1) h2, List.map_append, List.sum_append]
          simp
        have h5 := hpos _ (List.getElem_mem h2)
        rw [hset.number] at h3
        omega
      rw [if_neg (by omega)]
      exact ih (f + 1) (by omega) (by omega) _ _ rfl (by rw [if_neg (by omega)]) hfill'

end Verif.IdlReaders
