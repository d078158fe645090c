import Verif.Proofs.SnapshotProgramsHdf5

/-! C99: programs which print the particles in a snapshot file of the Millennium-WMAP7 simulation -/

namespace Verif.SnapshotPrograms

open CPeano FortranReaders Hdf5

section

variable {f : H5File} {n : Nat} {signed : Bool} {pos vel ids : List (List Byte)}

theorem pos_length (h : Mr7File f n signed pos vel ids) : pos.length = 3 * n ∧ vel.length = 3 * n ∧ ids.length = n ∧ ∀ v ∈ ids, v.length = 8 := by
  obtain ⟨_, _, p2⟩ := h.positions
  obtain ⟨_, _, v2⟩ := h.velocities
  obtain ⟨_, _, i2⟩ := h.ids
  have a := p2.data
  have b := v2.data
  have c := i2.data
  exact ⟨by simpa using a, by simpa using b, by simpa using c, i2.elems⟩

/-- C99: the Fortran program prints the particles in the file, and changes no file. -/
theorem C99_fortran (h : Mr7File f n signed pos vel ids) (hn : n ≠ 0) {w : World} (h0 : Initial w) {arg : Name} (ha : FileArg arg) (hd : w.disk arg = some f) (junk : List Byte)
    (hi : IdsBelow (10 ^ 16) ids) : ∃ w', mr7Fortran junk w arg = .ok (particleLines column16 n pos vel ids, w') ∧ w'.disk = w.disk := by
  obtain ⟨w', idvals, h1, h2, h3, h4⟩ := mr7Fortran_eq h hn h0 ha hd junk
  obtain ⟨l1, l2, l3, l4⟩ := pos_length h
  have : idvals = ids := by
    refine List.ext_getElem? (fun i => ?_)
    by_cases hlt : i < n
    · obtain ⟨u, e1, e2⟩ := h4 i _ (List.getElem?_eq_getElem (l := ids) (by omega))
      have hm := List.getElem_mem (l := ids) (n := i) (by omega)
      rw [e1, List.getElem?_eq_getElem (by omega), converted_small (l4 _ hm) ?_ e2]
      have := hi _ hm
      have e : (256 : Nat) ^ 8 / 2 = 2 ^ 63 := by decide
      omega
    · rw [List.getElem?_eq_none (by omega), List.getElem?_eq_none (by omega)]
  refine ⟨w', ?_, h2⟩
  rw [h1, this, lines_eq (by omega) (by omega) (by omega) (fun v hv => fortranId_small (hi v hv))]

/-- C99: so does the C program, for up to 715827882 particles. IDs of a type with a sign must not be negative. -/
theorem C99_c (h : Mr7File f n signed pos vel ids) (hn : n ≤ 715827882) {disk : Name → Option H5File} {arg : Name} (hl : arg.length < 500) (hd : disk arg = some f)
    (hi : signed = true → IdsBelow (2 ^ 63) ids) : mr7C disk arg = .ok (particleLines digitsOf n pos vel ids) := by
  obtain ⟨l1, l2, l3, l4⟩ := pos_length h
  rw [mr7C_eq h hl hd hi, if_pos (by omega), lines_eq (by omega) (by omega) (by omega) (fun v _ => cId_eq v)]

/-- C99: with more particles, numbers in the C program are not large enough, and it uses memory outside of its arrays. -/
theorem C99_large_defect (h : Mr7File f n signed pos vel ids) (hn : 715827882 < n) {disk : Name → Option H5File} {arg : Name} (hl : arg.length < 500) (hd : disk arg = some f)
    (hi : signed = true → IdsBelow (2 ^ 63) ids) : mr7C disk arg = .error .other := by
  rw [mr7C_eq h hl hd hi, if_neg (by omega)]

/-- C99: if there are no particles the Fortran program ends with an error, and the C program prints nothing. -/
theorem C99_empty_defect (h : Mr7File f 0 signed pos vel ids) {w : World} (h0 : Initial w) {arg : Name} (ha : FileArg arg) (hd : w.disk arg = some f) (junk : List Byte) :
    mr7Fortran junk w arg = .error .abort ∧ mr7C w.disk arg = .ok [] := by
  obtain ⟨l1, l2, l3, l4⟩ := pos_length h
  have hids : ids = [] := List.eq_nil_of_length_eq_zero l3
  constructor
  · obtain ⟨k, w1, g, npfile, ops, h1, h2, h3, h4, h5, h6, h7⟩ := mr7_open h h0 ha hd junk
    obtain ⟨m1, p1, p2⟩ := h.positions
    obtain ⟨m2, v1, v2⟩ := h.velocities
    obtain ⟨m3, i1, i2⟩ := h.ids
    have hf : w1.disk g.file = some f := by rw [h3, h5, hd]
    have hnothing : ∀ m data, readData ⟨⟨.float, 4⟩, [3, 0], m, data⟩ ⟨.float, 4⟩ none ⟨[3, 0], []⟩ = .ok ⟨[3, 0], []⟩ := by
      intro m data
      exact (C94_read_nothing (ds := ⟨⟨.float, 4⟩, [3, 0], m, data⟩) (memtype := ⟨.float, 4⟩) (a := ⟨[3, 0], []⟩) (by show 2 ≤ 7; decide) rfl IsRegion.whole (by simp)).1 ⟨holds_self _, 3, by simp, by decide⟩
    obtain ⟨w2, r1, r2, r3, r4⟩ := read_step (r := { memtype := ⟨.float, 4⟩, arr := ⟨[3, 0], []⟩ }) h0 h2 h4 hf p1 names_plain.1 (hnothing _ _)
    obtain ⟨w3, s1, s2, s3, s4⟩ := read_step (r := { memtype := ⟨.float, 4⟩, arr := ⟨[3, 0], []⟩ }) h0 r2 r4 (by rw [r3]; exact hf) v1 names_plain.2.1 (hnothing _ _)
    have t1 := read_step_error (r := { memtype := ⟨.integer true, 8⟩, arr := ⟨[0], []⟩ }) h0 s2 s4 (by rw [s3, r3]; exact hf) i1 names_plain.2.2 (C94_empty_defect (memtype := ⟨.integer true, 8⟩) ⟨[0], []⟩ rfl)
    unfold mr7Fortran
    simp only [bind, Except.bind, h1, h6, h7, Int.toNat_natCast, Nat.mul_zero, List.replicate_zero, r1, s1, t1]
  · rw [C99_c h (by omega) ha.length hd (by rw [hids]; intro _ v hv; simp at hv)]
    rfl

/-- C99: the Fortran program prints stars instead of IDs with more than 16 digits. -/
theorem C99_id_defect (h : Mr7File f n false pos vel ids) {w : World} (h0 : Initial w) {arg : Name} (ha : FileArg arg) (hd : w.disk arg = some f) (junk : List Byte) {i : Nat} (hi : i < n)
    (h1 : 10 ^ 16 ≤ leNat (ids.getD i [])) : ∃ lines w', mr7Fortran junk w arg = .ok (lines, w') ∧ lines.length = n ∧ (lines[i]?).map Line.id = some (List.replicate 16 '*') := by
  obtain ⟨w', idvals, e1, e2, e3, e4⟩ := mr7Fortran_eq h (by omega) h0 ha hd junk
  obtain ⟨l1, l2, l3, l4⟩ := pos_length h
  rw [List.getD_eq_getElem _ _ (by omega)] at h1
  obtain ⟨u, f1, f2⟩ := e4 i _ (List.getElem?_eq_getElem (l := ids) (by omega))
  refine ⟨_, w', e1, by simp [printLines], ?_⟩
  simp only [printLines, List.getElem?_map, List.getElem?_range hi, Option.map_some]
  rw [List.getD_eq_getElem?_getD, f1, Option.getD_some]
  have hm := List.getElem_mem (l := ids) (n := i) (by omega)
  by_cases hlt : leNat (ids[i]'(by omega)) < 2 ^ 63
  · rw [converted_small (l4 _ hm) (by have e : (256 : Nat) ^ 8 / 2 = 2 ^ 63 := by decide
                                      omega) f2, fortranId_stars h1 hlt]
  · have := converted_large (l4 _ hm) (by omega) f2
    rw [fortranId_stars (by rw [this]; decide) (by rw [this]; decide)]

end

/-! ### An example -/

namespace ExMr7

theorem assoc_mem {α β : Type} [DecidableEq α] {k : α} {l : List (α × β)} {b : β} (h : assoc k l = some b) : (k, b) ∈ l := by
  induction l with
  | nil => cases h
  | cons x l ih =>
    obtain ⟨a, c⟩ := x
    unfold assoc at h
    split at h
    · next e => rw [← e, ← Option.some.inj h]; simp
    · exact List.mem_cons_of_mem _ (ih h)

theorem wf_of {f : H5File} (h1 : ∀ x ∈ f.links, f.reach [] x.1 = some x.2) (h2 : ∀ x ∈ f.links, x.2 = .group ∨ ∃ a < f.heap.length, x.2 = .dset a) : f.WF := by
  refine ⟨fun p a hp => ?_, fun p l hp => ?_⟩
  · unfold H5File.link at hp
    split at hp
    · simp at hp
    · rcases h2 _ (assoc_mem hp) with h | ⟨b, hb, h⟩
      · simp at h
      · have := Link.dset.inj h
        omega
  · unfold H5File.link at hp
    split at hp
    · next h0 => rw [h0, ← Option.some.inj hp]; rfl
    · exact h1 _ (assoc_mem hp)

def pos : List (List Byte) := [leBytes 4 1, leBytes 4 2, leBytes 4 3, leBytes 4 4, leBytes 4 5, leBytes 4 6]
def vel : List (List Byte) := [leBytes 4 11, leBytes 4 12, leBytes 4 13, leBytes 4 14, leBytes 4 15, leBytes 4 16]
def file (n : Nat) (pos vel ids : List (List Byte)) : H5File where
  links := [(["PartType1".toList, "Coordinates".toList], .dset 0), (["PartType1".toList, "Velocities".toList], .dset 1), (["PartType1".toList, "ParticleIDs".toList], .dset 2), (["PartType1".toList], .group),
    (["Header".toList], .group)]
  heap := [⟨⟨.float, 4⟩, [3, n], [some 3, some n], pos⟩, ⟨⟨.float, 4⟩, [3, n], [some 3, some n], vel⟩, ⟨⟨.integer false, 8⟩, [n], [some n], ids⟩]
  attrs := [((.group ["Header".toList], "NumPart_ThisFile".toList), ⟨⟨.integer false, 4⟩, [6], [leBytes 4 0, leBytes 4 n, leBytes 4 0, leBytes 4 4294967295, leBytes 4 0, leBytes 4 0]⟩),
    ((.group ["Header".toList], "BoxSize".toList), ⟨⟨.float, 8⟩, [], [leBytes 8 100]⟩)]

def ids : List (List Byte) := [leBytes 8 77, leBytes 8 1234567890123456]
def ids2 : List (List Byte) := [leBytes 8 77, leBytes 8 18446744073709551615]

theorem dset_wf {t : Hdf5.DType} {dims : List Nat} {data : List (List Byte)} (h1 : data.length = dims.prod) (h2 : 0 < t.size) (h3 : ∀ v ∈ data, v.length = t.size) : Dset.WF ⟨t, dims, dims.map some, data⟩ := by
  refine ⟨h1, by simp, ?_, h2, h3⟩
  intro i hi m hm
  simp only [List.getElem?_map] at hm
  rw [List.getElem?_eq_getElem hi] at hm
  rw [List.getD_eq_getElem _ _ hi]
  simp only [Option.map_some, Option.some.injEq] at hm
  exact hm ▸ le_refl _

theorem mr7 : Mr7File (file 2 pos vel ids) 2 false pos vel ids := by
  refine ⟨wf_of (by decide +kernel) (by decide +kernel), ⟨false, _, rfl, ⟨rfl, by decide +kernel⟩, by decide +kernel⟩, by decide, ⟨_, _, rfl, by decide⟩, ⟨_, by decide +kernel, dset_wf (dims := [3, 2]) rfl (by decide) (by decide)⟩,
    ⟨_, by decide +kernel, dset_wf (dims := [3, 2]) rfl (by decide) (by decide)⟩, ⟨_, by decide +kernel, dset_wf (dims := [2]) rfl (by decide) (by decide)⟩⟩

theorem mr7' : Mr7File (file 2 pos vel ids2) 2 false pos vel ids2 := by
  refine ⟨wf_of (by decide +kernel) (by decide +kernel), ⟨false, _, rfl, ⟨rfl, by decide +kernel⟩, by decide +kernel⟩, by decide, ⟨_, _, rfl, by decide⟩, ⟨_, by decide +kernel, dset_wf (dims := [3, 2]) rfl (by decide) (by decide)⟩,
    ⟨_, by decide +kernel, dset_wf (dims := [3, 2]) rfl (by decide) (by decide)⟩, ⟨_, by decide +kernel, dset_wf (dims := [2]) rfl (by decide) (by decide)⟩⟩

theorem mr70 : Mr7File (file 0 [] [] []) 0 false [] [] [] := by
  refine ⟨wf_of (by decide +kernel) (by decide +kernel), ⟨false, _, rfl, ⟨rfl, by decide +kernel⟩, by decide +kernel⟩, by decide, ⟨_, _, rfl, by decide⟩, ⟨_, by decide +kernel, dset_wf (dims := [3, 0]) rfl (by decide) (by decide)⟩,
    ⟨_, by decide +kernel, dset_wf (dims := [3, 0]) rfl (by decide) (by decide)⟩, ⟨_, by decide +kernel, dset_wf (dims := [0]) rfl (by decide) (by decide)⟩⟩

def world (f : H5File) : World := { disk := fun n => if n = "snap_000.0.hdf5".toList then some f else none }

theorem initial {f : H5File} (h : f.WF) : Initial (world f) := by
  refine ⟨rfl, rfl, rfl, fun n g hg => ?_⟩
  unfold world at hg
  simp only at hg
  split at hg
  · rw [← Option.some.inj hg]; exact h
  · cases hg

theorem arg : FileArg "snap_000.0.hdf5".toList := by
  constructor
  · decide
  · decide
  · unfold NoBlank; decide
  · decide

example (junk : List Byte) : ∃ w', mr7Fortran junk (world (file 2 pos vel ids)) "snap_000.0.hdf5".toList = .ok ([⟨[leBytes 4 1, leBytes 4 2, leBytes 4 3], [leBytes 4 11, leBytes 4 12, leBytes 4 13],
    "              77".toList⟩, ⟨[leBytes 4 4, leBytes 4 5, leBytes 4 6], [leBytes 4 14, leBytes 4 15, leBytes 4 16], "1234567890123456".toList⟩], w') ∧ w'.disk = (world (file 2 pos vel ids)).disk := by
  obtain ⟨w', h1, h2⟩ := C99_fortran mr7 (by decide) (initial mr7.wf) arg rfl junk (by unfold IdsBelow; decide +kernel)
  refine ⟨w', ?_, h2⟩
  rw [h1]
  have : particleLines column16 2 pos vel ids = [⟨[leBytes 4 1, leBytes 4 2, leBytes 4 3], [leBytes 4 11, leBytes 4 12, leBytes 4 13], "              77".toList⟩,
    ⟨[leBytes 4 4, leBytes 4 5, leBytes 4 6], [leBytes 4 14, leBytes 4 15, leBytes 4 16], "1234567890123456".toList⟩] := by decide +kernel
  rw [this]

example : mr7C (world (file 2 pos vel ids2)).disk "snap_000.0.hdf5".toList = .ok [⟨[leBytes 4 1, leBytes 4 2, leBytes 4 3], [leBytes 4 11, leBytes 4 12, leBytes 4 13], "77".toList⟩,
    ⟨[leBytes 4 4, leBytes 4 5, leBytes 4 6], [leBytes 4 14, leBytes 4 15, leBytes 4 16], "18446744073709551615".toList⟩] := by
  rw [C99_c mr7' (by decide) arg.length rfl (by simp)]
  decide +kernel

/-- The same file with the Fortran program -/
example (junk : List Byte) : ∃ lines w', mr7Fortran junk (world (file 2 pos vel ids2)) "snap_000.0.hdf5".toList = .ok (lines, w') ∧ lines.length = 2 ∧
    (lines[1]?).map Line.id = some "****************".toList :=
  C99_id_defect mr7' (initial mr7'.wf) arg rfl junk (by decide) (by decide +kernel)

example (junk : List Byte) : mr7Fortran junk (world (file 0 [] [] [])) "snap_000.0.hdf5".toList = .error .abort := (C99_empty_defect mr70 (initial mr70.wf) arg rfl junk).1

/-- As many particles as the C program cannot read -/
theorem mr7large (n : Nat) (hn : n < 2 ^ 31) : Mr7File (file n (List.replicate (3 * n) [0, 0, 0, 0]) (List.replicate (3 * n) [0, 0, 0, 0]) (List.replicate n (leBytes 8 1))) n false (List.replicate (3 * n) [0, 0, 0, 0])
    (List.replicate (3 * n) [0, 0, 0, 0]) (List.replicate n (leBytes 8 1)) := by
  have hrep : ∀ (m k : Nat) (v : List Byte), v.length = k → ∀ u ∈ List.replicate m v, u.length = k := by
    intro m k v hv u hu
    rw [List.eq_of_mem_replicate hu, hv]
  refine ⟨wf_of ?_ ?_, ⟨false, _, rfl, ⟨rfl, ?_⟩, ?_⟩, hn, ⟨_, _, rfl, by decide⟩, ⟨_, rfl, dset_wf (dims := [3, n]) (by simp) (by decide) (hrep _ _ _ rfl)⟩,
    ⟨_, rfl, dset_wf (dims := [3, n]) (by simp) (by decide) (hrep _ _ _ rfl)⟩, ⟨_, rfl, dset_wf (dims := [n]) (by simp) (by decide) (hrep _ _ _ rfl)⟩⟩
  · intro x hx
    simp only [file, List.mem_cons, List.not_mem_nil, or_false] at hx
    rcases hx with rfl | rfl | rfl | rfl | rfl <;> rfl
  · intro x hx
    simp only [file, List.mem_cons, List.not_mem_nil, or_false] at hx
    rcases hx with rfl | rfl | rfl | rfl | rfl
    · exact Or.inr ⟨0, (by show 0 < 3; decide), rfl⟩
    · exact Or.inr ⟨1, (by show 1 < 3; decide), rfl⟩
    · exact Or.inr ⟨2, (by show 2 < 3; decide), rfl⟩
    · exact Or.inl rfl
    · exact Or.inl rfl
  · intro v hv
    simp only [List.mem_cons, List.not_mem_nil, or_false] at hv
    rcases hv with rfl | rfl | rfl | rfl | rfl | rfl <;> exact length_leBytes _ _
  · exact leNat_leBytes 4 n (by omega)

/-- In particular for 715827883 -/
example (n : Nat) (h1 : 715827882 < n) (h2 : n < 2 ^ 31) : mr7C (world (file n (List.replicate (3 * n) [0, 0, 0, 0]) (List.replicate (3 * n) [0, 0, 0, 0]) (List.replicate n (leBytes 8 1)))).disk "snap_000.0.hdf5".toList =
    .error .other :=
  C99_large_defect (mr7large n h2) h1 arg.length rfl (by simp)

end ExMr7

end Verif.SnapshotPrograms
