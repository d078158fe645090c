import Verif.Model.Mr7Scripts
import Verif.Props.SnapshotProgramsHdf5

/-! C132: scripts in Python and IDL which read a snapshot file of the Millennium-WMAP7 simulation -/

namespace Verif.SnapshotPrograms

open CPeano FortranReaders Hdf5

/-! ### What the arrays should be -/

/-- Number of elements of an array of vectors, and its elements: component `k` of vector `i` -/
def VectorsIn (get : Nat → Nat → Except Err (List Byte)) (n : Nat) (values : List (List Byte)) : Prop :=
  (∀ i < n, ∀ k < 3, ∃ v, values[3 * i + k]? = some v ∧ get i k = .ok v) ∧ ∀ i k, ¬(i < n ∧ k < 3) → get i k = .error .indexError

def NumbersIn (get : Nat → Except Err (List Byte)) (n : Nat) (values : List (List Byte)) : Prop :=
  (∀ i < n, ∃ v, values[i]? = some v ∧ get i = .ok v) ∧ ∀ i, ¬i < n → get i = .error .indexError

section

variable {f : H5File} {n : Nat} {signed : Bool} {pos vel ids : List (List Byte)}

theorem h5Attr_eq (hw : f.WF) {attr : Name} {a : Attr} (ha : f.attr ["Header".toList] attr = some a) : h5Attr f "Header".toList attr = .ok a := by
  have hc : h5Components "Header".toList = ["Header".toList] := by decide +kernel
  have ht : trimBlanks "Header".toList = "Header".toList := by decide +kernel
  have hfind : f.find "Header".toList = f.link ["Header".toList] := by
    rw [find_of_link hw (by rw [ht]; decide), ht, hc]
  unfold h5Attr
  rw [hfind]
  unfold H5File.attr H5File.owner at ha
  cases hl : f.link ["Header".toList] with
  | none => rw [hl] at ha; cases ha
  | some l =>
    rw [hl] at ha
    rw [hc]
    cases l with
    | group => simp only [Option.bind_some] at ha ⊢; rw [ha]
    | dset a => simp only [Option.bind_some] at ha ⊢; rw [ha]

theorem h5Dataset_eq {name : Name} {d : Dset} (h : f.dset name = some d) : h5Dataset f name = .ok d := by
  unfold H5File.dset at h
  unfold h5Dataset
  rw [h]

theorem intOfType_small {s : Bool} {v : List Byte} (hv : v.length = 4) (h : leNat v < 2 ^ 31) : intOfType ⟨.integer s, 4⟩ v = .ok (leNat v : Int) := by
  unfold intOfType
  cases s with
  | false => rfl
  | true =>
    simp only
    rw [if_neg (by rw [hv]; have : (256 : Nat) ^ 4 = 2 ^ 32 := by decide
                   omega)]

theorem vectors {values : List (List Byte)} {get : Nat → Nat → Except Err (List Byte)} (hl : values.length = 3 * n)
    (hg : ∀ i k, get i k = match (offsetOf [3, n] [k, i]).bind (fun p => values[p]?) with | none => .error .indexError | some v => .ok v) : VectorsIn get n values := by
  constructor
  · intro i hi k hk
    refine ⟨values[3 * i + k]'(by omega), List.getElem?_eq_getElem _, ?_⟩
    rw [hg]
    simp only [offsetOf, if_pos hi, if_pos hk, Option.map_some, Option.bind_some, Nat.mul_zero, Nat.add_zero]
    rw [Nat.add_comm k (3 * i), List.getElem?_eq_getElem (by omega)]
  · intro i k h
    rw [hg]
    by_cases hk : k < 3
    · have hi : ¬i < n := fun hi => h ⟨hi, hk⟩
      simp only [offsetOf, if_pos hk, if_neg hi, Option.map_none, Option.bind_none]
    · simp only [offsetOf, if_neg hk, Option.bind_none]

theorem numbers {values : List (List Byte)} {get : Nat → Except Err (List Byte)} (hl : values.length = n)
    (hg : ∀ i, get i = match (offsetOf [n] [i]).bind (fun p => values[p]?) with | none => .error .indexError | some v => .ok v) : NumbersIn get n values := by
  constructor
  · intro i hi
    refine ⟨values[i]'(by omega), List.getElem?_eq_getElem _, ?_⟩
    rw [hg]
    simp only [offsetOf, if_pos hi, Option.map_some, Option.bind_some, Nat.mul_zero, Nat.add_zero]
    rw [List.getElem?_eq_getElem (by omega)]
  · intro i hi
    rw [hg]
    simp only [offsetOf, if_neg hi, Option.bind_none]

/-- C132: the script in Python prints the number of particles and has the positions, velocities and IDs of all of them: `pos[i,k]` is component `k` of particle `i`. There may be no particles. -/
theorem C132_python (h : Mr7File f n signed pos vel ids) {disk : Name → Option H5File} {fname : Name} (hd : disk fname = some f) :
    ∃ r, mr7Python disk fname = .ok r ∧ r.count = n ∧ (∃ d v, f.attr ["Header".toList] "BoxSize".toList = some ⟨⟨.float, 8⟩, d, [v]⟩ ∧ r.boxsize = [v]) ∧
      VectorsIn (fun i k => r.pos.get [i, k]) n pos ∧ VectorsIn (fun i k => r.vel.get [i, k]) n vel ∧ NumbersIn (fun i => r.ids.get [i]) n ids ∧
      r.pos.shape = [n, 3] ∧ r.vel.shape = [n, 3] ∧ r.ids.shape = [n] ∧ r.pos.dtype = ⟨.float, 4⟩ ∧ r.vel.dtype = ⟨.float, 4⟩ ∧ r.ids.dtype = ⟨.integer signed, 8⟩ := by
  obtain ⟨s, counts, a1, a2, a3⟩ := h.numbers
  obtain ⟨d, bv, b1, b2⟩ := h.box
  obtain ⟨m1, p1, p2⟩ := h.positions
  obtain ⟨m2, v1, v2⟩ := h.velocities
  obtain ⟨m3, i1, i2⟩ := h.ids
  obtain ⟨l1, l2, l3, l4⟩ := pos_length h
  have hsz := h.size
  have hc : counts[1]? = some (counts.getD 1 []) := by rw [List.getD_eq_getElem _ _ (by rw [a2.1]; omega), List.getElem?_eq_getElem (by rw [a2.1]; omega)]
  have hget : PyArray.get ⟨[6].reverse, ⟨.integer s, 4⟩, counts⟩ [1] = .ok (counts.getD 1 []) := by
    unfold PyArray.get
    simp only [List.reverse_cons, List.reverse_nil, List.nil_append, offsetOf, if_pos (show 1 < 6 by decide), Option.map_some, Option.bind_some, Nat.mul_zero, Nat.add_zero, hc]
  have hlen : (counts.getD 1 []).length = 4 := a2.2 _ (by rw [List.getD_eq_getElem _ _ (by rw [a2.1]; omega)]; exact List.getElem_mem _)
  refine ⟨⟨[bv], n, ⟨[n, 3], ⟨.float, 4⟩, pos⟩, ⟨[n, 3], ⟨.float, 4⟩, vel⟩, ⟨[n], ⟨.integer signed, 8⟩, ids⟩⟩, ?_, rfl, ⟨d, bv, b1, rfl⟩, vectors l1 (fun i k => rfl), vectors l2 (fun i k => rfl), numbers l3 (fun i => rfl), rfl, rfl, rfl, rfl, rfl, rfl⟩
  unfold mr7Python
  rw [hd]
  simp only [bind, Except.bind]
  rw [h5Attr_eq h.wf b1]
  simp only
  rw [h5Attr_eq h.wf a1]
  simp only [hget]
  rw [intOfType_small hlen (by rw [a3]; exact hsz), a3]
  unfold pyRead
  simp only [bind, Except.bind, h5Dataset_eq p1, h5Dataset_eq v1, h5Dataset_eq i1]
  rfl

/-- C132: so does the one in IDL, where the order of indices is reversed, if there are particles. -/
theorem C132_idl (h : Mr7File f n signed pos vel ids) (hn : n ≠ 0) {disk : Name → Option H5File} {fname : Name} (hd : disk fname = some f) :
    ∃ r, mr7Idl disk fname = .ok r ∧ r.count = n ∧ (∃ d v, f.attr ["Header".toList] "BoxSize".toList = some ⟨⟨.float, 8⟩, d, [v]⟩ ∧ r.boxsize = [v]) ∧
      VectorsIn (fun i k => r.pos.get [k, i]) n pos ∧ VectorsIn (fun i k => r.vel.get [k, i]) n vel ∧ NumbersIn (fun i => r.ids.get [i]) n ids ∧
      r.pos.dims = [3, n] ∧ r.vel.dims = [3, n] ∧ r.ids.dims = [n] ∧ r.pos.dtype = ⟨.float, 4⟩ ∧ r.vel.dtype = ⟨.float, 4⟩ ∧ r.ids.dtype = ⟨.integer signed, 8⟩ := by
  obtain ⟨s, counts, a1, a2, a3⟩ := h.numbers
  obtain ⟨d, bv, b1, b2⟩ := h.box
  obtain ⟨m1, p1, p2⟩ := h.positions
  obtain ⟨m2, v1, v2⟩ := h.velocities
  obtain ⟨m3, i1, i2⟩ := h.ids
  obtain ⟨l1, l2, l3, l4⟩ := pos_length h
  have hsz := h.size
  have hc : counts[1]? = some (counts.getD 1 []) := by rw [List.getD_eq_getElem _ _ (by rw [a2.1]; omega), List.getElem?_eq_getElem (by rw [a2.1]; omega)]
  have hget : IdlArray.get ⟨[6], ⟨.integer s, 4⟩, counts⟩ [1] = .ok (counts.getD 1 []) := by
    unfold IdlArray.get
    simp only [offsetOf, if_pos (show 1 < 6 by decide), Option.map_some, Option.bind_some, Nat.mul_zero, Nat.add_zero, hc]
  have hlen : (counts.getD 1 []).length = 4 := a2.2 _ (by rw [List.getD_eq_getElem _ _ (by rw [a2.1]; omega)]; exact List.getElem_mem _)
  have ne : ∀ {l : List (List Byte)}, 0 < l.length → l ≠ [] := fun h0 e => by rw [e] at h0; simp at h0
  refine ⟨⟨[bv], n, ⟨[3, n], ⟨.float, 4⟩, pos⟩, ⟨[3, n], ⟨.float, 4⟩, vel⟩, ⟨[n], ⟨.integer signed, 8⟩, ids⟩⟩, ?_, rfl, ⟨d, bv, b1, rfl⟩, vectors l1 (fun i k => rfl), vectors l2 (fun i k => rfl), numbers l3 (fun i => rfl), rfl, rfl, rfl, rfl, rfl, rfl⟩
  unfold mr7Idl
  rw [hd]
  simp only [bind, Except.bind]
  rw [h5Attr_eq h.wf b1]
  simp only
  rw [h5Attr_eq h.wf a1]
  simp only [hget]
  rw [intOfType_small hlen (by rw [a3]; exact hsz), a3]
  unfold idlRead
  simp only [bind, Except.bind, h5Dataset_eq p1, h5Dataset_eq v1, h5Dataset_eq i1, if_neg (ne (l := pos) (by omega)), if_neg (ne (l := vel) (by omega)), if_neg (ne (l := ids) (by omega))]

/-- C132: all four programs agree: the lines printed by the Fortran program are those for the arrays in Python, and the arrays in IDL are the transposes of them. -/
theorem C132_agree (h : Mr7File f n signed pos vel ids) (hn : n ≠ 0) {w : World} (h0 : Initial w) {arg : Name} (ha : FileArg arg) (hd : w.disk arg = some f) (junk : List Byte) (hi : IdsBelow (10 ^ 16) ids) :
    ∃ lines w' py idl, mr7Fortran junk w arg = .ok (lines, w') ∧ mr7Python w.disk arg = .ok py ∧ mr7Idl w.disk arg = .ok idl ∧ (lines.length : Int) = py.count ∧ py.count = idl.count ∧
      (∀ i k, py.pos.get [i, k] = idl.pos.get [k, i] ∧ py.vel.get [i, k] = idl.vel.get [k, i] ∧ py.ids.get [i] = idl.ids.get [i]) ∧
      ∀ i l, lines[i]? = some l → (∀ k < 3, py.pos.get [i, k] = .ok (l.pos.getD k []) ∧ py.vel.get [i, k] = .ok (l.vel.getD k [])) ∧ l.pos.length = 3 ∧ l.vel.length = 3 ∧ ∃ v, py.ids.get [i] = .ok v ∧ l.id = column16 (leNat v) := by
  obtain ⟨w', e1, -⟩ := C99_fortran h hn h0 ha hd junk hi
  obtain ⟨py, p1, p2, -, p3, p4, p5, -⟩ := C132_python h hd
  obtain ⟨idl, q1, q2, -, q3, q4, q5, -⟩ := C132_idl h hn hd
  obtain ⟨l1, l2, l3, l4⟩ := pos_length h
  have same : ∀ {g g' : Nat → Nat → Except Err (List Byte)} {vals : List (List Byte)}, VectorsIn g n vals → VectorsIn g' n vals → ∀ i k, g i k = g' i k := by
    intro g g' vals h1 h2 i k
    by_cases hik : i < n ∧ k < 3
    · obtain ⟨v, a1, a2⟩ := h1.1 i hik.1 k hik.2
      obtain ⟨u, b1, b2⟩ := h2.1 i hik.1 k hik.2
      rw [a1] at b1
      rw [a2, b2, Option.some.inj b1]
    · rw [h1.2 i k hik, h2.2 i k hik]
  have same1 : ∀ {g g' : Nat → Except Err (List Byte)}, NumbersIn g n ids → NumbersIn g' n ids → ∀ i, g i = g' i := by
    intro g g' h1 h2 i
    by_cases hi : i < n
    · obtain ⟨v, a1, a2⟩ := h1.1 i hi
      obtain ⟨u, b1, b2⟩ := h2.1 i hi
      rw [a1] at b1
      rw [a2, b2, Option.some.inj b1]
    · rw [h1.2 i hi, h2.2 i hi]
  have part : ∀ {g : Nat → Nat → Except Err (List Byte)} {vals : List (List Byte)}, vals.length = 3 * n → VectorsIn g n vals → ∀ i < n, ∀ k < 3, g i k = .ok (((vals.drop (3 * i)).take 3).getD k []) := by
    intro g vals hl hv i hi k hk
    obtain ⟨v, a1, a2⟩ := hv.1 i hi k hk
    rw [a2, List.getD_eq_getElem?_getD, List.getElem?_take, if_pos hk, List.getElem?_drop, a1]
    rfl
  refine ⟨_, w', py, idl, e1, p1, q1, by rw [p2]; simp [particleLines], by rw [p2, q2], fun i k => ⟨same p3 q3 i k, same p4 q4 i k, same1 p5 q5 i⟩, ?_⟩
  intro i l hl
  unfold particleLines at hl
  rw [List.getElem?_map] at hl
  by_cases hin : i < n
  · rw [List.getElem?_range hin, Option.map_some, Option.some.injEq] at hl
    subst hl
    obtain ⟨v, a1, a2⟩ := p5.1 i hin
    refine ⟨fun k hk => ⟨part l1 p3 i hin k hk, part l2 p4 i hin k hk⟩, by simp; omega, by simp; omega, v, a2, ?_⟩
    simp only [List.getD_eq_getElem?_getD, a1, Option.getD_some]
  · rw [List.getElem?_eq_none (by simpa using hin)] at hl
    cases hl

end

/-! ### Examples -/

namespace ExMr7

/-- A file with a large ID, which Fortran cannot print, and one without particles -/
example : ∃ r, mr7Python (world (file 2 pos vel ids2)).disk "snap_000.0.hdf5".toList = .ok r ∧ r.count = 2 ∧ r.pos.get [1, 2] = .ok (leBytes 4 6) ∧ r.ids.get [1] = .ok (leBytes 8 18446744073709551615) := by
  obtain ⟨r, h1, h2, -, h3, -, h4, -⟩ := C132_python mr7' (disk := (world (file 2 pos vel ids2)).disk) (fname := "snap_000.0.hdf5".toList) rfl
  obtain ⟨v, a1, a2⟩ := h3.1 1 (by decide) 2 (by decide)
  obtain ⟨u, b1, b2⟩ := h4.1 1 (by decide)
  exact ⟨r, h1, h2, a2.trans (by rw [← Option.some.inj a1]), b2.trans (by rw [← Option.some.inj b1])⟩

example : ∃ r, mr7Python (world (file 0 [] [] [])).disk "snap_000.0.hdf5".toList = .ok r ∧ r.count = 0 := by
  obtain ⟨r, h1, h2, -⟩ := C132_python mr70 (disk := (world (file 0 [] [] [])).disk) (fname := "snap_000.0.hdf5".toList) rfl
  exact ⟨r, h1, h2⟩

example : ∃ r, mr7Idl (world (file 2 pos vel ids)).disk "snap_000.0.hdf5".toList = .ok r ∧ r.pos.get [2, 1] = .ok (leBytes 4 6) ∧ r.pos.get [1, 2] = .error .indexError := by
  obtain ⟨r, h1, -, -, h3, -⟩ := C132_idl mr7 (by decide) (disk := (world (file 2 pos vel ids)).disk) (fname := "snap_000.0.hdf5".toList) rfl
  obtain ⟨v, a1, a2⟩ := h3.1 1 (by decide) 2 (by decide)
  exact ⟨r, h1, a2.trans (by rw [← Option.some.inj a1]), h3.2 2 1 (by decide)⟩

example (junk : List Byte) : ∃ lines w' py idl, mr7Fortran junk (world (file 2 pos vel ids)) "snap_000.0.hdf5".toList = .ok (lines, w') ∧ mr7Python (world (file 2 pos vel ids)).disk "snap_000.0.hdf5".toList = .ok py ∧
    mr7Idl (world (file 2 pos vel ids)).disk "snap_000.0.hdf5".toList = .ok idl ∧ (lines.length : Int) = py.count := by
  obtain ⟨lines, w', py, idl, h1, h2, h3, h4, -⟩ := C132_agree mr7 (by decide) (initial mr7.wf) arg rfl junk (by unfold IdsBelow; decide +kernel)
  exact ⟨lines, w', py, idl, h1, h2, h3, h4⟩

end ExMr7

end Verif.SnapshotPrograms
