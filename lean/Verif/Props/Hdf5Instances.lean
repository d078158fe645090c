import Verif.Spec.Hdf5Instances
import Verif.Proofs.Hdf5Instances
import Verif.Props.Hdf5Files

/-!
C124: the routines for each type and rank of the Fortran wrapper of HDF5
-/

namespace Verif.Hdf5

theorem instNdims_of_right {table : List (ElemType × Nat × Nat)} {ty : ElemType} {rank : Nat} (h : RightRoutine table ty rank) : instNdims table ty rank = some rank := by
  unfold instNdims
  unfold RightRoutine at h
  rw [← List.head?_filter, h]
  rfl

instance (table : List (ElemType × Nat × Nat)) (ty : ElemType) (rank : Nat) : Decidable (RightRoutine table ty rank) := by unfold RightRoutine; infer_instance

/-- **C124**: for each type and each rank up to seven there is exactly one routine, and it looks at all dimensions of the array, but for writing integers with seven dimensions. -/
theorem C124_routines (ty : ElemType) (rank : Nat) (hr : rank ≤ 7) :
    RightRoutine readTable ty rank ∧ RightRoutine writeAttrTable ty rank ∧ RightRoutine readAttrTable ty rank ∧ (RightRoutine writeTable ty rank ↔ ¬ (ty.isInteger = true ∧ rank = 7)) := by
  have hr : rank < 8 := by omega
  revert hr rank
  cases ty <;> decide +kernel

/-- **C124**: writing of anything but integers with seven dimensions is what C95 and C96 are about. -/
theorem C124_write (w : World) (ifile : Int) (name : Name) {ty : ElemType} (len : Nat) {a : WriteArgs} (hr : a.arr.dims.length ≤ 7) (h7 : ¬ (ty.isInteger = true ∧ a.arr.dims.length = 7)) :
    hdf5WriteData w ifile name ty len a = writeDset w ifile name { a with memtype := ty.memtype len } := by
  unfold hdf5WriteData
  rw [instNdims_of_right ((C124_routines ty _ hr).2.2.2.2 h7)]
  show writeDset w ifile name { a with memtype := ty.memtype len, arr := asSeen a.arr.dims.length a.arr } = _
  unfold asSeen
  rw [List.take_length]

theorem readData_dims {ds : Dset} {t : DType} {region : Option (List Int × List Int)} {a x : FArray} (h : readData ds t region a = .ok x) : x.dims = a.dims := by
  classical
  rw [readData_compatible] at h
  split at h
  · cases h
  split at h
  · cases h
  split at h
  · cases h
  split at h
  · cases h
  · obtain ⟨r, _, h⟩ := except_bind_ok h
    obtain ⟨e, _, h⟩ := except_bind_ok h
    rw [← Except.ok.inj h]

theorem readDset_dims {w w' : World} {ifile : Int} {name : Name} {r : ReadArgs} {x : FArray} (h : readDset w ifile name r = .ok (x, w')) : x.dims = r.arr.dims := by
  unfold readDset at h
  obtain ⟨g, _, h⟩ := except_bind_ok h
  obtain ⟨d, _, h⟩ := except_bind_ok h
  split at h
  · cases h
  · obtain ⟨y, hy, h⟩ := except_bind_ok h
    have := Except.ok.inj h
    rw [← (Prod.mk.inj this).1]
    exact readData_dims hy

/-- **C124**: reading of datasets of all types and ranks is what C94 and C96 are about. -/
theorem C124_read (w : World) (ifile : Int) (name : Name) (ty : ElemType) (len : Nat) {r : ReadArgs} (hr : r.arr.dims.length ≤ 7) :
    hdf5ReadData w ifile name ty len r = readDset w ifile name { r with memtype := ty.memtype len } := by
  unfold hdf5ReadData
  rw [instNdims_of_right (C124_routines ty _ hr).1]
  show withDims r.arr (readDset w ifile name { r with memtype := ty.memtype len, arr := asSeen r.arr.dims.length r.arr }) = _
  unfold asSeen
  rw [List.take_length]
  unfold withDims
  cases h : readDset w ifile name { r with memtype := ty.memtype len } with
  | error e => rfl
  | ok x =>
    obtain ⟨x, w'⟩ := x
    show Except.ok ((⟨r.arr.dims, x.elems⟩ : FArray), w') = _
    rw [show r.arr.dims = x.dims from (readDset_dims h).symm]

/-- **C124**: attributes of all types and ranks -/
theorem C124_attributes (w : World) (ifile : Int) (name : Name) (overwrite : Bool) (ty : ElemType) (len : Nat) {a : FArray} (hr : a.dims.length ≤ 7) :
    hdf5WriteAttribute w ifile name overwrite ty len a = writeAttr w ifile name overwrite (ty.memtype len) a ∧
      hdf5ReadAttribute w ifile name ty len a = (readAttr w ifile name (ty.memtype len) a).map (fun x => ⟨a.dims, x.elems⟩) := by
  unfold hdf5WriteAttribute hdf5ReadAttribute
  rw [instNdims_of_right (C124_routines ty _ hr).2.1, instNdims_of_right (C124_routines ty _ hr).2.2.1]
  constructor
  · show writeAttr w ifile name overwrite (ty.memtype len) (asSeen a.dims.length a) = _
    unfold asSeen
    rw [List.take_length]
  · show (readAttr w ifile name (ty.memtype len) (asSeen a.dims.length a)).map _ = _
    unfold asSeen
    rw [List.take_length]

/-- The elements whose indexes after the second one are the first ones, as an array with two dimensions -/
def firstPlane (a : FArray) : FArray := ⟨a.dims.take 2, a.elems.take (a.dims.take 2).prod⟩

theorem instNdims_seven {ty : ElemType} (hi : ty.isInteger = true) : instNdims writeTable ty 7 = some 2 ∧ instNdims writeTable ty 2 = some 2 := by
  cases ty <;> first | (exact absurd hi (by decide)) | (decide +kernel)

theorem writeFile_take (f : H5File) (name : Name) (a : WriteArgs) {d : List Nat} {e : List (List Byte)} (hz : 0 ∉ d) (hn : d.prod ≤ e.length) :
    writeFile f name { a with arr := ⟨d, e⟩ } = writeFile f name { a with arr := ⟨d, e.take d.prod⟩ } := by
  have hp := fun ds => putData_take ds a.memtype a.region hz hn
  have hnew : ∀ g, newDset g name { a with arr := ⟨d, e⟩ } = newDset g name { a with arr := ⟨d, e.take d.prod⟩ } := by
    intro g
    unfold newDset
    simp only [hp]
  have hold : ∀ ds, writeOld ds a.memtype a.region ⟨d, e⟩ = writeOld ds a.memtype a.region ⟨d, e.take d.prod⟩ := by
    intro ds
    unfold writeOld
    simp only [hp]
  unfold writeFile
  simp only [hnew, hold]

theorem take_two {d : List Nat} (h7 : d.length = 7) : ∃ n1 n2 n3 n4 n5 n6 n7, d = [n1, n2, n3, n4, n5, n6, n7] := by
  match d, h7 with
  | [n1, n2, n3, n4, n5, n6, n7], _ => exact ⟨_, _, _, _, _, _, _, rfl⟩

theorem plane_le {a : FArray} (h7 : a.dims.length = 7) (hwa : a.WF) (hz : 0 ∉ a.dims) : (a.dims.take 2).prod ≤ a.elems.length := by
  rw [show a.elems.length = a.dims.prod from hwa, ← List.prod_take_mul_prod_drop a.dims 2]
  refine Nat.le_mul_of_pos_right _ (Nat.pos_of_ne_zero (List.prod_ne_zero fun h => hz (List.mem_of_mem_drop h)))

/-- Defect: an array of integers with seven dimensions is written as if it had two, with the elements of the first plane only. Nothing tells that the others are lost. `NDIMS` is 2 in
`write_7d_integer4_array` and `write_7d_integer8_array`. -/
theorem C124_seven_defect (w : World) (ifile : Int) (name : Name) {ty : ElemType} (len : Nat) {a : WriteArgs} (hi : ty.isInteger = true) (h7 : a.arr.dims.length = 7) (hwa : a.arr.WF) (hz : 0 ∉ a.arr.dims) :
    hdf5WriteData w ifile name ty len a = hdf5WriteData w ifile name ty len { a with arr := firstPlane a.arr } := by
  have h2 : (firstPlane a.arr).dims.length = 2 := by simp [firstPlane, h7]
  unfold hdf5WriteData
  rw [h7, (instNdims_seven hi).1]
  show _ = match instNdims writeTable ty (firstPlane a.arr).dims.length with | none => _ | some n => _
  rw [h2, (instNdims_seven hi).2]
  show writeDset w ifile name { a with memtype := ty.memtype len, arr := asSeen 2 a.arr } = writeDset w ifile name { a with memtype := ty.memtype len, arr := asSeen 2 (firstPlane a.arr) }
  have e : asSeen 2 (firstPlane a.arr) = ⟨a.arr.dims.take 2, a.arr.elems.take (a.arr.dims.take 2).prod⟩ := by
    unfold asSeen firstPlane
    simp
  rw [e]
  unfold writeDset
  congr 1
  funext f
  exact writeFile_take f name { a with memtype := ty.memtype len } (fun h => hz (List.mem_of_mem_take h)) (plane_le h7 hwa hz)

theorem firstPlane_eq {a b : FArray} (h7 : a.dims.length = 7) (hwa : a.WF) (hwb : b.WF) (hz : 0 ∉ a.dims) (h : SameFirstPlane a b) : firstPlane a = firstPlane b := by
  have hla := plane_le h7 hwa hz
  have hlb := plane_le (a := b) (by rw [← h.dims]; exact h7) hwb (by rw [← h.dims]; exact hz)
  unfold firstPlane
  rw [← h.dims] at hlb ⊢
  congr 1
  apply List.ext_getElem?
  intro k
  rw [List.getElem?_take, List.getElem?_take]
  split
  · next hk =>
    obtain ⟨n1, n2, n3, n4, n5, n6, n7, hd⟩ := take_two h7
    rw [hd] at hk hz
    obtain ⟨j, hj, rfl⟩ := exists_colIndex hk
    obtain ⟨i1, j, rfl⟩ := List.exists_cons_of_length_pos (l := j) (by rw [inShape_length hj]; simp)
    obtain ⟨i2, j, rfl⟩ := List.exists_cons_of_length_pos (l := j) (by have := inShape_length hj; simp at this; omega)
    have hj0 : j = [] := List.length_eq_zero_iff.1 (by have := inShape_length hj; simpa using this)
    subst hj0
    have hs : InShape a.dims [i1, i2, 0, 0, 0, 0, 0] := by
      rw [hd]
      simp only [List.mem_cons, not_or] at hz
      exact ⟨hj.1, hj.2.1, by omega, by omega, by omega, by omega, by omega, trivial⟩
    have ha := h.elems _ hs (by
      intro k hk
      rcases k with _ | _ | _ | _ | _ | _ | _ | k <;> first | omega | rfl | simp)
    have hc : offset a.dims [i1, i2, 0, 0, 0, 0, 0] = colIndex ([n1, n2, n3, n4, n5, n6, n7].take 2) [i1, i2] := by
      rw [← colIndex_offset _ _ (inShape_length hs), hd]
      simp [colIndex]
    unfold FArray.at at ha
    rw [← h.dims, hc] at ha
    exact ha
  · rfl

/-- Defect: two arrays of integers with seven dimensions which differ only outside of the first plane make the same file. -/
theorem C124_seven_lost_defect (w : World) (ifile : Int) (name : Name) {ty : ElemType} (len : Nat) {a : WriteArgs} {b : FArray} (hi : ty.isInteger = true) (h7 : a.arr.dims.length = 7) (hwa : a.arr.WF) (hwb : b.WF)
    (hz : 0 ∉ a.arr.dims) (h : SameFirstPlane a.arr b) : hdf5WriteData w ifile name ty len a = hdf5WriteData w ifile name ty len { a with arr := b } := by
  rw [C124_seven_defect w ifile name len hi h7 hwa hz, C124_seven_defect w ifile name len (a := { a with arr := b }) hi (by show b.dims.length = 7; rw [← h.dims]; exact h7) hwb
    (by show 0 ∉ b.dims; rw [← h.dims]; exact hz), firstPlane_eq h7 hwa hwb hz h]

theorem putData_dims {ds ds' : Dset} {t : DType} {region : Option (List Int × List Int)} {a : FArray} (h : putData ds t region a = .ok ds') : ds'.dims = ds.dims := by
  rw [putData_eq] at h
  split at h
  · cases h
  split at h
  · cases h
  · obtain ⟨r, hr, h⟩ := except_bind_ok h
    unfold h5dwrite at hr
    split at hr
    · split at hr
      · cases hr
      · split at hr
        · have := Except.ok.inj (hr : Except.ok _ = _)
          rw [← this] at h
          rw [← Except.ok.inj h]
        · have := Except.ok.inj (hr : Except.ok _ = _)
          rw [← this] at h
          cases h
    · cases hr

theorem writeNew_dims {o : CreateOptions} {t : DType} {a : FArray} {ds : Dset} (ho : o.initial_size = none) (h : writeNew o t none a = .ok ds) : ds.dims = a.dims := by
  unfold writeNew at h
  obtain ⟨d, hd, h⟩ := except_bind_ok h
  rw [putData_dims h]
  unfold createDset at hd
  rw [ho] at hd
  obtain ⟨fd, hfd, hd⟩ := except_bind_ok hd
  have e : a.dims.map Int.ofNat = fd := Except.ok.inj hfd
  subst e
  have e2 : (a.dims.map Int.ofNat).map Int.toNat = a.dims := by
    rw [List.map_map]
    exact List.map_id'' (fun _ => rfl) _
  simp only [e2] at hd
  generalize (if o.gzip > 9 then o.gzip - 10 else o.gzip) = level at hd
  split at hd
  · cases hd
  split at hd
  · cases hd
  split at hd
  · cases hd
  split at hd
  · cases hd
  split at hd
  · cases hd
  · rw [← Except.ok.inj hd]

/-- Defect: after writing an array of integers with seven dimensions to a new dataset, this has two dimensions. If the other ones have more than one element, it cannot be read to the array which was written. -/
theorem C124_seven_unreadable_defect {w w' : World} {ifile : Int} {name : Name} {ty : ElemType} {len : Nat} {a : WriteArgs} {g : Handle} {f : H5File} (hi : ty.isInteger = true) (h7 : a.arr.dims.length = 7)
    (hg : w.handle ifile = .ok g) (hf : w.disk g.file = some f) (hwf : f.WF) (hnew : a.overwrite = true ∨ h5dopen f name = none) (ho : a.options.initial_size = none) (hr : a.region = none)
    (h : hdf5WriteData w ifile name ty len a = .ok w') :
    ∃ f' ds, w'.disk g.file = some f' ∧ f'.dset name = some ds ∧ ds.dims = a.arr.dims.take 2 ∧
      ((∃ d ∈ a.arr.dims.drop 2, 1 < d) → ∀ b : FArray, b.dims = a.arr.dims → readData ds (ty.memtype len) none b = .error .abort) := by
  unfold hdf5WriteData at h
  rw [h7, (instNdims_seven hi).1] at h
  change writeDset w ifile name { a with memtype := ty.memtype len, arr := asSeen 2 a.arr } = .ok w' at h
  unfold writeDset onFile at h
  rw [hg] at h
  obtain ⟨g', hg', h⟩ := except_bind_ok h
  obtain rfl := Except.ok.inj hg'
  split at h
  · cases h
  rw [hf] at h
  obtain ⟨f', hw, h⟩ := except_bind_ok h
  obtain ⟨ds, h1, h2, _⟩ := C96_write_effect hwf hw
  rw [if_pos hnew] at h1
  have h1 : writeNew a.options (ty.memtype len) a.region (asSeen 2 a.arr) = .ok ds := h1
  rw [hr] at h1
  have hd : ds.dims = a.arr.dims.take 2 := writeNew_dims ho h1
  refine ⟨f', ds, ?_, h2.written, hd, ?_⟩
  · rw [← Except.ok.inj h]
    simp [setKey]
  · rintro ⟨d, hd1, hd2⟩ b hb
    classical
    rw [readData_compatible]
    have hl : ds.dims.length = 2 := by rw [hd]; simp [h7]
    rw [if_neg (by omega)]
    split
    · rfl
    · have hnot : ¬ Holds b.dims ds.dims := by
        intro hh
        have := hh.length_eq
        rw [hb, hd] at this
        have e : ∀ l m : List Nat, (squeezed (l ++ m) (l ++ m)).length = (squeezed l l).length + (squeezed m m).length := by
          intro l m
          unfold squeezed
          rw [List.zip_append rfl]
          simp
        rw [← List.take_append_drop 2 a.arr.dims, e] at this
        rw [List.take_append_drop] at this
        have hp : 0 < (squeezed (a.arr.dims.drop 2) (a.arr.dims.drop 2)).length := by
          rw [List.length_pos_iff_exists_mem]
          refine ⟨d, ?_⟩
          unfold squeezed
          obtain ⟨k, hk⟩ := List.mem_iff_getElem?.1 hd1
          refine List.mem_map.2 ⟨(d, d), List.mem_filter.2 ⟨?_, by simpa using hd2⟩, rfl⟩
          exact List.mem_iff_getElem?.2 ⟨k, List.getElem?_zip_eq_some (z := (d, d)).2 ⟨hk, hk⟩⟩
        omega
      rw [if_neg (by simp [tooShort]), if_pos]
      rw [Bool.eq_false_iff]
      exact fun hfit => hnot ((fits_iff _ _).1 hfit)

namespace ExHdf5Instances

/-- Integers from one, as many as the array has -/
def ints (dims : List Nat) : FArray := ⟨dims, (List.range dims.prod).map (fun i => [⟨(i + 1) % 256, by omega⟩, 0, 0, 0])⟩

def g : Handle := ⟨"f".toList, false, "f".toList⟩
def w : World := { disk := fun n => if n = "f".toList then some {} else none, table := some [some g] }

/-- The datasets in the file afterwards -/
def after (r : Except Err World) : Option (List (List Nat × List (List Byte))) := r.toOption.bind (fun w => (w.disk "f".toList).map (fun f => f.heap.map (fun d => (d.dims, d.data))))

/-- Six dimensions are written as they are, and of seven only the first two. -/
example : after (hdf5WriteData w 1 "x".toList .integer4 0 { memtype := ⟨.other, 0⟩, arr := ints [2, 1, 2, 1, 1, 2] }) = some [([2, 1, 2, 1, 1, 2], (ints [2, 1, 2, 1, 1, 2]).elems)] := by decide +kernel
example : after (hdf5WriteData w 1 "x".toList .integer4 0 { memtype := ⟨.other, 0⟩, arr := ints [2, 2, 2, 1, 1, 2, 1] }) = some [([2, 2], [[1, 0, 0, 0], [2, 0, 0, 0], [3, 0, 0, 0], [4, 0, 0, 0]])] := by decide +kernel
example : after (hdf5WriteData w 1 "x".toList .real 0 { memtype := ⟨.other, 0⟩, arr := ints [2, 1, 2, 1, 1, 2, 1] }) = some [([2, 1, 2, 1, 1, 2, 1], (ints [2, 1, 2, 1, 1, 2, 1]).elems)] := by decide +kernel

example : ElemType.integer4.isInteger = true ∧ (ints [2, 2, 2, 1, 1, 2, 1]).dims.length = 7 ∧ (ints [2, 2, 2, 1, 1, 2, 1]).elems.length = (ints [2, 2, 2, 1, 1, 2, 1]).dims.prod ∧
    0 ∉ (ints [2, 2, 2, 1, 1, 2, 1]).dims ∧ (w.handle 1).toOption = some g ∧ ∃ d ∈ (ints [2, 2, 2, 1, 1, 2, 1]).dims.drop 2, 1 < d := by decide +kernel

/-- It cannot be read. -/
example : (readData ⟨⟨.integer true, 4⟩, [2, 2], [some 2, some 2], [[1, 0, 0, 0], [2, 0, 0, 0], [3, 0, 0, 0], [4, 0, 0, 0]]⟩ (ElemType.integer4.memtype 0) none (ints [2, 2, 2, 1, 1, 2, 1])) = .error .abort := by decide +kernel

end ExHdf5Instances

end Verif.Hdf5
