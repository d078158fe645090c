import Verif.Proofs.Hdf5Write
import Verif.Props.Hdf5Read

/-!
C95: writing of datasets and parts of datasets by the Fortran wrapper of HDF5
-/

namespace Verif.Hdf5

/-- **C95** (existing datasets): a part of a dataset is written exactly if the types allow it, there is room for it or the dataset can be extended, and the array is large enough. Then the dataset is
as large as it was and as the part needs, the part has the elements of the array, old elements outside of it are unchanged and all other elements are zero. If not, the program ends. -/
theorem C95_write_old {ds : Dset} {memtype : DType} {s c : List Int} {a : FArray} {start count : List Nat} (hr : ds.dims.length ≤ 7) (hwd : ds.WF) (hwa : a.WF) (hta : a.HasType memtype)
    (hreg : IsRegion ds.dims (some (s, c)) start count) (hz : 0 ∉ count → 0 ∉ a.dims) :
    (Compatible memtype ds.dtype ∧ Room ds start count ∧ Holds a.dims count → ∃ ds', writeOld ds memtype (some (s, c)) a = .ok ds' ∧ WriteResult ds memtype start count a ds') ∧
      (¬ (Compatible memtype ds.dtype ∧ Room ds start count ∧ Holds a.dims count) → writeOld ds memtype (some (s, c)) a = .error .abort) := by
  classical
  obtain ⟨ds1, h1, hp⟩ := prepareOld_eq (memtype := memtype) hr hwd hreg
  have hl := hreg.lengths
  have hd : ds1.dims = grown ds.dims start count := by
    rcases h1 with ⟨rfl, h⟩ | rfl
    · exact h.symm
    · rfl
  have hreg1 : IsRegion ds1.dims (some (s, c)) start count := by
    have hg : ds1.dims.length = ds.dims.length := by rw [hd, length_grown hl.1 hl.2]
    cases hreg with
    | part _ _ _ _ hs hc h => exact IsRegion.part s c start count (hs.trans hg.symm) (hc.trans hg.symm) (by rw [hg]; exact h)
  have hin : Inside ds1.dims start count := by rw [hd]; exact inside_grown hl.1 hl.2
  have hput := putData_inside (memtype := memtype) hreg1 (fun _ => hin) hwa hz
  unfold writeOld
  rw [hp]
  constructor
  · rintro ⟨hc, hrm, hh⟩
    refine ⟨_, ?_, writeResult hwd hwa hta hc hl.1 hl.2 hrm h1 hh hz⟩
    rw [if_pos ⟨hc, hrm⟩]
    show putData ds1 memtype (some (s, c)) a = _
    rw [hput, if_pos hh]
  · intro hn
    by_cases hcr : Compatible memtype ds.dtype ∧ Room ds start count
    · rw [if_pos hcr]
      show putData ds1 memtype (some (s, c)) a = _
      rw [hput, if_neg (fun hh => hn ⟨hcr.1, hcr.2, hh⟩)]
    · rw [if_neg hcr]
      rfl

/-- **C95**: an existing dataset is only written if a part is given. -/
theorem C95_write_old_part {ds : Dset} {memtype : DType} {a : FArray} (hr : ds.dims.length ≤ 7) : writeOld ds memtype none a = .error .abort := by
  unfold writeOld prepareOld
  rw [if_neg (by omega)]
  by_cases h1 : ¬ memtype.cls.sameClass ds.dtype.cls
  · rw [if_pos h1]; rfl
  · rw [if_neg h1]
    by_cases h2 : (if memtype.cls = .string then ds.dtype.size < memtype.size else memtype.size ≠ ds.dtype.size)
    · rw [if_pos h2]; rfl
    · rw [if_neg h2]; rfl

/-- **C95** (new datasets): if its type and size can be stored, a new dataset is created, of the size which is asked for or the smallest one with room for the part. It has the elements of the array in the part,
if that is inside of it and the array is large enough, and is zero elsewhere. If not, the program ends. -/
theorem C95_write_new {o : CreateOptions} {memtype : DType} {region : Option (List Int × List Int)} {a : FArray} {dims start count : List Nat} (hr : a.dims.length ≤ 7) (hck : o.chunk_size.length ≤ 7) (hwa : a.WF)
    (hta : a.HasType memtype) (hn : NewSize a.dims o.initial_size region dims) (hst : Storable o memtype dims) (hreg : IsRegion dims region start count) (hpos : 0 ∉ count) (hz : 0 ∉ a.dims) :
    (Inside dims start count ∧ Holds a.dims count → ∃ ds', writeNew o memtype region a = .ok ds' ∧ ds'.dims = dims ∧ WriteResult (blank memtype dims o.extensible.isSome) memtype start count a ds') ∧
      (¬ (Inside dims start count ∧ Holds a.dims count) → writeNew o memtype region a = .error .abort) := by
  classical
  have hcr := createDset_storable hn hr hck hta.size hst
  have hl := hreg.lengths
  unfold writeNew
  rw [hcr]
  have hd : ∀ e, (blank memtype dims e).dims = dims := fun _ => rfl
  constructor
  · rintro ⟨hin, hh⟩
    have hg := grown_of_inside hl.1 hl.2 hin
    have hput := putData_inside (ds := blank memtype dims o.extensible_on) (memtype := memtype) hreg (fun _ => hin) hwa (fun _ => hz)
    refine ⟨_, ?_, ?_, writeResult (ds1 := blank memtype dims o.extensible_on) (blank_wf memtype dims _ hta.size) hwa hta ?_ hl.1 hl.2 ?_ (Or.inl ⟨rfl, hg⟩) hh (fun _ => hz)⟩
    · show putData _ memtype region a = _
      rw [hput, if_pos hh]
    · rfl
    · show Compatible memtype memtype
      obtain ⟨cl, n⟩ := memtype
      cases cl <;> simp [Compatible]
    · intro i hi m hm
      have h1 := (blank_wf memtype dims o.extensible_on hta.size).within i hi m hm
      have h2 := hin i hi
      have h1 : dims.getD i 0 ≤ m := h1
      omega
  · intro hno
    by_cases hin : Inside dims start count
    · have hput := putData_inside (ds := blank memtype dims o.extensible_on) (memtype := memtype) hreg (fun _ => hin) hwa (fun _ => hz)
      show putData _ memtype region a = _
      rw [hput, if_neg (fun hh => hno ⟨hin, hh⟩)]
    · exact putData_outside (ds := blank memtype dims o.extensible_on) hreg hpos hin

/-- The part is inside of the dataset which was just written. -/
theorem WriteResult.inside {ds ds' : Dset} {t : DType} {start count : List Nat} {a : FArray} (h : WriteResult ds t start count a ds') : Inside ds'.dims start count := by
  intro i hi
  rw [h.rank] at hi
  rw [h.dims i hi]
  omega

/-- **C95** (round trip): what was written to a part of a dataset of the same type is read back from it, into an array of the same shape, and all other elements of that array are unchanged. -/
theorem C95_read_back {ds ds' : Dset} {t : DType} {region : Option (List Int × List Int)} {a b : FArray} {start count : List Nat} (hr : ds.dims.length ≤ 7) (hta : a.HasType t) (hwb : b.WF) (hb : b.dims = a.dims)
    (hz : 0 ∉ a.dims) (hpos : 0 ∉ count) (hh : Holds a.dims count) (ht : ds.dtype = t) (hreg : IsRegion ds'.dims region start count) (hsc : ds'.dims = [] → region = none)
    (h : WriteResult ds t start count a ds') :
    ∃ b', readData ds' t region b = .ok b' ∧ b'.dims = a.dims ∧ ∀ j, InShape a.dims j →
      (∀ idx, InShape count idx → SamePlace count idx a.dims j → b'.at j = a.at j) ∧ ((∀ idx, InShape count idx → ¬ SamePlace count idx a.dims j) → b'.at j = b.at j) := by
  classical
  have hself : Compatible ds'.dtype t := by
    rw [h.dtype, ht]
    obtain ⟨cl, n⟩ := t
    cases cl <;> simp [Compatible]
  obtain ⟨b', hb', hres⟩ := (C94_read_iff (memtype := t) (by rw [h.rank]; exact hr) h.wf hwb hreg hsc hpos (by rw [hb]; exact hz)).1 ⟨hself, h.inside, by rw [hb]; exact hh⟩
  refine ⟨b', hb', hres.dims.trans hb, fun j hj => ⟨?_, ?_⟩⟩
  · intro idx hi hs
    obtain ⟨v, w, h1, h2, h3⟩ := h.values idx j hi hj hs
    obtain ⟨v', w', h4, h5, h6⟩ := hres.values idx j hi (by rw [hb]; exact hj) (by rw [hb]; exact hs)
    rw [h2] at h4
    rw [h5, h1]
    congr 1
    have hv : v.length = t.size := hta.elems v (List.mem_iff_getElem?.2 ⟨_, h1⟩)
    have hc : Compatible t t := by rw [h.dtype, ht] at hself; exact hself
    have key : ∀ x : List Byte, x.length = t.size → ∀ y, Converted t t x y → y = x := by
      intro x hx y hy
      have := convert_converted hc hx hta.size
      rw [convert_self t x hx] at this
      exact converted_unique hy this
    rw [ht] at h3
    rw [h.dtype, ht] at h6
    have e1 := key v hv w h3
    rw [← Option.some.inj h4, e1] at h6
    exact key v hv w' h6
  · intro hex
    exact hres.others j (by rw [hb]; exact hj) (fun idx hi hs => hex idx hi (by rw [← hb]; exact hs))

/-- **C95** (round trip of new datasets): an array with elements, written without further arguments, comes back whatever was in the array which is read into. -/
theorem C95_round_trip {t : DType} {a b : FArray} (hr : a.dims.length ≤ 7) (hwa : a.WF) (hta : a.HasType t) (hwb : b.WF) (hb : b.dims = a.dims) (hz : 0 ∉ a.dims) :
    ∃ ds, writeNew {} t none a = .ok ds ∧ ds.dims = a.dims ∧ ds.dtype = t ∧ readData ds t none b = .ok a := by
  have hh : Holds a.dims a.dims := by
    unfold Holds
    induction squeezed a.dims a.dims with
    | nil => exact List.Forall₂.nil
    | cons x l ih => exact List.Forall₂.cons (le_refl _) ih
  obtain ⟨ds, h1, h2, h3⟩ := (C95_write_new (o := {}) hr (by simp) hwa hta NewSize.whole (Or.inl ⟨by unfold Compressed; decide, rfl, rfl⟩) IsRegion.whole hz hz).1 ⟨inside_whole _, hh⟩
  refine ⟨ds, h1, h2, h3.dtype, ?_⟩
  have hreg : IsRegion ds.dims none (List.replicate a.dims.length 0) a.dims := by rw [h2]; exact IsRegion.whole
  obtain ⟨b', hb', hd, hat⟩ := C95_read_back (a := a) (b := b) hr hta hwb hb hz hz hh rfl hreg (fun _ => rfl) h3
  rw [hb']
  congr 1
  have hb'wf : b'.WF := by
    rcases (C94_read_result h3.wf hwb hb').2 with ⟨_, _, _, _, _, _, _, hres⟩ | ⟨he, _⟩
    · exact hres.wf
    · rw [he]; exact hwb
  obtain ⟨bd, be⟩ := b'
  obtain ⟨ad, ae⟩ := a
  have hd : bd = ad := hd
  subst hd
  congr 1
  apply List.ext_getElem?
  intro k
  have hl1 : be.length = bd.prod := hb'wf
  have hl2 : ae.length = bd.prod := hwa
  by_cases hk : k < bd.prod
  · obtain ⟨j, hj, rfl⟩ := exists_colIndex hk
    have := (hat j hj).1 j hj rfl
    rw [colIndex_offset _ _ (inShape_length hj)]
    exact this
  · rw [List.getElem?_eq_none (by omega), List.getElem?_eq_none (by omega)]

/-- Defect: `extensible=.false.` also makes an extensible dataset: exactly as without a limit. -/
theorem C95_extensible_defect (o : CreateOptions) (t : DType) (region : Option (List Int × List Int)) (a : FArray) :
    writeNew { o with extensible := some false } t region a = writeNew { o with extensible := some true } t region a := rfl

/-- Defect: an empty array cannot be written with compression or to a dataset which is extensible, although the same array is written without them. -/
theorem C95_empty_defect {o : CreateOptions} {t : DType} {a : FArray} (hr : a.dims.length ≤ 7) (hck : o.chunk_size.length ≤ 7) (ht : 0 < t.size) (hi : o.initial_size = none) (hz : 0 ∈ a.dims)
    (hx : Compressed o ∨ o.extensible ≠ none) : writeNew o t none a = .error .abort := by
  have hne : a.dims ≠ [] := fun h => by rw [h] at hz; simp at hz
  have := createDset_unstorable (o := o) (t := t) (region := none) (by rw [hi]; exact NewSize.whole) hr hck hne ht hx (by
    rintro ⟨h, _⟩
    unfold chunkElems at h
    rw [List.prod_eq_zero] at h
    · omega
    · obtain ⟨k, hk⟩ := List.mem_iff_getElem?.1 hz
      refine List.mem_map.2 ⟨k, List.mem_range.2 (List.getElem?_eq_some_iff.1 hk).1, ?_⟩
      rw [List.getD_eq_getElem?_getD, hk]
      simp)
  unfold writeNew
  rw [this]
  rfl

/-- Defect: an empty array with one dimension is written, but it cannot be read again. -/
theorem C95_empty_unreadable_defect (t : DType) (e : List (List Byte)) : ∃ ds, writeNew {} t none ⟨[0], e⟩ = .ok ds ∧ ds.dims = [0] ∧ ∀ b, readData ds t none b = .error .abort :=
  ⟨⟨t, [0], [some 0], []⟩, rfl, rfl, fun b => C94_empty_defect b rfl⟩

/-- Defect: `initial_size` may be larger than the array, says the README. But without `start` and `count` the program ends then, after the dataset was created. -/
theorem C95_initial_size_defect {o : CreateOptions} {t : DType} {a : FArray} {dims : List Nat} {size : List Int} (hr : a.dims.length ≤ 7) (hck : o.chunk_size.length ≤ 7) (hwa : a.WF) (hta : a.HasType t)
    (hi : o.initial_size = some size) (hl : dims.length = a.dims.length) (hsize : ∀ i < a.dims.length, size[i]? = some (dims.getD i 0 : Int)) (hst : Storable o t dims) (hpos : 0 ∉ dims) (hz : 0 ∉ a.dims)
    (i : Nat) (hil : i < a.dims.length) (hlt : a.dims.getD i 0 < dims.getD i 0) (hge : ∀ i < a.dims.length, a.dims.getD i 0 ≤ dims.getD i 0) : writeNew o t none a = .error .abort := by
  refine (C95_write_new hr hck hwa hta (by rw [hi]; exact NewSize.initial size none dims hl hsize) hst IsRegion.whole hpos hz).2 ?_
  rintro ⟨_, hh⟩
  have hp : a.dims.prod < dims.prod := by
    have key : ∀ (x y : List Nat), x.length = y.length → 0 ∉ x → (∀ i < x.length, x.getD i 0 ≤ y.getD i 0) → x.prod ≤ y.prod ∧ ((∃ i < x.length, x.getD i 0 < y.getD i 0) → x.prod < y.prod) := by
      intro x
      induction x with
      | nil => intro y h _ _; rw [List.length_eq_zero_iff.1 h.symm]; simp
      | cons u x ih =>
        intro y h h0 hle
        cases y with
        | nil => simp at h
        | cons v y =>
          obtain ⟨h1, h2⟩ := ih y (by simpa using h) (fun h' => h0 (by simp [h'])) (fun i hi => by simpa using hle (i + 1) (by simpa using hi))
          have huv : u ≤ v := by simpa using hle 0 (by simp)
          have hu : 0 < u := Nat.pos_of_ne_zero (fun h' => h0 (by simp [h']))
          have hx : 0 < x.prod := prod_pos_of (fun h' => h0 (by simp [h']))
          rw [List.prod_cons, List.prod_cons]
          refine ⟨Nat.mul_le_mul huv h1, ?_⟩
          rintro ⟨i, hi, hlt⟩
          cases i with
          | zero =>
            have : u < v := by simpa using hlt
            calc u * x.prod < v * x.prod := Nat.mul_lt_mul_of_pos_right this hx
              _ ≤ v * y.prod := Nat.mul_le_mul_left _ h1
          | succ i =>
            have := h2 ⟨i, by simpa using hi, by simpa using hlt⟩
            calc u * x.prod < u * y.prod := Nat.mul_lt_mul_of_pos_left this hu
              _ ≤ v * y.prod := Nat.mul_le_mul_right _ huv
    exact (key _ _ hl.symm hz hge).2 ⟨i, hil, hlt⟩
  have hle : ∀ x y : List Nat, List.Forall₂ (fun n c => c ≤ n) x y → y.prod ≤ x.prod := by
    intro x y h
    induction h with
    | nil => exact le_refl _
    | cons h _ ih => rw [List.prod_cons, List.prod_cons]; exact Nat.mul_le_mul h ih
  have := hle _ _ hh
  rw [prod_squeezed hz, prod_squeezed hpos] at this
  omega

namespace ExHdf5Write

def t : DType := ⟨.integer true, 2⟩

def arr (dims : List Nat) : FArray := ⟨dims, (List.range dims.prod).map (fun i => [⟨(i + 1) % 256, by omega⟩, 0])⟩

example : (arr [2, 3]).WF ∧ (arr [2, 3]).HasType t := ⟨by unfold FArray.WF; decide +kernel, ⟨by decide +kernel, by decide +kernel⟩⟩

/-- A dataset which is larger than the first part -/
def ds : Dset := ⟨t, [3, 2], [none, none], [[0, 0], [1, 0], [2, 0], [0, 0], [3, 0], [4, 0]]⟩

example : writeNew { extensible := some true } t (some ([2, 1], [2, 2])) (arr [2, 2]) = .ok ds := by decide +kernel

/-- It is extended by a row of three. -/
example : writeOld ds t (some ([1, 3], [2, 1])) (arr [3]) = .ok ⟨t, [3, 3], [none, none], [[0, 0], [1, 0], [2, 0], [0, 0], [3, 0], [4, 0], [1, 0], [2, 0], [0, 0]]⟩ := by decide +kernel
example : writeOld ds t (some ([4, 1], [1, 1])) (arr []) = .ok ⟨t, [4, 2], [none, none], [[0, 0], [1, 0], [2, 0], [1, 0], [0, 0], [3, 0], [4, 0], [0, 0]]⟩ := by decide +kernel

example : IsRegion ds.dims (some ([4, 1], [1, 1])) [3, 0] [1, 1] ∧ Room ds [3, 0] [1, 1] ∧ Holds [] [1, 1] := by
  refine ⟨IsRegion.part _ _ _ _ rfl rfl (by decide +kernel), fun i hi m hm => ?_, ?_⟩
  · rcases i with _ | _ | i <;> simp [ds] at hm
  · unfold Holds
    decide +kernel

/-- No room, wrong type, and an array which is too small -/
example : writeOld { ds with maxdims := [some 3, some 2] } t (some ([1, 3], [2, 1])) (arr [3]) = .error .abort := by decide +kernel
example : writeOld ds ⟨.integer true, 4⟩ (some ([1, 3], [2, 1])) (arr [3]) = .error .abort := by decide +kernel
example : writeOld ds t (some ([1, 1], [3, 1])) (arr [2]) = .error .abort := by decide +kernel

/-- The defects -/
example : (writeNew { extensible := some false } t none (arr [2])).toOption.map (·.maxdims) = some [none] := by decide +kernel
example : writeNew { gzip := 6 } t none (arr [0]) = .error .abort := by decide +kernel
example : writeNew { initial_size := some [4] } t none (arr [2]) = .error .abort := by decide +kernel
example : writeNew { initial_size := some [4] } t (some ([1], [2])) (arr [2]) = .ok ⟨t, [4], [some 4], [[1, 0], [2, 0], [0, 0], [0, 0]]⟩ := by decide +kernel
example : NewSize [2] (some [4]) (some ([1], [2])) [4] := NewSize.initial _ _ _ rfl (by decide +kernel)
example : Storable { gzip := 6 } t [4] := Or.inr ⟨by simp, by decide +kernel, by decide +kernel⟩

end ExHdf5Write

end Verif.Hdf5
