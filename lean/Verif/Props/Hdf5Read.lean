import Verif.Proofs.Hdf5Data

/-!
C94: reading of datasets and parts of datasets by the Fortran wrapper of HDF5
-/

namespace Verif.Hdf5


/-- **C94** (main statement): whenever `read_data` returns, the type of the dataset can be kept in the array, and either nothing was asked for and the array is unchanged, or a part inside of the
dataset was asked for, for which there is room, and the array has its elements: each one where the indexes of the dimensions with more than one element are the same. All other elements of the array
are unchanged. -/
theorem C94_read_result {ds : Dset} {memtype : DType} {region : Option (List Int × List Int)} {a a' : FArray} (hwd : ds.WF) (hwa : a.WF) (h : readData ds memtype region a = .ok a') :
    Compatible ds.dtype memtype ∧
      ((∃ start count, IsRegion ds.dims region start count ∧ 0 ∉ count ∧ Inside ds.dims start count ∧ Holds a.dims count ∧ 0 ∉ a.dims ∧ ReadResult ds memtype start count a a') ∨
        (a' = a ∧ match region with | none => 0 ∈ ds.dims | some (_, c) => (0 : Int) ∈ c.take ds.dims.length)) := by
  classical
  have h0 := h
  rw [readData_compatible] at h
  split at h
  · simp at h
  next hr =>
  split at h
  · simp at h
  next hc =>
  have hc : Compatible ds.dtype memtype := not_not.1 hc
  split at h
  · simp at h
  next h3 =>
  have hs : tooShort ds.dims.length region = false := by simpa using h3
  refine ⟨hc, ?_⟩
  by_cases hz : (0 : Int) ∈ readDims ds.dims region
  · right
    rw [readData_zero (by omega) hc hs hz] at h0
    split at h0
    · refine ⟨(Except.ok.inj h0).symm, ?_⟩
      cases region with
      | none =>
        obtain ⟨n, hn, h⟩ := List.mem_map.1 hz
        have h : (n : Int) = 0 := h
        have : n = 0 := by omega
        rwa [this] at hn
      | some r => exact hz
    · simp at h0
  · left
    have key : ∀ start count, IsRegion ds.dims region start count → (ds.dims = [] → region = none) → 0 ∉ count →
        ∃ start count, IsRegion ds.dims region start count ∧ 0 ∉ count ∧ Inside ds.dims start count ∧ Holds a.dims count ∧ 0 ∉ a.dims ∧ ReadResult ds memtype start count a a' := by
      intro start count hreg hsc hpos
      rw [readData_pos (by omega) hc hreg hsc hpos hwa] at h0
      split at h0
      · next hb =>
        split at h0
        · simp at h0
        · next hza =>
          rw [← Except.ok.inj h0]
          exact ⟨start, count, hreg, hpos, hb.2, hb.1, hza, readResult hwd hwa hc hreg.lengths.1 hreg.lengths.2 hpos hb.2 hb.1 hza⟩
      · simp at h0
    cases region with
    | none => exact key _ _ IsRegion.whole (fun _ => rfl) (fun h => hz (List.mem_map.2 ⟨0, h, rfl⟩))
    | some r =>
      obtain ⟨s, c⟩ := r
      split at h
      · simp at h
      cases hf : (fileSel ds.dims.length (some (s, c))).points ds.dims with
      | none =>
        unfold h5dread at h
        rw [hf] at h
        simp [orAbort, bind, Except.bind] at h
      | some f =>
        obtain ⟨hd, start, count, hreg, hpos⟩ := region_of_points hs hz hf
        exact key start count hreg (fun h => absurd h hd) hpos

/-- **C94**: for a part with elements, `read_data` returns exactly if the types allow it, the part is inside of the dataset and there is room for it, and it ends the program if not. (An array
without elements is a different matter.) -/
theorem C94_read_iff {ds : Dset} {memtype : DType} {region : Option (List Int × List Int)} {a : FArray} {start count : List Nat} (hr : ds.dims.length ≤ 7) (hwd : ds.WF) (hwa : a.WF)
    (hreg : IsRegion ds.dims region start count) (hsc : ds.dims = [] → region = none) (hpos : 0 ∉ count) (hz : 0 ∉ a.dims) :
    (Compatible ds.dtype memtype ∧ Inside ds.dims start count ∧ Holds a.dims count → ∃ a', readData ds memtype region a = .ok a' ∧ ReadResult ds memtype start count a a') ∧
      (¬ (Compatible ds.dtype memtype ∧ Inside ds.dims start count ∧ Holds a.dims count) → readData ds memtype region a = .error .abort) := by
  classical
  constructor
  · rintro ⟨hc, hin, hh⟩
    refine ⟨_, ?_, readResult hwd hwa hc hreg.lengths.1 hreg.lengths.2 hpos hin hh hz⟩
    rw [readData_pos hr hc hreg hsc hpos hwa, if_pos ⟨hh, hin⟩, if_neg hz]
  · intro hn
    by_cases hc : Compatible ds.dtype memtype
    · rw [readData_pos hr hc hreg hsc hpos hwa, if_neg (fun h => hn ⟨hc, h.2, h.1⟩)]
    · rw [readData_compatible, if_neg (by omega), if_pos hc]

/-- **C94**: every element which is read has exactly one place in the array. -/
theorem C94_places {adims count idx : List Nat} (hz : 0 ∉ adims) (hh : Holds adims count) (hi : InShape count idx) :
    ∃ j, InShape adims j ∧ SamePlace count idx adims j ∧ ∀ j', InShape adims j' → SamePlace count idx adims j' → j' = j := by
  obtain ⟨j, h1, h2⟩ := exists_place hz hh hi
  refine ⟨j, h1, h2, fun j' h3 h4 => colIndex_inj h3 h1 ?_⟩
  rw [colIndex_squeezed h3, colIndex_squeezed h1]
  rw [show squeezed adims j' = squeezed count idx from h4.symm, show squeezed adims j = squeezed count idx from h2.symm]

/-- **C94**, without elements in the part: it can be read only if some count is more than one, and nothing changes then. -/
theorem C94_read_nothing {ds : Dset} {memtype : DType} {region : Option (List Int × List Int)} {a : FArray} {start count : List Nat} (hr : ds.dims.length ≤ 7)
    (hc : Compatible ds.dtype memtype) (hreg : IsRegion ds.dims region start count) (hzero : 0 ∈ count) :
    (Holds a.dims count ∧ (∃ c ∈ count, 1 < c) → readData ds memtype region a = .ok a) ∧ (¬ (Holds a.dims count ∧ ∃ c ∈ count, 1 < c) → readData ds memtype region a = .error .abort) := by
  have hz : (0 : Int) ∈ readDims ds.dims region := by
    rw [hreg.readDims]
    exact List.mem_map.2 ⟨0, hzero, rfl⟩
  have hne : ∀ l : List Nat, squeezed l l ≠ [] ↔ ∃ c ∈ l, 1 < c := by
    intro l
    induction l with
    | nil => simp [squeezed]
    | cons c l ih =>
      rw [squeezed_cons]
      split
      · next h => simp [h]
      · next h => rw [ih]; simp [h]
  have hx : (fits (effective (a.dims.map Int.ofNat)) (effective (readDims ds.dims region)) = true ∧ effective (a.dims.map Int.ofNat) ≠ []) ↔ (Holds a.dims count ∧ ∃ c ∈ count, 1 < c) := by
    rw [hreg.readDims, fits_iff]
    constructor
    · rintro ⟨h1, h2⟩
      refine ⟨h1, (hne count).1 (fun h0 => h2 ?_)⟩
      have := h1.length_eq
      rw [h0, List.length_nil] at this
      exact List.length_eq_zero_iff.1 (by rw [length_effective]; exact this)
    · rintro ⟨h1, h2⟩
      refine ⟨h1, fun h0 => (hne count).2 h2 ?_⟩
      have := h1.length_eq
      rw [← length_effective, h0, List.length_nil] at this
      exact List.length_eq_zero_iff.1 this.symm
  rw [readData_zero hr hc hreg.tooShort hz]
  exact ⟨fun h => if_pos (hx.2 h), fun h => if_neg (fun h' => h (hx.1 h'))⟩

/-- Defect: an empty dataset with one dimension cannot be read, whatever the array is. -/
theorem C94_empty_defect {ds : Dset} {memtype : DType} (a : FArray) (h : ds.dims = [0]) : readData ds memtype none a = .error .abort := by
  classical
  by_cases hc : Compatible ds.dtype memtype
  · refine (C94_read_nothing (by rw [h]; simp) hc IsRegion.whole (by rw [h]; simp)).2 ?_
    rintro ⟨_, c, hm, h1⟩
    rw [h] at hm
    simp at hm
    omega
  · rw [readData_compatible, if_neg (by rw [h]; simp), if_pos hc]

/-- Defect: the array must be at least as large as the dataset in each dimension, says the README. But a dataset with one element in some dimension cannot be read into an array with more, although
there is room for it. -/
theorem C94_single_defect {ds : Dset} {memtype : DType} {a : FArray} (hwd : ds.WF) (hwa : a.WF) (hr : ds.dims.length ≤ 7) (hpos : 0 ∉ ds.dims)
    (hl : List.Forall₂ (fun n d => d ≤ n) a.dims ds.dims) (i : Nat) (hi : ds.dims[i]? = some 1) (hn : ∀ n, a.dims[i]? = some n → 1 < n) : readData ds memtype none a = .error .abort := by
  have hz : 0 ∉ a.dims := by
    intro h0
    obtain ⟨k, hk⟩ := List.mem_iff_getElem?.1 h0
    have hk' := (List.getElem?_eq_some_iff.1 hk).1
    have h1 := List.forall₂_iff_get.1 hl
    have h2 := h1.2 k hk' (by rw [← h1.1]; exact hk')
    have h3 : a.dims.get ⟨k, hk'⟩ = 0 := by simpa using (List.getElem?_eq_some_iff.1 hk).2
    rw [h3] at h2
    exact hpos (by
      have h4 : ds.dims.get ⟨k, by rw [← h1.1]; exact hk'⟩ = 0 := by omega
      rw [← h4]
      exact List.get_mem _ _)
  refine (C94_read_iff hr hwd hwa IsRegion.whole (fun _ => rfl) hpos hz).2 ?_
  rintro ⟨_, _, hh⟩
  have hlen := hh.length_eq
  have key : ∀ (n d : List Nat), List.Forall₂ (fun n d => d ≤ n) n d → (squeezed d d).length ≤ (squeezed n n).length ∧
      ∀ (i : Nat), d[i]? = some 1 → (∀ m, n[i]? = some m → 1 < m) → (squeezed d d).length < (squeezed n n).length := by
    intro n d hf
    induction hf with
    | nil => exact ⟨le_refl _, fun i h => by simp at h⟩
    | @cons x y n d hxy _ ih =>
      rw [squeezed_cons, squeezed_cons]
      refine ⟨?_, fun i h1 h2 => ?_⟩
      · split
        · rw [if_pos (by omega)]
          simpa using ih.1
        · split
          · simp only [List.length_cons]; omega
          · exact ih.1
      · cases i with
        | zero =>
          simp only [List.getElem?_cons_zero, Option.some.injEq] at h1
          have := h2 x rfl
          rw [if_neg (by omega), if_pos this]
          have := ih.1
          simp only [List.length_cons]
          omega
        | succ i =>
          have := ih.2 i (by simpa using h1) (fun m hm => h2 m (by simpa using hm))
          split
          · rw [if_pos (by omega)]
            simpa using this
          · split
            · simp only [List.length_cons]; omega
            · exact this
  have := (key _ _ hl).2 i hi hn
  omega

/-- Defect: an array without elements passes the checks for a single element (or for a part, if its other dimensions are large enough), and memory outside of the array is written. -/
theorem C94_no_elements_defect {ds : Dset} {memtype : DType} {region : Option (List Int × List Int)} {a : FArray} {start count : List Nat} (hr : ds.dims.length ≤ 7) (hwa : a.WF)
    (hc : Compatible ds.dtype memtype) (hreg : IsRegion ds.dims region start count) (hsc : ds.dims = [] → region = none) (hpos : 0 ∉ count) (hin : Inside ds.dims start count) (hh : Holds a.dims count)
    (hz : 0 ∈ a.dims) : readData ds memtype region a = .error .other := by
  classical
  rw [readData_pos hr hc hreg hsc hpos hwa, if_pos ⟨hh, hin⟩, if_pos hz]

/-- Defect: `start` and `count` cannot be given for a scalar, although any number of dimensions which is at least that of the dataset is allowed. -/
theorem C94_scalar_defect {ds : Dset} {memtype : DType} {s c : List Int} {a : FArray} (h : ds.dims = []) : readData ds memtype (some (s, c)) a = .error .abort := by
  classical
  rw [readData_compatible, if_neg (by rw [h]; simp)]
  split
  · rfl
  split
  · rfl
  split
  · rfl
  have : (fileSel ds.dims.length (some (s, c))).points ds.dims = none := by
    show (Sel.slab _ _).points ds.dims = none
    rw [Sel.points.eq_2, if_pos h]
  unfold h5dread
  rw [this]
  rfl

namespace ExHdf5Read

/-- Twelve numbers of two bytes in three rows -/
def ds : Dset := ⟨⟨.integer true, 2⟩, [3, 4], [none, none], (List.range 12).map (fun i => [⟨i % 256, by omega⟩, 0])⟩

def arr (dims : List Nat) : FArray := ⟨dims, List.replicate dims.prod [9, 9]⟩

example : ds.WF ∧ (arr [5]).WF := by
  refine ⟨⟨by decide +kernel, rfl, fun i _ m h => by rcases i with _ | _ | i <;> simp [ds] at h, by decide +kernel, by decide +kernel⟩, by unfold FArray.WF; decide +kernel⟩

/-- Three elements of the second row into an array of five -/
example : readData ds ⟨.integer true, 2⟩ (some ([2, 1, 7], [1, 3])) (arr [5]) = .ok ⟨[5], [[1, 0], [4, 0], [7, 0], [9, 9], [9, 9]]⟩ := by decide +kernel

/-- Two rows into a larger array -/
example : readData ds ⟨.integer false, 2⟩ (some ([1, 3], [2, 2])) (arr [3, 1, 2]) = .ok ⟨[3, 1, 2], [[6, 0], [7, 0], [9, 9], [9, 0], [10, 0], [9, 9]]⟩ := by decide +kernel

example : IsRegion ds.dims (some ([1, 3], [2, 2])) [0, 2] [2, 2] ∧ Holds [3, 1, 2] [2, 2] := by
  refine ⟨IsRegion.part _ _ _ _ rfl rfl (by decide +kernel), ?_⟩
  unfold Holds
  decide +kernel

/-- Outside, too small, and other types -/
example : readData ds ⟨.integer true, 2⟩ (some ([2, 3], [1, 3])) (arr [5]) = .error .abort := by decide +kernel
example : readData ds ⟨.integer true, 2⟩ (some ([2, 1], [1, 3])) (arr [2]) = .error .abort := by decide +kernel
example : readData ds ⟨.integer true, 4⟩ (some ([2, 1], [1, 3])) (arr [5]) = .error .abort := by decide +kernel

/-- A number without sign which is too large -/
example : readData ⟨⟨.integer false, 2⟩, [2], [some 2], [[0, 128], [7, 0]]⟩ ⟨.integer true, 2⟩ none (arr [2]) = .ok ⟨[2], [[255, 127], [7, 0]]⟩ := by decide +kernel

/-- The defects -/
example : readData ⟨⟨.float, 4⟩, [0], [none], []⟩ ⟨.float, 4⟩ none ⟨[0], []⟩ = .error .abort := by decide +kernel
example : readData ⟨⟨.float, 4⟩, [3, 0], [none, none], []⟩ ⟨.float, 4⟩ none ⟨[3, 0], []⟩ = .ok ⟨[3, 0], []⟩ := by decide +kernel
example : readData ⟨⟨.float, 4⟩, [3, 1], [none, none], [[1, 0, 0, 0], [2, 0, 0, 0], [3, 0, 0, 0]]⟩ ⟨.float, 4⟩ none (arr [3, 10]) = .error .abort := by decide +kernel
example : readData ds ⟨.integer true, 2⟩ (some ([1, 1], [1, 1])) ⟨[0], []⟩ = .error .other := by decide +kernel
example : readData ⟨⟨.float, 4⟩, [], [], [[1, 0, 0, 0]]⟩ ⟨.float, 4⟩ none (arr []) = .ok ⟨[], [[1, 0, 0, 0]]⟩ := by decide +kernel
example : readData ⟨⟨.float, 4⟩, [], [], [[1, 0, 0, 0]]⟩ ⟨.float, 4⟩ (some ([1], [1])) (arr []) = .error .abort := by decide +kernel

end ExHdf5Read

end Verif.Hdf5
