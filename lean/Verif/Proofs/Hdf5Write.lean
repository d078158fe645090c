import Verif.Proofs.Hdf5Data

/-!
Proofs about writing of parts of HDF5 datasets
-/

namespace Verif.Hdf5

theorem convert_length {src dst : DType} {v : List Byte} (hc : Compatible src dst) (hv : v.length = src.size) (hp : 0 < src.size) : (convert src dst v).length = dst.size := by
  have := convert_converted hc hv hp
  obtain ⟨sc, ss⟩ := src
  obtain ⟨dc, ds⟩ := dst
  cases sc <;> cases dc <;> first | exact hc.elim | exact this.1 | (obtain ⟨n, h1, h2⟩ := this; exact h2) | (exact hv.trans hc)

theorem slabPoints_zero {dims start count : List Nat} (hs : start.length = dims.length) (hc : count.length = dims.length) (hz : 0 ∈ count) : slabPoints dims start count = [] := by
  apply List.length_eq_zero_iff.1
  rw [length_slabPoints dims start count hs hc]
  exact List.prod_eq_zero hz

theorem points_zero {dims : List Nat} {start count : List Int} (hd : dims ≠ []) (hc : count.length = dims.length) (hz : (0 : Int) ∈ count) : (Sel.slab start count).points dims = some [] := by
  rw [Sel.points.eq_2, if_neg hd, if_pos]
  rw [List.take_of_length_le (by omega)]
  exact List.any_eq_true.2 ⟨0, hz, rfl⟩

/-- A part inside of the extent, whether there are elements in it or not -/
theorem points_inside {dims start count : List Nat} (hd : dims ≠ []) (hs : start.length = dims.length) (hc : count.length = dims.length) (hin : 0 ∉ count → Inside dims start count) :
    (Sel.slab (start.map Int.ofNat) (count.map Int.ofNat)).points dims = some (slabPoints dims start count) := by
  classical
  by_cases hz : 0 ∈ count
  · rw [points_zero hd (by simpa using hc) (List.mem_map.2 ⟨0, hz, rfl⟩), slabPoints_zero hs hc hz]
  · rw [points_slab hd hs hc hz, if_pos (hin hz)]

def fileSelW (dims : List Nat) (region : Option (List Int × List Int)) : Sel :=
  if 0 < dims.length then
    match region with
    | some (start, count) => .slab ((start.take dims.length).map (· - 1)) (count.take dims.length)
    | none => .slab (List.replicate dims.length 0) (dims.map Int.ofNat)
  else .all

theorem putData_eq (ds : Dset) (memtype : DType) (region : Option (List Int × List Int)) (a : FArray) : putData ds memtype region a =
    if tooShort ds.dims.length region then .error .other
    else if fits (effective (a.dims.map Int.ofNat)) (effective (readDims ds.dims region)) = false then .error .abort
    else (do
      let r ← orAbort (h5dwrite ds memtype (padDims ds.dims.length ((effective (readDims ds.dims region)).map (·.2)) ((effective (a.dims.map Int.ofNat)).map (·.1)))
        (memSel ds.dims.length ds.dims.length (readDims ds.dims region)) (fileSelW ds.dims region) a.elems)
      r) := by
  cases region <;> rfl

theorem slabPoints_nil : slabPoints [] [] [] = [0] := rfl

theorem IsRegion.pointsW {dims : List Nat} {region : Option (List Int × List Int)} {start count : List Nat} (h : IsRegion dims region start count) (hin : 0 ∉ count → Inside dims start count) :
    (fileSelW dims region).points dims = some (slabPoints dims start count) := by
  have hl := h.lengths
  unfold fileSelW
  split
  · next hp =>
    have hd : dims ≠ [] := List.length_pos_iff.1 hp
    cases h with
    | whole =>
      have := points_inside (start := List.replicate dims.length 0) (count := dims) hd (by simp) rfl (fun _ => inside_whole dims)
      simpa using this
    | part s c start count hs hc h =>
      have e := part_lists hs hc h
      show (Sel.slab ((s.take dims.length).map (· - 1)) (c.take dims.length)).points dims = _
      rw [e.2.2.1, e.2.2.2, points_inside hd hs hc hin]
  · next hp =>
    have hd : dims = [] := List.length_eq_zero_iff.1 (by omega)
    subst hd
    rw [List.length_nil, List.length_eq_zero_iff, List.length_eq_zero_iff] at hl
    rw [hl.1, hl.2]
    rfl

theorem memSelW_points {adims count : List Nat} (h : Holds adims count) :
    (memSel count.length count.length (count.map Int.ofNat)).points
      (padDims count.length ((effective (count.map Int.ofNat)).map (·.2)) ((effective (adims.map Int.ofNat)).map (·.1))) =
      some (slabPoints (expand count (squeezed adims adims)) (List.replicate count.length 0) count) := by
  have hl : (squeezed adims adims).length = (squeezed count count).length := h.length_eq
  rw [padDims_eq count _ (by rw [List.length_map, length_effective, hl]), List.map_map]
  rw [show ((effective (adims.map Int.ofNat)).map (Int.toNat ∘ fun x => x.1)) = squeezed adims adims from effective_map adims]
  unfold memSel
  split
  · next hn =>
    have hd : expand count (squeezed adims adims) ≠ [] := by
      intro h0
      have := congrArg List.length h0
      rw [length_expand, List.length_nil] at this
      omega
    have := points_inside (dims := expand count (squeezed adims adims)) (start := List.replicate count.length 0) (count := count) hd (by simp [length_expand]) (by simp [length_expand])
      (fun hpos => inside_expand hpos h)
    simpa using this
  · next hn =>
    have h0 : count = [] := List.length_eq_zero_iff.1 (by omega)
    subst h0
    rfl

/-- What is written -/
def stored (ds : Dset) (memtype : DType) (count : List Nat) (a : FArray) : List (List Byte) :=
  (slabPoints (expand count (squeezed a.dims a.dims)) (List.replicate count.length 0) count).map (fun o => convert memtype ds.dtype (a.elems.getD o []))

theorem putData_inside {ds : Dset} {memtype : DType} {region : Option (List Int × List Int)} {a : FArray} {start count : List Nat}
    (hreg : IsRegion ds.dims region start count) (hin : 0 ∉ count → Inside ds.dims start count) (hwa : a.WF) (hz : 0 ∉ count → 0 ∉ a.dims) [Decidable (Holds a.dims count)] :
    putData ds memtype region a = if Holds a.dims count then .ok { ds with data := scatter ds.data (slabPoints ds.dims start count) (stored ds memtype count a) } else .error .abort := by
  have hl := hreg.lengths
  rw [putData_eq, hreg.tooShort, if_neg (by simp), hreg.readDims]
  by_cases hh : Holds a.dims count
  · rw [if_neg (by rw [(fits_iff _ _).2 hh]; simp), if_pos hh]
    have hm := memSelW_points (adims := a.dims) hh
    have hf := hreg.pointsW hin
    rw [hl.2, show List.replicate ds.dims.length 0 = List.replicate count.length 0 by rw [hl.2]] at hm
    unfold h5dwrite
    rw [hf, hm]
    have h1 : ¬ ((slabPoints ds.dims start count).length ≠ (slabPoints (expand count (squeezed a.dims a.dims)) (List.replicate count.length 0) count).length) := by
      rw [length_slabPoints _ _ _ hl.1 hl.2, length_slabPoints _ _ _ (by simp [length_expand]) (by simp [length_expand])]
      simp
    have h2 : (slabPoints (expand count (squeezed a.dims a.dims)) (List.replicate count.length 0) count).all (fun i => decide (i < a.elems.length)) = true := by
      apply List.all_eq_true.2
      intro o ho
      simp only [decide_eq_true_eq]
      rw [show a.elems.length = a.dims.prod from hwa]
      by_cases hp : 0 ∈ count
      · rw [slabPoints_zero (by simp [length_expand]) (by simp [length_expand]) hp] at ho
        simp at ho
      · exact mem_points_lt (hz hp) hh ho
    simp only [if_neg h1, if_pos h2]
    rfl
  · rw [if_pos (by rw [Bool.eq_false_iff]; exact fun h => hh ((fits_iff _ _).1 h)), if_neg hh]

theorem putData_outside {ds : Dset} {memtype : DType} {region : Option (List Int × List Int)} {a : FArray} {start count : List Nat}
    (hreg : IsRegion ds.dims region start count) (hpos : 0 ∉ count) (hout : ¬ Inside ds.dims start count) : putData ds memtype region a = .error .abort := by
  classical
  have hl := hreg.lengths
  rw [putData_eq, hreg.tooShort, if_neg (by simp)]
  split
  · rfl
  have hd : ds.dims ≠ [] := by
    intro h0
    apply hout
    intro i hi
    rw [h0] at hi
    simp at hi
  have : (fileSelW ds.dims region).points ds.dims = none := by
    unfold fileSelW
    rw [if_pos (List.length_pos_iff.2 hd)]
    cases hreg with
    | whole => exact absurd (inside_whole _) hout
    | part s c start count hs hc h =>
      have e := part_lists hs hc h
      show (Sel.slab ((s.take ds.dims.length).map (· - 1)) (c.take ds.dims.length)).points ds.dims = _
      rw [e.2.2.1, e.2.2.2, points_slab hd hs hc hpos, if_neg hout]
  unfold h5dwrite
  rw [this]
  rfl

/-! ### Extension -/

theorem inside_iff (dims idx : List Nat) : inside dims idx = true ↔ InShape dims idx := by
  induction dims generalizing idx with
  | nil => cases idx <;> simp [inside, InShape]
  | cons d ds ih => cases idx <;> simp [inside, InShape, ih]

theorem length_colIndexes (dims : List Nat) : (colIndexes dims).length = dims.prod := by
  induction dims with
  | nil => rfl
  | cons d ds ih =>
    rw [colIndexes, List.length_flatMap]
    simp only [List.length_map, List.length_range, List.map_const', List.sum_replicate, nsmul_eq_mul, List.prod_cons, Nat.cast_id, ih]
    rw [Nat.mul_comm]

theorem getElem?_colIndexes {dims idx : List Nat} (h : InShape dims idx) : (colIndexes dims)[colIndex dims idx]? = some idx := by
  induction dims generalizing idx with
  | nil => cases idx with | nil => rfl | cons => exact h.elim
  | cons d ds ih =>
    cases idx with
    | nil => exact h.elim
    | cons i is =>
      rw [colIndexes, colIndex, getElem?_flatMap_len _ d _ (by simp) h.1, ih h.2]
      rw [Option.bind_some, List.getElem?_map, List.getElem?_range h.1]
      rfl

/-- The dataset with another size -/
def resized (ds : Dset) (dims : List Nat) : Dset :=
  { ds with dims := dims, data := (colIndexes dims).map (fun idx => if inside ds.dims idx then ds.data.getD (colIndex ds.dims idx) [] else List.replicate ds.dtype.size 0) }

theorem resized_at_old {ds : Dset} {dims k : List Nat} (hw : ds.WF) (hk : InShape dims k) (ho : InShape ds.dims k) : (resized ds dims).at k = ds.at k := by
  unfold Dset.at
  show ((colIndexes dims).map _)[offset dims k]? = _
  rw [← colIndex_offset _ _ (inShape_length hk), ← colIndex_offset _ _ (inShape_length ho), List.getElem?_map, getElem?_colIndexes hk, Option.map_some, if_pos ((inside_iff _ _).2 ho)]
  have : colIndex ds.dims k < ds.data.length := by rw [hw.data]; exact colIndex_lt ho
  rw [List.getD_eq_getElem?_getD, List.getElem?_eq_getElem this]
  rfl

theorem resized_at_new {ds : Dset} {dims k : List Nat} (hk : InShape dims k) (ho : ¬ InShape ds.dims k) : (resized ds dims).at k = some (List.replicate ds.dtype.size 0) := by
  unfold Dset.at
  show ((colIndexes dims).map _)[offset dims k]? = _
  rw [← colIndex_offset _ _ (inShape_length hk), List.getElem?_map, getElem?_colIndexes hk, Option.map_some, if_neg (fun h => ho ((inside_iff _ _).1 h))]

/-- The size after extension -/
def grown (dims start count : List Nat) : List Nat := List.zipWith max dims (List.zipWith (· + ·) start count)

theorem getD_grown {dims start count : List Nat} (hs : start.length = dims.length) (hc : count.length = dims.length) {i : Nat} (hi : i < dims.length) :
    (grown dims start count).getD i 0 = max (dims.getD i 0) (start.getD i 0 + count.getD i 0) := by
  simp [grown, List.getD_eq_getElem?_getD, List.getElem?_zipWith, List.getElem?_eq_getElem hi, List.getElem?_eq_getElem (show i < start.length by omega), List.getElem?_eq_getElem (show i < count.length by omega)]

theorem length_grown {dims start count : List Nat} (hs : start.length = dims.length) (hc : count.length = dims.length) : (grown dims start count).length = dims.length := by
  simp [grown, hs, hc]

theorem inside_grown {dims start count : List Nat} (hs : start.length = dims.length) (hc : count.length = dims.length) : Inside (grown dims start count) start count := by
  intro i hi
  rw [length_grown hs hc] at hi
  rw [getD_grown hs hc hi]
  omega

theorem grown_of_inside {dims start count : List Nat} (hs : start.length = dims.length) (hc : count.length = dims.length) (h : Inside dims start count) : grown dims start count = dims := by
  apply List.ext_getElem (length_grown hs hc)
  intro i h1 h2
  have := getD_grown hs hc h2
  have hi := h i h2
  rw [List.getD_eq_getElem?_getD, List.getElem?_eq_getElem h1, Option.getD_some] at this
  rw [this, Nat.max_eq_left hi, List.getD_eq_getElem?_getD, List.getElem?_eq_getElem h2]
  rfl

theorem inShape_iff_getD {dims k : List Nat} : InShape dims k ↔ k.length = dims.length ∧ ∀ i < dims.length, k.getD i 0 < dims.getD i 0 := by
  induction dims generalizing k with
  | nil => cases k <;> simp [InShape]
  | cons d ds ih =>
    cases k with
    | nil => simp [InShape]
    | cons x k =>
      simp only [InShape, ih, List.length_cons, Nat.add_right_cancel_iff]
      constructor
      · rintro ⟨h1, h2, h3⟩
        refine ⟨h2, fun i hi => ?_⟩
        cases i with
        | zero => simpa using h1
        | succ i => simpa using h3 i (by omega)
      · rintro ⟨h2, h3⟩
        exact ⟨by simpa using h3 0 (by omega), h2, fun i hi => by simpa using h3 (i + 1) (by omega)⟩

theorem inShape_grown {dims start count k : List Nat} (hs : start.length = dims.length) (hc : count.length = dims.length) (h : InShape dims k) : InShape (grown dims start count) k := by
  rw [inShape_iff_getD] at h ⊢
  rw [length_grown hs hc]
  refine ⟨h.1, fun i hi => ?_⟩
  rw [getD_grown hs hc hi]
  have := h.2 i hi
  omega

/-- What `prepareOld` computes -/
theorem grown_ints {dims : List Nat} {s c : List Int} {start count : List Nat} (hs : start.length = dims.length) (hc : count.length = dims.length)
    (h : ∀ i < dims.length, s[i]? = some ((start.getD i 0 : Int) + 1) ∧ c[i]? = some (count.getD i 0 : Int)) :
    List.zipWith (fun (d : Nat) (e : Int) => max (d : Int) e) dims (List.zipWith (fun s c => s + c - 1) (s.take dims.length) (c.take dims.length)) = (grown dims start count).map Int.ofNat := by
  apply List.ext_getElem?
  intro i
  by_cases hi : i < dims.length
  · rw [List.getElem?_zipWith, List.getElem?_zipWith, List.getElem?_take_of_lt hi, List.getElem?_take_of_lt hi, (h i hi).1, (h i hi).2, List.getElem?_map]
    have := getD_grown hs hc hi
    rw [List.getD_eq_getElem?_getD, List.getElem?_eq_getElem (by rw [length_grown hs hc]; exact hi), Option.getD_some] at this
    rw [List.getElem?_eq_getElem hi, List.getElem?_eq_getElem (show i < (grown dims start count).length by rw [length_grown hs hc]; exact hi), this]
    simp only [Option.map_some]
    congr 1
    rw [show dims.getD i 0 = dims[i] by rw [List.getD_eq_getElem?_getD, List.getElem?_eq_getElem hi]; rfl]
    show _ = ((max _ _ : Nat) : Int)
    omega
  · have e := part_lists hs hc h
    rw [List.getElem?_eq_none (by simp; omega), List.getElem?_eq_none (by simp [length_grown hs hc]; omega)]

open Classical in
theorem extend_iff (ds : Dset) (dims : List Nat) (hl : dims.length = ds.dims.length) :
    extend ds dims = if (∀ i < ds.dims.length, ∀ m, ds.maxdims[i]? = some (some m) → dims.getD i 0 ≤ m) then some (resized ds dims) else none := by
  have key : ∀ (dims : List Nat) (mx : List (Option Nat)), ((dims.zip mx).all (fun p => match p.2 with | none => true | some m => decide (p.1 ≤ m)) = true) ↔ ∀ i < dims.length, ∀ m, mx[i]? = some (some m) → dims.getD i 0 ≤ m := by
    intro dims
    induction dims with
    | nil => intro mx; simp
    | cons d ds ih =>
      intro mx
      cases mx with
      | nil => simp
      | cons x mx =>
        rw [List.zip_cons_cons, List.all_cons, Bool.and_eq_true, ih mx]
        constructor
        · rintro ⟨h1, h2⟩ i hi m hm
          cases i with
          | zero =>
            simp only [List.getElem?_cons_zero, Option.some.injEq] at hm
            subst hm
            simpa using h1
          | succ i => simpa using h2 i (by simpa using hi) m (by simpa using hm)
        · intro h
          refine ⟨?_, fun i hi m hm => by simpa using h (i + 1) (by simpa using hi) m (by simpa using hm)⟩
          cases x with
          | none => rfl
          | some m => simpa using h 0 (by simp) m rfl
  unfold extend
  by_cases h : ∀ i < ds.dims.length, ∀ m, ds.maxdims[i]? = some (some m) → dims.getD i 0 ≤ m
  · rw [if_pos h]
    exact if_pos ((key dims ds.maxdims).2 (by rw [hl]; exact h))
  · rw [if_neg h]
    exact if_neg (fun h' => h (by have := (key dims ds.maxdims).1 h'; rw [hl] at this; exact this))

open Classical in
theorem prepareOld_eq {ds : Dset} {memtype : DType} {s c : List Int} {start count : List Nat} (hr : ds.dims.length ≤ 7) (hw : ds.WF) (hreg : IsRegion ds.dims (some (s, c)) start count) :
    ∃ ds1, (ds1 = ds ∧ grown ds.dims start count = ds.dims ∨ ds1 = resized ds (grown ds.dims start count)) ∧
      prepareOld ds memtype (some (s, c)) = if Compatible memtype ds.dtype ∧ Room ds start count then .ok ds1 else .error .abort := by
  have hlen := hreg.lengths
  have hsh := hreg.tooShort
  cases hreg with
  | part _ _ _ _ hs hc h =>
    have hshort : ¬ (s.length < ds.dims.length ∨ c.length < ds.dims.length) := by simpa [tooShort] using hsh
    have hg := grown_ints hs hc h
    have hlg := length_grown hs hc
    have hroom : (∀ i < ds.dims.length, ∀ m, ds.maxdims[i]? = some (some m) → (grown ds.dims start count).getD i 0 ≤ m) ↔ Room ds start count := by
      constructor
      · intro h i hi m hm
        have := h i hi m hm
        rw [getD_grown hs hc hi] at this
        omega
      · intro h i hi m hm
        have h1 := h i hi m hm
        have h2 := hw.within i hi m hm
        rw [getD_grown hs hc hi]
        omega
    have hany : ((ds.dims.zip ((grown ds.dims start count).map Int.ofNat)).any (fun p => decide ((p.1 : Int) < p.2)) = false) → grown ds.dims start count = ds.dims := by
      intro hf
      apply List.ext_getElem hlg
      intro i h1 h2
      have hge : ds.dims[i] ≤ (grown ds.dims start count)[i] := by
        have := getD_grown hs hc h2
        rw [List.getD_eq_getElem?_getD, List.getElem?_eq_getElem h1, Option.getD_some] at this
        rw [this, List.getD_eq_getElem?_getD, List.getElem?_eq_getElem h2, Option.getD_some]
        omega
      have := List.any_eq_false.1 hf (ds.dims[i], Int.ofNat (grown ds.dims start count)[i]) (by
        rw [List.mem_iff_getElem?]
        refine ⟨i, ?_⟩
        rw [List.getElem?_zip_eq_some]
        exact ⟨List.getElem?_eq_getElem h2, by rw [List.getElem?_map, List.getElem?_eq_getElem h1]; rfl⟩)
      simp only [decide_eq_true_eq] at this
      have : ¬ ((ds.dims[i] : Int) < ((grown ds.dims start count)[i] : Int)) := this
      omega
    have hcomp : (∃ x : Unit, True) → ∀ {α : Type} (y : Except Err α), (if ¬ memtype.cls.sameClass ds.dtype.cls then (.error .abort : Except Err α)
        else if (if memtype.cls = .string then ds.dtype.size < memtype.size else memtype.size ≠ ds.dtype.size) then .error .abort else y) = if Compatible memtype ds.dtype then y else .error .abort := by
      intro _ α y
      have hi := compatible_iff memtype ds.dtype
      by_cases h1 : memtype.cls.sameClass ds.dtype.cls = true
      · rw [if_neg (by simp [h1])]
        have hcl : (if memtype.cls = .string then ds.dtype.size < memtype.size else memtype.size ≠ ds.dtype.size) ↔ (if ds.dtype.cls = .string then ds.dtype.size < memtype.size else memtype.size ≠ ds.dtype.size) := by
          have : memtype.cls = .string ↔ ds.dtype.cls = .string := by
            revert h1
            cases memtype.cls <;> cases ds.dtype.cls <;> simp [TypeClass.sameClass]
          simp only [this]
        by_cases h2 : (if memtype.cls = .string then ds.dtype.size < memtype.size else memtype.size ≠ ds.dtype.size)
        · rw [if_pos h2, if_neg (fun hcc => (hi.1 hcc).2 (hcl.1 h2))]
        · rw [if_neg h2, if_pos (hi.2 ⟨h1, fun h => h2 (hcl.2 h)⟩)]
      · rw [if_pos (by simpa using h1), if_neg (fun hcc => h1 (hi.1 hcc).1)]
    by_cases hb : (ds.dims.zip ((grown ds.dims start count).map Int.ofNat)).any (fun p => decide ((p.1 : Int) < p.2)) = true
    · refine ⟨resized ds (grown ds.dims start count), Or.inr rfl, ?_⟩
      unfold prepareOld
      rw [if_neg (by omega), hcomp ⟨(), trivial⟩]
      simp only [if_neg hshort, hg, if_pos hb, toNat_ofNat]
      rw [extend_iff ds _ hlg]
      by_cases hcc : Compatible memtype ds.dtype
      · by_cases hrm : Room ds start count
        · rw [if_pos hcc, if_pos (hroom.2 hrm), if_pos ⟨hcc, hrm⟩]; rfl
        · rw [if_pos hcc, if_neg (fun h => hrm (hroom.1 h)), if_neg (fun h => hrm h.2)]; rfl
      · rw [if_neg hcc, if_neg (fun h => hcc h.1)]
    · have heq := hany (by simpa using hb)
      refine ⟨ds, Or.inl ⟨rfl, heq⟩, ?_⟩
      have hrm : Room ds start count := by
        rw [← hroom, heq]
        exact hw.within
      unfold prepareOld
      rw [if_neg (by omega), hcomp ⟨(), trivial⟩]
      simp only [if_neg hshort, hg, if_neg hb]
      by_cases hcc : Compatible memtype ds.dtype
      · rw [if_pos hcc, if_pos ⟨hcc, hrm⟩]
      · rw [if_neg hcc, if_neg (fun h => hcc h.1)]

/-- Writing into a dataset which was prepared -/
theorem writeResult {ds ds1 : Dset} {memtype : DType} {a : FArray} {start count : List Nat} (hw : ds.WF) (hwa : a.WF) (hta : a.HasType memtype) (hc : Compatible memtype ds.dtype)
    (hs : start.length = ds.dims.length) (hl : count.length = ds.dims.length) (hrm : Room ds start count)
    (h1 : ds1 = ds ∧ grown ds.dims start count = ds.dims ∨ ds1 = resized ds (grown ds.dims start count)) (hh : Holds a.dims count) (hz : 0 ∉ count → 0 ∉ a.dims) :
    WriteResult ds memtype start count a { ds1 with data := scatter ds1.data (slabPoints ds1.dims start count) (stored ds1 memtype count a) } := by
  have hlg := length_grown hs hl
  have hd : ds1.dims = grown ds.dims start count := by
    rcases h1 with ⟨rfl, h⟩ | rfl
    · exact h.symm
    · rfl
  have ht : ds1.dtype = ds.dtype := by rcases h1 with ⟨rfl, h⟩ | rfl <;> rfl
  have hm : ds1.maxdims = ds.maxdims := by rcases h1 with ⟨rfl, h⟩ | rfl <;> rfl
  have hdl : ds1.data.length = ds1.dims.prod := by
    rcases h1 with ⟨rfl, h⟩ | rfl
    · exact hw.data
    · show ((colIndexes _).map _).length = _
      rw [List.length_map, length_colIndexes]
      rfl
  have hold : ∀ k, InShape ds.dims k → ds1.at k = ds.at k := by
    intro k hk
    rcases h1 with ⟨rfl, h⟩ | rfl
    · rfl
    · exact resized_at_old hw (inShape_grown hs hl hk) hk
  have hnew : ∀ k, InShape ds1.dims k → ¬ InShape ds.dims k → ds1.at k = some (List.replicate ds.dtype.size 0) := by
    intro k hk hn
    rcases h1 with ⟨rfl, h⟩ | rfl
    · exact absurd hk hn
    · exact resized_at_new hk hn
  have hel : ∀ v ∈ ds1.data, v.length = ds.dtype.size := by
    rcases h1 with ⟨rfl, h⟩ | rfl
    · exact hw.elems
    · intro v hv
      obtain ⟨k, hk⟩ := List.mem_iff_getElem?.1 hv
      have hkl : k < (grown ds.dims start count).prod := by
        have h1 := (List.getElem?_eq_some_iff.1 hk).1
        rw [hdl] at h1
        exact h1
      obtain ⟨idx, hi, rfl⟩ := exists_colIndex hkl
      have hat : (resized ds (grown ds.dims start count)).at idx = some v := by
        unfold Dset.at
        show (resized ds (grown ds.dims start count)).data[offset (grown ds.dims start count) idx]? = _
        rw [← colIndex_offset _ _ (inShape_length hi)]
        exact hk
      by_cases ho : InShape ds.dims idx
      · rw [hold idx ho] at hat
        exact hw.elems v (List.mem_iff_getElem?.2 ⟨_, hat⟩)
      · rw [hnew idx hi ho] at hat
        rw [← Option.some.inj hat, List.length_replicate]
  have hs1 : start.length = ds1.dims.length := by rw [hd, hlg, hs]
  have hl1 : count.length = ds1.dims.length := by rw [hd, hlg, hl]
  have hin : Inside ds1.dims start count := by rw [hd]; exact inside_grown hs hl
  have hnd := nodup_slabPoints hs1 hl1 hin
  have hpt : ∀ k, InShape ds1.dims k → ¬ InPart start count k → offset ds1.dims k ∉ slabPoints ds1.dims start count := by
    intro k hk hno hmem
    obtain ⟨idx, hi, he⟩ := (mem_slabPoints hs1 hl1).1 hmem
    rw [← colIndex_offset _ _ (inShape_length hk)] at he
    exact hno ⟨idx, hi, colIndex_inj hk (inShape_add hs1 hl1 hin hi) he⟩
  have hsl : (stored ds1 memtype count a).length = (slabPoints ds1.dims start count).length := by
    unfold stored
    rw [List.length_map, length_slabPoints _ _ _ hs1 hl1, length_slabPoints _ _ _ (by simp [length_expand]) (by simp [length_expand])]
  refine ⟨ht, hm, by show ds1.dims.length = _; rw [hd, hlg], fun i hi => by show ds1.dims.getD i 0 = _; rw [hd, getD_grown hs hl hi], ?_, ?_, ?_, ?_⟩
  · constructor
    · show (scatter _ _ _).length = ds1.dims.prod
      rw [length_scatter, hdl]
    · show ds1.maxdims.length = ds1.dims.length
      rw [hm, hd, hlg, hw.maxdims]
    · show ∀ i < ds1.dims.length, ∀ m, ds1.maxdims[i]? = some (some m) → ds1.dims.getD i 0 ≤ m
      intro i hi m hmm
      rw [hd, hlg] at hi
      rw [hm] at hmm
      rw [hd, getD_grown hs hl hi]
      have := hw.within i hi m hmm
      have := hrm i hi m hmm
      omega
    · show 0 < ds1.dtype.size
      rw [ht]
      exact hw.size
    · show ∀ v ∈ scatter ds1.data _ _, v.length = ds1.dtype.size
      intro v hv
      obtain ⟨k, hk⟩ := List.mem_iff_getElem?.1 hv
      have hkl := (List.getElem?_eq_some_iff.1 hk).1
      rw [length_scatter] at hkl
      by_cases hkm : k ∈ slabPoints ds1.dims start count
      · obtain ⟨n, hn⟩ := List.mem_iff_getElem?.1 hkm
        rw [getElem?_scatter hnd hsl.symm hn hkl] at hk
        have hvm : v ∈ stored ds1 memtype count a := List.mem_iff_getElem?.2 ⟨_, hk⟩
        obtain ⟨o, ho, rfl⟩ := List.mem_map.1 hvm
        have hp : 0 ∉ count := by
          intro hp
          rw [slabPoints_zero (by simp [length_expand]) (by simp [length_expand]) hp] at ho
          simp at ho
        have hol : o < a.elems.length := by rw [show a.elems.length = a.dims.prod from hwa]; exact mem_points_lt (hz hp) hh ho
        rw [ht]
        refine convert_length hc ?_ hta.size
        rw [List.getD_eq_getElem?_getD, List.getElem?_eq_getElem hol]
        exact hta.elems _ (List.getElem_mem hol)
      · rw [getElem?_scatter_not_mem hkm] at hk
        rw [ht]
        exact hel v (List.mem_iff_getElem?.2 ⟨_, hk⟩)
  · intro idx j hi hj hsp
    have hf := getElem?_slabPoints hs1 hl1 hi
    have hin' := inShape_add hs1 hl1 hin hi
    rw [colIndex_offset _ _ (inShape_length hin')] at hf
    have hk := getElem?_slabPoints (dims := expand count (squeezed a.dims a.dims)) (start := List.replicate count.length 0) (by simp [length_expand]) (by simp [length_expand]) hi
    rw [zeros_add _ _ (inShape_length hi), mem_position hh hi hj hsp] at hk
    have hb : offset a.dims j < a.elems.length := by
      rw [← colIndex_offset _ _ (inShape_length hj), show a.elems.length = a.dims.prod from hwa]
      exact colIndex_lt hj
    have hlt : offset ds1.dims (List.zipWith (· + ·) start idx) < ds1.data.length := by
      rw [← colIndex_offset _ _ (inShape_length hin'), hdl]
      exact colIndex_lt hin'
    refine ⟨a.elems[offset a.dims j], convert memtype ds.dtype a.elems[offset a.dims j], List.getElem?_eq_getElem hb, ?_, convert_converted hc (hta.elems _ (List.getElem_mem hb)) hta.size⟩
    show (scatter _ _ _)[offset ds1.dims _]? = _
    rw [getElem?_scatter hnd hsl.symm hf hlt]
    unfold stored
    rw [List.getElem?_map, hk, ht]
    simp [List.getD_eq_getElem?_getD, List.getElem?_eq_getElem hb]
  · intro k hk hno
    show (scatter _ _ _)[offset ds1.dims k]? = _
    rw [getElem?_scatter_not_mem (hpt k (by rw [hd]; exact inShape_grown hs hl hk) hno)]
    exact hold k hk
  · intro k hk hn hno
    have hk : InShape ds1.dims k := hk
    show (scatter _ _ _)[offset ds1.dims k]? = _
    rw [getElem?_scatter_not_mem (hpt k hk hno)]
    exact hnew k hk hn

/-! ### New datasets -/

theorem newDims_eq {adims dims : List Nat} {init : Option (List Int)} {region : Option (List Int × List Int)} (h : NewSize adims init region dims) :
    newDims init region adims = .ok (dims.map Int.ofNat) ∧ dims.length = adims.length := by
  unfold newDims
  cases h with
  | initial size region dims hl h =>
    refine ⟨?_, hl⟩
    have h1 : adims.length ≤ size.length := by
      by_contra hn
      have := h size.length (by omega)
      simp at this
    show (if size.length < adims.length then _ else _) = _
    rw [if_neg (by omega)]
    congr 1
    apply List.ext_getElem?
    intro i
    by_cases hi : i < adims.length
    · rw [List.getElem?_take_of_lt hi, h i hi, List.getElem?_map, List.getElem?_eq_getElem (by omega)]
      simp [List.getD_eq_getElem?_getD, List.getElem?_eq_getElem (show i < dims.length by omega)]
    · rw [List.getElem?_eq_none (by simp; omega), List.getElem?_eq_none (by simp; omega)]
  | part s c start count h =>
    have hl := h.lengths
    have e := h.tooShort
    have hs := hl.1
    have hc := hl.2
    obtain ⟨h⟩ : Nonempty (∀ i < adims.length, s[i]? = some ((start.getD i 0 : Int) + 1) ∧ c[i]? = some (count.getD i 0 : Int)) := by
      generalize hr : some (s, c) = r at h
      cases h with
      | whole => simp at hr
      | part s' c' _ _ _ _ h =>
        simp only [Option.some.injEq, Prod.mk.injEq] at hr
        rw [hr.1, hr.2]
        exact ⟨h⟩
    have e := part_lists hs hc h
    refine ⟨?_, by simp [hs, hc]⟩
    show (if c.length < adims.length ∨ s.length < adims.length then _ else _) = _
    rw [if_neg (by omega)]
    congr 1
    apply List.ext_getElem?
    intro i
    by_cases hi : i < adims.length
    · rw [List.getElem?_zipWith, List.getElem?_take_of_lt hi, List.getElem?_take_of_lt hi, (h i hi).1, (h i hi).2, List.getElem?_map, List.getElem?_zipWith,
        List.getElem?_eq_getElem (show i < start.length by omega), List.getElem?_eq_getElem (show i < count.length by omega)]
      simp only [List.getD_eq_getElem?_getD, List.getElem?_eq_getElem (show i < start.length by omega), List.getElem?_eq_getElem (show i < count.length by omega), Option.getD_some, Option.map_some]
      congr 1
      show _ = ((_ + _ : Nat) : Int)
      omega
    · rw [List.getElem?_eq_none (by simp; omega), List.getElem?_eq_none (by simp; omega)]
  | whole => exact ⟨rfl, rfl⟩

def levelOf (o : CreateOptions) : Int := if o.gzip > 9 then o.gzip - 10 else o.gzip

theorem compressed_iff (o : CreateOptions) : Compressed o ↔ 0 < levelOf o := by
  unfold Compressed levelOf
  split <;> omega

def chunked (o : CreateOptions) (dims : List Nat) : Bool :=
  (decide (0 < levelOf o) || o.szip || o.extensible_on) && decide (0 < dims.length) && (chunkDims o dims).all (fun c => decide (0 < c)) && decide ((chunkDims o dims).prod < 2 ^ 32)

theorem createDset_eq {adims dims : List Nat} {o : CreateOptions} {t : DType} {region : Option (List Int × List Int)} (hn : NewSize adims o.initial_size region dims) (hr : adims.length ≤ 7)
    (hck : o.chunk_size.length ≤ 7) : createDset o t region adims =
      if decide (0 < levelOf o) && decide (dims.length = 0) then .error .other
      else if decide (0 < levelOf o) && !chunked o dims then .error .abort
      else if o.extensible_on && decide (0 < dims.length) && !chunked o dims then .error .abort
      else if chunked o dims && decide (2 ^ 32 ≤ (chunkDims o dims).prod * t.size) then .error .abort
      else .ok (blank t dims o.extensible_on) := by
  obtain ⟨h1, h2⟩ := newDims_eq hn
  unfold createDset
  rw [h1]
  simp only [bind, Except.bind, toNat_ofNat]
  rw [if_neg]
  · rw [← h2]
    rfl
  · rintro (h | h | h)
    · omega
    · omega
    · obtain ⟨x, hx, h0⟩ := List.any_eq_true.1 h
      obtain ⟨n, _, rfl⟩ := List.mem_map.1 hx
      simp only [decide_eq_true_eq] at h0
      have h0 : (n : Int) < 0 := h0
      omega

theorem mul_pos_both {a b : Nat} : 0 < a * b ↔ 0 < a ∧ 0 < b := by
  constructor
  · intro h
    exact ⟨Nat.pos_of_ne_zero (by rintro rfl; simp at h), Nat.pos_of_ne_zero (by rintro rfl; simp at h)⟩
  · rintro ⟨h1, h2⟩
    exact Nat.mul_pos h1 h2

theorem chunk_prod (o : CreateOptions) (dims : List Nat) : ((∀ c ∈ chunkDims o dims, 0 < c) ↔ 0 < chunkElems o dims) ∧ ((∀ c ∈ chunkDims o dims, 0 < c) → (chunkDims o dims).prod = (chunkElems o dims : Int)) := by
  have key : ∀ (dims : List Nat) (k : Nat), ((∀ c ∈ (dims.zipIdx k).map (fun d => min (d.1 : Int) (o.chunk_size.getD d.2 8192)), 0 < c) ↔
      0 < ((List.range dims.length).map (fun i => min (dims.getD i 0) (o.chunk_size.getD (k + i) 8192).toNat)).prod) ∧
      ((∀ c ∈ (dims.zipIdx k).map (fun d => min (d.1 : Int) (o.chunk_size.getD d.2 8192)), 0 < c) →
        ((dims.zipIdx k).map (fun d => min (d.1 : Int) (o.chunk_size.getD d.2 8192))).prod = ((((List.range dims.length).map (fun i => min (dims.getD i 0) (o.chunk_size.getD (k + i) 8192).toNat)).prod : Nat) : Int)) := by
    intro dims
    induction dims with
    | nil => intro k; simp
    | cons d ds ih =>
      intro k
      have hk := ih (k + 1)
      rw [List.zipIdx_cons, List.map_cons, List.length_cons, List.range_succ_eq_map, List.map_cons, List.map_map, List.prod_cons, List.prod_cons]
      have e : (fun i => min ((d :: ds).getD i 0) (o.chunk_size.getD (k + i) 8192).toNat) ∘ Nat.succ = fun i => min (ds.getD i 0) (o.chunk_size.getD (k + 1 + i) 8192).toNat := by
        funext i
        simp only [Function.comp, Nat.succ_eq_add_one, List.getD_cons_succ]
        rw [show k + (i + 1) = k + 1 + i by omega]
      rw [e]
      simp only [List.getD_cons_zero, Nat.add_zero, List.forall_mem_cons, hk.1]
      generalize o.chunk_size.getD k 8192 = x
      constructor
      · rw [mul_pos_both]
        constructor
        · rintro ⟨h1, h2⟩; exact ⟨by omega, h2⟩
        · rintro ⟨h1, h2⟩; exact ⟨by omega, h2⟩
      · rintro ⟨h1, h2⟩
        rw [hk.2 (hk.1.2 h2), Nat.cast_mul]
        congr 1
        omega
  have := key dims 0
  simpa only [chunkDims, chunkElems, Nat.zero_add] using this

theorem chunked_true {o : CreateOptions} {dims : List Nat} : chunked o dims = true ↔ (Compressed o ∨ o.szip = true ∨ o.extensible ≠ none) ∧ dims ≠ [] ∧ 0 < chunkElems o dims ∧ chunkElems o dims < 2 ^ 32 := by
  have hp := chunk_prod o dims
  unfold chunked
  simp only [Bool.and_eq_true, Bool.or_eq_true, decide_eq_true_eq, List.all_eq_true, ← compressed_iff, CreateOptions.extensible_on]
  constructor
  · rintro ⟨⟨⟨h1, h2⟩, h3⟩, h4⟩
    have := hp.2 h3
    refine ⟨?_, List.length_pos_iff.1 h2, hp.1.1 h3, by omega⟩
    rcases h1 with (h1 | h1) | h1
    · exact Or.inl h1
    · exact Or.inr (Or.inl h1)
    · exact Or.inr (Or.inr (by intro h; rw [h] at h1; simp at h1))
  · rintro ⟨h1, h2, h3, h4⟩
    have h5 := hp.1.2 h3
    have := hp.2 h5
    refine ⟨⟨⟨?_, List.length_pos_iff.2 h2⟩, h5⟩, by omega⟩
    rcases h1 with h1 | h1 | h1
    · exact Or.inl (Or.inl h1)
    · exact Or.inl (Or.inr h1)
    · exact Or.inr (by cases ho : o.extensible with | none => exact absurd ho h1 | some => rfl)

theorem createDset_storable {adims dims : List Nat} {o : CreateOptions} {t : DType} {region : Option (List Int × List Int)} (hn : NewSize adims o.initial_size region dims) (hr : adims.length ≤ 7)
    (hck : o.chunk_size.length ≤ 7) (ht : 0 < t.size) (hs : Storable o t dims) : createDset o t region adims = .ok (blank t dims o.extensible_on) := by
  rw [createDset_eq hn hr hck]
  rcases hs with ⟨h1, h2, h3⟩ | ⟨h1, h2, h3⟩
  · rw [compressed_iff] at h1
    have hx : o.extensible_on = false := by rw [CreateOptions.extensible_on, h3]; rfl
    have hc : chunked o dims = false := by
      rw [Bool.eq_false_iff]
      intro h
      rcases (chunked_true.1 h).1 with h | h | h
      · exact h1 ((compressed_iff o).1 h)
      · rw [h2] at h; simp at h
      · exact h h3
    simp [h1, hx, hc]
  · have hlt : chunkElems o dims < 2 ^ 32 := lt_of_le_of_lt (Nat.le_mul_of_pos_right _ ht) h3
    have hprod := (chunk_prod o dims).2 ((chunk_prod o dims).1.2 h2)
    have hl : dims.length ≠ 0 := fun h => h1 (List.length_eq_zero_iff.1 h)
    have hno : ¬ (2 ^ 32 ≤ (chunkDims o dims).prod * (t.size : Int)) := by
      rw [hprod]
      norm_cast
      omega
    by_cases hany : Compressed o ∨ o.szip = true ∨ o.extensible ≠ none
    · have hc : chunked o dims = true := chunked_true.2 ⟨hany, h1, h2, hlt⟩
      rw [if_neg (by simp [hl]), hc, if_neg (by simp), if_neg (by simp), if_neg (by simpa using hno)]
    · have hx : o.extensible_on = false := by
        rw [CreateOptions.extensible_on]
        cases ho : o.extensible with
        | none => rfl
        | some => exact absurd (Or.inr (Or.inr (by rw [ho]; simp))) hany
      have hlv : ¬ 0 < levelOf o := fun h => hany (Or.inl ((compressed_iff o).2 h))
      have hc : chunked o dims = false := by
        rw [Bool.eq_false_iff]
        exact fun h => hany (chunked_true.1 h).1
      simp [hlv, hx, hc]

theorem createDset_unstorable {adims dims : List Nat} {o : CreateOptions} {t : DType} {region : Option (List Int × List Int)} (hn : NewSize adims o.initial_size region dims) (hr : adims.length ≤ 7)
    (hck : o.chunk_size.length ≤ 7) (hd : dims ≠ []) (ht : 0 < t.size) (hx : Compressed o ∨ o.extensible ≠ none) (hs : ¬ (0 < chunkElems o dims ∧ chunkElems o dims * t.size < 2 ^ 32)) : createDset o t region adims = .error .abort := by
  rw [createDset_eq hn hr hck]
  have hl : dims.length ≠ 0 := fun h => hd (List.length_eq_zero_iff.1 h)
  rw [if_neg (by simp [hl])]
  by_cases hc : chunked o dims = true
  · have h1 := chunked_true.1 hc
    have hprod := (chunk_prod o dims).2 ((chunk_prod o dims).1.2 h1.2.2.1)
    have hno : 2 ^ 32 ≤ (chunkDims o dims).prod * (t.size : Int) := by
      rw [hprod]
      norm_cast
      by_contra hlt
      exact hs ⟨h1.2.2.1, by omega⟩
    rw [hc, if_neg (by simp), if_neg (by simp), if_pos (by simpa using hno)]
  · have hc : chunked o dims = false := by simpa using hc
    rw [hc]
    rcases hx with hx | hx
    · rw [if_pos (by simp [(compressed_iff o).1 hx])]
    · have he : o.extensible_on = true := by
        rw [CreateOptions.extensible_on]
        cases ho : o.extensible with
        | none => exact absurd ho hx
        | some => rfl
      split
      · rfl
      · rw [if_pos (by simp [he]; omega)]

theorem blank_wf (t : DType) (dims : List Nat) (e : Bool) (ht : 0 < t.size) : (blank t dims e).WF := by
  constructor
  · show (List.replicate _ _).length = _
    simp [blank]
  · simp [blank]
  · intro i hi m hm
    have hi : i < dims.length := hi
    have hm : (dims.map (fun d => if e then none else some d))[i]? = some (some m) := hm
    rw [List.getElem?_map, List.getElem?_eq_getElem hi] at hm
    simp only [Option.map_some, Option.some.injEq] at hm
    show dims.getD i 0 ≤ m
    rw [List.getD_eq_getElem?_getD, List.getElem?_eq_getElem hi]
    split at hm
    · simp at hm
    · simp only [Option.some.injEq] at hm
      simp [hm]
  · exact ht
  · intro v hv
    have : v = List.replicate t.size 0 := List.eq_of_mem_replicate hv
    rw [this, List.length_replicate]
    rfl

theorem convert_self (t : DType) (v : List Byte) (hv : v.length = t.size) : convert t t v = v := by
  obtain ⟨c, n⟩ := t
  cases c with
  | integer s => cases s <;> rfl
  | string =>
    have hv : v.length = n := hv
    simp [convert, hv]
  | _ => rfl

theorem leNat_inj' {v w : List Byte} (hl : v.length = w.length) (h : leNat v = leNat w) : v = w := by
  induction v generalizing w with
  | nil => exact (List.length_eq_zero_iff.1 hl.symm).symm
  | cons b v ih =>
    cases w with
    | nil => simp at hl
    | cons c w =>
      simp only [leNat] at h
      have h1 := b.2
      have h2 := c.2
      have h3 : b.val = c.val := by omega
      rw [Fin.ext h3, ih (by simpa using hl) (by omega)]

theorem converted_unique {src dst : DType} {v w w' : List Byte} (h : Converted src dst v w) (h' : Converted src dst v w') : w = w' := by
  obtain ⟨sc, ss⟩ := src
  obtain ⟨dc, ds⟩ := dst
  have hint : ∀ (t : Bool) (w w' : List Byte), w.length = w'.length → intOf t w = intOf t w' → w = w' := by
    intro t w w' hl he
    apply leNat_inj' hl
    have h1 := leNat_lt' w
    have h2 := leNat_lt' w'
    unfold intOf at he
    rw [hl] at he h1
    have h3 : ((256 : Int) ^ w'.length) = ((256 ^ w'.length : Nat) : Int) := by norm_cast
    rw [h3] at he
    split at he <;> split at he <;> omega
  cases sc <;> cases dc <;> first
    | exact hint _ _ _ (h.1.trans h'.1.symm) (h.2.trans h'.2.symm)
    | (obtain ⟨n, h1, h2⟩ := h
       obtain ⟨m, h3, h4⟩ := h'
       have : n = m := by
         have := h2.trans h4.symm
         rw [h1, h3] at this
         simpa using this
       rw [h1, h3, this])
    | exact h.trans h'.symm

end Verif.Hdf5
