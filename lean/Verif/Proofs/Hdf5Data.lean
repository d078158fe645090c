import Mathlib.Data.List.Nodup
import Mathlib.Algebra.BigOperators.Group.List.Basic
import Mathlib.Algebra.BigOperators.Ring.List
import Mathlib.Tactic.Ring
import Verif.Spec.Hdf5Data

/-!
Proofs about parts of HDF5 datasets
-/

namespace Verif.Hdf5

/-! ### Positions -/

theorem colIndex_offset (dims idx : List Nat) (h : idx.length = dims.length) : colIndex dims idx = offset dims idx := by
  induction idx generalizing dims with
  | nil =>
    cases dims with
    | nil => rfl
    | cons d ds => simp at h
  | cons i is ih =>
    cases dims with
    | nil => simp at h
    | cons d ds =>
      rw [colIndex, ih ds (by simpa using h)]
      unfold offset
      rw [List.length_cons, List.range_succ_eq_map, List.map_cons, List.sum_cons, List.map_map]
      simp only [List.getD_cons_zero, List.take_zero, List.prod_nil, mul_one]
      congr 1
      rw [← List.sum_map_mul_left]
      congr 1
      apply List.map_congr_left
      intro k _
      simp only [Function.comp, Nat.succ_eq_add_one, List.getD_cons_succ, List.take_succ_cons, List.prod_cons]
      ring

theorem inShape_length {dims idx : List Nat} (h : InShape dims idx) : idx.length = dims.length := by
  induction dims generalizing idx with
  | nil => cases idx with | nil => rfl | cons => exact h.elim
  | cons d ds ih => cases idx with | nil => exact h.elim | cons i is => simp [ih h.2]

theorem colIndex_lt {dims idx : List Nat} (h : InShape dims idx) : colIndex dims idx < dims.prod := by
  induction dims generalizing idx with
  | nil => cases idx <;> simp_all [InShape, colIndex]
  | cons d ds ih =>
    cases idx with
    | nil => exact h.elim
    | cons i is =>
      rw [colIndex, List.prod_cons]
      have h1 := ih h.2
      have h2 := h.1
      calc i + d * colIndex ds is < d + d * colIndex ds is := by omega
        _ = d * (colIndex ds is + 1) := by ring
        _ ≤ d * ds.prod := Nat.mul_le_mul_left _ h1

theorem colIndex_inj {dims idx idx' : List Nat} (h : InShape dims idx) (h' : InShape dims idx') (he : colIndex dims idx = colIndex dims idx') : idx = idx' := by
  induction dims generalizing idx idx' with
  | nil => cases idx <;> cases idx' <;> simp_all [InShape]
  | cons d ds ih =>
    cases idx with
    | nil => exact h.elim
    | cons i is =>
      cases idx' with
      | nil => exact h'.elim
      | cons i' is' =>
        simp only [colIndex] at he
        have h1 := h.1
        have h2 := h'.1
        have e1 : i = i' := by
          have := congrArg (· % d) he
          simpa [Nat.add_mul_mod_self_left, Nat.mod_eq_of_lt h1, Nat.mod_eq_of_lt h2] using this
        subst e1
        have e2 : colIndex ds is = colIndex ds is' := Nat.eq_of_mul_eq_mul_left (by omega : 0 < d) (by omega)
        rw [ih h.2 h'.2 e2]

theorem exists_colIndex {dims : List Nat} {k : Nat} (h : k < dims.prod) : ∃ idx, InShape dims idx ∧ colIndex dims idx = k := by
  induction dims generalizing k with
  | nil => exact ⟨[], trivial, by simp at h; simp [colIndex, h]⟩
  | cons d ds ih =>
    rw [List.prod_cons] at h
    have hd : 0 < d := Nat.pos_of_ne_zero (by rintro rfl; simp at h)
    obtain ⟨is, h1, h2⟩ := ih (k := k / d) (Nat.div_lt_of_lt_mul h)
    exact ⟨k % d :: is, ⟨Nat.mod_lt _ hd, h1⟩, by rw [colIndex, h2, Nat.mod_add_div]⟩

/-! ### Hyperslabs -/

theorem getElem?_flatMap_len {α β : Type*} (f : α → List β) (m : Nat) (l : List α) (hf : ∀ x ∈ l, (f x).length = m) {i j : Nat} (hj : j < m) :
    (l.flatMap f)[j + m * i]? = l[i]?.bind (fun x => (f x)[j]?) := by
  induction l generalizing i with
  | nil => simp
  | cons x l ih =>
    rw [List.flatMap_cons]
    cases i with
    | zero =>
      rw [Nat.mul_zero, Nat.add_zero, List.getElem?_append_left (by rw [hf x (by simp)]; exact hj)]
      simp
    | succ i =>
      rw [List.getElem?_append_right (by rw [hf x (by simp), Nat.mul_succ]; omega), hf x (by simp), Nat.mul_succ]
      rw [show j + (m * i + m) - m = j + m * i by omega, ih (fun y hy => hf y (by simp [hy]))]
      simp

theorem length_slabPoints (dims start count : List Nat) (hs : start.length = dims.length) (hc : count.length = dims.length) : (slabPoints dims start count).length = count.prod := by
  induction dims generalizing start count with
  | nil =>
    cases count with
    | nil => rfl
    | cons => simp at hc
  | cons d ds ih =>
    cases start with
    | nil => simp at hs
    | cons s ss =>
      cases count with
      | nil => simp at hc
      | cons c cs =>
        rw [slabPoints, List.length_flatMap]
        simp only [List.length_map, List.length_range, List.map_const', List.sum_replicate, nsmul_eq_mul, List.prod_cons, Nat.cast_id]
        rw [ih ss cs (by simpa using hs) (by simpa using hc), Nat.mul_comm]

theorem getElem?_slabPoints {dims start count idx : List Nat} (hs : start.length = dims.length) (hc : count.length = dims.length) (h : InShape count idx) :
    (slabPoints dims start count)[colIndex count idx]? = some (colIndex dims (List.zipWith (· + ·) start idx)) := by
  induction dims generalizing start count idx with
  | nil =>
    cases count with
    | nil =>
      cases idx with
      | nil => rfl
      | cons => exact h.elim
    | cons => simp at hc
  | cons d ds ih =>
    cases start with
    | nil => simp at hs
    | cons s ss =>
      cases count with
      | nil => simp at hc
      | cons c cs =>
        cases idx with
        | nil => exact h.elim
        | cons i is =>
          rw [slabPoints, colIndex, getElem?_flatMap_len _ c _ (by simp) h.1, ih (by simpa using hs) (by simpa using hc) h.2]
          rw [List.zipWith_cons_cons, colIndex, Option.bind_some, List.getElem?_map, List.getElem?_range h.1]
          rfl

theorem mem_slabPoints {dims start count : List Nat} (hs : start.length = dims.length) (hc : count.length = dims.length) {o : Nat} :
    o ∈ slabPoints dims start count ↔ ∃ idx, InShape count idx ∧ o = colIndex dims (List.zipWith (· + ·) start idx) := by
  constructor
  · intro h
    obtain ⟨k, hk⟩ := List.mem_iff_getElem?.1 h
    have hl : k < count.prod := by
      rw [← length_slabPoints dims start count hs hc]
      exact (List.getElem?_eq_some_iff.1 hk).1
    obtain ⟨idx, h1, h2⟩ := exists_colIndex hl
    rw [← h2, getElem?_slabPoints hs hc h1] at hk
    exact ⟨idx, h1, (Option.some.inj hk).symm⟩
  · rintro ⟨idx, h1, rfl⟩
    exact List.mem_iff_getElem?.2 ⟨_, getElem?_slabPoints hs hc h1⟩

/-- Indexes of the part are indexes of the whole. -/
theorem inShape_add {dims start count idx : List Nat} (hs : start.length = dims.length) (hc : count.length = dims.length) (hin : Inside dims start count) (h : InShape count idx) :
    InShape dims (List.zipWith (· + ·) start idx) := by
  induction dims generalizing start count idx with
  | nil =>
    cases start with
    | nil => trivial
    | cons => simp at hs
  | cons d ds ih =>
    cases start with
    | nil => simp at hs
    | cons s ss =>
      cases count with
      | nil => simp at hc
      | cons c cs =>
        cases idx with
        | nil => exact h.elim
        | cons i is =>
          refine ⟨?_, ih (by simpa using hs) (by simpa using hc) (fun k hk => ?_) h.2⟩
          · have := hin 0 (by simp)
            simp only [List.getD_cons_zero] at this
            have := h.1
            show s + i < d
            omega
          · have := hin (k + 1) (by simp; omega)
            simpa using this

theorem zipWith_add_inj {start idx idx' : List Nat} (h : idx.length = start.length) (h' : idx'.length = start.length) (he : List.zipWith (· + ·) start idx = List.zipWith (· + ·) start idx') : idx = idx' := by
  induction start generalizing idx idx' with
  | nil =>
    rw [List.length_nil, List.length_eq_zero_iff] at h h'
    rw [h, h']
  | cons s ss ih =>
    cases idx with
    | nil => simp at h
    | cons i is =>
      cases idx' with
      | nil => simp at h'
      | cons i' is' =>
        simp only [List.zipWith_cons_cons, List.cons.injEq, Nat.add_left_cancel_iff] at he
        rw [he.1, ih (by simpa using h) (by simpa using h') he.2]

theorem nodup_slabPoints {dims start count : List Nat} (hs : start.length = dims.length) (hc : count.length = dims.length) (hin : Inside dims start count) : (slabPoints dims start count).Nodup := by
  rw [List.nodup_iff_injective_getElem]
  intro a b hab
  have hl := length_slabPoints dims start count hs hc
  obtain ⟨i, hi, hi2⟩ := exists_colIndex (dims := count) (k := a.1) (by rw [← hl]; exact a.2)
  obtain ⟨j, hj, hj2⟩ := exists_colIndex (dims := count) (k := b.1) (by rw [← hl]; exact b.2)
  have e1 := getElem?_slabPoints hs hc hi
  have e2 := getElem?_slabPoints hs hc hj
  rw [hi2, List.getElem?_eq_getElem a.2] at e1
  rw [hj2, List.getElem?_eq_getElem b.2] at e2
  have e3 := colIndex_inj (inShape_add hs hc hin hi) (inShape_add hs hc hin hj) (by rw [← Option.some.inj e1, ← Option.some.inj e2]; exact hab)
  have e4 := zipWith_add_inj (by rw [inShape_length hi, hc, hs]) (by rw [inShape_length hj, hc, hs]) e3
  apply Fin.ext
  rw [← hi2, ← hj2, e4]

/-! ### Dimensions with one element -/

/-- Sizes for the dimensions with more than one element, and one for the others -/
def expand : List Nat → List Nat → List Nat
  | [], _ => []
  | c :: cs, eff => if 1 < c then eff.headD 1 :: expand cs eff.tail else 1 :: expand cs eff

theorem squeezed_cons (d x : Nat) (ds xs : List Nat) : squeezed (d :: ds) (x :: xs) = if 1 < d then x :: squeezed ds xs else squeezed ds xs := by
  unfold squeezed
  rw [List.zip_cons_cons]
  split
  · next h => rw [List.filter_cons_of_pos (by simpa using h), List.map_cons]
  · next h => rw [List.filter_cons_of_neg (by simpa using h)]

theorem length_expand (count eff : List Nat) : (expand count eff).length = count.length := by
  induction count generalizing eff with
  | nil => rfl
  | cons c cs ih => rw [expand]; split <;> simp [ih]

theorem colIndex_expand {count idx : List Nat} (h : InShape count idx) (eff : List Nat) (he : eff.length = (squeezed count count).length) :
    colIndex (expand count eff) idx = colIndex eff (squeezed count idx) := by
  induction count generalizing idx eff with
  | nil =>
    cases idx with
    | nil =>
      have : eff = [] := List.length_eq_zero_iff.1 he
      rw [this]
      rfl
    | cons => exact h.elim
  | cons c cs ih =>
    cases idx with
    | nil => exact h.elim
    | cons i is =>
      rw [expand, squeezed_cons]
      rw [squeezed_cons] at he
      split
      · next hc =>
        rw [if_pos hc] at he
        cases eff with
        | nil => simp at he
        | cons e es => rw [List.headD_cons, List.tail_cons, colIndex, colIndex, ih h.2 es (by simpa using he)]
      · next hc =>
        rw [if_neg hc] at he
        rw [colIndex, ih h.2 eff he]
        have := h.1
        omega

theorem colIndex_squeezed {dims j : List Nat} (h : InShape dims j) : colIndex dims j = colIndex (squeezed dims dims) (squeezed dims j) := by
  induction dims generalizing j with
  | nil => cases j with | nil => rfl | cons => exact h.elim
  | cons d ds ih =>
    cases j with
    | nil => exact h.elim
    | cons i is =>
      rw [squeezed_cons, squeezed_cons]
      split
      · rw [colIndex, colIndex, ih h.2]
      · next hd =>
        rw [colIndex, ih h.2]
        have := h.1
        have : d = 1 := by omega
        subst this
        omega

theorem inShape_squeezed {dims j : List Nat} (h : InShape dims j) : InShape (squeezed dims dims) (squeezed dims j) := by
  induction dims generalizing j with
  | nil => cases j with | nil => trivial | cons => exact h.elim
  | cons d ds ih =>
    cases j with
    | nil => exact h.elim
    | cons i is =>
      rw [squeezed_cons, squeezed_cons]
      split
      · exact ⟨h.1, ih h.2⟩
      · exact ih h.2

theorem inShape_mono {n c idx : List Nat} (h : List.Forall₂ (fun n c => c ≤ n) n c) (hi : InShape c idx) : InShape n idx := by
  induction h generalizing idx with
  | nil => exact hi
  | cons h1 _ ih =>
    cases idx with
    | nil => exact hi.elim
    | cons i is => exact ⟨by have := hi.1; omega, ih hi.2⟩

/-- The part fits into the space with the sizes of the array. -/
theorem inside_expand {count eff : List Nat} (hpos : 0 ∉ count) (h : List.Forall₂ (fun n c => c ≤ n) eff (squeezed count count)) :
    Inside (expand count eff) (List.replicate count.length 0) count := by
  induction count generalizing eff with
  | nil => intro i hi; simp [expand] at hi
  | cons c cs ih =>
    rw [squeezed_cons] at h
    intro i hi
    rw [expand]
    split
    · next hc =>
      rw [if_pos hc] at h
      cases h with
      | cons h1 h2 =>
        cases i with
        | zero => simpa using h1
        | succ i =>
          have := ih (fun h => hpos (by simp [h])) h2 i (by rw [length_expand] at hi ⊢; simp at hi; omega)
          simpa [List.replicate_succ] using this
    · next hc =>
      rw [if_neg hc] at h
      cases i with
      | zero =>
        simp [List.replicate_succ]
        omega
      | succ i =>
        have := ih (fun h => hpos (by simp [h])) h i (by rw [length_expand] at hi ⊢; simp at hi; omega)
        simpa [List.replicate_succ] using this

/-! ### The loops of the wrapper -/

theorem effective_fst (dims : List Nat) (k : Nat) : ((dims.map Int.ofNat).zipIdx k |>.filter (fun d => decide (d.1 > 1))).map (fun d => d.1.toNat) = squeezed dims dims := by
  induction dims generalizing k with
  | nil => rfl
  | cons d ds ih =>
    rw [List.map_cons, List.zipIdx_cons, squeezed_cons, ← ih (k + 1)]
    split
    · next h => rw [List.filter_cons_of_pos (by simp; omega), List.map_cons]; rfl
    · next h => rw [List.filter_cons_of_neg (by simp; omega)]

theorem padDims_aux (dims : List Nat) (sizes : List Int) (pre : List Nat) (hl : sizes.length = (squeezed dims dims).length) :
    ((((dims.map Int.ofNat).zipIdx pre.length |>.filter (fun d => decide (d.1 > 1))).map (·.2)).zip sizes).foldl (fun m p => m.set p.1 p.2.toNat) (pre ++ List.replicate dims.length 1) =
      pre ++ expand dims (sizes.map Int.toNat) := by
  induction dims generalizing pre sizes with
  | nil => simp [expand]
  | cons d ds ih =>
    rw [List.map_cons, List.zipIdx_cons, expand]
    rw [squeezed_cons] at hl
    split
    · next h =>
      rw [if_pos h] at hl
      rw [List.filter_cons_of_pos (by simp; omega), List.map_cons]
      cases sizes with
      | nil => simp at hl
      | cons e es =>
        rw [List.zip_cons_cons, List.foldl_cons]
        have e1 : (pre ++ List.replicate (d :: ds).length 1).set pre.length e.toNat = (pre ++ [e.toNat]) ++ List.replicate ds.length 1 := by
          rw [List.set_append_right _ _ (le_refl _)]
          simp [List.replicate_succ]
        have := ih es (pre ++ [e.toNat]) (by simpa using hl)
        rw [List.length_append, List.length_singleton] at this
        rw [e1, this]
        simp
    · next h =>
      rw [if_neg h] at hl
      rw [List.filter_cons_of_neg (by simp; omega)]
      have := ih sizes (pre ++ [1]) hl
      rw [List.length_append, List.length_singleton] at this
      rw [show pre ++ List.replicate (d :: ds).length 1 = (pre ++ [1]) ++ List.replicate ds.length 1 by simp [List.replicate_succ], this]
      simp

theorem padDims_eq (count : List Nat) (sizes : List Int) (hl : sizes.length = (squeezed count count).length) :
    padDims count.length ((effective (count.map Int.ofNat)).map (·.2)) sizes = expand count (sizes.map Int.toNat) := by
  have := padDims_aux count sizes [] hl
  simpa [padDims, effective] using this

/-! ### Conversion -/

theorem leNat_lt' (v : List Byte) : leNat v < 256 ^ v.length := by
  induction v with
  | nil => simp [leNat]
  | cons b v ih =>
    rw [leNat, List.length_cons, Nat.pow_succ]
    have := b.2
    omega

theorem leNat_maxSigned (n : Nat) : leNat (List.replicate n 255 ++ [127]) + 1 = 128 * 256 ^ n := by
  induction n with
  | zero => rfl
  | succ n ih =>
    rw [List.replicate_succ, List.cons_append, leNat, Nat.pow_succ]
    have : ((255 : Byte) : Nat) = 255 := rfl
    omega

theorem leNat_zeros (n : Nat) : leNat (List.replicate n 0) = 0 := by
  induction n with
  | zero => rfl
  | succ n ih => rw [List.replicate_succ, leNat, ih]; rfl

theorem convert_converted {src dst : DType} {v : List Byte} (hc : Compatible src dst) (hv : v.length = src.size) (hp : 0 < src.size) : Converted src dst v (convert src dst v) := by
  obtain ⟨sc, ss⟩ := src
  obtain ⟨dc, ds⟩ := dst
  cases sc with
  | integer s =>
    cases dc with
    | integer t =>
      have he : ss = ds := hc
      subst he
      have hv : v.length = ss := hv
      have hp : 0 < ss := hp
      have hlt := leNat_lt' v
      rw [hv] at hlt
      obtain ⟨n, rfl⟩ : ∃ n, ss = n + 1 := ⟨ss - 1, by omega⟩
      have h2 : 256 ^ (n + 1) / 2 = 128 * 256 ^ n := by rw [Nat.pow_succ]; omega
      have h1 : 256 ^ (n + 1) = 256 * 256 ^ n := by rw [Nat.pow_succ]; omega
      have h3 : ((256 : Int) ^ (n + 1)) = ((256 ^ (n + 1) : Nat) : Int) := by norm_cast
      have hm := leNat_maxSigned n
      have hz := leNat_zeros (n + 1)
      have hpos : 0 < 256 ^ n := Nat.pow_pos (by norm_num)
      have lm : (maxSigned (n + 1)).length = n + 1 := by simp [maxSigned]
      have em : leNat (maxSigned (n + 1)) + 1 = 128 * 256 ^ n := hm
      rw [h1] at hlt h3
      cases s <;> cases t
      · refine ⟨hv, ?_⟩
        simp only [convert, intOf, intMin, intMax, Bool.false_eq_true, false_and, if_false, h3]
        omega
      · simp only [Converted, convert]
        rw [h2]
        split
        · next h =>
          refine ⟨lm, ?_⟩
          simp only [intOf, intMin, intMax, Bool.false_eq_true, false_and, if_false, true_and, if_true, lm, h2, h3]
          rw [if_neg (by omega)]
          omega
        · next h =>
          refine ⟨hv, ?_⟩
          simp only [intOf, intMin, intMax, Bool.false_eq_true, false_and, if_false, true_and, if_true, hv, h2, h3]
          rw [if_neg (by omega)]
          omega
      · simp only [Converted, convert]
        rw [h2]
        split
        · next h =>
          refine ⟨by simp, ?_⟩
          simp only [intOf, intMin, intMax, Bool.false_eq_true, false_and, if_false, true_and, if_true, hv, h2, h3, hz]
          rw [if_pos (by omega)]
          omega
        · next h =>
          refine ⟨hv, ?_⟩
          simp only [intOf, intMin, intMax, Bool.false_eq_true, false_and, if_false, true_and, if_true, hv, h2, h3]
          rw [if_neg (by omega)]
          omega
      · refine ⟨hv, ?_⟩
        simp only [convert, intOf, intMin, intMax, true_and, if_true, hv, h2, h3]
        split <;> omega
    | _ => exact hc.elim
  | float => cases dc <;> first | exact hc.elim | rfl
  | other => cases dc <;> first | exact hc.elim | rfl
  | string =>
    cases dc with
    | string =>
      have h : ss ≤ ds := hc
      have hv : v.length = ss := hv
      exact ⟨ds - v.length, rfl, by simp [convert]; omega⟩
    | _ => exact hc.elim

/-! ### Selections -/

theorem compatible_iff (src dst : DType) : Compatible src dst ↔ src.cls.sameClass dst.cls = true ∧ ¬ (if dst.cls = .string then dst.size < src.size else src.size ≠ dst.size) := by
  obtain ⟨sc, ss⟩ := src
  obtain ⟨dc, ds⟩ := dst
  cases sc <;> cases dc <;> simp [Compatible, TypeClass.sameClass]

theorem slabPoints_all (dims : List Nat) : slabPoints dims (List.replicate dims.length 0) dims = List.range dims.prod := by
  apply List.ext_getElem?
  intro k
  have hl := length_slabPoints dims (List.replicate dims.length 0) dims (by simp) rfl
  by_cases hk : k < dims.prod
  · obtain ⟨idx, h1, rfl⟩ := exists_colIndex hk
    rw [getElem?_slabPoints (by simp) rfl h1, List.getElem?_range hk]
    congr 2
    have : ∀ (n : Nat) (l : List Nat), l.length = n → List.zipWith (· + ·) (List.replicate n 0) l = l := by
      intro n l hl
      induction l generalizing n with
      | nil => simp
      | cons a l ih =>
        cases n with
        | zero => simp at hl
        | succ n =>
          rw [List.replicate_succ, List.zipWith_cons_cons, ih n (by simpa using hl)]
          simp
    exact this _ _ (inShape_length h1)
  · rw [List.getElem?_eq_none (by omega), List.getElem?_eq_none (by simpa using hk)]

theorem slabInside_iff (dims start count : List Nat) (hs : start.length = dims.length) (hc : count.length = dims.length) :
    slabInside dims (start.map Int.ofNat) (count.map Int.ofNat) = true ↔ Inside dims start count := by
  induction dims generalizing start count with
  | nil => simp [slabInside, Inside]
  | cons d ds ih =>
    cases start with
    | nil => simp at hs
    | cons s ss =>
      cases count with
      | nil => simp at hc
      | cons c cs =>
        simp only [List.map_cons, slabInside, Bool.and_eq_true, decide_eq_true_eq, ih ss cs (by simpa using hs) (by simpa using hc)]
        constructor
        · rintro ⟨⟨⟨_, _⟩, h1⟩, h2⟩ i hi
          cases i with
          | zero =>
            simp only [List.getD_cons_zero]
            have : ((s : Int) + (c : Int)) ≤ (d : Int) := h1
            omega
          | succ i => simpa using h2 i (by simpa using hi)
        · intro h
          refine ⟨⟨⟨Int.natCast_nonneg _, Int.natCast_nonneg _⟩, ?_⟩, fun i hi => by simpa using h (i + 1) (by simpa using hi)⟩
          have := h 0 (by simp)
          simp only [List.getD_cons_zero] at this
          show ((s : Int) + (c : Int)) ≤ (d : Int)
          omega

theorem toNat_ofNat (l : List Nat) : (l.map Int.ofNat).map Int.toNat = l := by
  rw [List.map_map]
  conv_rhs => rw [← List.map_id l]
  rfl

theorem points_slab {dims start count : List Nat} (hd : dims ≠ []) (hs : start.length = dims.length) (hc : count.length = dims.length) (hpos : 0 ∉ count) [Decidable (Inside dims start count)] :
    (Sel.slab (start.map Int.ofNat) (count.map Int.ofNat)).points dims = if Inside dims start count then some (slabPoints dims start count) else none := by
  rw [Sel.points.eq_2, if_neg hd, if_neg]
  · simp only [slabInside_iff dims start count hs hc, toNat_ofNat]
  · rw [List.take_of_length_le (by simp [hc])]
    intro h
    obtain ⟨x, hx, h0⟩ := List.any_eq_true.1 h
    obtain ⟨n, hn, rfl⟩ := List.mem_map.1 hx
    apply hpos
    have h0 : (n : Int) = 0 := by simpa using h0
    have : n = 0 := by omega
    rwa [this] at hn

/-- What is selected in the file -/
def fileSel (rank : Nat) : Option (List Int × List Int) → Sel
  | some (start, count) => .slab ((start.take rank).map (· - 1)) (count.take rank)
  | none => .all

def readDims (dims : List Nat) : Option (List Int × List Int) → List Int
  | some (_, count) => count.take dims.length
  | none => dims.map Int.ofNat

theorem IsRegion.lengths {dims : List Nat} {region : Option (List Int × List Int)} {start count : List Nat} (h : IsRegion dims region start count) : start.length = dims.length ∧ count.length = dims.length := by
  cases h with
  | whole => simp
  | part s c start count hs hc h => exact ⟨hs, hc⟩

theorem part_lists {rank : Nat} {s c : List Int} {start count : List Nat} (hs : start.length = rank) (hc : count.length = rank)
    (h : ∀ i < rank, s[i]? = some ((start.getD i 0 : Int) + 1) ∧ c[i]? = some (count.getD i 0 : Int)) :
    rank ≤ s.length ∧ rank ≤ c.length ∧ (s.take rank).map (· - 1) = start.map Int.ofNat ∧ c.take rank = count.map Int.ofNat := by
  have h1 : rank ≤ s.length := by
    by_contra hn
    have := (h s.length (by omega)).1
    simp at this
  have h2 : rank ≤ c.length := by
    by_contra hn
    have := (h c.length (by omega)).2
    simp at this
  refine ⟨h1, h2, ?_, ?_⟩
  · apply List.ext_getElem?
    intro i
    by_cases hi : i < rank
    · rw [List.getElem?_map, List.getElem?_take_of_lt hi, (h i hi).1, List.getElem?_map, List.getElem?_eq_getElem (by omega)]
      simp [List.getD_eq_getElem?_getD, List.getElem?_eq_getElem (show i < start.length by omega)]
    · rw [List.getElem?_eq_none (by simp; omega), List.getElem?_eq_none (by simp; omega)]
  · apply List.ext_getElem?
    intro i
    by_cases hi : i < rank
    · rw [List.getElem?_take_of_lt hi, (h i hi).2, List.getElem?_map, List.getElem?_eq_getElem (by omega)]
      simp [List.getD_eq_getElem?_getD, List.getElem?_eq_getElem (show i < count.length by omega)]
    · rw [List.getElem?_eq_none (by simp; omega), List.getElem?_eq_none (by simp; omega)]

theorem IsRegion.readDims {dims : List Nat} {region : Option (List Int × List Int)} {start count : List Nat} (h : IsRegion dims region start count) : readDims dims region = count.map Int.ofNat := by
  cases h with
  | whole => rfl
  | part s c start count hs hc h => exact (part_lists hs hc h).2.2.2

theorem inside_whole (dims : List Nat) : Inside dims (List.replicate dims.length 0) dims := by
  intro i hi
  simp [List.getD_eq_getElem?_getD, List.getElem?_replicate, hi]

theorem IsRegion.points {dims : List Nat} {region : Option (List Int × List Int)} {start count : List Nat} (h : IsRegion dims region start count) (hd : dims = [] → region = none) (hpos : 0 ∉ count) [Decidable (Inside dims start count)] :
    (fileSel dims.length region).points dims = if Inside dims start count then some (slabPoints dims start count) else none := by
  cases h with
  | whole => rw [if_pos (inside_whole dims), slabPoints_all]; rfl
  | part s c start count hs hc h =>
    have e := part_lists hs hc h
    show (Sel.slab ((s.take dims.length).map (· - 1)) (c.take dims.length)).points dims = _
    rw [e.2.2.1, e.2.2.2, points_slab (fun h0 => nomatch hd h0) hs hc hpos]

theorem effective_map (dims : List Nat) : (effective (dims.map Int.ofNat)).map (fun d => d.1.toNat) = squeezed dims dims := effective_fst dims 0

theorem effective_nonneg (dims : List Nat) : (effective (dims.map Int.ofNat)).map (·.1) = (squeezed dims dims).map Int.ofNat := by
  rw [← effective_map, List.map_map]
  apply List.map_congr_left
  intro d hd
  have : d.1 > 1 := by simpa using List.of_mem_filter hd
  show d.1 = ((d.1.toNat : Nat) : Int)
  omega

theorem length_effective (dims : List Nat) : (effective (dims.map Int.ofNat)).length = (squeezed dims dims).length := by
  rw [← effective_map, List.length_map]

theorem zip_all_iff (l m : List (Int × Nat)) (n c : List Nat) (hl : l.map (·.1) = n.map Int.ofNat) (hm : m.map (·.1) = c.map Int.ofNat) :
    fits l m = true ↔ List.Forall₂ (fun n c => c ≤ n) n c := by
  unfold fits
  induction l generalizing m n c with
  | nil =>
    cases n with
    | nil =>
      cases m with
      | nil => cases c with | nil => simp | cons => simp at hm
      | cons x m => cases c with | nil => simp at hm | cons => simp
    | cons => simp at hl
  | cons x l ih =>
    cases n with
    | nil => simp at hl
    | cons a n =>
      cases m with
      | nil => cases c with | nil => simp | cons => simp at hm
      | cons y m =>
        cases c with
        | nil => simp at hm
        | cons b c =>
          simp only [List.map_cons, List.cons.injEq] at hl hm
          have := ih m n c hl.2 hm.2
          simp only [Bool.and_eq_true, decide_eq_true_eq] at this
          simp only [List.length_cons, Nat.add_right_cancel_iff, List.zip_cons_cons, List.all_cons, Bool.and_eq_true, decide_eq_true_eq, List.forall₂_cons, ← this, hl.1, hm.1]
          have : ((Int.ofNat b) ≤ Int.ofNat a) ↔ b ≤ a := Int.ofNat_le
          rw [this]
          tauto

theorem fits_iff (adims count : List Nat) : fits (effective (adims.map Int.ofNat)) (effective (count.map Int.ofNat)) = true ↔ Holds adims count :=
  zip_all_iff _ _ _ _ (effective_nonneg adims) (effective_nonneg count)

theorem squeezed_nil_ones {count : List Nat} (hpos : 0 ∉ count) (h : squeezed count count = []) (eff : List Nat) : expand count eff = count ∧ count.prod = 1 := by
  induction count with
  | nil => exact ⟨rfl, rfl⟩
  | cons c cs ih =>
    rw [squeezed_cons] at h
    split at h
    · simp at h
    · next hc =>
      have : c ≠ 0 := fun h => hpos (by simp [h])
      have hc : c = 1 := by omega
      subst hc
      obtain ⟨h1, h2⟩ := ih (fun h => hpos (by simp [h])) h
      rw [expand, if_neg (by omega), h1, List.prod_cons, h2]
      exact ⟨rfl, rfl⟩

/-- The selection in memory -/
def memSel (array : Nat) (rank : Nat) (read_dims : List Int) : Sel := if 0 < array then .slab (List.replicate rank 0) read_dims else .all

theorem memSel_points {adims count : List Nat} (hpos : 0 ∉ count) (h : Holds adims count) :
    (memSel (effective (adims.map Int.ofNat)).length count.length (count.map Int.ofNat)).points
      (padDims count.length ((effective (count.map Int.ofNat)).map (·.2)) ((effective (adims.map Int.ofNat)).map (·.1))) =
      some (slabPoints (expand count (squeezed adims adims)) (List.replicate count.length 0) count) := by
  have hl : (squeezed adims adims).length = (squeezed count count).length := h.length_eq
  rw [padDims_eq count _ (by rw [List.length_map, length_effective, hl]), List.map_map]
  rw [show ((effective (adims.map Int.ofNat)).map (Int.toNat ∘ fun x => x.1)) = squeezed adims adims from effective_map adims, length_effective]
  unfold memSel
  split
  · next hn =>
    have hd : expand count (squeezed adims adims) ≠ [] := by
      intro h0
      have := congrArg List.length h0
      rw [length_expand, List.length_nil, List.length_eq_zero_iff] at this
      subst this
      rw [hl] at hn
      simp [squeezed] at hn
    have := Classical.dec (Inside (expand count (squeezed adims adims)) (List.replicate count.length 0) count)
    have := points_slab (dims := expand count (squeezed adims adims)) (start := List.replicate count.length 0) (count := count) hd (by simp [length_expand]) (by simp [length_expand]) hpos
    rw [if_pos (inside_expand hpos h)] at this
    simpa using this
  · next hn =>
    have h0 : squeezed count count = [] := List.length_eq_zero_iff.1 (by omega)
    obtain ⟨e1, e2⟩ := squeezed_nil_ones hpos h0 (squeezed adims adims)
    rw [e1, slabPoints_all]
    rfl

theorem prod_squeezed {dims : List Nat} (h : 0 ∉ dims) : (squeezed dims dims).prod = dims.prod := by
  induction dims with
  | nil => rfl
  | cons d ds ih =>
    rw [squeezed_cons, List.prod_cons]
    have := ih (fun h' => h (by simp [h']))
    split
    · rw [List.prod_cons, this]
    · have : d ≠ 0 := fun h' => h (by simp [h'])
      have : d = 1 := by omega
      subst this
      omega

theorem prod_pos_of {dims : List Nat} (h : 0 ∉ dims) : 0 < dims.prod := by
  induction dims with
  | nil => simp
  | cons d ds ih =>
    rw [List.prod_cons]
    exact Nat.mul_pos (Nat.pos_of_ne_zero (fun h' => h (by simp [h']))) (ih (fun h' => h (by simp [h'])))

/-- Positions in memory are those of the array. -/
theorem mem_position {adims count idx j : List Nat} (h : Holds adims count) (hi : InShape count idx) (hj : InShape adims j) (hs : SamePlace count idx adims j) :
    colIndex (expand count (squeezed adims adims)) idx = offset adims j := by
  rw [colIndex_expand hi _ h.length_eq, ← colIndex_offset adims j (inShape_length hj), colIndex_squeezed hj]
  rw [show squeezed count idx = squeezed adims j from hs]

theorem zeros_add (n : Nat) (l : List Nat) (hl : l.length = n) : List.zipWith (· + ·) (List.replicate n 0) l = l := by
  induction l generalizing n with
  | nil => simp
  | cons a l ih =>
    cases n with
    | zero => simp at hl
    | succ n =>
      rw [List.replicate_succ, List.zipWith_cons_cons, ih n (by simpa using hl)]
      simp

theorem mem_points_lt {adims count : List Nat} (hz : 0 ∉ adims) (h : Holds adims count) {o : Nat}
    (ho : o ∈ slabPoints (expand count (squeezed adims adims)) (List.replicate count.length 0) count) : o < adims.prod := by
  obtain ⟨idx, h1, rfl⟩ := (mem_slabPoints (by simp [length_expand]) (by simp [length_expand])).1 ho
  rw [zeros_add _ _ (inShape_length h1), colIndex_expand h1 _ h.length_eq, ← prod_squeezed hz]
  exact colIndex_lt (inShape_mono h (inShape_squeezed h1))

/-! ### Reading -/

/-- The elements which are read -/
def fetched (ds : Dset) (memtype : DType) (start count : List Nat) : List (List Byte) := (slabPoints ds.dims start count).map (fun o => convert ds.dtype memtype (ds.data.getD o []))

def tooShort (rank : Nat) : Option (List Int × List Int) → Bool
  | some (start, count) => decide (start.length < rank ∨ count.length < rank)
  | none => false

theorem readData_eq (ds : Dset) (memtype : DType) (region : Option (List Int × List Int)) (a : FArray) : readData ds memtype region a =
    if 7 < ds.dims.length then .error .other
    else if ¬ ds.dtype.cls.sameClass memtype.cls then .error .abort
    else if (if memtype.cls = .string then memtype.size < ds.dtype.size else ds.dtype.size ≠ memtype.size) then .error .abort
    else if tooShort ds.dims.length region then .error .abort
    else if fits (effective (a.dims.map Int.ofNat)) (effective (readDims ds.dims region)) = false then .error .abort
    else (do
      let r ← orAbort (h5dread ds memtype (padDims ds.dims.length ((effective (readDims ds.dims region)).map (·.2)) ((effective (a.dims.map Int.ofNat)).map (·.1)))
        (memSel (effective (a.dims.map Int.ofNat)).length ds.dims.length (readDims ds.dims region)) (fileSel ds.dims.length region) a.elems)
      let elems ← r
      .ok ⟨a.dims, elems⟩) := by
  cases region <;> rfl

theorem readData_compatible (ds : Dset) (memtype : DType) (region : Option (List Int × List Int)) (a : FArray) [Decidable (Compatible ds.dtype memtype)] : readData ds memtype region a =
    if 7 < ds.dims.length then .error .other
    else if ¬ Compatible ds.dtype memtype then .error .abort
    else if tooShort ds.dims.length region then .error .abort
    else if fits (effective (a.dims.map Int.ofNat)) (effective (readDims ds.dims region)) = false then .error .abort
    else (do
      let r ← orAbort (h5dread ds memtype (padDims ds.dims.length ((effective (readDims ds.dims region)).map (·.2)) ((effective (a.dims.map Int.ofNat)).map (·.1)))
        (memSel (effective (a.dims.map Int.ofNat)).length ds.dims.length (readDims ds.dims region)) (fileSel ds.dims.length region) a.elems)
      let elems ← r
      .ok ⟨a.dims, elems⟩) := by
  rw [readData_eq]
  by_cases hr : 7 < ds.dims.length
  · rw [if_pos hr, if_pos hr]
  · rw [if_neg hr, if_neg hr]
    have hi := compatible_iff ds.dtype memtype
    by_cases hc : Compatible ds.dtype memtype
    · rw [if_neg (not_not.2 hc), if_neg (by simp [(hi.1 hc).1]), if_neg (hi.1 hc).2]
    · rw [if_pos hc]
      by_cases h1 : ds.dtype.cls.sameClass memtype.cls = true
      · rw [if_neg (by simp [h1]), if_pos]
        by_contra h2
        exact hc (hi.2 ⟨h1, h2⟩)
      · rw [if_pos (by simpa using h1)]

theorem IsRegion.tooShort {dims : List Nat} {region : Option (List Int × List Int)} {start count : List Nat} (h : IsRegion dims region start count) : tooShort dims.length region = false := by
  cases h with
  | whole => rfl
  | part s c start count hs hc h =>
    have := part_lists hs hc h
    simp only [Hdf5.tooShort, decide_eq_false_iff_not]
    omega

theorem readData_pos {ds : Dset} {memtype : DType} {region : Option (List Int × List Int)} {a : FArray} {start count : List Nat} (hr : ds.dims.length ≤ 7) (hc : Compatible ds.dtype memtype)
    (hreg : IsRegion ds.dims region start count) (hsc : ds.dims = [] → region = none) (hpos : 0 ∉ count) (hwa : a.WF) [Decidable (Inside ds.dims start count)] [Decidable (Holds a.dims count)] :
    readData ds memtype region a =
      if Holds a.dims count ∧ Inside ds.dims start count then
        (if 0 ∈ a.dims then .error .other
        else .ok ⟨a.dims, scatter a.elems (slabPoints (expand count (squeezed a.dims a.dims)) (List.replicate count.length 0) count) (fetched ds memtype start count)⟩)
      else .error .abort := by
  have hl := hreg.lengths
  have hcc := (compatible_iff _ _).1 hc
  rw [readData_eq, if_neg (by omega), if_neg (by simp [hcc.1]), if_neg hcc.2, hreg.tooShort, if_neg (by simp), hreg.readDims]
  by_cases hh : Holds a.dims count
  · rw [if_neg (by rw [(fits_iff _ _).2 hh]; simp)]
    have hm := memSel_points (adims := a.dims) hpos hh
    have hf := hreg.points hsc hpos
    rw [hl.2, show List.replicate ds.dims.length 0 = List.replicate count.length 0 by rw [hl.2]] at hm
    have hread : ∀ fs ms mdims, fs.points ds.dims = (if Inside ds.dims start count then some (slabPoints ds.dims start count) else none) →
        Sel.points mdims ms = some (slabPoints (expand count (squeezed a.dims a.dims)) (List.replicate count.length 0) count) →
        h5dread ds memtype mdims ms fs a.elems = if Inside ds.dims start count then (if 0 ∈ a.dims then some (.error .other) else
          some (.ok (scatter a.elems (slabPoints (expand count (squeezed a.dims a.dims)) (List.replicate count.length 0) count) (fetched ds memtype start count)))) else none := by
      intro fs ms mdims h1 h2
      unfold h5dread
      rw [h1, h2]
      by_cases hin : Inside ds.dims start count
      · simp only [if_pos hin]
        rw [if_neg (by
          rw [length_slabPoints _ _ _ hl.1 hl.2, length_slabPoints _ _ _ (by simp [length_expand]) (by simp [length_expand])]
          simp)]
        by_cases hz : 0 ∈ a.dims
        · rw [if_pos hz, if_neg]
          intro hall
          have h0 : a.elems.length = 0 := by
            rw [show a.elems.length = a.dims.prod from hwa]
            exact List.prod_eq_zero hz
          have hne : 0 < (slabPoints (expand count (squeezed a.dims a.dims)) (List.replicate count.length 0) count).length := by
            rw [length_slabPoints _ _ _ (by simp [length_expand]) (by simp [length_expand])]
            exact prod_pos_of hpos
          have := List.all_eq_true.1 hall _ (List.getElem_mem hne)
          simp only [decide_eq_true_eq] at this
          omega
        · rw [if_neg hz, if_pos]
          · rfl
          · apply List.all_eq_true.2
            intro o ho
            simp only [decide_eq_true_eq]
            rw [show a.elems.length = a.dims.prod from hwa]
            exact mem_points_lt hz hh ho
      · simp only [if_neg hin]
    rw [hread _ _ _ hf hm]
    by_cases hin : Inside ds.dims start count
    · rw [if_pos hin, if_pos (show Holds a.dims count ∧ Inside ds.dims start count from ⟨hh, hin⟩)]
      by_cases hz : 0 ∈ a.dims
      · rw [if_pos hz, if_pos hz]; rfl
      · rw [if_neg hz, if_neg hz]; rfl
    · rw [if_neg hin, if_neg (show ¬ (Holds a.dims count ∧ Inside ds.dims start count) from fun h => hin h.2)]
      rfl
  · rw [if_pos (by rw [Bool.eq_false_iff]; exact fun h => hh ((fits_iff _ _).1 h)), if_neg (fun h => hh h.1)]

theorem length_padDims (rank : Nat) (idx : List Nat) (sizes : List Int) : (padDims rank idx sizes).length = rank := by
  unfold padDims
  have : ∀ (z : List (Nat × Int)) (m : List Nat), (z.foldl (fun m p => m.set p.1 p.2.toNat) m).length = m.length := by
    intro z
    induction z with
    | nil => intro m; rfl
    | cons p z ih => intro m; rw [List.foldl_cons, ih, List.length_set]
  rw [this, List.length_replicate]

/-- If nothing is asked for -/
theorem readData_zero {ds : Dset} {memtype : DType} {region : Option (List Int × List Int)} {a : FArray} (hr : ds.dims.length ≤ 7) (hc : Compatible ds.dtype memtype)
    (hs : tooShort ds.dims.length region = false) (hz : (0 : Int) ∈ readDims ds.dims region) :
    readData ds memtype region a = if fits (effective (a.dims.map Int.ofNat)) (effective (readDims ds.dims region)) = true ∧ effective (a.dims.map Int.ofNat) ≠ [] then .ok a else .error .abort := by
  have hcc := (compatible_iff _ _).1 hc
  rw [readData_eq, if_neg (by omega), if_neg (by simp [hcc.1]), if_neg hcc.2, hs, if_neg (by simp)]
  have hd : ds.dims ≠ [] := by
    intro h0
    rw [h0] at hz
    cases region <;> simp [readDims] at hz
  by_cases hf : fits (effective (a.dims.map Int.ofNat)) (effective (readDims ds.dims region)) = true
  · rw [if_neg (by rw [hf]; simp)]
    have hfile : (fileSel ds.dims.length region).points ds.dims = some [] := by
      cases region with
      | none =>
        have h0 : 0 ∈ ds.dims := by
          obtain ⟨n, hn, h⟩ := List.mem_map.1 hz
          have h : (n : Int) = 0 := h
          have : n = 0 := by omega
          rwa [this] at hn
        show some (List.range ds.dims.prod) = _
        rw [List.prod_eq_zero h0]
        rfl
      | some r =>
        show (Sel.slab ((r.1.take ds.dims.length).map (· - 1)) (r.2.take ds.dims.length)).points ds.dims = _
        rw [Sel.points.eq_2, if_neg hd, if_pos]
        rw [List.take_take, Nat.min_self]
        exact List.any_eq_true.2 ⟨0, hz, rfl⟩
    have hlen : (readDims ds.dims region).length ≤ ds.dims.length := by
      cases region with
      | none => simp [readDims]
      | some r => simp [readDims]
    unfold memSel
    by_cases he : effective (a.dims.map Int.ofNat) = []
    · rw [if_neg (show ¬ (fits (effective (a.dims.map Int.ofNat)) (effective (readDims ds.dims region)) = true ∧ effective (a.dims.map Int.ofNat) ≠ []) from fun h => h.2 he),
        if_neg (show ¬ 0 < (effective (a.dims.map Int.ofNat)).length by rw [he]; simp)]
      have hlen1 : ((Sel.all).points (padDims ds.dims.length ((effective (readDims ds.dims region)).map (·.2)) ((effective (a.dims.map Int.ofNat)).map (·.1)))) = some [0] := by
        rw [he]
        simp [padDims, Sel.points]
      unfold h5dread
      rw [hfile, hlen1]
      rfl
    · rw [if_pos (show fits (effective (a.dims.map Int.ofNat)) (effective (readDims ds.dims region)) = true ∧ effective (a.dims.map Int.ofNat) ≠ [] from ⟨hf, he⟩),
        if_pos (List.length_pos_iff.2 he)]
      unfold h5dread
      rw [hfile]
      have hm : (Sel.slab (List.replicate ds.dims.length 0) (readDims ds.dims region)).points (padDims ds.dims.length ((effective (readDims ds.dims region)).map (·.2)) ((effective (a.dims.map Int.ofNat)).map (·.1))) = some [] := by
        rw [Sel.points.eq_2, if_neg, if_pos]
        · rw [length_padDims, List.take_of_length_le hlen]
          exact List.any_eq_true.2 ⟨0, hz, rfl⟩
        · intro h0
          have := congrArg List.length h0
          rw [length_padDims] at this
          exact hd (List.length_eq_zero_iff.1 this)
      rw [hm]
      rfl
  · rw [if_pos (by simpa using hf), if_neg (fun h => hf h.1)]

theorem readResult {ds : Dset} {memtype : DType} {a : FArray} {start count : List Nat} (hwd : ds.WF) (hwa : a.WF) (hc : Compatible ds.dtype memtype) (hs : start.length = ds.dims.length) (hl : count.length = ds.dims.length)
    (hpos : 0 ∉ count) (hin : Inside ds.dims start count) (hh : Holds a.dims count) (hz : 0 ∉ a.dims) :
    ReadResult ds memtype start count a ⟨a.dims, scatter a.elems (slabPoints (expand count (squeezed a.dims a.dims)) (List.replicate count.length 0) count) (fetched ds memtype start count)⟩ := by
  have hn := nodup_slabPoints (dims := expand count (squeezed a.dims a.dims)) (start := List.replicate count.length 0) (count := count) (by simp [length_expand]) (by simp [length_expand]) (inside_expand hpos hh)
  refine ⟨rfl, ?_, ?_, ?_⟩
  · unfold FArray.WF
    rw [length_scatter]
    exact hwa
  · intro idx j hi hj hsp
    have hk := getElem?_slabPoints (dims := expand count (squeezed a.dims a.dims)) (start := List.replicate count.length 0) (by simp [length_expand]) (by simp [length_expand]) hi
    rw [zeros_add _ _ (inShape_length hi), mem_position hh hi hj hsp] at hk
    have hb : offset a.dims j < a.elems.length := by
      rw [← colIndex_offset _ _ (inShape_length hj), show a.elems.length = a.dims.prod from hwa]
      exact colIndex_lt hj
    have hf := getElem?_slabPoints hs hl hi
    have hin' := inShape_add hs hl hin hi
    have hlt : offset ds.dims (List.zipWith (· + ·) start idx) < ds.data.length := by
      rw [← colIndex_offset _ _ (inShape_length hin'), hwd.data]
      exact colIndex_lt hin'
    refine ⟨ds.data[offset ds.dims (List.zipWith (· + ·) start idx)], convert ds.dtype memtype ds.data[offset ds.dims (List.zipWith (· + ·) start idx)], List.getElem?_eq_getElem hlt, ?_, ?_⟩
    · show (scatter _ _ _)[offset a.dims j]? = _
      rw [getElem?_scatter hn _ hk hb]
      · unfold fetched
        rw [List.getElem?_map, hf, colIndex_offset _ _ (inShape_length hin')]
        simp [List.getD_eq_getElem?_getD, List.getElem?_eq_getElem hlt]
      · unfold fetched
        rw [List.length_map, length_slabPoints _ _ _ hs hl, length_slabPoints _ _ _ (by simp [length_expand]) (by simp [length_expand])]
    · exact convert_converted hc (hwd.elems _ (List.getElem_mem hlt)) hwd.size
  · intro j hj hno
    show (scatter _ _ _)[offset a.dims j]? = _
    rw [getElem?_scatter_not_mem]
    · rfl
    · intro hm
      obtain ⟨idx, h1, h2⟩ := (mem_slabPoints (by simp [length_expand]) (by simp [length_expand])).1 hm
      rw [zeros_add _ _ (inShape_length h1), colIndex_expand h1 _ hh.length_eq, ← colIndex_offset _ _ (inShape_length hj), colIndex_squeezed hj] at h2
      exact hno idx h1 (colIndex_inj (inShape_squeezed hj) (inShape_mono hh (inShape_squeezed h1)) h2).symm

/-- Parts which are not regions cannot be read. -/
theorem region_of_points {dims : List Nat} {s c : List Int} (hs : tooShort dims.length (some (s, c)) = false) (hz : (0 : Int) ∉ c.take dims.length) {f : List Nat}
    (h : (fileSel dims.length (some (s, c))).points dims = some f) : dims ≠ [] ∧ ∃ start count, IsRegion dims (some (s, c)) start count ∧ 0 ∉ count := by
  simp only [tooShort, decide_eq_false_iff_not, not_or, Nat.not_lt] at hs
  have h : (Sel.slab ((s.take dims.length).map (· - 1)) (c.take dims.length)).points dims = some f := h
  rw [Sel.points.eq_2] at h
  split at h
  · simp at h
  · next hd =>
    refine ⟨hd, (s.take dims.length).map (fun x => (x - 1).toNat), (c.take dims.length).map Int.toNat, ?_⟩
    split at h
    · next hany =>
      obtain ⟨x, hx, h0⟩ := List.any_eq_true.1 hany
      rw [List.take_take, Nat.min_self] at hx
      have : x = 0 := by simpa using h0
      exact absurd (this ▸ hx) hz
    · split at h
      · next hin =>
        have key : ∀ (ds : List Nat) (s c : List Int), ds.length ≤ s.length → ds.length ≤ c.length → slabInside ds ((s.take ds.length).map (· - 1)) (c.take ds.length) = true →
            ∀ i < ds.length, 1 ≤ s.getD i 0 ∧ 0 ≤ c.getD i 0 := by
          intro ds
          induction ds with
          | nil => intro s c _ _ _ i hi; simp at hi
          | cons d ds ih =>
            intro s c h1 h2 h3 i hi
            cases s with
            | nil => simp at h1
            | cons x s =>
              cases c with
              | nil => simp at h2
              | cons y c =>
                simp only [List.length_cons, List.take_succ_cons, List.map_cons, slabInside, Bool.and_eq_true, decide_eq_true_eq] at h3
                cases i with
                | zero => simp only [List.getD_cons_zero]; omega
                | succ i =>
                  simp only [List.getD_cons_succ]
                  exact ih s c (by simpa using h1) (by simpa using h2) h3.2 i (by simpa using hi)
        have hk := key dims s c hs.1 hs.2 hin
        constructor
        · refine IsRegion.part s c _ _ (by simp [hs.1]) (by simp [hs.2]) (fun i hi => ?_)
          have := hk i hi
          have h1 : i < s.length := by omega
          have h2 : i < c.length := by omega
          simp only [List.getD_eq_getElem?_getD, List.getElem?_eq_getElem h1, List.getElem?_eq_getElem h2, Option.getD_some] at this
          simp only [List.getD_eq_getElem?_getD, List.getElem?_map, List.getElem?_take_of_lt hi, List.getElem?_eq_getElem h1, List.getElem?_eq_getElem h2, Option.map_some, Option.getD_some]
          constructor <;> congr 1 <;> omega
        · intro h0
          obtain ⟨x, hx, h1⟩ := List.mem_map.1 h0
          obtain ⟨i, hi⟩ := List.mem_iff_getElem?.1 hx
          have hil : i < dims.length := by
            have := (List.getElem?_eq_some_iff.1 hi).1
            simp at this
            omega
          have := (hk i hil).2
          rw [List.getElem?_take_of_lt hil] at hi
          rw [List.getD_eq_getElem?_getD, hi, Option.getD_some] at this
          have h0 : x = 0 := by omega
          exact hz (h0 ▸ hx)
      · simp at h

/-- There is one place in the array for each element. -/
theorem exists_place {adims count idx : List Nat} (hz : 0 ∉ adims) (hh : Holds adims count) (hi : InShape count idx) : ∃ j, InShape adims j ∧ SamePlace count idx adims j := by
  have hq : InShape (squeezed adims adims) (squeezed count idx) := inShape_mono hh (inShape_squeezed hi)
  unfold SamePlace
  generalize squeezed count idx = q at hq
  clear hh hi
  induction adims generalizing q with
  | nil =>
    cases q with
    | nil => exact ⟨[], trivial, rfl⟩
    | cons => exact hq.elim
  | cons d ds ih =>
    rw [squeezed_cons] at hq
    split at hq
    · next h =>
      cases q with
      | nil => exact hq.elim
      | cons i q =>
        obtain ⟨j, h1, h2⟩ := ih (fun h' => hz (by simp [h'])) q hq.2
        exact ⟨i :: j, ⟨hq.1, h1⟩, by rw [squeezed_cons, if_pos h, h2]⟩
    · next h =>
      obtain ⟨j, h1, h2⟩ := ih (fun h' => hz (by simp [h'])) q hq
      have : d ≠ 0 := fun h' => hz (by simp [h'])
      exact ⟨0 :: j, ⟨by omega, h1⟩, by rw [squeezed_cons, if_neg h, h2]⟩

end Verif.Hdf5
