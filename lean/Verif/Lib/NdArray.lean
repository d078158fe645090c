import Verif.Lib.Mpi

/-!
Multidimensional arrays: a shape and an element for each multi-index. The elements at indexes outside the shape have no meaning;
equality of arrays is equality of shapes and of the elements inside.
-/

namespace Verif

variable {α : Type*}

structure NdArray (α : Type*) where
  shape : List Nat
  get : List Nat → α

/-- `idx` is a valid index for `shape`. -/
def InShape : List Nat → List Nat → Prop
  | [], [] => True
  | s :: ss, i :: is => i < s ∧ InShape ss is
  | _, _ => False

/-- Position of an element in C order. -/
def flatIndex : List Nat → List Nat → Nat
  | _ :: ss, i :: is => i * ss.prod + flatIndex ss is
  | _, _ => 0

/-- All indexes in C order. -/
def allIndexes : List Nat → List (List Nat)
  | [] => [[]]
  | s :: ss => (List.range s).flatMap (fun i => (allIndexes ss).map (fun is => i :: is))

/-- Memory of `np.ascontiguousarray(a)`. -/
def NdArray.ravel (a : NdArray α) : List α := (allIndexes a.shape).map a.get

/-- Array with the given shape and memory in C order. -/
def NdArray.ofBuffer [Inhabited α] (shape : List Nat) (buf : List α) : NdArray α :=
  ⟨shape, fun idx => buf.getD (flatIndex shape idx) default⟩

/-- Swap entries 0 and `k`. -/
def swap0 (k : Nat) (l : List Nat) : List Nat := (l.set 0 (l.getD k 0)).set k (l.getD 0 0)

/-- `a.swapaxes(0, k)` -/
def NdArray.swapaxes (a : NdArray α) (k : Nat) : NdArray α := ⟨swap0 k a.shape, fun idx => a.get (swap0 k idx)⟩

theorem length_allIndexes (shape : List Nat) : (allIndexes shape).length = shape.prod := by
  induction shape with
  | nil => rfl
  | cons s ss ih =>
    rw [allIndexes, List.length_flatMap, List.prod_cons]
    simp only [List.length_map, ih]
    simp

theorem flatIndex_lt {shape idx : List Nat} (h : InShape shape idx) : flatIndex shape idx < shape.prod := by
  induction shape generalizing idx with
  | nil => cases idx <;> simp_all [InShape, flatIndex]
  | cons s ss ih =>
    cases idx with
    | nil => exact h.elim
    | cons i is =>
      rw [flatIndex, List.prod_cons]
      have h1 := ih h.2
      calc i * ss.prod + flatIndex ss is < i * ss.prod + ss.prod := by omega
        _ = (i + 1) * ss.prod := by rw [Nat.succ_mul]
        _ ≤ s * ss.prod := Nat.mul_le_mul_right _ h.1

theorem getElem?_flatMap_const {β : Type*} (f : Nat → List β) (n m : Nat) (hf : ∀ i, (f i).length = m) {i j : Nat} (hi : i < n) (hj : j < m) :
    ((List.range n).flatMap f)[i * m + j]? = (f i)[j]? := by
  induction n with
  | zero => omega
  | succ n ih =>
    have hl : ((List.range n).flatMap f).length = n * m := by
      rw [List.length_flatMap]
      simp only [hf]
      simp
    rw [List.range_succ, List.flatMap_append]
    by_cases hin : i < n
    · have : i * m + j < n * m := by
        calc i * m + j < i * m + m := by omega
          _ = (i + 1) * m := by rw [Nat.succ_mul]
          _ ≤ n * m := Nat.mul_le_mul_right _ hin
      rw [List.getElem?_append_left (by omega), ih hin]
    · have : i = n := by omega
      subst this
      rw [List.getElem?_append_right (by omega), hl, Nat.add_sub_cancel_left]
      simp

theorem getElem?_allIndexes {shape idx : List Nat} (h : InShape shape idx) : (allIndexes shape)[flatIndex shape idx]? = some idx := by
  induction shape generalizing idx with
  | nil => cases idx <;> simp_all [InShape, flatIndex, allIndexes]
  | cons s ss ih =>
    cases idx with
    | nil => exact h.elim
    | cons i is =>
      rw [flatIndex, allIndexes, getElem?_flatMap_const _ s ss.prod (fun i => by rw [List.length_map, length_allIndexes]) h.1 (flatIndex_lt h.2),
        List.getElem?_map, ih h.2]
      rfl

theorem NdArray.length_ravel (a : NdArray α) : a.ravel.length = a.shape.prod := by
  rw [NdArray.ravel, List.length_map, length_allIndexes]

theorem NdArray.getElem?_ravel (a : NdArray α) {idx : List Nat} (h : InShape a.shape idx) :
    a.ravel[flatIndex a.shape idx]? = some (a.get idx) := by
  rw [NdArray.ravel, List.getElem?_map, getElem?_allIndexes h]; rfl

theorem inShape_iff {shape idx : List Nat} : InShape shape idx ↔ idx.length = shape.length ∧ ∀ (j i s : Nat), idx[j]? = some i → shape[j]? = some s → i < s := by
  induction shape generalizing idx with
  | nil => cases idx <;> simp [InShape]
  | cons s ss ih =>
    cases idx with
    | nil => simp [InShape]
    | cons i is =>
      rw [InShape, ih]
      constructor
      · rintro ⟨h1, h2, h3⟩
        refine ⟨by simpa using h2, fun j => ?_⟩
        cases j with
        | zero => intro i s hi hs; simp at hi hs; omega
        | succ j => simpa using h3 j
      · rintro ⟨h1, h2⟩
        exact ⟨h2 0 i s rfl rfl, by simpa using h1, fun j i' s' hi hs => h2 (j + 1) i' s' (by simpa using hi) (by simpa using hs)⟩

@[simp] theorem length_swap0 (k : Nat) (l : List Nat) : (swap0 k l).length = l.length := by simp [swap0]

theorem getElem?_swap0 {k : Nat} {l : List Nat} (hk : k < l.length) (j : Nat) :
    (swap0 k l)[j]? = if j = k then l[0]? else if j = 0 then l[k]? else l[j]? := by
  unfold swap0
  rw [List.getElem?_set, List.getElem?_set, List.length_set]
  have h0 : l.getD 0 0 = l[0] := by rw [List.getD_eq_getElem?_getD, List.getElem?_eq_getElem (by omega)]; rfl
  have hkk : l.getD k 0 = l[k] := by rw [List.getD_eq_getElem?_getD, List.getElem?_eq_getElem hk]; rfl
  by_cases hjk : j = k
  · subst hjk
    rw [if_pos rfl, if_pos hk, if_pos rfl, h0, List.getElem?_eq_getElem (by omega)]
  · rw [if_neg (fun h => hjk h.symm), if_neg hjk]
    by_cases hj0 : j = 0
    · subst hj0
      rw [if_pos rfl, if_pos (by omega), if_pos rfl, hkk, List.getElem?_eq_getElem hk]
    · rw [if_neg (fun h => hj0 h.symm), if_neg hj0]

theorem swap0_swap0 {k : Nat} {l : List Nat} (hk : k < l.length) : swap0 k (swap0 k l) = l := by
  apply List.ext_getElem?
  intro j
  rw [getElem?_swap0 (by simpa using hk), getElem?_swap0 hk, getElem?_swap0 hk, getElem?_swap0 hk]
  split
  · next h => subst h; split <;> simp_all
  · split
    · next h1 h2 => subst h2; simp
    · rfl

theorem swap0_set {k : Nat} {l : List Nat} (hk : k < l.length) (v : Nat) : swap0 k (l.set k v) = (swap0 k l).set 0 v := by
  apply List.ext_getElem?
  intro j
  rw [getElem?_swap0 (by simpa using hk), List.getElem?_set, List.getElem?_set, List.getElem?_set, List.getElem?_set, getElem?_swap0 hk]
  simp only [length_swap0]
  by_cases hj0 : j = 0
  · subst hj0
    by_cases h0k : k = 0
    · subst h0k; simp
    · simp [hk, Ne.symm h0k, show 0 < l.length by omega]
  · by_cases hjk : j = k
    · subst hjk
      simp [hj0, Ne.symm hj0]
    · simp [hj0, hjk, Ne.symm hj0, Ne.symm hjk]

theorem inShape_swap0 {k : Nat} {shape idx : List Nat} (hk : k < shape.length) (h : InShape shape idx) : InShape (swap0 k shape) (swap0 k idx) := by
  rw [inShape_iff] at h ⊢
  obtain ⟨h1, h2⟩ := h
  refine ⟨by simpa using h1, fun j i s hi hs => ?_⟩
  rw [getElem?_swap0 (by omega)] at hi
  rw [getElem?_swap0 hk] at hs
  split at hi
  · next h => rw [if_pos h] at hs; exact h2 _ _ _ hi hs
  · next h =>
    rw [if_neg h] at hs
    split at hi
    · next h' => rw [if_pos h'] at hs; exact h2 _ _ _ hi hs
    · next h' => rw [if_neg h'] at hs; exact h2 _ _ _ hi hs

end Verif
