import Mathlib.Order.Defs.LinearOrder
import Mathlib.Data.List.Basic

/-!
Slices, prefix sums and distributed arrays.

A distributed array on `P` MPI ranks is a function `Nat → List α`, of which only the values
at ranks `< P` matter.
-/

namespace Verif

variable {α β : Type*}

/-- `l[o:o+n]` for non-negative `o`, `n` (Python slicing clips at the end of the list). -/
def slice (l : List α) (o n : Nat) : List α := (l.drop o).take n

/-- Exclusive prefix sum: entry `r` of `np.cumsum(f) - f`. -/
def pre (f : Nat → Nat) : Nat → Nat
  | 0 => 0
  | r + 1 => pre f r + f r

/-- Concatenation in rank order of a distributed array. -/
def gcat (P : Nat) (a : Nat → List α) : List α := (List.range P).flatMap a

/-- Number of elements on each rank (`comm.allgather(len(arr))`). -/
def sizes (a : Nat → List α) : Nat → Nat := fun r => (a r).length

@[simp] theorem pre_zero (f : Nat → Nat) : pre f 0 = 0 := rfl
theorem pre_succ (f : Nat → Nat) (r : Nat) : pre f (r + 1) = pre f r + f r := rfl

theorem pre_mono (f : Nat → Nat) {a b : Nat} (h : a ≤ b) : pre f a ≤ pre f b := by
  induction b with
  | zero => simp_all
  | succ b ih =>
    rcases Nat.eq_or_lt_of_le h with h | h
    · subst h; exact Nat.le_refl _
    · have := ih (by omega); simp only [pre_succ]; omega

theorem pre_congr {f g : Nat → Nat} {r : Nat} (h : ∀ i < r, f i = g i) : pre f r = pre g r := by
  induction r with
  | zero => rfl
  | succ r ih =>
    rw [pre_succ, pre_succ, ih (fun i hi => h i (by omega)), h r (by omega)]

theorem pre_lt_total {f : Nat → Nat} {r P : Nat} (hr : r < P) : pre f r + f r ≤ pre f P := by
  rw [← pre_succ]; exact pre_mono f hr

/-- Locate a position in the blocks described by prefix sums. -/
theorem exists_block {f : Nat → Nat} {P i : Nat} (h : i < pre f P) :
    ∃ r, r < P ∧ pre f r ≤ i ∧ i < pre f r + f r := by
  induction P with
  | zero => simp at h
  | succ P ih =>
    by_cases hi : i < pre f P
    · obtain ⟨r, h1, h2, h3⟩ := ih hi
      exact ⟨r, by omega, h2, h3⟩
    · exact ⟨P, by omega, by omega, by rw [pre_succ] at h; omega⟩

theorem block_unique {f : Nat → Nat} {i r s : Nat}
    (h1 : pre f r ≤ i) (h2 : i < pre f r + f r) (h3 : pre f s ≤ i) (h4 : i < pre f s + f s) :
    r = s := by
  rcases Nat.lt_trichotomy r s with h | h | h
  · have := pre_mono f (show r + 1 ≤ s by omega); rw [pre_succ] at this; omega
  · exact h
  · have := pre_mono f (show s + 1 ≤ r by omega); rw [pre_succ] at this; omega

@[simp] theorem gcat_zero (a : Nat → List α) : gcat 0 a = [] := rfl

theorem gcat_succ (P : Nat) (a : Nat → List α) : gcat (P + 1) a = gcat P a ++ a P := by
  simp [gcat, List.range_succ, List.flatMap_append]

theorem gcat_congr {P : Nat} {a b : Nat → List α} (h : ∀ r < P, a r = b r) :
    gcat P a = gcat P b := by
  unfold gcat
  exact List.flatMap_congr (fun x hx => h x (List.mem_range.1 hx))

@[simp] theorem length_gcat (P : Nat) (a : Nat → List α) :
    (gcat P a).length = pre (sizes a) P := by
  induction P with
  | zero => rfl
  | succ P ih => rw [gcat_succ, List.length_append, ih, pre_succ]; rfl

theorem mem_gcat {P : Nat} {a : Nat → List α} {x : α} :
    x ∈ gcat P a ↔ ∃ r < P, x ∈ a r := by
  simp [gcat, List.mem_flatMap]

theorem map_gcat (f : α → β) (P : Nat) (a : Nat → List α) :
    (gcat P a).map f = gcat P (fun r => (a r).map f) := by
  simp [gcat, List.map_flatMap]

theorem getElem?_gcat {P r i : Nat} {a : Nat → List α} (hr : r < P) (hi : i < (a r).length) :
    (gcat P a)[pre (sizes a) r + i]? = (a r)[i]? := by
  induction P with
  | zero => omega
  | succ P ih =>
    rw [gcat_succ]
    by_cases h : r < P
    · have hb := pre_lt_total (f := sizes a) h
      have : pre (sizes a) r + i < (gcat P a).length := by
        rw [length_gcat]; simp only [sizes] at hb ⊢; omega
      rw [List.getElem?_append_left this, ih h]
    · have hrP : r = P := by omega
      subst hrP
      rw [List.getElem?_append_right (by rw [length_gcat]; omega), length_gcat]
      congr 1; omega

/-- The part of the concatenation owned by a rank. -/
theorem slice_gcat {P r : Nat} {a : Nat → List α} (hr : r < P) :
    slice (gcat P a) (pre (sizes a) r) ((a r).length) = a r := by
  induction P with
  | zero => omega
  | succ P ih =>
    rw [gcat_succ]
    unfold slice at *
    by_cases h : r < P
    · have hb := pre_lt_total (f := sizes a) h
      simp only [sizes] at hb
      have h1 : pre (sizes a) r ≤ (gcat P a).length := by rw [length_gcat]; exact pre_mono _ (by omega)
      rw [List.drop_append_of_le_length h1, List.take_append_of_le_length, ih h]
      rw [List.length_drop, length_gcat]
      omega
    · have hrP : r = P := by omega
      subst hrP
      have : pre (sizes a) r = (gcat r a).length := (length_gcat _ _).symm
      rw [this, List.drop_left]; simp

@[simp] theorem slice_zero (l : List α) (o : Nat) : slice l o 0 = [] := by simp [slice]

theorem length_slice (l : List α) (o n : Nat) : (slice l o n).length = min n (l.length - o) := by
  simp [slice]

theorem length_slice_of_le {l : List α} {o n : Nat} (h : o + n ≤ l.length) :
    (slice l o n).length = n := by rw [length_slice]; omega

theorem getElem?_slice (l : List α) (o n i : Nat) :
    (slice l o n)[i]? = if i < n then l[o + i]? else none := by
  unfold slice
  by_cases h : i < n
  · simp [h]
  · simp only [h, if_false, List.getElem?_take]

theorem slice_map (f : α → β) (l : List α) (o n : Nat) :
    (slice l o n).map f = slice (l.map f) o n := by
  simp [slice, List.map_take, List.map_drop]

theorem slice_append_slice (l : List α) (o m n : Nat) :
    slice l o m ++ slice l (o + m) n = slice l o (m + n) := by
  unfold slice
  rw [List.take_add, List.drop_drop]

theorem slice_slice (l : List α) (o n o' n' : Nat) (h : o' + n' ≤ n) :
    slice (slice l o n) o' n' = slice l (o + o') n' := by
  apply List.ext_getElem?
  intro i
  simp only [getElem?_slice]
  by_cases hi : i < n'
  · simp only [hi, if_true]
    rw [if_pos (by omega), Nat.add_assoc]
  · simp [hi]

@[simp] theorem slice_all (l : List α) : slice l 0 l.length = l := by simp [slice]

theorem slice_of_le {l : List α} {n : Nat} (h : l.length ≤ n) : slice l 0 n = l := by
  simp [slice, List.take_of_length_le h]

/-- Cutting a list at prefix sums and concatenating the pieces gives a prefix of the list. -/
theorem gcat_slice (l : List α) (n : Nat → Nat) (o P : Nat) :
    gcat P (fun r => slice l (o + pre n r) (n r)) = slice l o (pre n P) := by
  induction P with
  | zero => simp
  | succ P ih => rw [gcat_succ, ih, slice_append_slice, pre_succ]

/-- A list which has the right length and agrees position by position with the blocks. -/
theorem eq_gcat_of_slices {l : List α} {P : Nat} {a : Nat → List α}
    (hlen : l.length = pre (sizes a) P)
    (h : ∀ r < P, slice l (pre (sizes a) r) ((a r).length) = a r) : l = gcat P a := by
  have := gcat_slice l (sizes a) 0 P
  simp only [Nat.zero_add] at this
  rw [← hlen, slice_all] at this
  rw [← this]
  exact gcat_congr h

/-- Two distributed arrays with the same sizes and the same concatenation agree on every rank. -/
theorem eq_of_gcat_eq {P : Nat} {a b : Nat → List α}
    (hs : ∀ r < P, (a r).length = (b r).length) (h : gcat P a = gcat P b) :
    ∀ r < P, a r = b r := by
  intro r hr
  rw [← slice_gcat (a := a) hr, ← slice_gcat (a := b) hr, h, hs r hr]
  congr 1
  exact pre_congr (fun i hi => hs i (by omega))

theorem perm_gcat {P : Nat} {a b : Nat → List α} (h : ∀ r < P, (a r).Perm (b r)) :
    (gcat P a).Perm (gcat P b) := by
  induction P with
  | zero => exact List.Perm.refl _
  | succ P ih =>
    rw [gcat_succ, gcat_succ]
    exact List.Perm.append (ih fun r hr => h r (by omega)) (h P (by omega))

theorem pre_add (f g : Nat → Nat) (r : Nat) : pre (fun i => f i + g i) r = pre f r + pre g r := by
  induction r with
  | zero => rfl
  | succ r ih => simp only [pre_succ, ih]; omega

theorem pre_const_zero (r : Nat) : pre (fun _ => 0) r = 0 := by
  induction r with
  | zero => rfl
  | succ r ih => simp only [pre_succ, ih]

/-- Exchanging the order of a double sum. -/
theorem pre_comm (f : Nat → Nat → Nat) (P Q : Nat) :
    pre (fun i => pre (fun j => f i j) Q) P = pre (fun j => pre (fun i => f i j) P) Q := by
  induction P with
  | zero => simp [pre_const_zero]
  | succ P ih =>
    simp only [pre_succ, ih]
    rw [← pre_add]

theorem gcat_append_perm (P : Nat) (a b : Nat → List α) :
    (gcat P (fun r => a r ++ b r)).Perm (gcat P a ++ gcat P b) := by
  induction P with
  | zero => exact List.Perm.refl _
  | succ P ih =>
    simp only [gcat_succ]
    refine (List.Perm.append_right _ ih).trans ?_
    simp only [List.append_assoc]
    apply List.Perm.append_left
    simp only [← List.append_assoc]
    exact List.Perm.append_right _ List.perm_append_comm

/-- Exchanging sender and receiver order only permutes the data. -/
theorem gcat_comm_perm (f : Nat → Nat → List α) (P Q : Nat) :
    (gcat P (fun i => gcat Q (fun j => f i j))).Perm (gcat Q (fun j => gcat P (fun i => f i j))) := by
  induction P with
  | zero => simp [gcat]
  | succ P ih =>
    simp only [gcat_succ]
    refine (List.Perm.append_right _ ih).trans ?_
    exact (gcat_append_perm Q (fun j => gcat P (fun i => f i j)) (fun j => f P j)).symm

end Verif
