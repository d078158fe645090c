import Verif.Spec.Strided
import Verif.Proofs.Strided

/-!
C102: arrays with two dimensions in `repartition` and `fetch_elements`, as they are in memory.
-/

namespace Verif

variable {α : Type*}

namespace Arr2

theorem columnMajor_rowWise {a : Arr2 α} (h : a.RowWise) : a.columnMajor = false := by
  obtain ⟨h1, h2, h3⟩ := h
  unfold columnMajor
  by_cases hc : a.cContig = true
  · rw [if_pos hc]
  · rw [if_neg hc]
    unfold cContig at hc
    unfold fContig
    simp only [h1, Bool.or_eq_true, Bool.and_eq_true, decide_eq_true_eq, not_or, not_and_or, or_true, not_true_eq_false, or_false, false_or, not_false_eq_true, true_and] at hc
    obtain ⟨h4, h5, h6⟩ := hc
    rw [if_neg]
    · simp only [h1, decide_eq_false_iff_not]
      rcases Nat.eq_zero_or_pos a.cols with h0 | h0
      · rw [h0] at h4; simp at h4
      · show ¬ a.s0.natAbs < 1
        omega
    · simp only [Bool.or_eq_true, Bool.and_eq_true, decide_eq_true_eq]
      rintro (h7 | ⟨h7, h8⟩)
      · exact h4 h7
      · rcases h7 with h7 | h7
        · exact h5 h7
        · rcases h8 with h8 | h8
          · exact h6 (by rw [h3 h8, h8]; rfl)
          · exact h5 (by omega)

theorem bufferOk_rowWise {a : Arr2 α} (h : a.RowWise) (counts : List Nat) : a.bufferOk counts = true := by
  obtain ⟨h1, h2, h3⟩ := h
  unfold bufferOk flatStride
  by_cases h4 : a.rows * a.cols = 0
  · simp [h4]
  · by_cases h5 : a.rows = 1
    · simp [h5, h1]
    · by_cases h6 : a.cols = 1
      · simp [h5, h6, h3 h6]
      · by_cases h7 : a.s0 = a.cols * a.s1
        · simp [h5, h6, h7, h1]
        · simp [h4, h5, h6, h7]

theorem columnMajor_columnWise {a : Arr2 α} (h : a.ColumnWise) : a.columnMajor = true := by
  obtain ⟨h1, h2, h3, h4⟩ := h
  have h0 : a.rows * a.cols ≠ 0 := Nat.mul_ne_zero (by omega) (by omega)
  unfold columnMajor
  rw [if_neg, if_pos]
  · unfold fContig
    simp [h1, h2]
  · unfold cContig
    simp only [Bool.or_eq_true, Bool.and_eq_true, decide_eq_true_eq]
    rintro (h5 | ⟨h5, h6⟩)
    · exact h0 h5
    · rcases h5 with h5 | h5 <;> omega

theorem bufferOk_columnWise {a : Arr2 α} (h : a.ColumnWise) (counts : List Nat) : a.bufferOk counts = true := by
  obtain ⟨h1, h2, h3, h4⟩ := h
  have h0 : a.rows * a.cols ≠ 0 := Nat.mul_ne_zero (by omega) (by omega)
  have h5 := Nat.mul_le_mul h4 h3
  unfold bufferOk flatStride
  rw [if_neg h0, if_neg (by omega), if_neg (by omega), if_neg]
  · rfl
  · rw [h1, h2]
    intro h
    have h6 : (1 : Int) = ((a.cols * a.rows : Nat) : Int) := by rw [h]; push_cast; rfl
    omega

theorem list_fresh_true [Inhabited α] (rows cols : Nat) (mem : List α) : (fresh true rows cols mem).list = columnRows rows cols mem := by
  unfold list columnRows
  simp only [fresh, if_true]
  apply List.map_congr_left
  intro i _
  apply List.map_congr_left
  intro j _
  unfold get
  simp only
  congr 1
  have : ((0 : Nat) : Int) + (i : Int) * 1 + (j : Int) * (rows : Int) = ((i + j * rows : Nat) : Int) := by push_cast; omega
  rw [this]
  rfl

end Arr2

variable [Inhabited α] {P w : Nat} {junk : Nat → Nat → α} {arr : Nat → Arr2 α}

/-- **C102** (`repartition`): arrays in which each row is stored in one piece, also slices of other arrays, keep all rows in order, and each rank has the number of rows it asked for. -/
theorem C102_repartition {ndesired : Nat → Nat} (hw : ∀ p < P, (arr p).cols = w) (hrow : ∀ p < P, (arr p).RowWise) (h : pre (fun p => (arr p).rows) P = pre ndesired P) :
    ∃ out, repartition2 P junk arr ndesired = .ok out ∧ (∀ p < P, (out p).rows = ndesired p ∧ (out p).cols = w) ∧ gcat P (fun p => (out p).list) = gcat P (fun p => (arr p).list) := by
  obtain ⟨out, h1, h2⟩ := (repartition2_eq (junk := junk) hw h).2 (fun p hp => Arr2.bufferOk_rowWise (hrow p hp) _)
  refine ⟨out, h1, fun p hp => ⟨(h2 p hp).1, (h2 p hp).2.1⟩, ?_⟩
  have h3 : ∀ p < P, (out p).list = slice (gcat P (fun p => (arr p).list)) (pre ndesired p) (ndesired p) := by
    intro p hp
    rw [(h2 p hp).2.2, if_neg]
    rintro ⟨h4, -⟩
    rw [Arr2.columnMajor_rowWise (hrow p hp)] at h4
    exact absurd h4 (by decide)
  rw [gcat_congr h3]
  have := gcat_slice (gcat P (fun p => (arr p).list)) ndesired 0 P
  simp only [Nat.zero_add] at this
  rw [this, ← h, show (fun p => (arr p).rows) = sizes (fun p => (arr p).list) by funext p; simp [sizes], ← length_gcat, slice_all]

/-- Defect: a rank whose array is stored column by column gets whatever is in the memory of the new array, if it asks for two rows or more. -/
theorem C102_columns_defect {ndesired : Nat → Nat} (hw : ∀ p < P, (arr p).cols = w) (hrow : ∀ p < P, (arr p).RowWise ∨ (arr p).ColumnWise) (h : pre (fun p => (arr p).rows) P = pre ndesired P)
    {p : Nat} (hp : p < P) (hcol : (arr p).ColumnWise) (h2 : 2 ≤ ndesired p) :
    ∃ out, repartition2 P junk arr ndesired = .ok out ∧ (out p).list = Arr2.columnRows (ndesired p) w ((List.range (ndesired p * w)).map (junk p)) := by
  obtain ⟨out, h1, h3⟩ := (repartition2_eq (junk := junk) hw h).2 (fun p hp => (hrow p hp).elim (fun h => Arr2.bufferOk_rowWise h _) (fun h => Arr2.bufferOk_columnWise h _))
  refine ⟨out, h1, ?_⟩
  rw [(h3 p hp).2.2, if_pos ⟨Arr2.columnMajor_columnWise hcol, h2, by have := hcol.2.2.2; rw [hw p hp] at this; exact this⟩, Arr2.list_fresh_true]

/-- Defect: an array with one dimension and a step, such as `x[::2]`, of which two elements which follow each other go to the same rank, is refused. -/
theorem C102_step_defect {ndesired : Nat → Nat} (hw : ∀ p < P, (arr p).cols = 1) (h : pre (fun p => (arr p).rows) P = pre ndesired P) {p d g : Nat} (hp : p < P) (hd : d < P) (hstep : (arr p).s0 ≠ 1)
    (h1 : pre (fun p => (arr p).rows) p ≤ g ∧ g + 1 < pre (fun p => (arr p).rows) (p + 1)) (h2 : pre ndesired d ≤ g ∧ g + 1 < pre ndesired (d + 1)) :
    repartition2 P junk arr ndesired = .error .valueError := by
  refine (repartition2_eq (junk := junk) hw h).1 ⟨p, hp, ?_⟩
  have hrows : 2 ≤ (arr p).rows := by
    have := pre_succ (fun p => (arr p).rows) p
    omega
  unfold Arr2.bufferOk Arr2.flatStride
  rw [hw p hp, Nat.mul_one, if_neg (by omega), if_neg (by omega), if_pos rfl]
  rw [Bool.or_eq_false_iff, Bool.or_eq_false_iff]
  refine ⟨⟨rfl, by simpa using hstep⟩, ?_⟩
  rw [List.all_eq_false]
  refine ⟨repartitionSendCount (fun p => (arr p).rows) ndesired p d * 1, List.mem_map.2 ⟨d, List.mem_range.2 hd, rfl⟩, ?_⟩
  rw [repartitionSendCount_eq]
  simp only [decide_eq_true_eq]
  have e1 := pre_succ (fun p => (arr p).rows) p
  have e2 := pre_succ ndesired d
  omega

/-- Defect: so is an array with two dimensions and a step in the last one, if it has every element of this distance, such as the first and the third column of an array with four columns, of which a row goes to some rank. -/
theorem C102_column_step_defect {ndesired : Nat → Nat} (hw : ∀ p < P, (arr p).cols = w) (hw2 : 2 ≤ w) (h : pre (fun p => (arr p).rows) P = pre ndesired P) {p d g : Nat} (hp : p < P) (hd : d < P)
    (hstep : (arr p).s1 ≠ 1) (hall : (arr p).s0 = w * (arr p).s1)
    (h1 : pre (fun p => (arr p).rows) p ≤ g ∧ g < pre (fun p => (arr p).rows) (p + 1)) (h2 : pre ndesired d ≤ g ∧ g < pre ndesired (d + 1)) :
    repartition2 P junk arr ndesired = .error .valueError := by
  refine (repartition2_eq (junk := junk) hw h).1 ⟨p, hp, ?_⟩
  have e1 := pre_succ (fun p => (arr p).rows) p
  have e2 := pre_succ ndesired d
  have hs : (arr p).flatStride = some (arr p).s1 := by
    unfold Arr2.flatStride
    rw [if_neg (Nat.mul_ne_zero (by omega) (by rw [hw p hp]; omega))]
    by_cases h5 : (arr p).rows = 1
    · rw [if_pos h5]
    · rw [if_neg h5, if_neg (by rw [hw p hp]; omega), if_pos (by rw [hw p hp, hall])]
  unfold Arr2.bufferOk
  rw [hs, Bool.or_eq_false_iff, Bool.or_eq_false_iff]
  refine ⟨⟨rfl, by simpa using hstep⟩, ?_⟩
  rw [List.all_eq_false]
  refine ⟨repartitionSendCount (fun p => (arr p).rows) ndesired p d * w, List.mem_map.2 ⟨d, List.mem_range.2 hd, rfl⟩, ?_⟩
  have h3 : 1 ≤ repartitionSendCount (fun p => (arr p).rows) ndesired p d := by
    rw [repartitionSendCount_eq]
    omega
  have := Nat.mul_le_mul h3 hw2
  simp only [decide_eq_true_eq]
  omega

/-- **C102** (`fetch_elements`): the rows asked for, in a new array if the rows of the array are stored in one piece, or in an array of the caller in C order. -/
theorem C102_fetch {index : Nat → List Int} {result : Option (Nat → Arr2 α)} (hw : ∀ p < P, (arr p).cols = w) (hnone : result = none → ∀ p < P, (arr p).RowWise)
    (hsome : ∀ r, result = some r → ∀ p < P, ∃ mem, mem.length = (index p).length * w ∧ r p = ⟨(index p).length, w, 0, w, 1, mem⟩)
    (hin : ∀ p < P, ∀ i ∈ index p, 0 ≤ i ∧ i < ((gcat P (fun p => (arr p).list)).length : Int)) :
    ∃ out, fetchElements2 P junk arr index result = .ok out ∧ ∀ p < P, (out p).map some = (index p).map (fun i => (gcat P (fun p => (arr p).list))[i.toNat]?) := by
  have hlen : (gcat P (fun p => (arr p).list)).length = pre (fun p => (arr p).rows) P := by
    rw [length_gcat]
    congr 1
    funext p
    simp [sizes]
  have hbuf : ∃ mem : Nat → List α, (∀ p < P, (mem p).length = (index p).length * w) ∧ ∀ p < P, fetchBuffer junk arr index result p = Arr2.fresh false (index p).length w (mem p) := by
    cases result with
    | none =>
      refine ⟨fun p => (List.range ((index p).length * w)).map (junk p), by simp, ?_⟩
      intro p hp
      unfold fetchBuffer
      dsimp only
      rw [Arr2.columnMajor_rowWise (hnone rfl p hp), hw p hp]
    | some r =>
      refine ⟨fun p => (r p).mem, ?_, ?_⟩
      · intro p hp
        obtain ⟨mem, h1, h2⟩ := hsome r rfl p hp
        show (r p).mem.length = _
        rw [h2]
        exact h1
      · intro p hp
        obtain ⟨mem, h1, h2⟩ := hsome r rfl p hp
        show r p = Arr2.fresh false (index p).length w (r p).mem
        rw [h2]
        rfl
  obtain ⟨mem, h1, h2⟩ := hbuf
  obtain ⟨out, h3, h4⟩ := fetchElements2_eq (fortran := fun _ => false) hw h1 h2 (by rw [← hlen]; exact hin)
  refine ⟨out, h3, ?_⟩
  intro p hp
  rw [h4 p hp, if_neg (by simp), List.map_map]
  apply List.map_congr_left
  intro i hi
  have hi := hin p hp i hi
  have : i.toNat < (gcat P (fun p => (arr p).list)).length := by omega
  simp only [Function.comp]
  rw [List.getD_eq_getElem _ _ this, List.getElem?_eq_getElem this]

/-- Defect: two rows or more of an array which is stored column by column: what is returned does not depend on the array, only on the memory of the new array. -/
theorem C102_fetch_defect {index : Nat → List Int} (hw : ∀ p < P, (arr p).cols = w)
    (hin : ∀ p < P, ∀ i ∈ index p, 0 ≤ i ∧ i < ((gcat P (fun p => (arr p).list)).length : Int)) {p : Nat} (hp : p < P) (hc : (arr p).ColumnWise) (h2 : 2 ≤ (index p).length) :
    ∃ out, fetchElements2 P junk arr index none = .ok out ∧
      out p = scatter (Arr2.columnRows (index p).length w ((List.range ((index p).length * w)).map (junk p))) (argsort (index p)) (Arr2.columnRows (index p).length w ((List.range ((index p).length * w)).map (junk p))) := by
  have hlen : (gcat P (fun p => (arr p).list)).length = pre (fun p => (arr p).rows) P := by
    rw [length_gcat]
    congr 1
    funext p
    simp [sizes]
  obtain ⟨out, h3, h4⟩ := fetchElements2_eq (junk := junk) (index := index) (result := none) (fortran := fun p => (arr p).columnMajor) (mem := fun p => (List.range ((index p).length * w)).map (junk p)) hw (by simp)
    (by intro p hp; unfold fetchBuffer; dsimp only; rw [hw p hp]) (by rw [← hlen]; exact hin)
  refine ⟨out, h3, ?_⟩
  rw [h4 p hp, if_pos ⟨Arr2.columnMajor_columnWise hc, h2, by have := hc.2.2.2; rw [hw p hp] at this; exact this⟩, Arr2.list_fresh_true]

/-- Defect: an array of the caller which is stored column by column is not filled: its rows are only moved. -/
theorem C102_result_defect {index : Nat → List Int} {r : Nat → Arr2 α} (hw : ∀ p < P, (arr p).cols = w) {fortran : Nat → Bool} {mem : Nat → List α} (hm : ∀ p < P, (mem p).length = (index p).length * w)
    (hr : ∀ p < P, r p = if fortran p then ⟨(index p).length, w, 0, 1, (index p).length, mem p⟩ else ⟨(index p).length, w, 0, w, 1, mem p⟩)
    (hin : ∀ p < P, ∀ i ∈ index p, 0 ≤ i ∧ i < ((gcat P (fun p => (arr p).list)).length : Int)) {p : Nat} (hp : p < P) (hc : (r p).ColumnWise) (hf : fortran p = true) :
    ∃ out, fetchElements2 P junk arr index (some r) = .ok out ∧ out p = scatter (r p).list (argsort (index p)) (r p).list := by
  have hlen : (gcat P (fun p => (arr p).list)).length = pre (fun p => (arr p).rows) P := by
    rw [length_gcat]
    congr 1
    funext p
    simp [sizes]
  obtain ⟨out, h3, h4⟩ := fetchElements2_eq (junk := junk) (result := some r) (fortran := fortran) (mem := mem) hw hm (fun p hp => hr p hp) (by rw [← hlen]; exact hin)
  have hrp : r p = Arr2.fresh true (index p).length w (mem p) := by
    rw [hr p hp, if_pos hf]
    rfl
  refine ⟨out, h3, ?_⟩
  rw [hrp] at hc
  rw [h4 p hp, if_pos ⟨hf, hc.2.2.1, hc.2.2.2⟩, hrp]

/-! ### Examples -/

namespace ExStrided

/-- Rank 0 has the last two columns of the rows [0, 1, 2] and [3, 4, 5], rank 1 the row [7, 8]. -/
def slices : Nat → Arr2 Nat := fun p => if p = 0 then ⟨2, 2, 1, 3, 1, [0, 1, 2, 3, 4, 5]⟩ else ⟨1, 2, 0, 2, 1, [7, 8]⟩

example : (slices 0).list = [[1, 2], [4, 5]] ∧ (slices 1).list = [[7, 8]] := by decide

example (junk : Nat → Nat → Nat) : ∃ out, repartition2 2 junk slices (fun p => if p = 0 then 1 else 2) = .ok out ∧ gcat 2 (fun p => (out p).list) = [[1, 2], [4, 5], [7, 8]] := by
  obtain ⟨out, h1, -, h2⟩ := C102_repartition (P := 2) (w := 2) (junk := junk) (arr := slices) (ndesired := fun p => if p = 0 then 1 else 2) (by decide)
    (by intro p hp; unfold Arr2.RowWise; match p, hp with | 0, _ => decide | 1, _ => decide) (by decide)
  exact ⟨out, h1, h2.trans (by decide)⟩

/-- The same numbers column by column: rank 0 keeps its rows, and still gets the contents of new memory. -/
def cols : Nat → Arr2 Nat := fun p => if p = 0 then ⟨2, 2, 0, 1, 2, [1, 4, 2, 5]⟩ else ⟨1, 2, 0, 2, 1, [7, 8]⟩

example : (cols 0).list = [[1, 2], [4, 5]] := by decide

example : ∃ out, repartition2 2 (fun _ _ => 99) cols (fun p => if p = 0 then 2 else 1) = .ok out ∧ (out 0).list = [[99, 99], [99, 99]] := by
  obtain ⟨out, h1, h2⟩ := C102_columns_defect (P := 2) (w := 2) (junk := fun _ _ => 99) (arr := cols) (ndesired := fun p => if p = 0 then 2 else 1) (by decide)
    (by intro p hp; unfold Arr2.RowWise Arr2.ColumnWise; match p, hp with | 0, _ => exact Or.inr (by decide) | 1, _ => exact Or.inl (by decide)) (by decide) (p := 0) (by decide) (by unfold Arr2.ColumnWise; decide) (by decide)
  exact ⟨out, h1, h2.trans (by decide)⟩

/-- `x[::2]` of four elements -/
example : repartition2 1 (fun _ _ => 0) (fun _ => ⟨2, 1, 0, 2, 1, [1, 2, 3, 4]⟩) (fun _ => 2) = .error .valueError :=
  C102_step_defect (P := 1) (p := 0) (d := 0) (g := 0) (by decide) (by decide) (by decide) (by decide) (by decide) (by decide) (by decide)

/-- `x[:, ::2]` of an array with four columns -/
example : repartition2 1 (fun _ _ => 0) (fun _ => ⟨2, 2, 0, 4, 2, [1, 2, 3, 4, 5, 6, 7, 8]⟩) (fun _ => 2) = .error .valueError :=
  C102_column_step_defect (P := 1) (w := 2) (p := 0) (d := 0) (g := 0) (by decide) (by decide) (by decide) (by decide) (by decide) (by decide) (by decide) (by decide) (by decide)

example (junk : Nat → Nat → Nat) : ∃ out, fetchElements2 2 junk slices (fun p => if p = 0 then [2, 0, 2] else [1]) none = .ok out ∧ (out 0).map some = [some [7, 8], some [1, 2], some [7, 8]] := by
  obtain ⟨out, h1, h2⟩ := C102_fetch (P := 2) (w := 2) (junk := junk) (arr := slices) (index := fun p => if p = 0 then [2, 0, 2] else [1]) (result := none) (by decide)
    (fun _ => by intro p hp; unfold Arr2.RowWise; match p, hp with | 0, _ => decide | 1, _ => decide) (by simp) (by decide)
  exact ⟨out, h1, (h2 0 (by decide)).trans (by decide)⟩

example : ∃ out, fetchElements2 2 (fun _ _ => 99) cols (fun p => if p = 0 then [2, 0, 2] else [1]) none = .ok out ∧ out 0 = [[99, 99], [99, 99], [99, 99]] := by
  obtain ⟨out, h1, h2⟩ := C102_fetch_defect (P := 2) (w := 2) (junk := fun _ _ => 99) (arr := cols) (index := fun p => if p = 0 then [2, 0, 2] else [1]) (by decide)
    (by decide) (p := 0) (by decide) (by unfold Arr2.ColumnWise; decide) (by decide)
  exact ⟨out, h1, h2.trans (by decide +kernel)⟩

example : ∃ out, fetchElements2 1 (fun _ _ => 0) (fun _ => ⟨2, 2, 0, 2, 1, [1, 2, 3, 4]⟩) (fun _ => [1, 0]) (some fun _ => ⟨2, 2, 0, 1, 2, [9, 9, 8, 8]⟩) = .ok out ∧ out 0 = [[9, 8], [9, 8]] := by
  obtain ⟨out, h1, h2⟩ := C102_result_defect (P := 1) (w := 2) (junk := fun _ _ => 0) (arr := fun _ => ⟨2, 2, 0, 2, 1, [1, 2, 3, 4]⟩) (index := fun _ => [1, 0]) (r := fun _ => ⟨2, 2, 0, 1, 2, [9, 9, 8, 8]⟩)
    (by decide) (fortran := fun _ => true) (mem := fun _ => [9, 9, 8, 8]) (by decide) (fun _ _ => rfl) (by decide) (p := 0) (by decide) (by unfold Arr2.ColumnWise; decide) rfl
  exact ⟨out, h1, h2.trans (by decide +kernel)⟩

end ExStrided

end Verif
