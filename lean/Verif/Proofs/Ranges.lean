import Verif.Model.Ranges
import Verif.Spec.Ranges
import Verif.Proofs.MultiFile
import Mathlib.Tactic.Ring

set_option linter.unusedSectionVars false

namespace Verif

variable {α β : Type*}

/-- Ranges in order, the first not before `s`. -/
def Asc (n : Nat) : Nat → List (Nat × Nat) → Prop
  | s, [] => s ≤ n
  | s, (o, l) :: R => s ≤ o ∧ Asc n (o + l) R

theorem Asc.le {n s : Nat} {R : List (Nat × Nat)} (h : Asc n s R) : s ≤ n := by
  induction R generalizing s with
  | nil => exact h
  | cons r R ih =>
    obtain ⟨o, l⟩ := r
    have := ih h.2
    have := h.1
    omega

theorem RangesOk.asc {n s : Nat} {R : List (Nat × Nat)} (h : RangesOk n R) (hs : s ≤ n) (hr : ∀ r ∈ R, s ≤ r.1) : Asc n s R := by
  induction R generalizing s with
  | nil => exact hs
  | cons r R ih =>
    obtain ⟨o, l⟩ := r
    obtain ⟨h1, h2⟩ := h
    rw [List.pairwise_cons] at h2
    exact ⟨hr (o, l) (by simp), ih ⟨fun r hr => h1 r (by simp [hr]), h2.2⟩ (h1 (o, l) (by simp)) (fun r hr => h2.1 r hr)⟩

/-- The array from position `s` on after the assignments. -/
def paint : List (Nat × Nat × α) → Nat → List α → List α
  | [], _, rest => rest
  | (o, l, v) :: R, s, rest => rest.take (o - s) ++ List.replicate l v ++ paint R (o + l) (rest.drop (o - s + l))

def rng (R : List (Nat × Nat × α)) : List (Nat × Nat) := R.map (fun r => (r.1, r.2.1))

theorem assignEach_eq_paint {n s : Nat} {R : List (Nat × Nat × α)} {B rest : List α} (h : Asc n s (rng R)) (hB : B.length = s) (hrest : rest.length = n - s) :
    assignEach (B ++ rest) R = B ++ paint R s rest := by
  induction R generalizing s B rest with
  | nil => rfl
  | cons r R ih =>
    obtain ⟨o, l, v⟩ := r
    have h1 : s ≤ o := h.1
    have h2 : Asc n (o + l) (rng R) := h.2
    have h3 := h2.le
    unfold assignEach
    rw [List.foldl_cons]
    have e : overlay (B ++ rest) o (List.replicate l v) = (B ++ rest.take (o - s) ++ List.replicate l v) ++ rest.drop (o - s + l) := by
      unfold overlay
      rw [List.take_append, List.drop_append, hB, List.length_replicate, List.take_of_length_le (by omega : B.length ≤ o), List.drop_of_length_le (by omega : B.length ≤ o + l),
        show o + l - s = o - s + l by omega]
      simp
    simp only
    rw [e]
    have := ih (s := o + l) (B := B ++ rest.take (o - s) ++ List.replicate l v) (rest := rest.drop (o - s + l)) h2
      (by simp only [List.length_append, List.length_take, List.length_replicate]; omega) (by rw [List.length_drop]; omega)
    unfold assignEach at this
    rw [this]
    simp [paint, List.append_assoc]

theorem maskFill_false (x a : List α) (m : List Bool) (vs : List α) : maskFill (x ++ a) (List.replicate x.length false ++ m) vs = x ++ maskFill a m vs := by
  induction x with
  | nil => rfl
  | cons y x ih => rw [List.length_cons, List.replicate_succ, List.cons_append, List.cons_append, maskFill, ih]; rfl

theorem maskFill_true {x w : List α} (h : w.length = x.length) (a : List α) (m : List Bool) (vs : List α) :
    maskFill (x ++ a) (List.replicate x.length true ++ m) (w ++ vs) = w ++ maskFill a m vs := by
  induction x generalizing w with
  | nil => rw [List.length_eq_zero_iff.1 h]; rfl
  | cons y x ih =>
    cases w with
    | nil => simp at h
    | cons u w =>
      rw [List.length_cons, List.replicate_succ, List.cons_append, List.cons_append, List.cons_append, maskFill, ih (by simpa using h)]; rfl

theorem sum_gapLengths (n : Int) (s : Int) (R : List (Int × Int)) : (R.map Prod.snd).sum + (gapLengths n s R).sum = n - s := by
  induction R generalizing s with
  | nil => simp [gapLengths]
  | cons r R ih =>
    obtain ⟨o, l⟩ := r
    have := ih (o + l)
    simp only [List.map_cons, List.sum_cons, gapLengths] at *
    omega

theorem length_gapLengths (n s : Int) (R : List (Int × Int)) : (gapLengths n s R).length = R.length + 1 := by
  induction R generalizing s with
  | nil => rfl
  | cons r R ih => obtain ⟨o, l⟩ := r; simp [gapLengths, ih]

theorem length_interleave (g l : List β) (h : g.length = l.length + 1) : (interleave g l).length = g.length + l.length := by
  induction g generalizing l with
  | nil => simp at h
  | cons x g ih =>
    cases l with
    | nil =>
      have : g = [] := List.length_eq_zero_iff.1 (by simpa using h)
      subst this; rfl
    | cons y l => simp only [interleave, List.length_cons] at *; rw [ih l (by omega)]; omega

theorem mem_interleave {g l : List β} (h : g.length = l.length + 1) {x : β} : x ∈ interleave g l ↔ x ∈ g ∨ x ∈ l := by
  induction g generalizing l with
  | nil => simp at h
  | cons y g ih =>
    cases l with
    | nil => simp [interleave]
    | cons z l =>
      simp only [interleave, List.mem_cons]
      rw [ih (by simpa using h)]
      tauto

def intR (R : List (Nat × Nat × α)) : List (Int × Int) := R.map (fun r => ((r.1 : Int), (r.2.1 : Int)))

theorem gap_nonneg {n s : Nat} {R : List (Nat × Nat × α)} (h : Asc n s (rng R)) : ∀ g ∈ gapLengths (n : Int) (s : Int) (intR R), 0 ≤ g := by
  induction R generalizing s with
  | nil =>
    have : s ≤ n := h
    intro g hg
    simp only [intR, List.map_nil, gapLengths, List.mem_singleton] at hg
    omega
  | cons r R ih =>
    obtain ⟨o, l, v⟩ := r
    have h1 : s ≤ o := h.1
    have h2 : Asc n (o + l) (rng R) := h.2
    intro g hg
    simp only [intR, List.map_cons, gapLengths, List.mem_cons] at hg
    rcases hg with hg | hg
    · omega
    · exact ih h2 g (by rw [Nat.cast_add]; exact hg)

/-- The mask as lists of repeated values. -/
def maskOf (gs ls : List Int) : List Bool :=
  ((interleave (List.replicate gs.length false) (List.replicate ls.length true)).zip (interleave gs ls)).flatMap (fun e => List.replicate e.2.toNat e.1)

theorem maskOf_cons (g l : Int) (gs ls : List Int) : maskOf (g :: gs) (l :: ls) = List.replicate g.toNat false ++ List.replicate l.toNat true ++ maskOf gs ls := by
  simp [maskOf, interleave, List.replicate_succ]

theorem maskOf_single (g : Int) : maskOf [g] [] = List.replicate g.toNat false := by
  simp [maskOf, interleave]

def lenR (R : List (Nat × Nat × α)) : List Int := R.map (fun r => (r.2.1 : Int))

theorem fill_paint {n s : Nat} {R : List (Nat × Nat × α)} {rest : List α} (h : Asc n s (rng R)) (hrest : rest.length = n - s) :
    maskFill rest (maskOf (gapLengths (n : Int) (s : Int) (intR R)) (lenR R)) (R.flatMap (fun r => List.replicate r.2.1 r.2.2)) = paint R s rest ∧
    (maskOf (gapLengths (n : Int) (s : Int) (intR R)) (lenR R)).length = n - s ∧
    (maskOf (gapLengths (n : Int) (s : Int) (intR R)) (lenR R)).count true = (R.flatMap (fun r => List.replicate r.2.1 r.2.2)).length := by
  induction R generalizing s rest with
  | nil =>
    simp only [intR, lenR, List.map_nil, gapLengths, maskOf_single, List.flatMap_nil, paint, List.length_replicate, List.length_nil]
    have hn : s ≤ n := h
    refine ⟨?_, by omega, ?_⟩
    · rw [show ((n : Int) - s).toNat = rest.length by omega]
      have := maskFill_false rest [] [] ([] : List α)
      simp only [List.append_nil] at this
      rw [this]; simp [maskFill]
    · rw [List.count_replicate]; simp
  | cons r R ih =>
    obtain ⟨o, l, v⟩ := r
    have h1 : s ≤ o := h.1
    have h2 : Asc n (o + l) (rng R) := h.2
    have h3 := h2.le
    obtain ⟨i1, i2, i3⟩ := ih (s := o + l) (rest := rest.drop (o - s + l)) h2 (by rw [List.length_drop]; omega)
    simp only [intR, lenR, List.map_cons, gapLengths, maskOf_cons, List.flatMap_cons, paint] at *
    rw [Nat.cast_add] at i1 i2 i3
    refine ⟨?_, ?_, ?_⟩
    · have e1 : rest = rest.take (o - s) ++ (slice rest (o - s) l ++ rest.drop (o - s + l)) := by
        unfold slice
        rw [← List.drop_drop, List.take_append_drop, List.take_append_drop]
      have e2 : (rest.take (o - s)).length = o - s := by rw [List.length_take]; omega
      have e3 : (slice rest (o - s) l).length = l := length_slice_of_le (by omega)
      conv_lhs => rw [e1]
      rw [show ((o : Int) - s).toNat = (rest.take (o - s)).length by omega, show ((l : Int)).toNat = (slice rest (o - s) l).length by omega, List.append_assoc, List.append_assoc,
        maskFill_false, maskFill_true (by rw [e3]; simp), i1]
    · simp only [List.length_append, List.length_replicate, i2]
      omega
    · rw [List.count_append, List.count_append, i3]
      simp [List.count_replicate]

theorem npRepeat_ok {x : List β} {c : List Int} (h : x.length = c.length) (hc : ∀ r ∈ c, 0 ≤ r) : npRepeat x c = .ok ((x.zip c).flatMap (fun e => List.replicate e.2.toNat e.1)) := by
  unfold npRepeat
  rw [if_neg]
  simp only [not_or, not_not, List.any_eq_true, decide_eq_true_eq, not_exists, not_and]
  exact ⟨h, fun r hr hlt => by have := hc r hr; omega⟩

theorem npRepeat_error {x : List β} {c : List Int} (hc : ∃ r ∈ c, r < 0) : npRepeat x c = .error .valueError := by
  unfold npRepeat
  rw [if_pos]
  right
  simpa using hc

theorem sliceFill_ok {array : List α} {o l : Nat} (h : o + l ≤ array.length) (v : α) : sliceFill array (o : Int) ((o : Int) + l) v = overlay array o (List.replicate l v) := by
  unfold sliceFill sliceBound
  simp only
  rw [if_neg (by omega), if_neg (by omega)]
  congr 1
  · omega
  · congr 1; omega

/-- Both general cases of the code. -/
theorem assignRanges_general {array : List α} {offset length : List Int} {value : List α} (hl1 : offset.length = length.length) (hl2 : length.length = value.length)
    (h2 : 2 ≤ offset.length) : assignRanges array offset length value =
      (match npRepeat (interleave (List.replicate (offset.length + 1) false) (List.replicate length.length true)) (interleave (gapLengths array.length 0 (offset.zip length)) length) with
        | .error e => .error e
        | .ok mask =>
          match npRepeat value length with
          | .error e => .error e
          | .ok values => maskAssignChecked array mask values) := by
  have hs : length.sum + (gapLengths array.length 0 (offset.zip length)).sum = array.length := by
    have := sum_gapLengths (array.length : Int) 0 (offset.zip length)
    rw [List.map_snd_zip (by omega)] at this
    omega
  have hg : (gapLengths (array.length : Int) 0 (offset.zip length)).length = offset.length + 1 := by
    rw [length_gapLengths, List.length_zip]; omega
  unfold assignRanges
  rw [if_neg (by simp [hl1, hl2])]
  match offset, length, value with
  | [], _, _ => simp at h2
  | [_], _, _ => simp at h2
  | o1 :: o2 :: os, ls, vs =>
    simp only
    rw [if_neg (by rw [hs]; simp), hg]
    rfl

theorem assignRanges_ok {array : List α} {R : List (Nat × Nat × α)} (h : RangesOk array.length (rng R)) :
    assignRanges array (R.map (fun r => (r.1 : Int))) (R.map (fun r => (r.2.1 : Int))) (R.map (fun r => r.2.2)) = .ok (assignEach array R) := by
  have hasc := h.asc (s := 0) (by omega) (fun r _ => by omega)
  have hpaint := assignEach_eq_paint (B := []) (rest := array) hasc rfl rfl
  simp only [List.nil_append] at hpaint
  match R, h, hasc, hpaint with
  | [], _, _, _ => rfl
  | [(o, l, v)], h, _, _ =>
    have := h.1 (o, l) (by simp [rng])
    unfold assignRanges
    simp only [List.map_cons, List.map_nil, List.length_cons, List.length_nil, and_self, not_true_eq_false, if_false]
    rw [sliceFill_ok this]
    rfl
  | r1 :: r2 :: R, h, hasc, hpaint =>
    generalize hR : r1 :: r2 :: R = R' at *
    have hz : (R'.map (fun r => (r.1 : Int))).zip (R'.map (fun r => (r.2.1 : Int))) = intR R' := by
      rw [List.zip_map']; rfl
    rw [assignRanges_general (by simp) (by simp) (by rw [← hR]; simp), hz]
    have hgl : (gapLengths (array.length : Int) 0 (intR R')).length = R'.length + 1 := by rw [length_gapLengths]; simp [intR]
    obtain ⟨f1, f2, f3⟩ := fill_paint (rest := array) hasc rfl
    rw [npRepeat_ok]
    · simp only
      rw [npRepeat_ok (by simp) (fun r hr => by obtain ⟨x, _, rfl⟩ := List.mem_map.1 hr; omega)]
      simp only
      have e1 : (((R'.map (fun r => r.2.2)).zip (R'.map (fun r => (r.2.1 : Int)))).flatMap (fun e => List.replicate e.2.toNat e.1)) =
          R'.flatMap (fun r => List.replicate r.2.1 r.2.2) := by
        rw [List.zip_map', List.flatMap_map]
        rfl
      have e2 : ((interleave (List.replicate ((R'.map (fun r => (r.1 : Int))).length + 1) false) (List.replicate (R'.map (fun r => (r.2.1 : Int))).length true)).zip
          (interleave (gapLengths (array.length : Int) 0 (intR R')) (R'.map (fun r => (r.2.1 : Int))))).flatMap (fun e => List.replicate e.2.toNat e.1) =
          maskOf (gapLengths (array.length : Int) 0 (intR R')) (lenR R') := by
        unfold maskOf
        rw [hgl]
        simp [lenR]
      rw [e1, e2]
      unfold maskAssignChecked
      rw [if_neg (by simpa using f2), if_neg (by rw [← f3]; exact fun h => h rfl)]
      rw [hpaint, ← f1]
      rfl
    · rw [length_interleave _ _ (by simp), length_interleave _ _ (by rw [hgl]; simp), hgl]; simp
    · intro r hr
      rw [mem_interleave (by rw [hgl]; simp)] at hr
      rcases hr with hr | hr
      · exact gap_nonneg hasc r hr
      · obtain ⟨x, _, rfl⟩ := List.mem_map.1 hr
        omega

theorem gaps_ok {n : Nat} {s : Int} {R : List (Int × Int)} (hs : 0 ≤ s) (h1 : ∀ g ∈ gapLengths (n : Int) s R, 0 ≤ g) (h2 : ∀ r ∈ R, 0 ≤ r.2) :
    IntRangesOk n R ∧ (∀ r ∈ R, s ≤ r.1) ∧ s ≤ n := by
  induction R generalizing s with
  | nil =>
    have := h1 (n - s) (by simp [gapLengths])
    exact ⟨⟨by simp, by simp⟩, by simp, by omega⟩
  | cons r R ih =>
    obtain ⟨o, l⟩ := r
    have h3 := h1 (o - s) (by simp [gapLengths])
    have h4 := h2 (o, l) (by simp)
    simp only at h4
    obtain ⟨i1, i2, i3⟩ := ih (s := o + l) (by omega) (fun g hg => h1 g (by simp [gapLengths, hg])) (fun r hr => h2 r (by simp [hr]))
    refine ⟨⟨?_, ?_⟩, ?_, by omega⟩
    · intro r hr
      rcases List.mem_cons.1 hr with rfl | hr
      · exact ⟨by simp only; omega, h4, i3⟩
      · exact i1.1 r hr
    · rw [List.pairwise_cons]
      exact ⟨fun r hr => i2 r hr, i1.2⟩
    · intro r hr
      rcases List.mem_cons.1 hr with rfl | hr
      · simp only; omega
      · have := i2 r hr; omega

theorem assignRanges_error {array : List α} {offset length : List Int} {value : List α} (hl1 : offset.length = length.length) (hl2 : length.length = value.length)
    (h2 : 2 ≤ offset.length) (hno : ¬ IntRangesOk array.length (offset.zip length)) : assignRanges array offset length value = .error .valueError := by
  rw [assignRanges_general hl1 hl2 h2]
  rw [npRepeat_error]
  by_contra hc
  apply hno
  have hgl : (gapLengths (array.length : Int) 0 (offset.zip length)).length = length.length + 1 := by rw [length_gapLengths, List.length_zip]; omega
  have hall : ∀ r ∈ interleave (gapLengths (array.length : Int) 0 (offset.zip length)) length, 0 ≤ r := by
    intro r hr
    by_contra hneg
    exact hc ⟨r, hr, by omega⟩
  refine (gaps_ok (Int.le_refl 0) (fun g hg => hall g ((mem_interleave hgl).2 (Or.inl hg))) (fun r hr => hall _ ((mem_interleave hgl).2 (Or.inr ?_)))).1
  obtain ⟨a, b⟩ := r
  exact (List.of_mem_zip hr).2

end Verif
