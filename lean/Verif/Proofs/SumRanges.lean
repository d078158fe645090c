import Verif.Proofs.Ranges
import Mathlib.Algebra.BigOperators.Group.List.Basic

set_option linter.unusedSectionVars false

namespace Verif

variable {α β : Type*}

def masked (a : List α) (mask : List Bool) : List α := (a.zip mask).filterMap (fun e => if e.2 then some e.1 else none)

theorem masked_append {a : List α} {m : List Bool} (h : a.length = m.length) (a' : List α) (m' : List Bool) : masked (a ++ a') (m ++ m') = masked a m ++ masked a' m' := by
  unfold masked
  rw [List.zip_append h, List.filterMap_append]

theorem masked_false (a : List α) (n : Nat) : masked a (List.replicate n false) = [] := by
  unfold masked
  rw [List.filterMap_eq_nil_iff]
  rintro ⟨x, b⟩ h
  have := (List.of_mem_zip h).2
  rw [List.eq_of_mem_replicate this]
  rfl

theorem masked_true (a : List α) : masked a (List.replicate a.length true) = a := by
  induction a with
  | nil => rfl
  | cons x a ih =>
    unfold masked at *
    rw [List.length_cons, List.replicate_succ, List.zip_cons_cons, List.filterMap_cons, ih]
    rfl

def withTrue (R : List (Nat × Nat)) : List (Nat × Nat × Bool) := R.map (fun r => (r.1, r.2, true))

theorem rng_withTrue (R : List (Nat × Nat)) : rng (withTrue R) = R := by
  unfold rng withTrue
  rw [List.map_map]
  exact List.map_id R

theorem Asc.mem_ge {n s : Nat} {R : List (Nat × Nat)} (h : Asc n s R) : ∀ r ∈ R, s ≤ r.1 := by
  induction R generalizing s with
  | nil => simp
  | cons r R ih =>
    obtain ⟨o, l⟩ := r
    intro r hr
    rcases List.mem_cons.1 hr with rfl | hr
    · exact h.1
    · have := ih h.2 r hr
      have := h.1
      omega

theorem masked_paint {n s : Nat} {R : List (Nat × Nat)} {rest : List α} (h : Asc n s R) (hrest : rest.length = n - s) :
    masked rest (paint (withTrue R) s (List.replicate (n - s) false)) = R.flatMap (fun r => slice rest (r.1 - s) r.2) := by
  induction R generalizing s rest with
  | nil =>
    simp only [withTrue, List.map_nil, paint, masked_false, List.flatMap_nil]
  | cons r R ih =>
    obtain ⟨o, l⟩ := r
    have h1 : s ≤ o := h.1
    have h2 : Asc n (o + l) R := h.2
    have h3 := h2.le
    have i := ih (s := o + l) (rest := rest.drop (o - s + l)) h2 (by rw [List.length_drop]; omega)
    simp only [withTrue, List.map_cons, paint, List.flatMap_cons] at *
    rw [List.take_replicate, List.drop_replicate, show min (o - s) (n - s) = o - s by omega, show n - s - (o - s + l) = n - (o + l) by omega]
    have e1 : rest = (rest.take (o - s) ++ slice rest (o - s) l) ++ rest.drop (o - s + l) := by
      unfold slice
      rw [← List.drop_drop, List.append_assoc, List.take_append_drop, List.take_append_drop]
    have e2 : (rest.take (o - s)).length = o - s := by rw [List.length_take]; omega
    have e3 : (slice rest (o - s) l).length = l := length_slice_of_le (by omega)
    conv_lhs => rw [e1]
    rw [masked_append (by simp [e2, e3]), masked_append (by simp [e2]), masked_false, i]
    have e4 : masked (slice rest (o - s) l) (List.replicate l true) = slice rest (o - s) l := by
      conv_lhs => rw [← e3]
      rw [e3]
      have := masked_true (slice rest (o - s) l)
      rwa [e3] at this
    rw [e4, List.nil_append]
    congr 1
    have hge := h2.mem_ge
    clear ih i e1 e4 h h2
    induction R with
    | nil => rfl
    | cons r R ihR =>
      have := hge r (by simp)
      rw [List.flatMap_cons, List.flatMap_cons, ihR (fun r hr => hge r (by simp [hr]))]
      congr 1
      unfold slice
      rw [List.drop_drop]
      congr 2
      omega

theorem masked_assign {R : List (Nat × Nat)} {a : List α} (h : RangesOk a.length R) :
    masked a (assignEach (List.replicate a.length false) (withTrue R)) = R.flatMap (fun r => slice a r.1 r.2) := by
  have hasc := h.asc (s := 0) (by omega) (fun r _ => by omega)
  have := assignEach_eq_paint (n := a.length) (s := 0) (R := withTrue R) (B := []) (rest := List.replicate a.length false) (by rw [rng_withTrue]; exact hasc) rfl (by simp)
  simp only [List.nil_append] at this
  rw [this]
  exact masked_paint (s := 0) hasc rfl

/-! ### reduceat -/

def startsOf : Nat → List (List α) → List Nat
  | _, [] => []
  | s, L :: Ls => s :: startsOf (s + L.length) Ls

theorem reduceat_ok [AddMonoid α] (B : List α) (Ls : List (List α)) (hne : ∀ L ∈ Ls, L ≠ []) : reduceat (B ++ Ls.flatten) (startsOf B.length Ls) = .ok (Ls.map List.sum) := by
  induction Ls generalizing B with
  | nil => rfl
  | cons L Ls ih =>
    have hL := List.length_pos_of_ne_nil (hne L (by simp))
    cases Ls with
    | nil =>
      simp only [startsOf, reduceat, List.flatten_cons, List.flatten_nil, List.append_nil, List.map_cons, List.map_nil]
      rw [if_pos (by rw [List.length_append]; omega), List.drop_left]
    | cons L' Ls =>
      have := ih (B ++ L) (fun M hM => hne M (by simp [hM]))
      simp only [startsOf, List.length_append, List.flatten_cons, List.append_assoc] at this
      simp only [startsOf, reduceat, List.flatten_cons]
      rw [if_pos (by simp only [List.length_append]; omega), this]
      simp only
      rw [if_pos (by omega)]
      congr 2
      rw [show B.length + L.length - B.length = L.length by omega]
      unfold slice
      rw [List.drop_left, List.take_left]

theorem startsOf_eq (s : Nat) (Ls : List (List α)) (ls : List Int) (h : ls = Ls.map (fun L => (L.length : Int))) :
    (List.range ls.length).map (fun k => s + ((ls.take k).sum).toNat) = startsOf s Ls := by
  induction Ls generalizing s ls with
  | nil => subst h; rfl
  | cons L Ls ih =>
    subst h
    rw [List.map_cons, List.length_cons, List.range_succ_eq_map, List.map_cons, List.map_map, startsOf]
    simp only [List.take_zero, List.sum_nil, Int.toNat_zero, Nat.add_zero]
    congr 1
    rw [← ih (s + L.length) _ rfl]
    apply List.map_congr_left
    intro k hk
    simp only [Function.comp_apply, Nat.succ_eq_add_one, List.take_succ_cons, List.sum_cons]
    have : 0 ≤ ((Ls.map (fun L => (L.length : Int))).take k).sum := by
      apply List.sum_nonneg
      intro x hx
      obtain ⟨M, _, rfl⟩ := List.mem_map.1 (List.mem_of_mem_take hx)
      omega
    omega

theorem reduceat_slices [AddMonoid α] {Ls : List (List α)} {ls : List Int} (h : ls = Ls.map (fun L => (L.length : Int))) (hne : ∀ L ∈ Ls, L ≠ []) :
    reduceat Ls.flatten ((List.range ls.length).map (fun k => ((ls.take k).sum).toNat)) = .ok (Ls.map List.sum) := by
  have h1 := startsOf_eq 0 Ls ls h
  simp only [Nat.zero_add] at h1
  rw [h1]
  exact reduceat_ok [] Ls hne

theorem fill_filter (R : List β) (p : β → Bool) (f : β → α) (z : α) :
    maskFill (List.replicate R.length z) (R.map p) ((R.filter p).map f) = R.map (fun r => if p r then f r else z) := by
  induction R with
  | nil => rfl
  | cons r R ih =>
    rw [List.length_cons, List.replicate_succ, List.map_cons, List.map_cons]
    cases hp : p r with
    | false => rw [List.filter_cons_of_neg (by simp [hp]), maskFill, ih]; simp
    | true => rw [List.filter_cons_of_pos hp, List.map_cons, maskFill, ih]; simp

theorem zip_flatMap_mul {γ : Type*} (R : List γ) (f : γ → List α) (g : γ → List β) (op : α × β → α) (h : ∀ r ∈ R, (f r).length = (g r).length) :
    ((R.flatMap f).zip (R.flatMap g)).map op = (R.map (fun r => List.zipWith (fun x y => op (x, y)) (f r) (g r))).flatten := by
  induction R with
  | nil => rfl
  | cons r R ih =>
    rw [List.flatMap_cons, List.flatMap_cons, List.zip_append (h r (by simp)), List.map_append, ih (fun r hr => h r (by simp [hr])), List.map_cons, List.flatten_cons]
    congr 1
    rw [List.zip, List.map_zipWith]

theorem sumRanges_ok [Field α] {array : List α} {R : List (Nat × Nat)} (h : RangesOk array.length R) (weight : Option (List α)) (hw : ∀ w, weight = some w → w.length = array.length)
    (normalize : Bool) : sumRanges array (R.map (fun r => (r.1 : Int))) (R.map (fun r => (r.2 : Int))) weight normalize =
      .ok (R.map (fun r => rangeSum array weight normalize r.1 r.2)) := by
  have hnz : RangesOk array.length (R.filter (fun r => decide (0 < r.2))) :=
    ⟨fun r hr => h.1 r (List.mem_filter.1 hr).1, List.Pairwise.filter _ h.2⟩
  have hlen : ∀ (a : List α), a.length = array.length → ∀ r ∈ R, (slice a r.1 r.2).length = r.2 := by
    intro a ha r hr
    exact length_slice_of_le (by rw [ha]; exact h.1 r hr)
  have hind : (R.map (fun r => (r.2 : Int))).map (fun l => decide (l > 0)) = R.map (fun r => decide (0 < r.2)) := by
    rw [List.map_map]
    apply List.map_congr_left
    intro r _
    simp
  have hoff : ((R.map (fun r => (r.1 : Int))).zip (R.map (fun r => decide (0 < r.2)))).filterMap (fun e => if e.2 then some e.1 else none) =
      (R.filter (fun r => decide (0 < r.2))).map (fun r => (r.1 : Int)) := by
    clear h hw hnz hlen hind
    induction R with
    | nil => rfl
    | cons r R ih =>
      rw [List.map_cons, List.map_cons, List.zip_cons_cons, List.filterMap_cons, ih]
      by_cases hr : 0 < r.2
      · simp [hr]
      · simp [hr]
  have hlnz : (R.map (fun r => (r.2 : Int))).filter (fun l => decide (l > 0)) = (R.filter (fun r => decide (0 < r.2))).map (fun r => (r.2 : Int)) := by
    rw [List.filter_map]
    congr 1
    apply List.filter_congr
    intro r _
    simp
  have hassign : assignRanges (List.replicate array.length false) ((R.filter (fun r => decide (0 < r.2))).map (fun r => (r.1 : Int)))
      ((R.filter (fun r => decide (0 < r.2))).map (fun r => (r.2 : Int))) (List.replicate ((R.filter (fun r => decide (0 < r.2))).map (fun r => (r.1 : Int))).length true) =
      .ok (assignEach (List.replicate array.length false) (withTrue (R.filter (fun r => decide (0 < r.2))))) := by
    rw [← assignRanges_ok (by rw [rng_withTrue, List.length_replicate]; exact hnz)]
    unfold withTrue
    simp only [List.map_map, List.length_map]
    congr 1
    symm
    rw [List.eq_replicate_iff]
    exact ⟨by simp, by simp⟩
  have hmask : ∀ a : List α, a.length = array.length →
      (a.zip (assignEach (List.replicate array.length false) (withTrue (R.filter (fun r => decide (0 < r.2)))))).filterMap (fun e => if e.2 then some e.1 else none) =
        (R.filter (fun r => decide (0 < r.2))).flatMap (fun r => slice a r.1 r.2) := by
    intro a ha
    have := masked_assign (a := a) (R := R.filter (fun r => decide (0 < r.2))) (by rw [ha]; exact hnz)
    rw [ha] at this
    exact this
  have hred : ∀ f : Nat × Nat → List α, (∀ r ∈ R, (f r).length = r.2) →
      reduceat ((R.filter (fun r => decide (0 < r.2))).map f).flatten
        ((List.range ((R.filter (fun r => decide (0 < r.2))).map (fun r => (r.2 : Int))).length).map
          (fun k => ((((R.filter (fun r => decide (0 < r.2))).map (fun r => (r.2 : Int))).take k).sum).toNat)) =
      .ok ((R.filter (fun r => decide (0 < r.2))).map (fun r => (f r).sum)) := by
    intro f hf
    rw [reduceat_slices (Ls := (R.filter (fun r => decide (0 < r.2))).map f)]
    · rw [List.map_map]; rfl
    · rw [List.map_map]
      apply List.map_congr_left
      intro r hr
      simp only [Function.comp_apply, hf r (List.mem_filter.1 hr).1]
    · intro L hL
      obtain ⟨r, hr, rfl⟩ := List.mem_map.1 hL
      obtain ⟨hr1, hr2⟩ := List.mem_filter.1 hr
      apply List.ne_nil_of_length_pos
      rw [hf r hr1]
      simpa using hr2
  have hfin : ∀ f : Nat × Nat → α, fillNonzero (List.replicate (R.map (fun r => (r.1 : Int))).length (0 : α)) (R.map (fun r => decide (0 < r.2)))
      ((R.filter (fun r => decide (0 < r.2))).map f) = R.map (fun r => if 0 < r.2 then f r else 0) := by
    intro f
    unfold fillNonzero
    rw [List.length_map, fill_filter]
    simp
  have hzero : ∀ f : Nat × Nat → α, (∀ r ∈ R, r.2 = 0 → f r = 0) → R.map (fun r => if 0 < r.2 then f r else 0) = R.map f := by
    intro f hf
    apply List.map_congr_left
    intro r hr
    by_cases h0 : 0 < r.2
    · rw [if_pos h0]
    · rw [if_neg h0, hf r hr (by omega)]
  have hnil : ∀ (a : List α) (r : Nat × Nat), r.2 = 0 → slice a r.1 r.2 = [] := by
    intro a r hr
    unfold slice
    rw [hr, List.take_zero]
  unfold sumRanges
  simp only [hind, hoff, hlnz, hassign]
  cases weight with
  | none =>
    simp only
    rw [hmask array rfl, List.flatMap_def, hred _ (hlen array rfl)]
    simp only
    cases normalize with
    | false =>
      rw [if_neg (by simp), hfin, hzero]
      · rfl
      · intro r _ h0
        rw [hnil _ r h0, List.sum_nil]
    | true =>
      rw [if_pos rfl, List.zip_map', List.map_map, hfin, hzero]
      · congr 1
        apply List.map_congr_left
        intro r _
        simp [rangeSum]
      · intro r _ h0
        simp [hnil _ r h0]
  | some w =>
    have hwl := hw w rfl
    simp only
    rw [if_neg (by simp [hwl]), hmask array rfl, hmask w hwl, zip_flatMap_mul _ _ _ (fun e => e.1 * e.2) (fun r hr => by
      rw [hlen array rfl r (List.mem_filter.1 hr).1, hlen w hwl r (List.mem_filter.1 hr).1])]
    rw [hred _ (fun r hr => by rw [List.length_zipWith, hlen array rfl r hr, hlen w hwl r hr, Nat.min_self])]
    simp only
    cases normalize with
    | false =>
      rw [if_neg (by simp), hfin, hzero]
      · rfl
      · intro r _ h0
        rw [hnil _ r h0]; simp
    | true =>
      rw [if_pos rfl, List.flatMap_def, hred _ (hlen w hwl)]
      simp only
      rw [List.zip_map', List.map_map, hfin, hzero]
      · rfl
      · intro r _ h0
        simp [hnil _ r h0]

end Verif
