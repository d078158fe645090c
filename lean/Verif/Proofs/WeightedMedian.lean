import Verif.Model.WeightedMedian
import Verif.Lib.Scatter
import Mathlib.Tactic.Linarith
import Mathlib.Tactic.Ring
import Mathlib.Tactic.FieldSimp
import Mathlib.Algebra.BigOperators.Group.List.Basic
import Mathlib.Algebra.Order.BigOperators.Group.List

namespace Verif

variable {α : Type*}

theorem first_candidate (l : List (α × ℚ)) (acc : ℚ) (hnn : ∀ e ∈ l, 0 ≤ e.2) (hacc : acc < 1 / 2)
    (htot : acc + (l.map Prod.snd).sum = 1) :
    ∃ A e B c t, l = A ++ e :: B ∧
      (l.zip (cumsumFrom acc (l.map Prod.snd))).filter
        (fun e => decide (e.2 - e.1.2 ≤ 1 / 2 ∧ 1 - e.2 ≤ 1 / 2)) = (e, c) :: t ∧
      acc + (A.map Prod.snd).sum < 1 / 2 ∧ 1 / 2 ≤ acc + (A.map Prod.snd).sum + e.2 := by
  induction l generalizing acc with
  | nil => simp at htot; linarith
  | cons x l ih =>
    simp only [List.map_cons, List.sum_cons] at htot
    simp only [List.map_cons, cumsumFrom, List.zip_cons_cons, List.filter_cons]
    by_cases hc : 1 / 2 ≤ acc + x.2
    · have hcond : (acc + x.2 - x.2 ≤ 1 / 2 ∧ 1 - (acc + x.2) ≤ 1 / 2) := by
        constructor <;> linarith
      rw [if_pos (decide_eq_true hcond)]
      exact ⟨[], x, l, _, _, rfl, rfl, by simpa using hacc, by simpa using hc⟩
    · have hc' : acc + x.2 < 1 / 2 := by linarith
      have hcond : ¬ (acc + x.2 - x.2 ≤ 1 / 2 ∧ 1 - (acc + x.2) ≤ 1 / 2) := by
        rintro ⟨_, h⟩; linarith
      rw [if_neg (by simpa using hcond)]
      obtain ⟨A, e, B, c, t, h1, h2, h3, h4⟩ := ih (acc + x.2) (fun e he => hnn e (by simp [he])) hc'
        (by linarith)
      refine ⟨x :: A, e, B, c, t, by simp [h1], h2, ?_, ?_⟩
      · simp only [List.map_cons, List.sum_cons]; linarith
      · simp only [List.map_cons, List.sum_cons]; linarith

theorem zip_fancy [Inhabited α] {β : Type*} [Inhabited β] (a : List α) (b : List β) (idx : List Nat) :
    (fancy a idx).zip (fancy b idx) = idx.map (fun i => (a.getD i default, b.getD i default)) := by
  induction idx with
  | nil => rfl
  | cons i idx ih => simp only [fancy, List.map_cons, List.zip_cons_cons] at *; rw [ih]

theorem map_range_zip [Inhabited α] {β : Type*} [Inhabited β] {a : List α} {b : List β} (h : a.length = b.length) :
    (List.range a.length).map (fun i => (a.getD i default, b.getD i default)) = a.zip b := by
  apply List.ext_getElem?
  intro i
  by_cases hi : i < a.length
  · have hb : i < b.length := h ▸ hi
    rw [List.getElem?_map, List.getElem?_range hi,
      (List.getElem?_zip_eq_some (z := (a[i], b[i]))).2
        ⟨List.getElem?_eq_getElem hi, List.getElem?_eq_getElem hb⟩]
    simp [List.getD_eq_getElem?_getD, List.getElem?_eq_getElem hi, List.getElem?_eq_getElem hb]
  · rw [List.getElem?_eq_none (by simpa using hi), List.getElem?_eq_none (by simp; omega)]

/-- The two halves around the element found, in terms of the sorted (value, weight) pairs. -/
theorem weightedMedian_split [LinearOrder α] [Inhabited α] {arr : List α} {weight : List ℚ}
    (hlen : arr.length = weight.length) (hnn : ∀ w ∈ weight, 0 ≤ w) (hpos : 0 < weight.sum) :
    ∃ A e B, (A ++ e :: B).Perm (arr.zip weight) ∧ (A ++ e :: B).Pairwise (fun x y => x.1 ≤ y.1) ∧
      weightedMedian arr weight = .ok e.1 ∧ 0 < e.2 ∧
      (A.map Prod.snd).sum < weight.sum / 2 ∧ (B.map Prod.snd).sum ≤ weight.sum / 2 := by
  set idx := argsort arr with hidx
  set T := weight.sum with hT
  have hperm := argsort_perm arr
  -- the weights in sorted order have the same sum
  have hzip : ((fancy arr idx).zip (fancy weight idx)).Perm (arr.zip weight) := by
    rw [zip_fancy, ← map_range_zip hlen]
    exact hperm.map _
  have hZs : ((fancy arr idx).zip (fancy weight idx)).Pairwise (fun x y => x.1 ≤ y.1) := by
    have h := fancy_argsort_sorted arr
    have h2 : ((fancy arr idx).zip (fancy weight idx)).map Prod.fst = fancy arr idx :=
      List.map_fst_zip (by simp)
    rw [← hidx, Sorted, ← h2, List.pairwise_map] at h
    exact h
  have hsnd : ((fancy arr idx).zip (fancy weight idx)).map Prod.snd = fancy weight idx :=
    List.map_snd_zip (by simp)
  have hsum : (fancy weight idx).sum = T := by
    rw [← hsnd, (hzip.map Prod.snd).sum_eq, List.map_snd_zip (by omega)]
  have hnn' : ∀ e ∈ (fancy arr idx).zip (fancy weight idx), 0 ≤ e.2 := by
    intro e he
    have := (hzip.mem_iff).1 he
    exact hnn _ (List.of_mem_zip this).2
  -- scaled pairs
  let f : α × ℚ → α × ℚ := fun e => (e.1, e.2 / T)
  have hscale : (fancy arr idx).zip ((fancy weight idx).map (fun w => w / T))
      = ((fancy arr idx).zip (fancy weight idx)).map f := by
    rw [List.zip_map_right]; rfl
  have hsumdiv : ∀ l : List (α × ℚ), ((l.map f).map Prod.snd).sum = (l.map Prod.snd).sum / T := by
    intro l
    induction l with
    | nil => simp
    | cons x l ih => simp only [List.map_cons, List.sum_cons, ih, f]; ring
  have hsnd2 : (((fancy arr idx).zip (fancy weight idx)).map f).map Prod.snd
      = (fancy weight idx).map (fun w => w / T) := by
    rw [← hscale]; exact List.map_snd_zip (by simp)
  have htot : (0 : ℚ) + ((((fancy arr idx).zip (fancy weight idx)).map f).map Prod.snd).sum = 1 := by
    rw [hsumdiv, hsnd, hsum, zero_add, div_self (ne_of_gt hpos)]
  have hnnf : ∀ e ∈ ((fancy arr idx).zip (fancy weight idx)).map f, 0 ≤ e.2 := by
    intro e he
    obtain ⟨e', he', rfl⟩ := List.mem_map.1 he
    exact div_nonneg (hnn' e' he') (le_of_lt hpos)
  obtain ⟨A, e, B, c, t, h1, h2, h3, h4⟩ := first_candidate _ 0 hnnf (by norm_num) htot
  -- pull back the split
  obtain ⟨A', R', h5, h6, h7⟩ := List.map_eq_append_iff.1 h1
  obtain ⟨e', B', h8, h9, h10⟩ := List.map_eq_cons_iff.1 h7
  have hres : weightedMedian arr weight = .ok e.1 := by
    unfold weightedMedian
    simp only
    rw [← hidx, hsum, hscale, ← hsnd2, h2]
  have hZ : (fancy arr idx).zip (fancy weight idx) = A' ++ e' :: B' := by rw [h5, h8]
  have hAsum : (A.map Prod.snd).sum = (A'.map Prod.snd).sum / T := by rw [← h6, hsumdiv]
  have hBsum : (B.map Prod.snd).sum = (B'.map Prod.snd).sum / T := by rw [← h10, hsumdiv]
  have he2 : e.2 = e'.2 / T := by rw [← h9]
  have htot' : (A'.map Prod.snd).sum + (e'.2 + (B'.map Prod.snd).sum) = T := by
    rw [← hsum, ← hsnd, hZ]; simp
  rw [hAsum, zero_add] at h3 h4
  rw [he2] at h4
  have h3' : (A'.map Prod.snd).sum < T / 2 := by
    rw [div_lt_iff₀ hpos] at h3; linarith
  have h4' : T / 2 ≤ (A'.map Prod.snd).sum + e'.2 := by
    rw [← add_div, le_div_iff₀ hpos] at h4; linarith
  refine ⟨A', e', B', hZ ▸ hzip, hZ ▸ hZs, ?_, by linarith, h3', by linarith⟩
  rw [hres, ← h9]

end Verif
