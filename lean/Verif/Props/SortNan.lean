import Verif.Proofs.SortNan
import Verif.Props.ParallelSort
import Mathlib.Order.WithBot

/-! C135: `parallel_sort` of arrays with NaN -/

namespace Verif.SortNan

variable {α : Type*} [LinearOrder α] [Inhabited α] [OrderTop α]

theorem below_top (l : List α) : l.countP (fun x => decide (x < ⊤)) + l.count ⊤ = l.length := by
  induction l with
  | nil => rfl
  | cons x l ih =>
    rw [List.countP_cons, List.count_cons, List.length_cons]
    by_cases hx : x = ⊤
    · subst hx
      simp only [lt_irrefl, decide_false, beq_self_eq_true, if_true, Bool.false_eq_true, if_false]; omega
    · rw [if_pos (by simpa using lt_top_iff_ne_top.2 hx), if_neg (by simpa using hx)]; omega

theorem gcat_count (a : Nat → List α) (v : α) (Q : Nat) : (gcat Q a).count v = pre (fun p => (a p).count v) Q := by
  induction Q with
  | zero => rfl
  | succ Q ih => rw [gcat_succ, List.count_append, ih, pre_succ]

theorem sorted_perm (arr : Nat → List α) (Q : Nat) : (gcat Q (fun p => fancy (arr p) (argsort (arr p)))).Perm (gcat Q arr) :=
  perm_gcat (fun p _ => fancy_argsort_perm (arr p))

theorem splits {fuel Q : Nat} {arr : Nat → List α} (hQ : 0 < Q) (hne : ∀ p < Q, 0 < (arr p).length) (hfuel : (gcat Q arr).length ≤ fuel) :
    ∃ out, findSplittingPoints fuel Q Q (fun i => (pre (sizes arr) i : Int)) (fun p => fancy (arr p) (argsort (arr p))) = .ok out ∧
      ∀ i < Q, ∃ (v : α) (mn mx : Int), (∀ p < Q, out p i = (v, mn, mx)) ∧ mn = ((gcat Q arr).countP (fun x => decide (x < v)) : Nat) ∧ mn ≤ pre (sizes arr) i := by
  have hp := sorted_perm arr Q
  obtain ⟨out, h1, h2⟩ := C03_find_splitting_points Q Q fuel (fun i => (pre (sizes arr) i : Int)) (fun p => fancy (arr p) (argsort (arr p))) hQ (fun p _ => fancy_argsort_sorted (arr p))
    (fun i hi => ⟨by omega, by
      rw [hp.length_eq, length_gcat]
      have := pre_mono (sizes arr) (show i + 1 ≤ Q from hi)
      have h3 := hne i hi
      rw [pre_succ] at this
      have : sizes arr i = (arr i).length := rfl
      omega⟩) (by rw [hp.length_eq]; exact hfuel)
  refine ⟨out, h1, fun i hi => ?_⟩
  obtain ⟨v, mn, mx, e1, -, e2, -, e3, -⟩ := h2 i hi
  exact ⟨v, mn, mx, e1, by rw [e2, hp.countP_eq], e3⟩

theorem sub_few {fuel Q : Nat} {arr : Nat → List α} (hQ : 0 < Q) (hne : ∀ p < Q, 0 < (arr p).length) (hfuel : (gcat Q arr).length ≤ fuel) (h : (gcat Q arr).count ⊤ ≤ (arr (Q - 1)).length) :
    sortSub neNan (findSplittingPoints fuel) Q arr = parallelSortSub fuel Q arr := by
  obtain ⟨out, h1, h2⟩ := splits hQ hne hfuel
  rw [parallelSortSub_eq]
  unfold sortSub
  simp only [h1]
  refine exchange_congr (fun p hp => sendCount_eq (fun r hr => ?_))
  obtain ⟨v, mn, mx, e1, e2, e3⟩ := h2 (r + 1) hr
  simp only [e1 p hp]
  have hlow : ∀ q < p, out q (r + 1) = (v, mn, mx) := fun q hq => e1 q (by omega)
  by_cases hv : v = ⊤
  · subst hv
    have hm := below_top (gcat Q arr)
    rw [length_gcat] at hm
    obtain ⟨k, rfl⟩ : ∃ k, Q = k + 1 := ⟨Q - 1, by omega⟩
    rw [pre_succ] at hm
    have hs : sizes arr k = (arr (k + 1 - 1)).length := rfl
    have := pre_mono (sizes arr) (show r + 1 ≤ k by omega)
    have h0 : (pre (sizes arr) (r + 1) : Int) - mn = 0 := by omega
    rw [h0]
    exact lastToSend_top (fancy_argsort_sorted (arr p)) _ _
  · rw [lastToSend_eq (neNan_of_ne hv)]
    congr 1
    refine pre_congr (fun q hq => ?_)
    rw [hlow q hq]
    exact nvalLocal_eq (neNan_of_ne hv)

theorem sub_many {fuel Q : Nat} {arr : Nat → List α} (hQ : 0 < Q) (hne : ∀ p < Q, 0 < (arr p).length) (hfuel : (gcat Q arr).length ≤ fuel) (h : (arr (Q - 1)).length < (gcat Q arr).count ⊤) :
    sortSub neNan (findSplittingPoints fuel) Q arr = .error .valueError := by
  obtain ⟨out, h1, -⟩ := splits hQ hne hfuel
  unfold sortSub
  simp only [h1]
  have hl := hne (Q - 1) (by omega)
  have hsum : ∀ c : Nat → Nat → Nat, (∀ p, (arr p).count ⊤ ≤ c p (Q - 1)) → exchange Q arr c = .error .valueError := by
    intro c hc
    have := pre_le_pre (P := Q) (f := fun p => (arr p).count ⊤) (g := fun p => c p (Q - 1)) (fun p _ => hc p)
    rw [← gcat_count] at this
    exact exchange_fails (d := Q - 1) (by omega) (by omega) (by omega)
  refine hsum _ (fun p => ?_)
  have hs := fancy_argsort_sorted (arr p)
  refine le_trans ?_ (sendCount_last hs hQ (by show (arr (Q - 1)).length ≠ 0; omega) _ _ _)
  rw [ssLeft_eq hs, (fancy_argsort_perm (arr p)).length_eq, (fancy_argsort_perm (arr p)).countP_eq]
  have := below_top (arr p)
  omega

theorem members_last {P L : Nat} {arr : Nat → List α} (hL : L < P) (h0 : arr L ≠ []) (hlast : ∀ q, L < q → q < P → arr q = []) : psMembers P arr = psMembers L arr ++ [L] := by
  obtain ⟨d, rfl⟩ : ∃ d, P = L + (d + 1) := ⟨P - L - 1, by omega⟩
  unfold psMembers
  rw [List.range_add, List.filter_append, List.range_succ_eq_map]
  congr 1
  rw [List.map_cons, List.filter_cons, if_pos (by simpa using List.length_pos_iff.2 h0)]
  congr 1
  rw [List.filter_eq_nil_iff]
  intro q hq
  simp only [List.map_map, List.mem_map, List.mem_range, Function.comp_apply] at hq
  obtain ⟨j, hj, rfl⟩ := hq
  rw [hlast _ (by omega) (by omega)]
  simp

/-- C135: the array is sorted, with NaN after all other numbers, if the NaN fit on the last rank which has data. Otherwise the program stops with an error. -/
theorem C135_nan (P fuel : Nat) (arr : Nat → List α) (hfuel : (gcat P arr).length ≤ fuel) {L : Nat} (hL : L < P) (h0 : arr L ≠ []) (hlast : ∀ q, L < q → q < P → arr q = []) :
    ((gcat P arr).count ⊤ ≤ (arr L).length → ∃ out, sort neNan (findSplittingPoints fuel) P arr = .ok out ∧
      (∀ p < P, (out p).1.length = (arr p).length ∧ (out p).2.length = (arr p).length) ∧
      (gcat P (fun p => (out p).1)).Perm (gcat P arr) ∧
      (gcat P (fun p => (out p).1)).Pairwise (· ≤ ·) ∧
      (gcat P (fun p => (out p).2)).map (fun i => (gcat P arr)[i]?) = (gcat P (fun p => (out p).1)).map some) ∧
    ((arr L).length < (gcat P arr).count ⊤ → sort neNan (findSplittingPoints fuel) P arr = .error .valueError) := by
  have hM := members_last hL h0 hlast
  have hg : gcat (psMembers P arr).length (fun q => arr ((psMembers P arr).getD q 0)) = gcat P arr :=
    gcat_members P arr arr (fun p _ h => List.eq_nil_of_length_eq_zero h)
  have hQ : 0 < (psMembers P arr).length := by rw [hM]; simp
  have hne : ∀ q < (psMembers P arr).length, 0 < (arr ((psMembers P arr).getD q 0)).length := by
    intro q hq
    have : (psMembers P arr).getD q 0 ∈ psMembers P arr := by
      rw [List.getD_eq_getElem?_getD, List.getElem?_eq_getElem hq]
      exact List.getElem_mem hq
    exact (mem_psMembers.1 this).2
  have hl : (psMembers P arr).getD ((psMembers P arr).length - 1) 0 = L := by rw [hM]; simp
  refine ⟨fun h => ?_, fun h => ?_⟩
  · have := sub_few (fuel := fuel) hQ hne (by rw [hg]; exact hfuel) (by rw [hg, hl]; exact h)
    have he : sort neNan (findSplittingPoints fuel) P arr = parallelSort fuel P arr := by
      unfold sort parallelSort
      simp only
      rw [this]
      rfl
    rw [he]
    obtain ⟨out, e1, e2, e3, e4⟩ := C01_parallel_sort P fuel arr hfuel
    obtain ⟨out', e1', e5, -, e6, -⟩ := C02_parallel_sort_index P fuel arr hfuel
    obtain rfl : out = out' := by rw [e1] at e1'; injection e1'
    exact ⟨out, e1, fun p hp => ⟨e2 p hp, e5 p hp⟩, e3, e4, e6⟩
  · have := sub_many (fuel := fuel) hQ hne (by rw [hg]; exact hfuel) (by rw [hg, hl]; exact h)
    unfold sort
    simp only
    rw [this]

/-! ### Examples -/

namespace ExSortNan

/-- Numbers and NaN -/
def few : Nat → List (WithTop Nat)
  | 0 => [3, ⊤, 1]
  | 1 => [2, 7]
  | _ => [⊤, 0]

def many : Nat → List (WithTop Nat)
  | 0 => [3, ⊤, 1]
  | 1 => [⊤, 7]
  | _ => [⊤, 0]

/-- Two NaN fit on the last of three ranks. -/
example : ∃ out, sort neNan (findSplittingPoints 7) 3 few = .ok out := by
  obtain ⟨out, h, -⟩ := (C135_nan 3 7 few (by decide) (L := 2) (by decide) (by decide) (by omega)).1 (by decide)
  exact ⟨out, h⟩

example : (match sort neNan (findSplittingPoints 7) 3 few with
    | .ok out => (List.range 3).map out
    | .error _ => []) = [([0, 1, 2], [6, 2, 3]), ([3, 7], [0, 4]), ([⊤, ⊤], [1, 5])] := by decide +kernel

/-- Three do not. -/
example : sort neNan (findSplittingPoints 7) 3 many = .error .valueError :=
  (C135_nan 3 7 many (by decide) (L := 2) (by decide) (by decide) (by omega)).2 (by decide)

/-- The same array is sorted where NaN equals itself. -/
example : ∃ out, parallelSort 7 3 many = .ok out := by
  obtain ⟨out, h, -⟩ := C01_parallel_sort 3 7 many (by decide)
  exact ⟨out, h⟩

end ExSortNan

end Verif.SortNan
