import Verif.Proofs.RoundedLog
import Verif.Props.SortNan

/-! C136: `parallel_sort` with weights in floating point arithmetic -/

namespace Verif.Double

/-- Rounding of a positive number -/
def roundPos (x : ℚ) : ℚ := round (x / 2 ^ (Int.log 2 x - 52)) * 2 ^ (Int.log 2 x - 52)

/-- Rounding to 53 bits -/
def roundDouble (x : ℚ) : ℚ := if 0 < x then roundPos x else if x < 0 then -roundPos (-x) else 0

theorem roundPos_ok {x : ℚ} (hx : 0 < x) : IsDouble (roundPos x) ∧ ∀ y, IsDouble y → |roundPos x - x| ≤ |y - x| := by
  obtain ⟨n, k, h1, h2, h3, h4, -⟩ := near hx
  have hn : Int.log 2 x = n := by
    have a : (2 : ℚ) ^ Int.log 2 x ≤ x := by exact_mod_cast Int.zpow_log_le_self (b := 2) (by norm_num) hx
    have b : x < 2 ^ (Int.log 2 x + 1) := by exact_mod_cast Int.lt_zpow_succ_log_self (b := 2) (by norm_num) x
    have c := (zpow_lt_zpow_iff_right₀ (by norm_num : (1 : ℚ) < 2)).1 (lt_of_le_of_lt a h2)
    have d := (zpow_lt_zpow_iff_right₀ (by norm_num : (1 : ℚ) < 2)).1 (lt_of_le_of_lt h1 b)
    omega
  have hr : roundPos x = k * 2 ^ (n - 52) := by unfold roundPos; rw [hn, h3]
  have hp := zpow_pos' (n - 52)
  have hgrid : ∀ j : ℤ, |roundPos x - x| ≤ |j * 2 ^ (n - 52) - x| := by
    intro j
    have h := round_le (x / 2 ^ (n - 52)) j
    have e : ∀ z : ℤ, |(z : ℚ) * 2 ^ (n - 52) - x| = |x / 2 ^ (n - 52) - z| * 2 ^ (n - 52) := by
      intro z
      have : (z : ℚ) * 2 ^ (n - 52) - x = -((x / 2 ^ (n - 52) - z) * 2 ^ (n - 52)) := by field_simp; ring
      rw [this, abs_neg, abs_mul, abs_of_pos hp]
    rw [hr, e, e, h3]
    exact mul_le_mul_of_nonneg_right h hp.le
  refine ⟨hr ▸ isDouble_grid _ h4, fun y hy => ?_⟩
  by_cases hyn : 2 ^ n ≤ y
  · obtain ⟨j, rfl⟩ := hy.multiple hyn
    exact hgrid j
  · have h5 := hgrid (2 ^ 52)
    have e : (((2 ^ 52 : ℤ)) : ℚ) * 2 ^ (n - 52) = 2 ^ n := by
      rw [Int.cast_pow, Int.cast_ofNat, ← zpow_natCast, ← zpow_add₀ (by norm_num)]
      congr 1
      omega
    rw [e] at h5
    refine h5.trans ?_
    rw [abs_of_nonpos (by linarith), abs_of_nonpos (by linarith)]
    linarith

/-- There is such a rounding. -/
theorem nearest_roundDouble : Nearest roundDouble := by
  intro x
  unfold roundDouble
  split
  · exact roundPos_ok ‹_›
  · split
    · obtain ⟨⟨m, e, h1, h2⟩, h3⟩ := roundPos_ok (x := -x) (by linarith)
      refine ⟨⟨-m, e, by rwa [abs_neg], by rw [h2]; push_cast; ring⟩, ?_⟩
      rintro y ⟨m', e', h4, rfl⟩
      have := h3 (-(m' * 2 ^ e')) ⟨-m', e', by rwa [abs_neg], by push_cast; ring⟩
      rw [show -roundPos (-x) - x = -(roundPos (-x) - -x) by ring, abs_neg, show (m' : ℚ) * 2 ^ e' - x = -(-(m' * 2 ^ e') - -x) by ring, abs_neg]
      exact this
    · have : x = 0 := by linarith
      subst this
      exact ⟨isDouble_zero, fun y _ => by simp⟩

/-- A sum from left to right -/
def leftSum (fl : ℚ → ℚ) : List ℚ → ℚ
  | [] => 0
  | x :: l => l.foldl (fun a b => fl (a + b)) x

theorem leftSum_tree (fl : ℚ → ℚ) (l : List ℚ) (h : l ≠ []) : SumTree fl l (leftSum fl l) := by
  match l, h with
  | x :: l, _ =>
    have : ∀ (l pr : List ℚ) (a : ℚ), SumTree fl pr a → SumTree fl (pr ++ l) (l.foldl (fun a b => fl (a + b)) a) := by
      intro l
      induction l with
      | nil => intro pr a h; simpa using h
      | cons y l ih =>
        intro pr a h
        have := ih (pr ++ [y]) _ (.add h (.one y) (List.Perm.refl _))
        simpa using this
    exact this l [x] x (.one x)

end Verif.Double

namespace Verif.Rounded

open Double

variable {α : Type*} [LinearOrder α] [Inhabited α] {fl : ℚ → ℚ} {sum : List ℚ → ℚ}

/-- C136: with weights in floating point arithmetic, some element with a positive weight still qualifies as the median. For fewer than 2^40 elements those on either side have at most 52 percent of the weight. -/
theorem C136_weighted_median (hf : Nearest fl) (hsum : ∀ l, l ≠ [] → SumTree fl l (sum l)) {arr : List α} {weight : List ℚ} (hlen : arr.length = weight.length) (hn : arr.length < 2 ^ 51)
    (hw : ∀ w ∈ weight, IsDouble w ∧ 0 ≤ w) (hpos : ∃ w ∈ weight, 0 < w) :
    ∃ (m : α) (k : Nat) (w : ℚ), weightedMedian fl sum arr weight = .ok m ∧ arr[k]? = some m ∧ weight[k]? = some w ∧ 0 < w ∧
      (arr.length < 2 ^ 40 → Spec.weightBelow arr weight m ≤ 13 / 25 * weight.sum ∧ Spec.weightAbove arr weight m ≤ 13 / 25 * weight.sum) := by
  obtain ⟨m, k, w, h1, h2, h3, h4⟩ := weightedMedian_ok hf hsum hlen hn hw hpos
  refine ⟨m, k, w, h1, h2, h3, h4, fun h => ?_⟩
  obtain ⟨m', e1, e2⟩ := weightedMedian_near hf hsum hlen h hw hpos
  rw [h1] at e1
  cases e1
  exact e2

/-- C136: `find_splitting_points` with rounding has the same results as with exact weights. -/
theorem C136_split (hf : Nearest fl) (hsum : ∀ l, l ≠ [] → SumTree fl l (sum l)) (P nranks fuel : Nat) (r : Nat → Int) (arr : Nat → List α) (hP : 0 < P) (hP' : P < 2 ^ 51) (hs : ∀ p < P, (arr p).Pairwise (· ≤ ·))
    (hr : ∀ i < nranks, 0 ≤ r i ∧ r i < (gcat P arr).length) (hfuel : (gcat P arr).length ≤ fuel) :
    ∃ out, findSplittingPoints fl sum fuel P nranks r arr = .ok out ∧
      ∀ i < nranks, ∃ (v : α) (mn mx : Int), (∀ p < P, out p i = (v, mn, mx)) ∧ v ∈ gcat P arr ∧
        mn = ((gcat P arr).countP (fun x => decide (x < v)) : Nat) ∧
        mx = ((gcat P arr).countP (fun x => decide (x ≤ v)) : Nat) - 1 ∧ mn ≤ r i ∧ r i ≤ mx :=
  findSplittingPoints_ok hf hsum hP' hP hs hr hfuel

/-- C136: as with exact weights, the number of passes grows with the logarithm of the number of elements only. -/
theorem C136_passes (hf : Nearest fl) (hsum : ∀ l, l ≠ [] → SumTree fl l (sum l)) (P nranks fuel : Nat) (r : Nat → Int) (arr : Nat → List α) (hP : 0 < P) (hP' : P < 2 ^ 40) (hs : ∀ p < P, (arr p).Pairwise (· ≤ ·))
    (hr : ∀ i < nranks, 0 ≤ r i ∧ r i < (gcat P arr).length) (hfuel : 3 * (Nat.log 2 (gcat P arr).length + 1) ≤ fuel) :
    ∃ out, findSplittingPoints fl sum fuel P nranks r arr = .ok out ∧
      ∀ i < nranks, ∃ (v : α) (mn mx : Int), (∀ p < P, out p i = (v, mn, mx)) ∧ v ∈ gcat P arr ∧
        mn = ((gcat P arr).countP (fun x => decide (x < v)) : Nat) ∧
        mx = ((gcat P arr).countP (fun x => decide (x ≤ v)) : Nat) - 1 ∧ mn ≤ r i ∧ r i ≤ mx :=
  findSplittingPoints_log hf hsum hP' hP hs hr (log_fuel hfuel)

theorem unique {l : List α} {r : Int} {v v' : α} (h1 : ((l.countP (fun x => decide (x < v)) : Nat) : Int) ≤ r) (h2 : r ≤ (l.countP (fun x => decide (x ≤ v)) : Nat) - 1)
    (h1' : ((l.countP (fun x => decide (x < v')) : Nat) : Int) ≤ r) (h2' : r ≤ (l.countP (fun x => decide (x ≤ v')) : Nat) - 1) : v = v' := by
  have key : ∀ {a b : α}, a < b → l.countP (fun x => decide (x ≤ a)) ≤ l.countP (fun x => decide (x < b)) := by
    intro a b h
    refine List.countP_mono_left (fun x _ hx => ?_)
    simp only [decide_eq_true_eq] at hx ⊢
    exact lt_of_le_of_lt hx h
  rcases lt_trichotomy v v' with h | h | h
  · have := key h; omega
  · exact h
  · have := key h; omega

theorem sendCount_congr {Q : Nat} {nperproc : Nat → Nat} {S : List α} {ne : α → α → Bool} {val val' : Nat → α} {lower lower' : Nat → Nat} {si si' : Nat → Int}
    (h : ∀ r < Q, val r = val' r ∧ lower r = lower' r ∧ si r = si' r) :
    SortNan.sendCount ne Q nperproc S val lower si = SortNan.sendCount ne Q nperproc S val' lower' si' := by
  unfold SortNan.sendCount
  have : ∀ (l : List Nat) (st : Int × (Nat → Nat)), l.foldl (SortNan.sendStep ne Q nperproc S val lower si) st = l.foldl (SortNan.sendStep ne Q nperproc S val' lower' si') st := by
    intro l
    induction l with
    | nil => intro st; rfl
    | cons r l ih =>
      intro st
      rw [List.foldl_cons, List.foldl_cons, ih]
      congr 1
      unfold SortNan.sendStep
      simp only
      by_cases hr : (r : Int) < (Q : Int) - 1
      · obtain ⟨h1, h2, h3⟩ := h (r + 1) (by omega)
        rw [if_pos hr, if_pos hr, h1, h2, h3]
      · rw [if_neg hr, if_neg hr]
  rw [this]

theorem sub_eq (hf : Nearest fl) (hsum : ∀ l, l ≠ [] → SumTree fl l (sum l)) (ne : α → α → Bool) {fuel Q : Nat} {arr : Nat → List α} (hne : ∀ p < Q, 0 < (arr p).length) (hfuel : Q < 2 ^ 51 ∧ (gcat Q arr).length ≤ fuel ∨ Q < 2 ^ 40 ∧ 3 * (Nat.log 2 (gcat Q arr).length + 1) ≤ fuel) :
    SortNan.sortSub ne (findSplittingPoints fl sum fuel) Q arr = SortNan.sortSub ne (Verif.findSplittingPoints fuel) Q arr := by
  rcases Nat.eq_zero_or_pos Q with rfl | hQ
  · unfold SortNan.sortSub
    have h1 : ∃ out, findSplittingPoints fl sum fuel 0 0 (fun i => (pre (sizes arr) i : Int)) (fun p => fancy (arr p) (argsort (arr p))) = .ok out := by
      unfold findSplittingPoints fspLoop; rw [if_pos (by simp)]; exact ⟨_, rfl⟩
    have h2 : ∃ out, Verif.findSplittingPoints fuel 0 0 (fun i => (pre (sizes arr) i : Int)) (fun p => fancy (arr p) (argsort (arr p))) = .ok out := by
      unfold Verif.findSplittingPoints Verif.fspLoop; rw [if_pos (by simp)]; exact ⟨_, rfl⟩
    obtain ⟨out, h1⟩ := h1
    obtain ⟨out', h2⟩ := h2
    simp only [h1, h2]
    exact SortNan.exchange_congr (fun p hp => absurd hp (Nat.not_lt_zero p))
  have hp : (gcat Q (fun p => fancy (arr p) (argsort (arr p)))).Perm (gcat Q arr) := perm_gcat (fun p _ => fancy_argsort_perm (arr p))
  have hr : ∀ i < Q, 0 ≤ (pre (sizes arr) i : Int) ∧ (pre (sizes arr) i : Int) < (gcat Q (fun p => fancy (arr p) (argsort (arr p)))).length := by
    refine fun i hi => ⟨by omega, ?_⟩
    rw [hp.length_eq, length_gcat]
    have := pre_mono (sizes arr) (show i + 1 ≤ Q from hi)
    have h3 := hne i hi
    rw [pre_succ] at this
    have : sizes arr i = (arr i).length := rfl
    omega
  have hso : ∀ p < Q, (fancy (arr p) (argsort (arr p))).Pairwise (· ≤ ·) := fun p _ => fancy_argsort_sorted (arr p)
  obtain ⟨out, h1, h2⟩ := hfuel.elim (fun h => C136_split hf hsum Q Q fuel _ _ hQ h.1 hso hr (by rw [hp.length_eq]; exact h.2)) (fun h => C136_passes hf hsum Q Q fuel _ _ hQ h.1 hso hr (by rw [hp.length_eq]; exact h.2))
  obtain ⟨out', h1', h2'⟩ := hfuel.elim (fun h => C03_find_splitting_points Q Q fuel _ _ hQ hso hr (by rw [hp.length_eq]; exact h.2)) (fun h => C03_passes Q Q fuel _ _ hQ hso hr (by rw [hp.length_eq]; exact h.2))
  have hout : ∀ i < Q, ∀ p < Q, out p i = out' p i := by
    intro i hi p hp
    obtain ⟨v, mn, mx, e1, -, e2, e3, e4, e5⟩ := h2 i hi
    obtain ⟨v', mn', mx', f1, -, f2, f3, f4, f5⟩ := h2' i hi
    subst e2 e3 f2 f3
    obtain rfl := unique e4 e5 f4 f5
    rw [e1 p hp, f1 p hp]
  unfold SortNan.sortSub
  simp only [h1, h1']
  refine SortNan.exchange_congr (fun p hp => sendCount_congr (fun r hr => ?_))
  rw [hout r hr p hp]
  refine ⟨rfl, pre_congr (fun q hq => ?_), rfl⟩
  rw [hout r hr q (by omega)]

/-- C136: `parallel_sort` has the same result with weights in floating point arithmetic as with exact weights, also for arrays with NaN. -/
theorem C136_same (hf : Nearest fl) (hsum : ∀ l, l ≠ [] → SumTree fl l (sum l)) (ne : α → α → Bool) (P fuel : Nat) (arr : Nat → List α)
    (hfuel : P < 2 ^ 51 ∧ (gcat P arr).length ≤ fuel ∨ P < 2 ^ 40 ∧ 3 * (Nat.log 2 (gcat P arr).length + 1) ≤ fuel) :
    SortNan.sort ne (findSplittingPoints fl sum fuel) P arr = SortNan.sort ne (Verif.findSplittingPoints fuel) P arr := by
  have hg : gcat (psMembers P arr).length (fun q => arr ((psMembers P arr).getD q 0)) = gcat P arr :=
    gcat_members P arr arr (fun p _ h => List.eq_nil_of_length_eq_zero h)
  have hne : ∀ q < (psMembers P arr).length, 0 < (arr ((psMembers P arr).getD q 0)).length := by
    intro q hq
    have : (psMembers P arr).getD q 0 ∈ psMembers P arr := by
      rw [List.getD_eq_getElem?_getD, List.getElem?_eq_getElem hq]
      exact List.getElem_mem hq
    exact (mem_psMembers.1 this).2
  have hlen : (psMembers P arr).length ≤ P := by
    unfold psMembers
    refine (List.length_filter_le _ _).trans ?_
    simp
  unfold SortNan.sort
  simp only
  rw [sub_eq hf hsum ne hne (by rw [hg]; exact hfuel.imp (fun h => ⟨by omega, h.2⟩) (fun h => ⟨by omega, h.2⟩))]

theorem sort_exact (fuel P : Nat) (arr : Nat → List α) : SortNan.sort (fun x y => decide (x ≠ y)) (Verif.findSplittingPoints fuel) P arr = parallelSort fuel P arr := by
  have : ∀ (Q : Nat) (a : Nat → List α), SortNan.sortSub (fun x y => decide (x ≠ y)) (Verif.findSplittingPoints fuel) Q a = parallelSortSub fuel Q a := by
    intro Q a
    rw [SortNan.parallelSortSub_eq]
    unfold SortNan.sortSub
    simp only
    cases Verif.findSplittingPoints fuel Q Q (fun i => (pre (sizes a) i : Int)) (fun p => fancy (a p) (argsort (a p))) with
    | error e => rfl
    | ok out =>
      simp only
      refine SortNan.exchange_congr (fun p hp => SortNan.sendCount_eq (fun r hr => ?_))
      rw [SortNan.lastToSend_eq (fun _ => rfl)]
      congr 1
      exact pre_congr (fun q hq => SortNan.nvalLocal_eq (fun _ => rfl))
  unfold SortNan.sort parallelSort
  simp only
  rw [this]
  rfl

/-- C136: `parallel_sort` sorts arrays with weights in floating point arithmetic, in a number of passes which grows with the logarithm of the number of elements only, if there are fewer than 2^40 ranks. -/
theorem C136_sort (hf : Nearest fl) (hsum : ∀ l, l ≠ [] → SumTree fl l (sum l)) (P fuel : Nat) (arr : Nat → List α)
    (hfuel : P < 2 ^ 51 ∧ (gcat P arr).length ≤ fuel ∨ P < 2 ^ 40 ∧ 3 * (Nat.log 2 (gcat P arr).length + 1) ≤ fuel) :
    ∃ out, SortNan.sort (fun x y => decide (x ≠ y)) (findSplittingPoints fl sum fuel) P arr = .ok out ∧
      (∀ p < P, (out p).1.length = (arr p).length ∧ (out p).2.length = (arr p).length) ∧
      (gcat P (fun p => (out p).1)).Perm (gcat P arr) ∧
      (gcat P (fun p => (out p).1)).Pairwise (· ≤ ·) ∧
      (gcat P (fun p => (out p).2)).Perm (List.range (gcat P arr).length) ∧
      (gcat P (fun p => (out p).2)).map (fun i => (gcat P arr)[i]?) = (gcat P (fun p => (out p).1)).map some := by
  rw [C136_same hf hsum _ P fuel arr hfuel, sort_exact]
  rcases hfuel with ⟨-, h⟩ | ⟨-, h⟩
  · obtain ⟨out, e1, e2, e3, e4⟩ := C01_parallel_sort P fuel arr h
    obtain ⟨out', e1', e5, e7, e6, -⟩ := C02_parallel_sort_index P fuel arr h
    obtain rfl : out = out' := by rw [e1] at e1'; injection e1'
    exact ⟨out, e1, fun p hp => ⟨e2 p hp, e5 p hp⟩, e3, e4, e7, e6⟩
  · exact C01_passes P fuel arr h

namespace ExRoundedSplit

/-- Three ranks with a third of the elements each: the weights are not exact. -/
def data : Nat → List Nat
  | 0 => [5, 1]
  | 1 => [5, 0]
  | _ => [2, 9]

example : roundDouble (1 / 3) = 6004799503160661 / 2 ^ 54 := by decide +kernel

example : weightedMedian roundDouble (leftSum roundDouble) [7, 3, 5] (List.replicate 3 (roundDouble (1 / 3))) = .ok 5 := by decide +kernel

example : (match SortNan.sort (fun x y => decide (x ≠ y)) (findSplittingPoints roundDouble (leftSum roundDouble) 6) 3 data with
    | .ok out => (List.range 3).map out
    | .error _ => []) = [([0, 1], [3, 1]), ([2, 5], [4, 0]), ([5, 9], [2, 5])] := by decide +kernel

example : ∃ out, SortNan.sort (fun x y => decide (x ≠ y)) (findSplittingPoints roundDouble (leftSum roundDouble) 6) 3 data = .ok out ∧ (gcat 3 (fun p => (out p).1)).Pairwise (· ≤ ·) := by
  obtain ⟨out, h1, -, -, h2, -⟩ := C136_sort nearest_roundDouble (leftSum_tree roundDouble) 3 6 data (Or.inl ⟨by norm_num, by decide⟩)
  exact ⟨out, h1, h2⟩

/-- 999 elements on three ranks, 30 passes -/
example : ∃ out, SortNan.sort (fun x y => decide (x ≠ y)) (findSplittingPoints roundDouble (leftSum roundDouble) 30) 3 (fun p => (List.range 333).map (fun k => (7 * k + p) % 100)) = .ok out := by
  obtain ⟨out, h1, -⟩ := C136_sort nearest_roundDouble (leftSum_tree roundDouble) 3 30 (fun p => (List.range 333).map (fun k => (7 * k + p) % 100)) (Or.inr ⟨by norm_num, by
    rw [length_gcat]
    have : pre (sizes (fun p => (List.range 333).map (fun k => (7 * k + p) % 100))) 3 = 999 := by simp [pre, sizes]
    rw [this]
    decide +kernel⟩)
  exact ⟨out, h1⟩

end ExRoundedSplit

end Verif.Rounded
