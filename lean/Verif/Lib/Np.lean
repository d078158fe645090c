import Verif.Lib.Dist
import Mathlib.Data.Nat.Basic
import Mathlib.Data.Int.Order.Basic

/-!
Models of the numpy and Python primitives used by the code.
-/

namespace Verif

/-- Python exceptions and `comm.Abort()`, as values. -/
inductive Err
  | indexError | valueError | keyError | typeError | nameError | attributeError
  | assertion | zeroDivision | ioError | abort | sanityCheck
  -- not exceptions: ranks disagree about the next collective call, or a loop is still running
  | deadlock | diverges
  | other
  deriving DecidableEq, Repr

variable {α β : Type*}

/-! ### Indexing -/

/-- `l[i]` with Python semantics: negative indexes count from the end, out of range raises
`IndexError` (`none` here). -/
def pyGet? (l : List α) (i : Int) : Option α :=
  if 0 ≤ i then l[i.toNat]?
  else if -i ≤ l.length then l[(l.length + i).toNat]? else none

/-- `l[idx]` for an integer index array (numpy fancy indexing). -/
def fancy? (l : List α) (idx : List Int) : Option (List α) := idx.mapM (pyGet? l)

/-- `l[idx]` for an index array known to be in range (sorting permutations). Out of range entries
give `default`; every theorem using it shows that they do not occur. -/
def fancy [Inhabited α] (l : List α) (idx : List Nat) : List α := idx.map (fun i => l.getD i default)

/-- `buf[o:o+len(xs)] = xs` for a window inside `buf`. -/
def overlay (buf : List α) (o : Nat) (xs : List α) : List α :=
  buf.take o ++ xs ++ buf.drop (o + xs.length)

/-- `out[idx] = vals` (integer index array, applied in order, so that the last one wins). -/
def scatter (out : List α) (idx : List Nat) (vals : List α) : List α :=
  (idx.zip vals).foldl (fun o iv => o.set iv.1 iv.2) out

/-! ### searchsorted -/

/-- The binary search loop of `np.searchsorted`: `p x` is `x < v` for `side='left'` and `x <= v` for
`side='right'`. The first argument bounds the number of iterations. -/
def bisect (p : α → Bool) (a : List α) : Nat → Nat → Nat → Nat
  | 0, lo, _ => lo
  | fuel + 1, lo, hi =>
    if lo < hi then
      let mid := lo + (hi - lo) / 2
      match a[mid]? with
      | some x => if p x then bisect p a fuel (mid + 1) hi else bisect p a fuel lo mid
      | none => lo
    else lo

/-- `np.searchsorted(a, v, side='left')` -/
def ssLeft [LinearOrder α] (a : List α) (v : α) : Nat :=
  bisect (fun x => decide (x < v)) a a.length 0 a.length

/-- `np.searchsorted(a, v, side='right')` -/
def ssRight [LinearOrder α] (a : List α) (v : α) : Nat :=
  bisect (fun x => decide (x ≤ v)) a a.length 0 a.length

/-- Non-decreasing list. -/
abbrev Sorted [LE α] (a : List α) : Prop := a.Pairwise (· ≤ ·)

/-- `p` holds on an initial segment of `a`. -/
def DownClosed (p : α → Bool) (a : List α) : Prop := a.Pairwise (fun x y => p y = true → p x = true)

theorem DownClosed.tail {p : α → Bool} {x : α} {a : List α} (h : DownClosed p (x :: a)) :
    DownClosed p a := (List.pairwise_cons.1 h).2

theorem countP_eq_zero_of_head {p : α → Bool} {x : α} {a : List α} (h : DownClosed p (x :: a))
    (hx : p x = false) : a.countP p = 0 := by
  rw [List.countP_eq_zero]
  intro y hy hpy
  have := (List.pairwise_cons.1 h).1 y hy hpy
  simp [hx] at this

/-- For an initial segment property, the element at `i` satisfies it iff `i < countP`. -/
theorem DownClosed.iff_lt_countP {p : α → Bool} {a : List α} (h : DownClosed p a) {i : Nat} {x : α}
    (hx : a[i]? = some x) : p x = true ↔ i < a.countP p := by
  induction a generalizing i with
  | nil => simp at hx
  | cons y a ih =>
    cases i with
    | zero =>
      simp only [List.getElem?_cons_zero, Option.some.injEq] at hx
      subst hx
      by_cases hy : p y
      · simp [hy]
      · have hy' : p y = false := by simpa using hy
        simp [hy', countP_eq_zero_of_head h hy']
    | succ i =>
      simp only [List.getElem?_cons_succ] at hx
      by_cases hy : p y
      · rw [ih h.tail hx]; simp [hy]
      · have hy' : p y = false := by simpa using hy
        have h0 := countP_eq_zero_of_head h hy'
        rw [ih h.tail hx]; simp [hy', h0]

theorem DownClosed.take_countP {p : α → Bool} {a : List α} (h : DownClosed p a) :
    a.take (a.countP p) = a.filter p := by
  induction a with
  | nil => rfl
  | cons y a ih =>
    by_cases hy : p y
    · simp [hy, ih h.tail]
    · have hy' : p y = false := by simpa using hy
      have h0 := countP_eq_zero_of_head h hy'
      simp only [List.countP_cons, hy', h0]
      have : a.filter p = [] := by
        rw [← List.length_eq_zero_iff, ← List.countP_eq_length_filter]; exact h0
      simp [hy', this]

theorem DownClosed.drop_countP {p : α → Bool} {a : List α} (h : DownClosed p a) :
    a.drop (a.countP p) = a.filter (fun x => !p x) := by
  induction a with
  | nil => rfl
  | cons y a ih =>
    by_cases hy : p y
    · simp [hy, ih h.tail]
    · have hy' : p y = false := by simpa using hy
      have h0 := countP_eq_zero_of_head h hy'
      simp only [List.countP_cons, hy', h0]
      have : a.filter (fun x => !p x) = a := by
        rw [List.filter_eq_self]
        intro x hx
        have := List.countP_eq_zero.1 h0 x hx
        simpa using this
      simp [hy', this]

theorem bisect_eq_countP {p : α → Bool} {a : List α} (h : DownClosed p a) :
    ∀ fuel lo hi, hi - lo ≤ fuel → lo ≤ a.countP p → a.countP p ≤ hi → hi ≤ a.length →
      bisect p a fuel lo hi = a.countP p := by
  intro fuel
  induction fuel with
  | zero => intro lo hi h1 h2 h3 _; simp only [bisect]; omega
  | succ fuel ih =>
    intro lo hi h1 h2 h3 h4
    simp only [bisect]
    split
    · rename_i hlt
      have hmid : lo + (hi - lo) / 2 < a.length := by omega
      rw [List.getElem?_eq_getElem hmid]
      simp only
      have key := h.iff_lt_countP (List.getElem?_eq_getElem hmid)
      split
      · rename_i hp
        exact ih _ _ (by omega) (by have := key.1 hp; omega) h3 h4
      · rename_i hp
        have : ¬ (lo + (hi - lo) / 2 < a.countP p) := fun hh => hp (key.2 hh)
        exact ih _ _ (by omega) h2 (by omega) (by omega)
    · omega

section order
variable [LinearOrder α]

theorem Sorted.downClosed_lt {a : List α} (h : Sorted a) (v : α) :
    DownClosed (fun x => decide (x < v)) a := by
  refine List.Pairwise.imp ?_ h
  intro x y hxy hy
  simp only [decide_eq_true_eq] at hy ⊢
  exact lt_of_le_of_lt hxy hy

theorem Sorted.downClosed_le {a : List α} (h : Sorted a) (v : α) :
    DownClosed (fun x => decide (x ≤ v)) a := by
  refine List.Pairwise.imp ?_ h
  intro x y hxy hy
  simp only [decide_eq_true_eq] at hy ⊢
  exact le_trans hxy hy

/-- On sorted input the binary search returns the number of elements `< v`. -/
theorem ssLeft_eq {a : List α} (h : Sorted a) (v : α) :
    ssLeft a v = a.countP (fun x => decide (x < v)) :=
  bisect_eq_countP (h.downClosed_lt v) _ _ _ (by omega) (by omega) List.countP_le_length (Nat.le_refl _)

theorem ssRight_eq {a : List α} (h : Sorted a) (v : α) :
    ssRight a v = a.countP (fun x => decide (x ≤ v)) :=
  bisect_eq_countP (h.downClosed_le v) _ _ _ (by omega) (by omega) List.countP_le_length (Nat.le_refl _)

theorem ssLeft_le_length {a : List α} (h : Sorted a) (v : α) : ssLeft a v ≤ a.length := by
  rw [ssLeft_eq h]; exact List.countP_le_length

theorem ssRight_le_length {a : List α} (h : Sorted a) (v : α) : ssRight a v ≤ a.length := by
  rw [ssRight_eq h]; exact List.countP_le_length

theorem lt_iff_lt_ssLeft {a : List α} (h : Sorted a) {v x : α} {i : Nat} (hx : a[i]? = some x) :
    x < v ↔ i < ssLeft a v := by
  rw [ssLeft_eq h, ← (h.downClosed_lt v).iff_lt_countP hx]; simp

theorem le_iff_lt_ssRight {a : List α} (h : Sorted a) {v x : α} {i : Nat} (hx : a[i]? = some x) :
    x ≤ v ↔ i < ssRight a v := by
  rw [ssRight_eq h, ← (h.downClosed_le v).iff_lt_countP hx]; simp

theorem ssLeft_le_ssRight {a : List α} (h : Sorted a) (v : α) : ssLeft a v ≤ ssRight a v := by
  rw [ssLeft_eq h, ssRight_eq h]
  apply List.countP_mono_left
  intro x _ hx
  simp only [decide_eq_true_eq] at hx ⊢
  exact le_of_lt hx

theorem ssLeft_mono {a : List α} (h : Sorted a) {v w : α} (hvw : v ≤ w) :
    ssLeft a v ≤ ssLeft a w := by
  rw [ssLeft_eq h, ssLeft_eq h]
  apply List.countP_mono_left
  intro x _ hx
  simp only [decide_eq_true_eq] at hx ⊢
  exact lt_of_lt_of_le hx hvw

theorem ssRight_mono {a : List α} (h : Sorted a) {v w : α} (hvw : v ≤ w) :
    ssRight a v ≤ ssRight a w := by
  rw [ssRight_eq h, ssRight_eq h]
  apply List.countP_mono_left
  intro x _ hx
  simp only [decide_eq_true_eq] at hx ⊢
  exact le_trans hx hvw

theorem ssRight_le_ssLeft {a : List α} (h : Sorted a) {v w : α} (hvw : v < w) :
    ssRight a v ≤ ssLeft a w := by
  rw [ssRight_eq h, ssLeft_eq h]
  apply List.countP_mono_left
  intro x _ hx
  simp only [decide_eq_true_eq] at hx ⊢
  exact lt_of_le_of_lt hx hvw

/-- `ssRight - ssLeft` counts the elements equal to `v`. -/
theorem ssRight_eq_add_count {a : List α} (h : Sorted a) (v : α) :
    ssRight a v = ssLeft a v + a.count v := by
  rw [ssLeft_eq h, ssRight_eq h]
  clear h
  induction a with
  | nil => rfl
  | cons x a ih =>
    simp only [List.countP_cons, List.count_cons, ih]
    rcases lt_trichotomy x v with hx | hx | hx
    · simp [hx, le_of_lt hx, ne_of_lt hx]; omega
    · subst hx; simp [lt_irrefl]; omega
    · simp [not_lt_of_gt hx, not_le_of_gt hx, ne_of_gt hx]

end order

/-! ### Sorting -/

/-- Insert before the first element which is not smaller. -/
def insertBy (le : α → α → Bool) (x : α) : List α → List α
  | [] => [x]
  | y :: ys => if le x y then x :: y :: ys else y :: insertBy le x ys

/-- Stable sort. Any stable sort (numpy's `kind='mergesort'`) returns the same list. -/
def sortBy (le : α → α → Bool) : List α → List α
  | [] => []
  | x :: xs => insertBy le x (sortBy le xs)

theorem insertBy_perm (le : α → α → Bool) (x : α) (l : List α) : (insertBy le x l).Perm (x :: l) := by
  induction l with
  | nil => exact List.Perm.refl _
  | cons y ys ih =>
    simp only [insertBy]
    split
    · exact List.Perm.refl _
    · exact (List.Perm.cons y ih).trans (List.Perm.swap x y ys)

theorem sortBy_perm (le : α → α → Bool) (l : List α) : (sortBy le l).Perm l := by
  induction l with
  | nil => exact List.Perm.refl _
  | cons x xs ih => exact (insertBy_perm le x _).trans (List.Perm.cons x ih)

@[simp] theorem length_sortBy (le : α → α → Bool) (l : List α) : (sortBy le l).length = l.length :=
  (sortBy_perm le l).length_eq

/-- `np.argsort(arr, kind='mergesort')`: stable sorting permutation
(`my_argsort`, parallel_sort.py 132-139). -/
def argsort [LinearOrder α] (l : List α) : List Nat :=
  (sortBy (fun p q : α × Nat => decide (p.1 ≤ q.1)) l.zipIdx).map Prod.snd

/-- Lexicographic order on (value, position): the order produced by a stable sort. -/
def LexLt [LinearOrder α] (p q : α × Nat) : Prop := p.1 < q.1 ∨ (p.1 = q.1 ∧ p.2 < q.2)

section order
variable [LinearOrder α]

theorem LexLt.trans {p q r : α × Nat} (h1 : LexLt p q) (h2 : LexLt q r) : LexLt p r := by
  rcases h1 with h1 | ⟨h1, h1'⟩ <;> rcases h2 with h2 | ⟨h2, h2'⟩
  · exact Or.inl (lt_trans h1 h2)
  · exact Or.inl (h2 ▸ h1)
  · exact Or.inl (h1 ▸ h2)
  · exact Or.inr ⟨h1.trans h2, Nat.lt_trans h1' h2'⟩

theorem LexLt.irrefl (p : α × Nat) : ¬ LexLt p p := by
  rintro (h | ⟨_, h⟩)
  · exact lt_irrefl _ h
  · exact Nat.lt_irrefl _ h

theorem LexLt.asymm {p q : α × Nat} (h1 : LexLt p q) (h2 : LexLt q p) : False :=
  LexLt.irrefl p (h1.trans h2)

theorem LexLt.le {p q : α × Nat} (h : LexLt p q) : p.1 ≤ q.1 := by
  rcases h with h | ⟨h, _⟩
  · exact le_of_lt h
  · exact le_of_eq h

theorem LexLt.total (p q : α × Nat) : LexLt p q ∨ p = q ∨ LexLt q p := by
  rcases lt_trichotomy p.1 q.1 with h | h | h
  · exact Or.inl (Or.inl h)
  · rcases Nat.lt_trichotomy p.2 q.2 with h' | h' | h'
    · exact Or.inl (Or.inr ⟨h, h'⟩)
    · exact Or.inr (Or.inl (Prod.ext h h'))
    · exact Or.inr (Or.inr (Or.inr ⟨h.symm, h'⟩))
  · exact Or.inr (Or.inr (Or.inl h))

/-- Strictly lexicographically sorted lists are determined by their elements. -/
theorem eq_of_perm_lex {l₁ l₂ : List (α × Nat)} (hp : l₁.Perm l₂) (h1 : l₁.Pairwise LexLt)
    (h2 : l₂.Pairwise LexLt) : l₁ = l₂ :=
  hp.eq_of_pairwise (fun _ _ _ _ ha hb => (LexLt.asymm ha hb).elim) h1 h2

theorem insertBy_lex {x : α × Nat} {l : List (α × Nat)} (hl : l.Pairwise LexLt)
    (hx : ∀ y ∈ l, x.2 < y.2) :
    (insertBy (fun p q : α × Nat => decide (p.1 ≤ q.1)) x l).Pairwise LexLt := by
  induction l with
  | nil => simp [insertBy]
  | cons y ys ih =>
    have hl' := List.pairwise_cons.1 hl
    simp only [insertBy]
    split
    · rename_i h
      have h : x.1 ≤ y.1 := by simpa using h
      have hxy : LexLt x y := by
        rcases lt_or_eq_of_le h with h | h
        · exact Or.inl h
        · exact Or.inr ⟨h, hx y (by simp)⟩
      refine List.pairwise_cons.2 ⟨?_, hl⟩
      intro z hz
      rcases List.mem_cons.1 hz with rfl | hz
      · exact hxy
      · exact hxy.trans (hl'.1 z hz)
    · rename_i h
      have h : y.1 < x.1 := by simpa using h
      refine List.pairwise_cons.2 ⟨?_, ih hl'.2 (fun z hz => hx z (by simp [hz]))⟩
      intro z hz
      rcases List.mem_cons.1 ((insertBy_perm _ x ys).mem_iff.1 hz) with rfl | hz
      · exact Or.inl h
      · exact hl'.1 z hz

theorem sortBy_lex (l : List (α × Nat)) (hl : l.Pairwise (fun p q => p.2 < q.2)) :
    (sortBy (fun p q : α × Nat => decide (p.1 ≤ q.1)) l).Pairwise LexLt := by
  induction l with
  | nil => simp [sortBy]
  | cons x xs ih =>
    have hl' := List.pairwise_cons.1 hl
    simp only [sortBy]
    refine insertBy_lex (ih hl'.2) ?_
    intro y hy
    exact hl'.1 y ((sortBy_perm _ xs).mem_iff.1 hy)

omit [LinearOrder α] in
theorem zipIdx_pairwise (l : List α) (k : Nat) :
    (l.zipIdx k).Pairwise (fun p q => p.2 < q.2) := by
  induction l generalizing k with
  | nil => simp
  | cons x xs ih =>
    rw [List.zipIdx_cons]
    refine List.pairwise_cons.2 ⟨?_, ih (k + 1)⟩
    intro y hy
    have := List.le_snd_of_mem_zipIdx hy
    show k < y.2
    omega

/-- (value, position) pairs in stable sorted order. -/
def sortedPairs (l : List α) : List (α × Nat) :=
  sortBy (fun p q : α × Nat => decide (p.1 ≤ q.1)) l.zipIdx

theorem sortedPairs_perm (l : List α) : (sortedPairs l).Perm l.zipIdx := sortBy_perm _ _

theorem sortedPairs_lex (l : List α) : (sortedPairs l).Pairwise LexLt :=
  sortBy_lex _ (zipIdx_pairwise l 0)

theorem argsort_eq (l : List α) : argsort l = (sortedPairs l).map Prod.snd := rfl

theorem argsort_perm (l : List α) : (argsort l).Perm (List.range l.length) := by
  have h := (sortedPairs_perm l).map Prod.snd
  rw [argsort_eq]
  refine h.trans ?_
  rw [List.zipIdx_map_snd, List.range_eq_range']

@[simp] theorem length_argsort (l : List α) : (argsort l).length = l.length := by
  rw [(argsort_perm l).length_eq, List.length_range]

theorem argsort_lt {l : List α} {i : Nat} (h : i ∈ argsort l) : i < l.length := by
  rw [(argsort_perm l).mem_iff] at h; simpa using h

theorem argsort_nodup (l : List α) : (argsort l).Nodup :=
  (argsort_perm l).nodup_iff.2 List.nodup_range

theorem mem_sortedPairs {l : List α} {x : α} {i : Nat} :
    (x, i) ∈ sortedPairs l ↔ l[i]? = some x := by
  rw [(sortedPairs_perm l).mem_iff, List.mem_zipIdx_iff_getElem?]

variable [Inhabited α]

/-- Applying the sorting permutation gives the values in sorted order. -/
theorem fancy_argsort (l : List α) : fancy l (argsort l) = (sortedPairs l).map Prod.fst := by
  unfold fancy
  rw [argsort_eq, List.map_map]
  apply List.map_congr_left
  rintro ⟨x, i⟩ h
  have := mem_sortedPairs.1 h
  simp [List.getD_eq_getElem?_getD, this]

theorem fancy_argsort_sorted (l : List α) : Sorted (fancy l (argsort l)) := by
  rw [fancy_argsort]
  exact List.Pairwise.map _ (fun _ _ h => LexLt.le h) (sortedPairs_lex l)

theorem fancy_argsort_perm (l : List α) : (fancy l (argsort l)).Perm l := by
  rw [fancy_argsort]
  refine ((sortedPairs_perm l).map Prod.fst).trans ?_
  rw [List.zipIdx_map_fst]

omit [LinearOrder α] in
@[simp] theorem length_fancy (l : List α) (idx : List Nat) : (fancy l idx).length = idx.length := by
  simp [fancy]

end order

/-- Sorted lists with the same elements are equal. -/
theorem eq_of_perm_sorted [LinearOrder α] {l₁ l₂ : List α} (hp : l₁.Perm l₂) (h1 : Sorted l₁)
    (h2 : Sorted l₂) : l₁ = l₂ :=
  hp.eq_of_pairwise (fun _ _ _ _ ha hb => le_antisymm ha hb) h1 h2

end Verif
