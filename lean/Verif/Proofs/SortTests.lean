import Verif.Model.SortTests
import Verif.Props.ParallelSort
import Verif.Props.ParallelUnique
import Verif.Props.Repartition

namespace Verif.SortTests

variable {α : Type}

theorem allEqual_same [DecidableEq α] {a b : List α} (h : a.length = b.length) : allEqual a b = .ok (decide (a = b)) := by
  unfold allEqual; rw [if_pos h]

theorem allEqual_self [DecidableEq α] (a : List α) : allEqual a a = .ok true := by rw [allEqual_same rfl]; simp

/-- Arrays with at least two elements are never broadcast. -/
theorem allEqual_long [DecidableEq α] {a b : List α} (ha : 2 ≤ a.length) (hb : 2 ≤ b.length) (h : allEqual a b = .ok true) : a = b := by
  unfold allEqual at h
  split at h
  · simpa using h
  · match a, b, ha, hb with
    | x :: x' :: a, y :: y' :: b, _, _ => simp at h

theorem assertSame_ok [DecidableEq α] {P : Nat} {a b : Nat → List α} (hl : ∀ p < P, (a p).length = (b p).length) :
    assertSame P a b = .ok () ↔ ∀ p < P, a p = b p := by
  unfold assertSame assertAllRanks
  rw [if_pos (by
    rw [List.all_eq_true]; intro p hp
    rw [allEqual_same (hl p (List.mem_range.1 hp))]; rfl)]
  have : ((List.range P).all (fun p => decide (allEqual (a p) (b p) = .ok true)) = true) ↔ ∀ p < P, a p = b p := by
    rw [List.all_eq_true]
    constructor
    · intro h p hp
      have := h p (List.mem_range.2 hp)
      rw [allEqual_same (hl p hp)] at this
      simpa using this
    · intro h p hp
      rw [h p (List.mem_range.1 hp), allEqual_self]
      simp
  split
  · rename_i h; exact ⟨fun _ => this.1 h, fun _ => rfl⟩
  · rename_i h
    constructor
    · intro hc; cases hc
    · intro hc; exact absurd (this.2 hc) h

theorem npSort_perm [LinearOrder α] (l : List α) : (npSort l).Perm l := sortBy_perm _ l

theorem npSort_sorted [LinearOrder α] (l : List α) : (npSort l).Pairwise (· ≤ ·) := sortBy_sorted l

theorem eq_npSort [LinearOrder α] {l s : List α} : s = npSort l ↔ s.Perm l ∧ s.Pairwise (· ≤ ·) := by
  constructor
  · rintro rfl; exact ⟨npSort_perm l, npSort_sorted l⟩
  · rintro ⟨h1, h2⟩
    exact (h1.trans (npSort_perm l).symm).eq_of_pairwise (fun a b _ _ => le_antisymm) h2 (npSort_sorted l)

/-- The elements of the combined array with these numbers. -/
theorem fetch_iff [DecidableEq α] [Inhabited α] {P : Nat} {arr : Nat → List α} {out : Nat → List α × List Nat}
    (hl : ∀ p < P, (out p).1.length = (out p).2.length) {result : Option (Nat → List α)}
    (hr : ∀ r, result = some r → ∀ p < P, (r p).length = (out p).2.length) :
    (∃ f, fetchElements P arr (fun p => (out p).2.map Int.ofNat) result = .ok f ∧ assertSame P f (fun p => (out p).1) = .ok ()) ↔
    ∀ p < P, (out p).2.map (fun i => (gcat P arr)[i]?) = (out p).1.map some := by
  have key : (∀ me < P, ∀ i ∈ (out me).2.map Int.ofNat, (0 : Int) ≤ i ∧ i < (gcat P arr).length) →
      ∃ f, fetchElements P arr (fun p => (out p).2.map Int.ofNat) result = .ok f ∧
        (∀ p < P, (f p).length = (out p).1.length) ∧ ∀ p < P, (f p).map some = (out p).2.map (fun i => (gcat P arr)[i]?) := by
    intro hin
    obtain ⟨f, hf, hv⟩ := C09_fetch_elements P arr (fun p => (out p).2.map Int.ofNat) result (by simpa using hr) hin
    have hv' : ∀ p < P, (f p).map some = (out p).2.map (fun i => (gcat P arr)[i]?) := by
      intro p hp
      rw [hv p hp, List.map_map]; rfl
    refine ⟨f, hf, fun p hp => ?_, hv'⟩
    have := congrArg List.length (hv' p hp)
    simp only [List.length_map] at this
    rw [this, hl p hp]
  constructor
  · rintro ⟨f, hf, ha⟩
    have hin : ∀ me < P, ∀ i ∈ (out me).2.map Int.ofNat, (0 : Int) ≤ i ∧ i < (gcat P arr).length := by
      intro me hme i hi
      refine ⟨?_, ?_⟩
      · obtain ⟨k, -, rfl⟩ := List.mem_map.1 hi
        exact Int.natCast_nonneg _
      · by_contra hc
        have := C18_too_large P arr (fun p => (out p).2.map Int.ofNat) result
          (by intro me _ i hi; obtain ⟨k, -, rfl⟩ := List.mem_map.1 hi; exact Int.natCast_nonneg _)
          ⟨me, hme, i, hi, not_lt.1 hc⟩
        rw [this] at hf; cases hf
    obtain ⟨g, hg, h1, h2⟩ := key hin
    obtain rfl : g = f := by rw [hg] at hf; injection hf
    have := (assertSame_ok h1).1 ha
    intro p hp
    rw [← h2 p hp, this p hp]
  · intro h
    obtain ⟨f, hf, h1, h2⟩ := key (by
      intro me hme i hi
      obtain ⟨k, hk, rfl⟩ := List.mem_map.1 hi
      refine ⟨Int.natCast_nonneg _, ?_⟩
      have : (gcat P arr)[k]? ∈ (out me).1.map some := by
        rw [← h me hme]; exact List.mem_map.2 ⟨k, hk, rfl⟩
      obtain ⟨x, -, hx⟩ := List.mem_map.1 this
      have := (List.getElem?_eq_some_iff.1 hx.symm).1
      simpa using this)
    refine ⟨f, hf, (assertSame_ok h1).2 (fun p hp => ?_)⟩
    have := (h2 p hp).trans (h p hp)
    exact List.map_injective_iff.2 (Option.some_injective _) this

theorem checkIndex_iff [DecidableEq α] [Inhabited α] {P : Nat} {arr : Nat → List α} {out : Nat → List α × List Nat} {in_place : Bool}
    (h1 : ∀ p < P, (out p).1.length = (arr p).length) (h2 : ∀ p < P, (out p).2.length = (arr p).length) :
    checkIndex P arr out in_place = .ok () ↔ ∀ p < P, (out p).2.map (fun i => (gcat P arr)[i]?) = (out p).1.map some := by
  have hl : ∀ p < P, (out p).1.length = (out p).2.length := fun p hp => by rw [h1 p hp, h2 p hp]
  have e1 := fetch_iff (arr := arr) (result := none) hl (by simp)
  have e2 := fetch_iff (arr := arr) (result := some arr) hl (by
    intro r hr p hp
    injection hr with hr; subst hr
    exact (h2 p hp).symm)
  have bind_ok : ∀ (x : Except Err (Nat → List α)) (k : (Nat → List α) → Except Err Unit),
      (x >>= k) = .ok () ↔ ∃ f, x = .ok f ∧ k f = .ok () := by
    intro x k
    cases x with
    | error e => constructor
                 · intro h; cases h
                 · rintro ⟨f, h, -⟩; cases h
    | ok v => constructor
              · intro h; exact ⟨v, rfl, h⟩
              · rintro ⟨f, h, h'⟩; injection h with h; subst h; exact h'
  have bind_unit : ∀ (x y : Except Err Unit), (x >>= fun _ => y) = .ok () ↔ x = .ok () ∧ y = .ok () := by
    intro x y
    cases x with
    | error e => constructor
                 · intro h; cases h
                 · rintro ⟨h, -⟩; cases h
    | ok v => constructor
              · intro h; exact ⟨rfl, h⟩
              · rintro ⟨-, h⟩; exact h
  unfold checkIndex
  rw [bind_ok]
  cases in_place
  · simp only [Bool.false_eq_true, if_false]
    constructor
    · rintro ⟨f, hf, h⟩
      exact e1.1 ⟨f, hf, ((bind_unit _ _).1 h).1⟩
    · intro h
      obtain ⟨f, hf, h⟩ := e1.2 h
      exact ⟨f, hf, (bind_unit _ _).2 ⟨h, rfl⟩⟩
  · simp only [if_true]
    constructor
    · rintro ⟨f, hf, h⟩
      exact e1.1 ⟨f, hf, ((bind_unit _ _).1 h).1⟩
    · intro h
      obtain ⟨f, hf, h'⟩ := e1.2 h
      exact ⟨f, hf, (bind_unit _ _).2 ⟨h', (bind_ok _ _).2 (e2.2 h)⟩⟩

/-! ### Numbers of elements with each value -/

theorem bound_spec (x : List Nat) (b : Nat) : b ≤ x.foldl (fun n v => max n (v + 1)) b ∧ (∀ v ∈ x, v < x.foldl (fun n v => max n (v + 1)) b) ∧
    ∀ m, b ≤ m → (∀ v ∈ x, v < m) → x.foldl (fun n v => max n (v + 1)) b ≤ m := by
  induction x generalizing b with
  | nil => simp
  | cons y x ih =>
    obtain ⟨h1, h2, h3⟩ := ih (max b (y + 1))
    simp only [List.foldl_cons]
    refine ⟨by omega, ?_, ?_⟩
    · intro v hv
      rcases List.mem_cons.1 hv with rfl | hv
      · omega
      · exact h2 v hv
    · intro m hb hm
      have := hm y (by simp)
      exact h3 m (by omega) (fun v hv => hm v (by simp [hv]))

theorem bincount_length (m : Nat) (x : List Nat) : m ≤ (bincount m x).length := by simp [bincount]

theorem bincount_length_iff (m : Nat) (x : List Nat) : (bincount m x).length = m ↔ ∀ v ∈ x, v < m := by
  obtain ⟨-, h2, h3⟩ := bound_spec x 0
  have : (bincount m x).length = max m (x.foldl (fun n v => max n (v + 1)) 0) := by simp [bincount]
  rw [this]
  constructor
  · intro h v hv
    have := h2 v hv
    omega
  · intro h
    have := h3 m (by omega) h
    omega

theorem bincount_eq {m : Nat} {x : List Nat} (h : (bincount m x).length = m) : bincount m x = (List.range m).map (fun k => x.count k) := by
  have h' := h
  simp only [bincount, List.length_map, List.length_range] at h'
  rw [bincount, h']

theorem addArrays_long {a b : List Nat} (ha : 2 ≤ a.length) (hb : 2 ≤ b.length) {s : List Nat} (h : addArrays a b = .ok s) :
    a.length = b.length ∧ s = List.zipWith (· + ·) a b := by
  unfold addArrays at h
  split at h
  · rename_i hl; injection h with h; exact ⟨hl, h.symm⟩
  · match a, b, ha, hb with
    | x :: x' :: a, y :: y' :: b, _, _ => simp at h

theorem zipWith_add_map (n : Nat) (f g : Nat → Nat) :
    List.zipWith (· + ·) ((List.range n).map f) ((List.range n).map g) = (List.range n).map (fun k => f k + g k) := by
  rw [List.zipWith_map, List.zipWith_self]

/-- With values in range the sum over ranks gives the numbers of elements of the combined array. -/
theorem allreduce_bincount {m P : Nat} {x : Nat → List Nat} (h : ∀ p ≤ P, ∀ v ∈ x p, v < m) :
    allreduceArrays (fun p => bincount m (x p)) P = .ok ((List.range m).map (fun k => (gcat (P + 1) x).count k)) := by
  induction P with
  | zero =>
    rw [allreduceArrays, bincount_eq ((bincount_length_iff m _).2 (h 0 le_rfl))]
    simp [gcat]
  | succ P ih =>
    rw [allreduceArrays, ih (fun p hp => h p (by omega)), bincount_eq ((bincount_length_iff m _).2 (h (P + 1) le_rfl))]
    show addArrays _ _ = _
    unfold addArrays
    rw [if_pos (by simp), zipWith_add_map]
    congr 1
    apply List.map_congr_left
    intro k _
    rw [gcat_succ (P + 1), List.count_append]

/-- If the sum exists and is as long as it would be for values in range, all values are in range. -/
theorem allreduce_range {m P : Nat} (hm : 2 ≤ m) {x : Nat → List Nat} {s : List Nat}
    (h : allreduceArrays (fun p => bincount m (x p)) P = .ok s) : m ≤ s.length ∧ (s.length = m → ∀ p ≤ P, ∀ v ∈ x p, v < m) := by
  induction P generalizing s with
  | zero =>
    rw [allreduceArrays] at h
    injection h with h
    subst h
    refine ⟨bincount_length _ _, fun hl p hp => ?_⟩
    obtain rfl : p = 0 := by omega
    exact (bincount_length_iff m _).1 hl
  | succ P ih =>
    rw [allreduceArrays] at h
    cases ht : allreduceArrays (fun p => bincount m (x p)) P with
    | error e => rw [ht] at h; cases h
    | ok t =>
      rw [ht] at h
      obtain ⟨h1, h2⟩ := ih ht
      obtain ⟨h3, rfl⟩ := addArrays_long (by omega) (le_trans hm (bincount_length _ _)) h
      have : (List.zipWith (· + ·) t (bincount m (x (P + 1)))).length = t.length := by
        rw [List.length_zipWith]; omega
      rw [this]
      refine ⟨h1, fun hl p hp => ?_⟩
      rcases Nat.lt_or_ge P p with hp' | hp'
      · obtain rfl : p = P + 1 := by omega
        exact (bincount_length_iff m _).1 (by omega)
      · exact h2 hl p hp'

theorem perm_of_counts {m : Nat} {a b : List Nat} (ha : ∀ v ∈ a, v < m) (hb : ∀ v ∈ b, v < m)
    (h : (List.range m).map (fun k => a.count k) = (List.range m).map (fun k => b.count k)) : a.Perm b := by
  rw [List.perm_iff_count]
  intro k
  by_cases hk : k < m
  · exact List.map_inj_left.1 h k (List.mem_range.2 hk)
  · rw [List.count_eq_zero_of_not_mem (fun hc => hk (ha k hc)), List.count_eq_zero_of_not_mem (fun hc => hk (hb k hc))]

/-! ### Order within and between ranks -/

theorem isAscending_iff [LinearOrder α] (l : List α) : isAscending l = true ↔ l.Pairwise (· ≤ ·) := by
  induction l with
  | nil => simp [isAscending]
  | cons x l ih =>
    cases l with
    | nil => simp [isAscending]
    | cons y l =>
      rw [isAscending, Bool.and_eq_true, ih, List.pairwise_cons (a := x)]
      simp only [decide_eq_true_eq]
      constructor
      · rintro ⟨h1, h2⟩
        refine ⟨?_, h2⟩
        intro z hz
        rcases List.mem_cons.1 hz with rfl | hz
        · exact h1
        · exact h1.trans ((List.pairwise_cons.1 h2).1 z hz)
      · rintro ⟨h1, h2⟩
        exact ⟨h1 y (by simp), h2⟩

theorem foldl_min_le [LinearOrder α] (l : List α) (x : α) : l.foldl min x ≤ x ∧ (∀ y ∈ l, l.foldl min x ≤ y) ∧ l.foldl min x ∈ x :: l := by
  induction l generalizing x with
  | nil => simp
  | cons y l ih =>
    obtain ⟨h1, h2, h3⟩ := ih (min x y)
    simp only [List.foldl_cons]
    refine ⟨h1.trans (min_le_left _ _), ?_, ?_⟩
    · intro z hz
      rcases List.mem_cons.1 hz with rfl | hz
      · exact h1.trans (min_le_right _ _)
      · exact h2 z hz
    · rcases List.mem_cons.1 h3 with h | h
      · rw [h]; rcases min_choice x y with h' | h' <;> rw [h'] <;> simp
      · simp [h]

theorem le_foldl_max [LinearOrder α] (l : List α) (x : α) : x ≤ l.foldl max x ∧ (∀ y ∈ l, y ≤ l.foldl max x) ∧ l.foldl max x ∈ x :: l := by
  induction l generalizing x with
  | nil => simp
  | cons y l ih =>
    obtain ⟨h1, h2, h3⟩ := ih (max x y)
    simp only [List.foldl_cons]
    refine ⟨(le_max_left _ _).trans h1, ?_, ?_⟩
    · intro z hz
      rcases List.mem_cons.1 hz with rfl | hz
      · exact (le_max_right _ _).trans h1
      · exact h2 z hz
    · rcases List.mem_cons.1 h3 with h | h
      · rw [h]; rcases max_choice x y with h' | h' <;> rw [h'] <;> simp
      · simp [h]

theorem amin_spec [LinearOrder α] [Inhabited α] {l : List α} (h : l ≠ []) : amin l ∈ l ∧ ∀ y ∈ l, amin l ≤ y := by
  cases l with
  | nil => exact absurd rfl h
  | cons x l =>
    obtain ⟨h1, h2, h3⟩ := foldl_min_le l x
    refine ⟨h3, fun y hy => ?_⟩
    rcases List.mem_cons.1 hy with rfl | hy
    · exact h1
    · exact h2 y hy

theorem amax_spec [LinearOrder α] [Inhabited α] {l : List α} (h : l ≠ []) : amax l ∈ l ∧ ∀ y ∈ l, y ≤ amax l := by
  cases l with
  | nil => exact absurd rfl h
  | cons x l =>
    obtain ⟨h1, h2, h3⟩ := le_foldl_max l x
    refine ⟨h3, fun y hy => ?_⟩
    rcases List.mem_cons.1 hy with rfl | hy
    · exact h1
    · exact h2 y hy

theorem gcat_pairwise_mem [LinearOrder α] {P : Nat} {a : Nat → List α} (h : (gcat P a).Pairwise (· ≤ ·)) :
    (∀ p < P, (a p).Pairwise (· ≤ ·)) ∧ ∀ p q, p < q → q < P → ∀ x ∈ a p, ∀ y ∈ a q, x ≤ y := by
  induction P with
  | zero => exact ⟨fun p hp => by omega, fun p q _ hq => by omega⟩
  | succ P ih =>
    rw [gcat_succ, List.pairwise_append] at h
    obtain ⟨h1, h2, h3⟩ := h
    obtain ⟨h4, h5⟩ := ih h1
    refine ⟨fun p hp => ?_, fun p q hpq hq x hx y hy => ?_⟩
    · rcases Nat.lt_or_ge p P with hp' | hp'
      · exact h4 p hp'
      · obtain rfl : p = P := by omega
        exact h2
    · rcases Nat.lt_or_ge q P with hq' | hq'
      · exact h5 p q hpq hq' x hx y hy
      · obtain rfl : q = P := by omega
        exact h3 x (mem_gcat.2 ⟨p, hpq, hx⟩) y hy

/-- The order between ranks, as checked, together with the order on each rank is the order of the combined array. -/
theorem between_iff [LinearOrder α] [Inhabited α] {P : Nat} {a : Nat → List α} :
    (assertAllRanks P (fun p => isAscending (a p)) = .ok () ∧ checkBetween P a = .ok ()) ↔
    (gcat P a).Pairwise (· ≤ ·) ∧ (1 < P → ∀ p < P, a p ≠ []) := by
  have hasc : assertAllRanks P (fun p => isAscending (a p)) = .ok () ↔ ∀ p < P, (a p).Pairwise (· ≤ ·) := by
    unfold assertAllRanks
    have : ((List.range P).all (fun p => isAscending (a p)) = true) ↔ ∀ p < P, (a p).Pairwise (· ≤ ·) := by
      rw [List.all_eq_true]
      exact ⟨fun h p hp => (isAscending_iff _).1 (h p (List.mem_range.2 hp)), fun h p hp => (isAscending_iff _).2 (h p (List.mem_range.1 hp))⟩
    split
    · rename_i h; exact ⟨fun _ => this.1 h, fun _ => rfl⟩
    · rename_i h
      exact ⟨fun hc => (by cases hc), fun hc => absurd (this.2 hc) h⟩
  rw [hasc]
  unfold checkBetween
  by_cases hP : P > 1
  · rw [if_pos hP]
    by_cases he : ((List.range P).any (fun p => (a p).isEmpty)) = true
    · rw [if_pos he]
      obtain ⟨p, hp, hpe⟩ := List.any_eq_true.1 he
      constructor
      · rintro ⟨-, h⟩; cases h
      · rintro ⟨-, h⟩
        exact absurd (by simpa using hpe) (h hP p (List.mem_range.1 hp))
    · rw [if_neg he]
      have hne : ∀ p < P, a p ≠ [] := by
        intro p hp hc
        exact he (List.any_eq_true.2 ⟨p, List.mem_range.2 hp, by simp [hc]⟩)
      have hb : assertAllRanks P (fun _ => (List.range (P - 1)).all (fun p => decide (amax (a p) ≤ amin (a (p + 1))))) = .ok () ↔
          ∀ p < P - 1, amax (a p) ≤ amin (a (p + 1)) := by
        unfold assertAllRanks
        have : ((List.range P).all (fun _ => (List.range (P - 1)).all (fun p => decide (amax (a p) ≤ amin (a (p + 1))))) = true) ↔
            ∀ p < P - 1, amax (a p) ≤ amin (a (p + 1)) := by
          rw [List.all_eq_true]
          constructor
          · intro h p hp
            have := List.all_eq_true.1 (h 0 (List.mem_range.2 (by omega))) p (List.mem_range.2 hp)
            simpa using this
          · intro h _ _
            rw [List.all_eq_true]
            intro p hp
            simpa using h p (List.mem_range.1 hp)
        split
        · rename_i h; exact ⟨fun _ => this.1 h, fun _ => rfl⟩
        · rename_i h
          exact ⟨fun hc => (by cases hc), fun hc => absurd (this.2 hc) h⟩
      rw [hb]
      constructor
      · rintro ⟨h1, h2⟩
        refine ⟨gcat_pairwise h1 ?_, fun _ => hne⟩
        have step : ∀ p q, p < q → q < P → amax (a p) ≤ amin (a q) := by
          intro p q hpq
          induction q, hpq using Nat.le_induction with
          | base => intro hq; exact h2 p (by omega)
          | succ q hq ih =>
            intro hq'
            refine (ih (by omega)).trans (le_trans ?_ (h2 q (by omega)))
            exact (amin_spec (hne q (by omega))).2 _ (amax_spec (hne q (by omega))).1
        intro p q hpq hq x hx y hy
        exact ((amax_spec (hne p (by omega))).2 x hx).trans ((step p q hpq hq).trans ((amin_spec (hne q hq)).2 y hy))
      · rintro ⟨h1, -⟩
        obtain ⟨h2, h3⟩ := gcat_pairwise_mem h1
        exact ⟨h2, fun p hp => h3 p (p + 1) (by omega) (by omega) _ (amax_spec (hne p (by omega))).1 _ (amin_spec (hne (p + 1) (by omega))).1⟩
  · rw [if_neg hP]
    constructor
    · rintro ⟨h1, -⟩
      exact ⟨gcat_pairwise h1 (fun p q hpq hq => by omega), fun h => by omega⟩
    · rintro ⟨h1, -⟩
      exact ⟨(gcat_pairwise_mem h1).1, rfl⟩

end Verif.SortTests
