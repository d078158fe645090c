import Verif.Model.BincountOrder
import Verif.Proofs.ReduceOrder
import Verif.Proofs.FloatBits
import Verif.Spec.Double
import Verif.Props.ReduceElements
import Verif.Props.RoundedRegion

/-! C142: the order of additions in `reduce_elements` and `parallel_bincount`, and rounding -/

namespace Verif

variable {α : Type*}

/-- The updates of one rank for global index `j`, in the order given. -/
def updatesOf (index : List Int) (updates : List α) (j : Nat) : List α :=
  ((index.zip updates).filter (fun e => decide (e.1 = (j : Int)))).map Prod.snd

theorem upsFor_gcat (P : Nat) (a : Nat → List (Int × α)) (k : Int) : upsFor (gcat P a) k = gcat P (fun p => upsFor (a p) k) := by
  induction P with
  | zero => rfl
  | succ P ih => rw [gcat_succ, gcat_succ, upsFor_append, ih]

/-- C142. For any operator, also one which is neither commutative nor associative: the updates for each element are applied one by one in the order of the ranks. Those of one rank
may come in any order. Ufuncs have the element as first argument and MPI operators have it as second argument. -/
theorem C142_any [Inhabited α] (P : Nat) (op : α → α → α) (ufunc : Bool)
    (order : Nat → List Nat) (arr updates : Nat → List α) (index : Nat → List Int)
    (horder : ∀ p < P, IsArgsort (index p) (order p))
    (hlen : ∀ p < P, (index p).length = (updates p).length)
    (hin : ∀ p < P, ∀ i ∈ index p, 0 ≤ i ∧ i < ((gcat P arr).length : Int)) :
    ∃ out, reduceElements P op ufunc order arr updates index = .ok out ∧
      (∀ p < P, (out p).length = (arr p).length) ∧
      ∃ L : Nat → Nat → List α, (∀ p < P, ∀ j, (L p j).Perm (updatesOf (index p) (updates p) j)) ∧
        gcat P out = (gcat P arr).mapIdx (fun j a => (gcat P (fun p => L p j)).foldl (fun a u => if ufunc then op a u else op u a) a) := by
  rw [reduceElements_flip]
  obtain ⟨out, h1, h2⟩ := reduceElements_order (op := fun a u => if ufunc then op a u else op u a) horder hlen
    (fun p hp i hi => by have := hin p hp i hi; rwa [length_gcat] at this)
  refine ⟨out, h1, fun p hp => by rw [h2 p hp]; simp,
    fun p j => upsFor ((fancy (index p) (order p)).zip (fancy (updates p) (order p))) j,
    fun p hp j => ((zip_fancy_perm (hlen p hp) (horder p hp).1).filter _).map _, ?_⟩
  rw [gcat_congr h2]
  simp only [upsFor_gcat]
  exact gcat_mapIdx (fun j a => (gcat P fun p => upsFor ((fancy (index p) (order p)).zip (fancy (updates p) (order p))) (j : Int)).foldl
    (fun a u => if ufunc then op a u else op u a) a) P arr

theorem length_updatesOf_nodup {index : List Int} (h : index.Nodup) : ∀ (updates : List α) (j : Nat), (updatesOf index updates j).length ≤ 1 := by
  intro updates j
  unfold updatesOf
  rw [List.length_map]
  induction index generalizing updates with
  | nil => simp
  | cons i index ih =>
    cases updates with
    | nil => simp
    | cons u updates =>
      rw [List.nodup_cons] at h
      rw [List.zip_cons_cons, List.filter_cons]
      split
      · rename_i hi
        have hi : i = j := by simpa using hi
        have : (index.zip updates).filter (fun e => decide (e.1 = (j : Int))) = [] := by
          rw [List.filter_eq_nil_iff]
          intro e he hj
          exact h.1 (hi ▸ (by simpa using hj : e.1 = (j : Int)) ▸ (List.of_mem_zip he).1)
        rw [this]; simp
      · exact ih h.2 _

/-- C142. If no rank has an index twice, the updates are applied exactly in the order of the ranks and the result does not depend on the sort. -/
theorem C142_rank_order [Inhabited α] (P : Nat) (op : α → α → α) (ufunc : Bool)
    (order : Nat → List Nat) (arr updates : Nat → List α) (index : Nat → List Int)
    (horder : ∀ p < P, IsArgsort (index p) (order p))
    (hlen : ∀ p < P, (index p).length = (updates p).length)
    (hin : ∀ p < P, ∀ i ∈ index p, 0 ≤ i ∧ i < ((gcat P arr).length : Int))
    (hnd : ∀ p < P, (index p).Nodup) :
    ∃ out, reduceElements P op ufunc order arr updates index = .ok out ∧
      (∀ p < P, (out p).length = (arr p).length) ∧
      gcat P out = (gcat P arr).mapIdx (fun j a => (updatesFor P index updates j).foldl (fun a u => if ufunc then op a u else op u a) a) := by
  obtain ⟨out, h1, h2, L, h3, h4⟩ := C142_any P op ufunc order arr updates index horder hlen hin
  refine ⟨out, h1, h2, ?_⟩
  rw [h4]
  congr 1
  funext j a
  congr 1
  have : updatesFor P index updates j = gcat P (fun p => updatesOf (index p) (updates p) j) :=
    upsFor_gcat P (fun p => (index p).zip (updates p)) (j : Int)
  rw [this]
  apply gcat_congr
  intro p hp
  have hl := length_updatesOf_nodup (hnd p hp) (updates p) j
  have h := h3 p hp j
  generalize updatesOf (index p) (updates p) j = l at *
  match l, hl with
  | [], _ => exact List.perm_nil.1 h
  | [u], _ => exact List.perm_singleton.1 h

/-! ### Rounding -/

/-- Error of a sequence of rounded additions, with errors of the summands -/
theorem fold_error {T : Type*} {ε : ℚ} (hε : 0 ≤ ε) {fl : ℚ → ℚ} (hfl : ∀ x, |fl x - x| ≤ ε * |x|) (u v s : T → ℚ) :
    ∀ (l : List T) (n : ℕ) (a b t : ℚ), |a - b| ≤ ((1 + ε) ^ n - 1) * t → |b| ≤ t →
      (∀ i ∈ l, |u i - v i| ≤ ((1 + ε) ^ n - 1) * s i ∧ |v i| ≤ s i) →
      |(l.map u).foldl (fun a u => fl (a + u)) a - (b + (l.map v).sum)| ≤ ((1 + ε) ^ (n + l.length) - 1) * (t + (l.map s).sum) := by
  intro l
  induction l with
  | nil => intro n a b t h1 _ _; simpa using h1
  | cons i l ih =>
    intro n a b t h1 h2 h3
    have hi := h3 i (by simp)
    have hpow : (1 : ℚ) ≤ (1 + ε) ^ n := one_le_pow₀ (by linarith)
    have hs : 0 ≤ s i := (abs_nonneg _).trans hi.2
    have ht : 0 ≤ t := (abs_nonneg _).trans h2
    have e1 : |a + u i| ≤ (1 + ε) ^ n * (t + s i) := by
      have : a + u i = (a - b) + (u i - v i) + b + v i := by ring
      rw [this]
      have := abs_add_le ((a - b) + (u i - v i) + b) (v i)
      have := abs_add_le ((a - b) + (u i - v i)) b
      have := abs_add_le (a - b) (u i - v i)
      nlinarith
    have e2 : |fl (a + u i) - (b + v i)| ≤ ((1 + ε) ^ (n + 1) - 1) * (t + s i) := by
      have e : fl (a + u i) - (b + v i) = (fl (a + u i) - (a + u i)) + (a - b) + (u i - v i) := by ring
      rw [e]
      have e' : ((1 + ε) ^ (n + 1) - 1) * (t + s i) = ε * ((1 + ε) ^ n * (t + s i)) + ((1 + ε) ^ n - 1) * t + ((1 + ε) ^ n - 1) * s i := by ring
      rw [e']
      refine (abs_add_le _ _).trans (add_le_add ((abs_add_le _ _).trans (add_le_add ?_ h1)) hi.1)
      exact (hfl (a + u i)).trans (mul_le_mul_of_nonneg_left e1 hε)
    have := ih (n + 1) (fl (a + u i)) (b + v i) (t + s i) e2 ((abs_add_le _ _).trans (by linarith)) (by
      intro k hk
      have hk := h3 k (by simp [hk])
      refine ⟨hk.1.trans (mul_le_mul_of_nonneg_right ?_ ((abs_nonneg _).trans hk.2)), hk.2⟩
      exact sub_le_sub_right (pow_le_pow_right₀ (by linarith) (Nat.le_succ n)) 1)
    rw [List.map_cons, List.foldl_cons, List.map_cons, List.sum_cons, List.map_cons, List.sum_cons, List.length_cons]
    rw [show n + (l.length + 1) = n + 1 + l.length by ring, ← add_assoc, ← add_assoc]
    exact this

/-- Error of a sum computed in any order -/
theorem tree_error {ε : ℚ} (hε : 0 ≤ ε) {fl : ℚ → ℚ} (hfl : ∀ x, |fl x - x| ≤ ε * |x|) {l : List ℚ} {s : ℚ} (h : Double.SumTree fl l s) :
    l ≠ [] ∧ |s - l.sum| ≤ ((1 + ε) ^ l.length - 1) * (l.map abs).sum ∧ |l.sum| ≤ (l.map abs).sum := by
  induction h with
  | one x =>
    refine ⟨by simp, ?_, by simp⟩
    simp only [List.sum_singleton, sub_self, abs_zero, List.length_singleton, pow_one, List.map_singleton]
    exact mul_nonneg (by linarith) (abs_nonneg _)
  | @add l₁ l₂ l a b _ _ hp ih1 ih2 =>
    obtain ⟨n1, e1, t1⟩ := ih1
    obtain ⟨n2, e2, t2⟩ := ih2
    rw [(hp.map abs).sum_eq, hp.sum_eq, hp.length_eq, List.map_append, List.sum_append, List.sum_append, List.length_append]
    have g1 := List.length_pos_iff.2 n1
    have g2 := List.length_pos_iff.2 n2
    refine ⟨by rintro rfl; simpa [n1] using hp.symm.eq_nil, ?_, (abs_add_le _ _).trans (add_le_add t1 t2)⟩
    have hone : (1 : ℚ) ≤ 1 + ε := by linarith
    have q1 : (1 + ε) ^ l₁.length ≤ (1 + ε) ^ (l₁.length + l₂.length - 1) := pow_le_pow_right₀ hone (by omega)
    have q2 : (1 + ε) ^ l₂.length ≤ (1 + ε) ^ (l₁.length + l₂.length - 1) := pow_le_pow_right₀ hone (by omega)
    have T1 := (abs_nonneg _).trans t1
    have T2 := (abs_nonneg _).trans t2
    have e1 := e1.trans (mul_le_mul_of_nonneg_right (sub_le_sub_right q1 1) T1)
    have e2 := e2.trans (mul_le_mul_of_nonneg_right (sub_le_sub_right q2 1) T2)
    have hlen : l₁.length + l₂.length = (l₁.length + l₂.length - 1) + 1 := by omega
    rw [hlen]
    have := fold_error hε hfl (fun _ : Unit => b) (fun _ => l₂.sum) (fun _ => (l₂.map abs).sum) [()] (l₁.length + l₂.length - 1) a l₁.sum (l₁.map abs).sum e1 t1
      (fun _ _ => ⟨e2, t2⟩)
    simpa using this

end Verif

namespace Verif.FloatBits

/-- Rounding to a nearest number of `p` bits changes a number by at most one part in 2^p. -/
theorem NearestTo.error_le {p : ℕ} {fl : ℚ → ℚ} (hf : NearestTo p fl) (x : ℚ) : |fl x - x| ≤ 1 / 2 ^ p * |x| := by
  rw [one_div_mul_eq_div]
  rcases lt_trichotomy x 0 with h | h | h
  · have := hf.neg.error_lt (x := -x) (by linarith)
    simp only [neg_neg] at this
    rw [abs_of_neg h, abs_sub_comm]
    have e : -fl x - -x = x - fl x := by ring
    rw [e] at this
    exact this.le
  · rw [h, hf.self (isFloat_zero p)]; simp
  · rw [abs_of_pos h]; exact (hf.error_lt h).le

end Verif.FloatBits

namespace Verif

open FloatBits

/-- C142. Sums of floating point numbers: the error is at most what `n` roundings can give, if there are `n` updates, whatever the order. -/
theorem C142_rounded_sum (bits : ℕ) (fl : ℚ → ℚ) (hfl : NearestTo bits fl) (P : Nat) (ufunc : Bool)
    (order : Nat → List Nat) (arr updates : Nat → List ℚ) (index : Nat → List Int)
    (horder : ∀ p < P, IsArgsort (index p) (order p))
    (hlen : ∀ p < P, (index p).length = (updates p).length)
    (hin : ∀ p < P, ∀ i ∈ index p, 0 ≤ i ∧ i < ((gcat P arr).length : Int)) :
    ∃ out, reduceElements P (fun a b => fl (a + b)) ufunc order arr updates index = .ok out ∧
      (∀ p < P, (out p).length = (arr p).length) ∧
      ∀ (j : Nat) (a : ℚ), (gcat P arr)[j]? = some a → ∃ s, (gcat P out)[j]? = some s ∧
        |s - (a + (updatesFor P index updates j).sum)| ≤
          ((1 + 1 / 2 ^ bits) ^ (updatesFor P index updates j).length - 1) * (|a| + ((updatesFor P index updates j).map abs).sum) := by
  obtain ⟨out, h1, h2, L, h3, h4⟩ := C142_any P (fun a b => fl (a + b)) ufunc order arr updates index horder hlen hin
  refine ⟨out, h1, h2, fun j a ha => ?_⟩
  rw [h4, List.getElem?_mapIdx, ha]
  refine ⟨_, rfl, ?_⟩
  have hperm : (gcat P (fun p => L p j)).Perm (updatesFor P index updates j) := by
    have : updatesFor P index updates j = gcat P (fun p => updatesOf (index p) (updates p) j) :=
      upsFor_gcat P (fun p => (index p).zip (updates p)) (j : Int)
    rw [this]
    exact perm_gcat (fun p hp => h3 p hp j)
  rw [← hperm.sum_eq, ← hperm.length_eq, ← (hperm.map abs).sum_eq]
  have hop : (fun a u => if ufunc = true then fl (a + u) else fl (u + a)) = fun a u => fl (a + u) := by
    funext a u
    split
    · rfl
    · rw [add_comm]
  rw [hop]
  have := fold_error (ε := 1 / 2 ^ bits) (by positivity) hfl.error_le id id abs (gcat P (fun p => L p j)) 0 a a |a| (by simp) le_rfl (by simp)
  simpa using this

/-- C142. If the numbers are whole numbers and the sums of their absolute values are at most 2^24 (single precision) or 2^53 (double precision), sums are exact. -/
theorem C142_whole_numbers (bits : ℕ) (fl : ℚ → ℚ) (hfl : NearestTo bits fl) (P : Nat) (ufunc : Bool)
    (order : Nat → List Nat) (arr updates : Nat → List Int) (index : Nat → List Int)
    (horder : ∀ p < P, IsArgsort (index p) (order p))
    (hlen : ∀ p < P, (index p).length = (updates p).length)
    (hin : ∀ p < P, ∀ i ∈ index p, 0 ≤ i ∧ i < ((gcat P arr).length : Int))
    (hsmall : ∀ (j : Nat) (a : Int), (gcat P arr)[j]? = some a → |a| + ((updatesFor P index updates j).map abs).sum ≤ 2 ^ bits) :
    ∃ out, reduceElements P (fun a b => fl (a + b)) ufunc order (fun p => (arr p).map (fun a : Int => (a : ℚ))) (fun p => (updates p).map (fun a : Int => (a : ℚ))) index = .ok out ∧
      gcat P out = (gcat P arr).mapIdx (fun j a => ((a + (updatesFor P index updates j).sum : Int) : ℚ)) := by
  have hmapg : gcat P (fun p => (arr p).map (fun a : Int => (a : ℚ))) = (gcat P arr).map (fun a : Int => (a : ℚ)) := by
    clear hsmall hin hlen horder
    induction P with
    | zero => rfl
    | succ P ih => rw [gcat_succ, gcat_succ, ih, List.map_append]
  obtain ⟨out, h1, -, L, h3, h4⟩ := C142_any P (fun a b => fl (a + b)) ufunc order (fun p => (arr p).map (fun a : Int => (a : ℚ)))
    (fun p => (updates p).map (fun a : Int => (a : ℚ))) index horder (by simpa using hlen) (by rw [hmapg, List.length_map]; exact hin)
  refine ⟨out, h1, ?_⟩
  have hop : (fun a u => if ufunc = true then fl (a + u) else fl (u + a)) = fun a u => fl (a + u) := by
    funext a u
    split
    · rfl
    · rw [add_comm]
  rw [h4, hmapg, hop]
  apply List.ext_getElem?
  intro j
  rw [List.getElem?_mapIdx, List.getElem?_mapIdx, List.getElem?_map]
  cases ha : (gcat P arr)[j]? with
  | none => rfl
  | some a =>
    simp only [Option.map_some, Option.some.injEq]
    have hb := hsmall j a ha
    have hperm : (gcat P (fun p => L p j)).Perm ((updatesFor P index updates j).map (fun a : Int => (a : ℚ))) := by
      have : updatesFor P index updates j = gcat P (fun p => updatesOf (index p) (updates p) j) :=
        upsFor_gcat P (fun p => (index p).zip (updates p)) (j : Int)
      rw [this, map_gcat]
      apply perm_gcat
      intro p hp
      refine (h3 p hp j).trans (List.Perm.of_eq ?_)
      unfold updatesOf
      rw [List.zip_map_right, List.filter_map, List.map_map, List.map_map]
      rfl
    obtain ⟨M, hM1, hM2⟩ : ∃ M : List Int, gcat P (fun p => L p j) = M.map (fun a : Int => (a : ℚ)) ∧ M.Perm (updatesFor P index updates j) := by
      refine ⟨(gcat P (fun p => L p j)).map (fun x => ⌊x⌋), ?_, ?_⟩
      · rw [List.map_map]
        symm
        conv_rhs => rw [← List.map_id (gcat P (fun p => L p j))]
        apply List.map_congr_left
        intro x hx
        obtain ⟨m, -, rfl⟩ := List.mem_map.1 (hperm.mem_iff.1 hx)
        simp
      · have h5 := hperm.map (fun x : ℚ => ⌊x⌋)
        rw [List.map_map] at h5
        have h6 : (fun x : ℚ => ⌊x⌋) ∘ (fun a : Int => (a : ℚ)) = id := by funext a; simp
        rwa [h6, List.map_id] at h5
    rw [hM1, ← hM2.sum_eq]
    rw [← (hM2.map abs).sum_eq] at hb
    clear hM1 hM2 ha
    induction M generalizing a with
    | nil => simp
    | cons m M ih =>
      rw [List.map_cons, List.foldl_cons, List.sum_cons, ← add_assoc]
      rw [List.map_cons, List.sum_cons, ← add_assoc] at hb
      have hM0 : 0 ≤ (M.map abs).sum := List.sum_nonneg (by simp)
      have h7 := abs_add_le a m
      have h8 : fl ((a : ℚ) + (m : ℚ)) = ((a + m : Int) : ℚ) := by
        rw [← Int.cast_add]
        exact hfl.self (isFloat_int (by linarith))
      rw [h8]
      exact ih (a + m) (by linarith)

/-! ### `parallel_bincount` -/

/-- The loop over the distinct values as a recursion -/
def binLoopOp {α : Type*} (sum : List α → α) : List (Int × Nat) → List α → List (Int × α)
  | [], _ => []
  | (v, c) :: u, w => (v, sum (w.take c)) :: binLoopOp sum u (w.drop c)

section
variable {α : Type*} {sum : List α → α}

theorem binLoopOp_eq (u : List (Int × Nat)) : ∀ w : List α,
    (List.range u.length).map (fun i =>
      ((u.getD i (0, 0)).1, sum (slice w ((u.take i).map Prod.snd).sum (u.getD i (0, 0)).2))) = binLoopOp sum u w := by
  induction u with
  | nil => intro w; rfl
  | cons e u ih =>
    intro w
    obtain ⟨v, c⟩ := e
    rw [List.length_cons, List.range_succ_eq_map, List.map_cons, List.map_map, binLoopOp, ← ih]
    congr 1
    apply List.map_congr_left
    intro i _
    simp [slice, List.drop_drop]

theorem binLoopOp_fst (u : List (Int × Nat)) : ∀ w : List α, (binLoopOp sum u w).map Prod.fst = u.map Prod.fst := by
  induction u with
  | nil => intro w; rfl
  | cons e u ih => intro w; obtain ⟨v, c⟩ := e; simp [binLoopOp, ih]

/-- Each value which occurs has the sum of its weights. -/
theorem binLoopOp_ups (k : Int) (u : List (Int × Nat)) : ∀ w : List α,
    (u.map Prod.fst).Nodup → (u.map Prod.snd).sum = w.length →
    upsFor (binLoopOp sum u w) k =
      if k ∈ u.map Prod.fst then [sum (upsFor ((u.flatMap (fun e => List.replicate e.2 e.1)).zip w) k)] else [] := by
  induction u with
  | nil => intro w _ _; simp [binLoopOp, upsFor]
  | cons e u ih =>
    intro w hnd hw
    obtain ⟨v, c⟩ := e
    simp only [List.map_cons, List.sum_cons] at hw
    rw [List.map_cons, List.nodup_cons] at hnd
    have h1 : (w.take c).length = c := by simp; omega
    have h2 := upsFor_replicate v k (w.take c)
    rw [h1] at h2
    have h3 : upsFor ((((v, c) :: u).flatMap (fun e => List.replicate e.2 e.1)).zip w) k =
        (if v = k then w.take c else []) ++ upsFor ((u.flatMap (fun e => List.replicate e.2 e.1)).zip (w.drop c)) k := by
      rw [List.flatMap_cons]
      conv_lhs => rw [← List.take_append_drop c w]
      rw [List.zip_append (by simp; omega), upsFor_append, h2]
    have h4 := ih (w.drop c) hnd.2 (by simp; omega)
    have h5 : upsFor (binLoopOp sum ((v, c) :: u) w) k = (if v = k then [sum (w.take c)] else []) ++ upsFor (binLoopOp sum u (w.drop c)) k := by
      rw [binLoopOp]
      unfold upsFor
      rw [List.filter_cons]
      by_cases h : v = k <;> simp [h]
    rw [h5, h3, h4]
    by_cases h : v = k
    · subst h
      have h6 : upsFor ((u.flatMap (fun e => List.replicate e.2 e.1)).zip (w.drop c)) v = [] := by
        unfold upsFor
        rw [List.map_eq_nil_iff, List.filter_eq_nil_iff]
        intro e he hv
        have hm := (List.of_mem_zip he).1
        rw [List.mem_flatMap] at hm
        obtain ⟨e', he', hm⟩ := hm
        have h7 := List.eq_of_mem_replicate hm
        have h8 : e.1 = v := by simpa using hv
        exact hnd.1 (List.mem_map.2 ⟨e', he', by rw [← h7, h8]⟩)
      simp only [List.map_cons, List.mem_cons, true_or, if_true, h6, List.append_nil]
      rw [if_neg hnd.1, List.append_nil]
    · simp only [List.map_cons, List.mem_cons, h, if_false, List.nil_append, Ne.symm h, false_or]

end

section
variable {α : Type*} [Inhabited α] {sum : List α → α}

theorem binCountLocalOp_fst {order : List Nat} {x : List Int} {w : List α} (ho : IsArgsort x order) (v : Int) :
    v ∈ (binCountLocalOp sum order x w).map Prod.fst ↔ v ∈ x := by
  unfold binCountLocalOp
  simp only
  rw [binLoopOp_eq, binLoopOp_fst, npUnique_mem, mem_fancy_of_perm ho.1]

theorem binCountLocalOp_nodup {order : List Nat} {x : List Int} {w : List α} :
    ((binCountLocalOp sum order x w).map Prod.fst).Nodup := by
  unfold binCountLocalOp
  simp only
  rw [binLoopOp_eq, binLoopOp_fst]
  exact (npUnique_lt _).imp (fun h => ne_of_lt h)

theorem binCountLocalOp_ups {order : List Nat} {x : List Int} {w : List α} (ho : IsArgsort x order)
    (hl : x.length = w.length) (k : Nat) :
    upsFor (binCountLocalOp sum order x w) k =
      if (k : Int) ∈ x then [sum (upsFor ((fancy x order).zip (fancy w order)) k)] else [] := by
  have hm := npUnique_mem (fancy x order) (k : Int)
  have hnd : ((npUnique (fancy x order)).map Prod.fst).Nodup := (npUnique_lt _).imp (fun h => ne_of_lt h)
  unfold binCountLocalOp
  simp only
  rw [binLoopOp_eq]
  rw [npUnique_of_sorted ho.2] at *
  rw [binLoopOp_ups _ _ _ hnd, rle_flatMap]
  · rw [mem_fancy_of_perm ho.1] at hm
    simp only [hm]
  · have h := congrArg List.length (rle_flatMap (fancy x order))
    rw [List.length_flatMap] at h
    simp only [List.length_replicate] at h
    rw [h, length_fancy, length_fancy]

end

theorem gcat_if {α : Type*} (P : Nat) (c : Nat → Prop) [DecidablePred c] (f : Nat → α) :
    gcat P (fun p => if c p then [f p] else []) = ((List.range P).filter (fun p => decide (c p))).map f := by
  induction P with
  | zero => rfl
  | succ P ih =>
    rw [gcat_succ, ih, List.range_succ, List.filter_append, List.map_append]
    congr 1
    by_cases h : c P <;> simp [h]

/-- C142, `parallel_bincount`. Each bin is 0 to which the sums of those ranks which have the value are added in the order of ranks. On each rank the weights with the value are added by `np.sum`
in some order. -/
theorem C142_bincount {α : Type*} [Inhabited α] (P : Nat) (hP : 0 < P) (zero : α) (sum : List α → α) (add : α → α → α)
    (order1 order2 : Nat → List Int → List Nat) (h1 : ∀ p l, IsArgsort l (order1 p l))
    (h2 : ∀ p l, IsArgsort l (order2 p l)) (x : Nat → List Int) (w : Nat → List α)
    (hlen : ∀ p < P, (x p).length = (w p).length) (h0 : ∀ p < P, ∀ v ∈ x p, 0 ≤ v) (minlength : Option Int) :
    let n := (max ((gcat P x).foldl max 0 + 1) (minlength.getD 0)).toNat
    ∃ out, parallelBincountOp P zero sum add order1 order2 x w minlength = .ok out ∧
      (∀ p < P, (out p).length = n / P + if p < n % P then 1 else 0) ∧
      ∃ L : Nat → Nat → List α, (∀ p < P, ∀ k, (L p k).Perm (updatesOf (x p) (w p) k)) ∧
        gcat P out = (List.range n).map (fun k : Nat =>
          (((List.range P).filter (fun p => decide ((k : Int) ∈ x p))).map (fun p => sum (L p k))).foldl add zero) := by
  intro n
  have hb := binCountBins_eq hP h0 minlength
  obtain ⟨-, g2⟩ := foldl_max_spec (gcat P x) 0
  have hnn : 0 ≤ (gcat P x).foldl max 0 := g2 0 (by simp)
  have hbn : binCountBins P x minlength = (n : Int) := by
    rw [hb]; simp only [n]; omega
  have hloc : ∀ p : Nat, binCountBins P x minlength / P + (if (p : Int) < binCountBins P x minlength % P then 1 else 0)
      = ((n / P + if p < n % P then 1 else 0 : Nat) : Int) := by
    intro p
    rw [hbn, ← Int.natCast_mod, ← Int.natCast_ediv]
    by_cases h : p < n % P
    · rw [if_pos (by exact_mod_cast h), if_pos h]; simp
    · rw [if_neg (by exact_mod_cast h), if_neg h]; simp
  let r : Nat → List α := fun p => List.replicate (n / P + if p < n % P then 1 else 0) zero
  have hsr : sizes r = fun p => n / P + if p < n % P then 1 else 0 := by funext p; simp [r, sizes]
  have hpre : pre (sizes r) P = n := by rw [hsr]; exact pre_balanced n P hP
  obtain ⟨out, ho, hs, hv⟩ := C142_rank_order P add true
    (fun me => order2 me ((binCountLocalOp sum (order1 me (x me)) (x me) (w me)).map Prod.fst)) r
    (fun me => (binCountLocalOp sum (order1 me (x me)) (x me) (w me)).map Prod.snd)
    (fun me => (binCountLocalOp sum (order1 me (x me)) (x me) (w me)).map Prod.fst)
    (fun p _ => h2 _ _) (by simp) (by
      intro p hp v hv
      rw [binCountLocalOp_fst (h1 _ _)] at hv
      refine ⟨h0 p hp v hv, ?_⟩
      have := g2 v (List.mem_cons_of_mem _ (mem_gcat.2 ⟨p, hp, hv⟩))
      rw [length_gcat, hpre, ← hbn, hb]
      omega) (fun p _ => binCountLocalOp_nodup)
  refine ⟨out, ?_, fun p hp => by rw [hs p hp]; simp [r],
    fun p k => upsFor ((fancy (x p) (order1 p (x p))).zip (fancy (w p) (order1 p (x p)))) k,
    fun p hp k => ((zip_fancy_perm (hlen p hp) (h1 p (x p)).1).filter _).map _, ?_⟩
  · unfold parallelBincountOp
    simp only
    rw [if_neg (not_not.2 (by intro me _; rw [hloc]; exact Int.natCast_nonneg _)),
      if_neg (not_not.2 (fun me hme => (hlen me hme).le)), ← ho]
    congr 1
    funext me
    rw [hloc]
    rfl
  · rw [hv]
    have hr : gcat P r = List.replicate n zero := by
      rw [List.eq_replicate_iff]
      refine ⟨by rw [length_gcat, hpre], ?_⟩
      intro b hb
      obtain ⟨p, _, hp⟩ := mem_gcat.1 hb
      exact List.eq_of_mem_replicate hp
    rw [hr]
    apply List.ext_getElem?
    intro i
    rw [List.getElem?_mapIdx, List.getElem?_map]
    by_cases hi : i < n
    · rw [List.getElem?_replicate, if_pos hi, List.getElem?_range hi]
      simp only [Option.map_some, if_true, Option.some.injEq]
      congr 1
      refine (upsFor_gcat P _ (i : Int)).trans ?_
      rw [← gcat_if]
      apply gcat_congr
      intro p hp
      rw [← binCountLocalOp_ups (h1 p (x p)) (hlen p hp)]
      congr 1
      rw [List.zip_map']
      simp
    · rw [List.getElem?_eq_none (by simpa using hi), List.getElem?_eq_none (by simpa using hi)]
      rfl

/-- C142: if a rank has fewer weights than elements, indexing of the weights fails. -/
theorem C142_few_weights {α : Type*} [Inhabited α] (P : Nat) (zero : α) (sum : List α → α) (add : α → α → α)
    (order1 order2 : Nat → List Int → List Nat) (x : Nat → List Int) (w : Nat → List α) {q : Nat} (hq : q < P) (hfew : (w q).length < (x q).length)
    (h0 : ∀ p < P, ∀ v ∈ x p, 0 ≤ v) (minlength : Option Int) :
    parallelBincountOp P zero sum add order1 order2 x w minlength = .error .indexError := by
  have hP : 0 < P := by omega
  have hb := binCountBins_eq hP h0 minlength
  obtain ⟨-, g2⟩ := foldl_max_spec (gcat P x) 0
  have hnn : 0 ≤ (gcat P x).foldl max 0 := g2 0 (by simp)
  have hbn : 0 ≤ binCountBins P x minlength := by rw [hb]; omega
  unfold parallelBincountOp
  dsimp only
  rw [if_neg (not_not.2 fun me _ => add_nonneg (Int.ediv_nonneg hbn (by omega)) (by split <;> omega)),
    if_pos (fun h => absurd (h q hq) (by omega))]

/-- C142, `parallel_bincount` with floating point weights. `np.sum` may add numbers in any order. The error of a bin is at most that of as many roundings as there are
elements with its value on one rank plus the number of ranks. -/
theorem C142_bincount_rounded (bits : ℕ) (fl : ℚ → ℚ) (hfl : NearestTo bits fl) (P : Nat) (hP : 0 < P) (sum : List ℚ → ℚ)
    (hsum : ∀ l, l ≠ [] → Double.SumTree fl l (sum l))
    (order1 order2 : Nat → List Int → List Nat) (h1 : ∀ p l, IsArgsort l (order1 p l))
    (h2 : ∀ p l, IsArgsort l (order2 p l)) (x : Nat → List Int) (w : Nat → List ℚ)
    (hlen : ∀ p < P, (x p).length = (w p).length) (h0 : ∀ p < P, ∀ v ∈ x p, 0 ≤ v) (minlength : Option Int) :
    ∃ out, parallelBincountOp P 0 sum (fun a b => fl (a + b)) order1 order2 x w minlength = .ok out ∧
      (gcat P out).length = (max ((gcat P x).foldl max 0 + 1) (minlength.getD 0)).toNat ∧
      ∀ (k N : Nat) (s : ℚ), (gcat P out)[k]? = some s → (∀ p < P, (x p).count (k : Int) ≤ N) →
        |s - totalWeight P x w k| ≤ ((1 + 1 / 2 ^ bits) ^ (N + P) - 1) * totalWeight P x (fun p => (w p).map abs) k := by
  obtain ⟨out, ho, -, L, hL, hv⟩ := C142_bincount P hP (0 : ℚ) sum (fun a b => fl (a + b)) order1 order2 h1 h2 x w hlen h0 minlength
  refine ⟨out, ho, by rw [hv]; simp, fun k N s hs hN => ?_⟩
  have hε : (0 : ℚ) ≤ 1 / 2 ^ bits := by positivity
  have hone : (1 : ℚ) ≤ 1 + 1 / 2 ^ bits := by linarith
  rw [hv, List.getElem?_map] at hs
  have hk : k < (max ((gcat P x).foldl max 0 + 1) (minlength.getD 0)).toNat := by
    by_contra h
    rw [List.getElem?_eq_none (by simpa using h)] at hs
    simp at hs
  rw [List.getElem?_range hk] at hs
  simp only [Option.map_some, Option.some.injEq] at hs
  have hcount : ∀ p < P, (L p k).length = (x p).count (k : Int) := by
    intro p hp
    rw [(hL p hp k).length_eq]
    unfold updatesOf
    rw [List.length_map, ← List.countP_eq_length_filter, List.count_eq_countP]
    have h3 : x p = ((x p).zip (w p)).map Prod.fst := (List.map_fst_zip (by rw [hlen p hp])).symm
    conv_rhs => rw [h3]
    rw [List.countP_map]
    congr 1
  -- sums over the ranks which have the value
  have hall : ∀ f : List ℚ → ℚ, f [] = 0 →
      (((List.range P).filter (fun p => decide ((k : Int) ∈ x p))).map (fun p => f (L p k))).sum = ((List.range P).map (fun p => f (L p k))).sum := by
    intro f hf
    have : ∀ l : List Nat, (∀ p ∈ l, p < P) → ((l.filter (fun p => decide ((k : Int) ∈ x p))).map (fun p => f (L p k))).sum = (l.map (fun p => f (L p k))).sum := by
      intro l
      induction l with
      | nil => intro _; rfl
      | cons p l ih =>
        intro hl
        have ih := ih (fun q hq => hl q (by simp [hq]))
        rw [List.filter_cons]
        by_cases h : (k : Int) ∈ x p
        · simp only [h, decide_true, if_true, List.map_cons, List.sum_cons, ih]
        · have hc := hcount p (hl p (by simp))
          rw [List.count_eq_zero_of_not_mem h, List.length_eq_zero_iff] at hc
          simp only [h, decide_false, Bool.false_eq_true, if_false, List.map_cons, List.sum_cons, ih, hc, hf, zero_add]
    exact this _ (by simp)
  have htot : ∀ g : ℚ → ℚ, totalWeight P x (fun p => (w p).map g) k = ((List.range P).map (fun p => ((L p k).map g).sum)).sum := by
    intro g
    rw [totalWeight_eq (by simpa using hlen)]
    rw [upsFor_gcat]
    have h3 : ∀ Q ≤ P, (gcat Q (fun p => upsFor ((x p).zip ((w p).map g)) (k : Int))).sum = ((List.range Q).map (fun p => ((L p k).map g).sum)).sum := by
      intro Q
      induction Q with
      | zero => intro _; rfl
      | succ Q ih =>
        intro hQ
        rw [gcat_succ, List.sum_append, ih (by omega), List.range_succ, List.map_append, List.sum_append, List.map_singleton, List.sum_singleton]
        congr 1
        rw [((hL Q (by omega) k).map g).sum_eq]
        unfold updatesOf upsFor
        rw [List.zip_map_right, List.filter_map, List.map_map, List.map_map]
        rfl
    exact h3 P le_rfl
  have ht1 : totalWeight P x w k = ((List.range P).map (fun p => (L p k).sum)).sum := by
    have := htot id
    simpa using this
  have hfold := fold_error hε hfl.error_le (fun p => sum (L p k)) (fun p => (L p k).sum) (fun p => ((L p k).map abs).sum)
    ((List.range P).filter (fun p => decide ((k : Int) ∈ x p))) N 0 0 0 (by simp) (by simp) (by
      intro p hp
      have hk := hp
      have hp : p < P := by simpa using (List.mem_filter.1 hp).1
      have hne : L p k ≠ [] := by
        rw [← List.length_pos_iff, hcount p hp, List.count_pos_iff]
        simpa using (List.mem_filter.1 hk).2
      refine ⟨(tree_error hε hfl.error_le (hsum (L p k) hne)).2.1.trans (mul_le_mul_of_nonneg_right ?_ (List.sum_nonneg (by simp))), ?_⟩
      · exact sub_le_sub_right (pow_le_pow_right₀ hone (by rw [hcount p hp]; exact hN p hp)) 1
      · induction L p k with
        | nil => simp
        | cons a l ih =>
          rw [List.sum_cons, List.map_cons, List.sum_cons]
          exact (abs_add_le _ _).trans (by linarith))
  rw [hs, hall List.sum rfl, hall (fun l => (l.map abs).sum) rfl, ← ht1, ← htot, zero_add, zero_add] at hfold
  refine hfold.trans (mul_le_mul_of_nonneg_right (sub_le_sub_right (pow_le_pow_right₀ hone ?_) 1) ?_)
  · have := List.length_filter_le (fun p => decide ((k : Int) ∈ x p)) (List.range P)
    rw [List.length_range] at this
    omega
  · rw [htot]
    exact List.sum_nonneg (by
      intro y hy
      obtain ⟨p, -, rfl⟩ := List.mem_map.1 hy
      exact List.sum_nonneg (by simp))

/-! ### Examples -/

/-- An operator which is neither commutative nor associative, with equal indexes not in stable order on rank 0: updates of rank 0 come before those of rank 2. -/
example : (match reduceElements 3 (fun a b => 10 * a + b) true reduceExampleOrder (fun _ => [0]) reduceExampleUpdates reduceExampleIndex with
    | .ok out => (List.range 3).map out
    | .error _ => []) = [[2], [4], [(315 : Int)]] := by decide +kernel

/-- The same for a MPI operator -/
example : (match reduceElements 3 (fun a b => a + 10 * b) false reduceExampleOrder (fun _ => [0]) reduceExampleUpdates reduceExampleIndex with
    | .ok out => (List.range 3).map out
    | .error _ => []) = [[2], [4], [(315 : Int)]] := by decide +kernel

/-- Hypotheses of `C142_any` -/
example : (∀ p < 3, IsArgsort (reduceExampleIndex p) (reduceExampleOrder p)) ∧ (∀ p < 3, (reduceExampleIndex p).length = (reduceExampleUpdates p).length) ∧
    (∀ p < 3, ∀ i ∈ reduceExampleIndex p, 0 ≤ i ∧ i < ((gcat 3 (fun _ => [(0 : Int)])).length : Int)) := by
  unfold IsArgsort; decide +kernel

/-- Hypothesis of `C142_rank_order` -/
example : ∀ p < 2, ((fun p => if p = 0 then [2, 0] else [1, 2]) p : List Int).Nodup := by decide +kernel

/-- Hypothesis of `C142_whole_numbers` -/
example : ∀ j < 3, ∀ a, (gcat 3 reduceExampleArr)[j]? = some a → |a| + ((updatesFor 3 reduceExampleIndex reduceExampleUpdates j).map abs).sum ≤ 2 ^ 24 := by
  decide +kernel

/-- `parallel_bincount` with an addition which is not commutative -/
example : (match parallelBincountOp 3 (0 : Int) (fun l => l.foldl (fun a b => 10 * a + b) 0) (fun a b => 100 * a + b) (fun _ => argsort) (fun _ => argsort)
      (fun p => if p = 1 then [] else [3, 1, 3]) (fun p => if p = 1 then [] else [(p : Int) + 1, 5, (p : Int) + 2]) (some 5) with
    | .ok out => (List.range 3).map out
    | .error _ => []) = [[0, 505], [0, 1234], [0]] := by decide +kernel

/-- Two elements and one weight on the second rank -/
example : parallelBincountOp 2 (0 : Int) List.sum (· + ·) (fun _ => argsort) (fun _ => argsort) (fun p => if p = 1 then [3, 0] else []) (fun p => if p = 1 then [5] else []) none = .error .indexError :=
  C142_few_weights 2 0 List.sum (· + ·) _ _ _ _ (q := 1) (by decide) (by decide) (by decide) none

/-- Rounding to single and double precision (without limits of exponents) is possible. -/
example : (∃ fl, NearestTo 24 fl) ∧ ∃ fl, NearestTo 53 fl := ⟨exists_nearestTo (by norm_num), exists_nearestTo (by norm_num)⟩

/-- Sums from the left, and other orders, meet the assumption of `C142_bincount_rounded` (see also C136). -/
example (fl : ℚ → ℚ) : Double.SumTree fl [1 / 3, 1 / 5, 1 / 7] (fl (fl (1 / 3 + 1 / 5) + 1 / 7)) ∧ Double.SumTree fl [1 / 3, 1 / 5, 1 / 7] (fl (1 / 3 + fl (1 / 7 + 1 / 5))) :=
  ⟨.add (.add (.one _) (.one _) (List.Perm.refl _)) (.one _) (List.Perm.refl _),
    .add (.one _) (.add (.one _) (.one _) (List.Perm.refl _)) (List.Perm.cons _ (List.Perm.swap _ _ _))⟩

end Verif
