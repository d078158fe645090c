import Verif.Proofs.ReduceElements
import Verif.Proofs.ParallelMatch

set_option linter.unusedSectionVars false

namespace Verif

variable {α β : Type*}

theorem gcat_mapIdx (F : Nat → α → β) (P : Nat) (a : Nat → List α) :
    gcat P (fun p => (a p).mapIdx (fun k x => F (pre (sizes a) p + k) x)) = (gcat P a).mapIdx F := by
  induction P with
  | zero => rfl
  | succ P ih =>
    rw [gcat_succ, gcat_succ, ih, List.mapIdx_append, length_gcat]
    congr 2
    funext k x
    rw [Nat.add_comm]

theorem rle_flatMap [DecidableEq α] (l : List α) : (rle l).flatMap (fun e => List.replicate e.2 e.1) = l := by
  induction l with
  | nil => rfl
  | cons x l ih =>
    rw [rle]
    cases h : rle l with
    | nil =>
      rw [h] at ih
      simp at ih
      simp [← ih]
    | cons e t =>
      obtain ⟨y, n⟩ := e
      rw [h] at ih
      simp only
      split
      · rename_i hxy
        subst hxy
        rw [← ih]
        simp [List.replicate_succ]
      · rw [← ih]
        simp

theorem foldl_add [AddCommMonoid α] (l : List α) : ∀ a, l.foldl (· + ·) a = a + l.sum := by
  induction l with
  | nil => intro a; simp
  | cons x l ih => intro a; rw [List.foldl_cons, ih, List.sum_cons, add_assoc]

theorem upsFor_append (a b : List (Int × α)) (k : Int) : upsFor (a ++ b) k = upsFor a k ++ upsFor b k := by
  simp [upsFor]

/-- The loop over the distinct values (1155-1157) as a recursion. -/
def binLoop [AddCommMonoid α] : List (Int × Nat) → List α → List (Int × α)
  | [], _ => []
  | (v, c) :: u, w => (v, (w.take c).sum) :: binLoop u (w.drop c)

theorem binLoop_eq [AddCommMonoid α] (u : List (Int × Nat)) : ∀ w : List α,
    (List.range u.length).map (fun i =>
      ((u.getD i (0, 0)).1, (slice w ((u.take i).map Prod.snd).sum (u.getD i (0, 0)).2).sum)) = binLoop u w := by
  induction u with
  | nil => intro w; rfl
  | cons e u ih =>
    intro w
    obtain ⟨v, c⟩ := e
    rw [List.length_cons, List.range_succ_eq_map, List.map_cons, List.map_map, binLoop, ← ih]
    congr 1
    apply List.map_congr_left
    intro i _
    simp [slice, List.drop_drop]

theorem binLoop_fst [AddCommMonoid α] (u : List (Int × Nat)) : ∀ w : List α,
    (binLoop u w).map Prod.fst = u.map Prod.fst := by
  induction u with
  | nil => intro w; rfl
  | cons e u ih => intro w; obtain ⟨v, c⟩ := e; simp [binLoop, ih]

theorem upsFor_replicate (v k : Int) (w : List α) :
    upsFor ((List.replicate w.length v).zip w) k = if v = k then w else [] := by
  induction w with
  | nil => simp [upsFor]
  | cons x w ih =>
    rw [List.length_cons, List.replicate_succ, List.zip_cons_cons]
    unfold upsFor at *
    rw [List.filter_cons]
    by_cases h : v = k
    · simp [h] at ih ⊢; exact ih
    · simp [h] at ih ⊢; exact ih

theorem binLoop_sum [AddCommMonoid α] (k : Int) (u : List (Int × Nat)) : ∀ w : List α,
    (u.map Prod.snd).sum = w.length →
    (upsFor (binLoop u w) k).sum = (upsFor ((u.flatMap (fun e => List.replicate e.2 e.1)).zip w) k).sum := by
  induction u with
  | nil => intro w _; simp [binLoop, upsFor]
  | cons e u ih =>
    intro w hw
    obtain ⟨v, c⟩ := e
    simp only [List.map_cons, List.sum_cons] at hw
    have h1 : (w.take c).length = c := by simp; omega
    rw [binLoop, List.flatMap_cons]
    conv_rhs => rw [← List.take_append_drop c w]
    rw [List.zip_append (by simp; omega), upsFor_append, List.sum_append, ← ih _ (by simp; omega)]
    have h2 := upsFor_replicate v k (w.take c)
    rw [h1] at h2
    rw [h2]
    unfold upsFor
    rw [List.filter_cons]
    by_cases h : v = k <;> simp [h]

theorem npUnique_of_sorted [LinearOrder α] {l : List α} (h : Sorted l) : npUnique l = rle l := by
  unfold npUnique
  rw [eq_of_perm_sorted (sortBy_perm _ l) (sortBy_sorted l) h]

variable [AddCommMonoid α] [Inhabited α]

theorem binCountLocal_fst {order : List Nat} {x : List Int} {w : List α} (ho : IsArgsort x order) (v : Int) :
    v ∈ (binCountLocal order x w).map Prod.fst ↔ v ∈ x := by
  unfold binCountLocal
  simp only
  rw [binLoop_eq, binLoop_fst, npUnique_mem, mem_fancy_of_perm ho.1]

theorem binCountLocal_sum {order : List Nat} {x : List Int} {w : List α} (ho : IsArgsort x order)
    (hl : x.length = w.length) (k : Int) :
    (upsFor (binCountLocal order x w) k).sum = (upsFor (x.zip w) k).sum := by
  unfold binCountLocal
  simp only
  rw [binLoop_eq, npUnique_of_sorted ho.2, binLoop_sum, rle_flatMap]
  · unfold upsFor
    exact (((zip_fancy_perm hl ho.1).filter _).map _).sum_eq
  · have h := congrArg List.length (rle_flatMap (fancy x order))
    rw [List.length_flatMap] at h
    simp only [List.length_replicate] at h
    rw [h, length_fancy, length_fancy]

theorem upsFor_gcat_sum (P : Nat) (a b : Nat → List (Int × α)) (k : Int)
    (h : ∀ p < P, (upsFor (a p) k).sum = (upsFor (b p) k).sum) :
    (upsFor (gcat P a) k).sum = (upsFor (gcat P b) k).sum := by
  induction P with
  | zero => rfl
  | succ P ih =>
    rw [gcat_succ, gcat_succ, upsFor_append, upsFor_append, List.sum_append, List.sum_append,
      ih (fun p hp => h p (by omega)), h P (by omega)]

/-- The accumulation step: adding the combined elements of all ranks to `result`. -/
theorem bincount_accumulate {P : Nat} (hP : 0 < P) {order1 order2 : Nat → List Int → List Nat}
    (h1 : ∀ p l, IsArgsort l (order1 p l)) (h2 : ∀ p l, IsArgsort l (order2 p l))
    {x : Nat → List Int} {w r : Nat → List α} (hl : ∀ p < P, (x p).length = (w p).length)
    (hin : ∀ p < P, ∀ v ∈ x p, 0 ≤ v ∧ v < (pre (sizes r) P : Int)) :
    ∃ out, reduceElements P (· + ·) true
        (fun me => order2 me ((binCountLocal (order1 me (x me)) (x me) (w me)).map Prod.fst)) r
        (fun me => (binCountLocal (order1 me (x me)) (x me) (w me)).map Prod.snd)
        (fun me => (binCountLocal (order1 me (x me)) (x me) (w me)).map Prod.fst) = .ok out ∧
      (∀ p < P, (out p).length = (r p).length) ∧
      gcat P out = (gcat P r).mapIdx (fun k a => a + (upsFor (gcat P (fun q => (x q).zip (w q))) k).sum) := by
  obtain ⟨out, ho, hv⟩ := reduceElements_ok (P := P) (op := (· + ·)) (ufunc := true) (arr := r)
    (order := fun me => order2 me ((binCountLocal (order1 me (x me)) (x me) (w me)).map Prod.fst))
    (updates := fun me => (binCountLocal (order1 me (x me)) (x me) (w me)).map Prod.snd)
    (index := fun me => (binCountLocal (order1 me (x me)) (x me) (w me)).map Prod.fst) hP (by simp)
    (fun a u v => by rw [add_right_comm]) (fun me _ => h2 _ _) (fun me _ => by simp)
    (fun me hme i hi => hin me hme i ((binCountLocal_fst (h1 _ _) i).1 hi))
  refine ⟨out, ho, fun p hp => by rw [hv p hp]; simp, ?_⟩
  rw [gcat_congr hv]
  rw [← gcat_mapIdx]
  apply gcat_congr
  intro p hp
  congr 1
  funext k a
  rw [foldl_add]
  congr 1
  apply upsFor_gcat_sum
  intro q hq
  rw [← binCountLocal_sum (h1 q (x q)) (hl q hq)]
  congr 2
  rw [List.zip_map']
  simp

omit [AddCommMonoid α] [Inhabited α] in
theorem binCountBins_eq {P : Nat} (hP : 0 < P) {x : Nat → List Int} (h0 : ∀ p < P, ∀ v ∈ x p, 0 ≤ v)
    (minlength : Option Int) :
    binCountBins P x minlength = max ((gcat P x).foldl max 0 + 1) (minlength.getD 0) := by
  obtain ⟨g1, g2⟩ := foldl_max_spec (gcat P x) 0
  let m : Nat → Int := fun p => match x p with
    | [] => 0
    | a :: l => l.foldl max a
  have hm1 : ∀ p < P, m p = 0 ∨ m p ∈ x p := by
    intro p _
    simp only [m]
    cases x p with
    | nil => exact Or.inl rfl
    | cons a l => exact Or.inr (foldl_max_spec l a).1
  have hm2 : ∀ p, ∀ v ∈ x p, v ≤ m p := by
    intro p v hv
    simp only [m]
    cases hx : x p with
    | nil => rw [hx] at hv; simp at hv
    | cons a l => rw [hx] at hv; exact (foldl_max_spec l a).2 v hv
  have hfold : (List.range P).tail.foldl (fun M p => max M (m p)) (m 0) =
      ((List.range P).tail.map m).foldl max (m 0) := by rw [List.foldl_map]
  obtain ⟨f1, f2⟩ := foldl_max_spec ((List.range P).tail.map m) (m 0)
  have hcons : m 0 :: (List.range P).tail.map m = (List.range P).map m := by
    obtain ⟨Q, rfl⟩ : ∃ Q, P = Q + 1 := ⟨P - 1, by omega⟩
    rw [List.range_succ_eq_map]; rfl
  rw [hcons] at f1 f2
  have hx : (List.range P).tail.foldl (fun M p => max M (m p)) (m 0) = (gcat P x).foldl max 0 := by
    rw [hfold]
    apply le_antisymm
    · obtain ⟨p, hp, he⟩ := List.mem_map.1 f1
      rw [← he]
      rcases hm1 p (List.mem_range.1 hp) with h | h
      · rw [h]; exact g2 0 (by simp)
      · exact g2 _ (List.mem_cons_of_mem _ (mem_gcat.2 ⟨p, List.mem_range.1 hp, h⟩))
    · rcases List.mem_cons.1 g1 with h | h
      · rw [h]
        have h3 : 0 ≤ m 0 := by
          rcases hm1 0 hP with h | h
          · omega
          · exact h0 0 hP _ h
        exact h3.trans (f2 _ (List.mem_map.2 ⟨0, List.mem_range.2 hP, rfl⟩))
      · obtain ⟨p, hp, hv⟩ := mem_gcat.1 h
        exact (hm2 p _ hv).trans (f2 _ (List.mem_map.2 ⟨p, List.mem_range.2 hp, rfl⟩))
  have hnn : 0 ≤ (gcat P x).foldl max 0 := g2 0 (by simp)
  unfold binCountBins
  simp only
  change (match minlength with
    | none => (List.range P).tail.foldl (fun M p => max M (m p)) (m 0) + 1
    | some k => max ((List.range P).tail.foldl (fun M p => max M (m p)) (m 0) + 1) k) = _
  rw [hx]
  cases minlength with
  | none => simp; omega
  | some k => rfl

end Verif
