import Verif.Model.UniqueNan
import Verif.Proofs.MatchNan
import Verif.Proofs.ParallelUnique
import Verif.Props.ParallelUnique
import Verif.Props.Repartition

/-! C140: `parallel_unique` of arrays with NaN -/

namespace Verif.UniqueNan

set_option linter.unusedSectionVars false

open SortNan (neNan)

variable {α : Type*} [LinearOrder α] [Inhabited α] [OrderTop α]

theorem eqNan_iff {a b : α} (h : a ≠ ⊤ ∨ b ≠ ⊤) : eqNan a b = true ↔ a = b := by
  unfold eqNan
  rw [decide_eq_true_iff]
  refine ⟨fun h => h.1, fun e => ⟨e, ?_⟩⟩
  rcases h with h | h
  · exact h
  · rwa [e]

theorem eqNan_top (a : α) : eqNan a ⊤ = false := by
  unfold eqNan
  rw [decide_eq_false_iff_not]
  rintro ⟨rfl, h⟩
  exact h rfl

theorem accum_eq {Q : Nat} {f : Nat → α} {c : Nat → Nat} {last : α} (h : last ≠ ⊤) : ∀ fuel r, puAccum Q f c last fuel r = Verif.puAccum Q f c last fuel r
  | 0, _ => rfl
  | fuel + 1, r => by
    rw [puAccum, Verif.puAccum, accum_eq h fuel]
    simp only [eqNan_iff (Or.inr h)]

theorem accum_top {Q : Nat} {f : Nat → α} {c : Nat → Nat} (fuel r : Nat) : puAccum Q f c ⊤ fuel r = 0 := by
  cases fuel with
  | zero => rfl
  | succ n => rw [puAccum, if_neg]; simp [eqNan_top]

/-- `np.unique` of data with NaN -/
theorem npUnique_top {l : List α} (h : ⊤ ∈ l) : ∃ init : List (α × Nat), npUnique l = init ++ [(⊤, l.count ⊤)] ∧ ∀ e ∈ init, e.1 ≠ ⊤ := by
  have h1 := (npUnique_mem l ⊤).2 h
  have h2 := npUnique_lt l
  have h3 : ∀ e ∈ npUnique l, e.2 = l.count e.1 := fun e he => npUnique_count he
  rcases List.eq_nil_or_concat (npUnique l) with h4 | ⟨init, e, h4⟩
  · rw [h4] at h1; simp at h1
  rw [List.concat_eq_append] at h4
  rw [h4] at h1 h2 h3
  rw [List.map_append, List.pairwise_append] at h2
  have hlt : ∀ x ∈ init.map Prod.fst, x < e.1 := fun x hx => h2.2.2 x hx e.1 (by simp)
  have he : e.1 = ⊤ := by
    rw [List.map_append, List.mem_append] at h1
    rcases h1 with h1 | h1
    · exact absurd (hlt _ h1) not_top_lt
    · exact (by simpa using h1 : ⊤ = e.1).symm
  refine ⟨init, ?_, fun e' he' hc => ?_⟩
  · rw [h4]
    have := h3 e (by simp)
    rw [he] at this
    rw [← this, ← he]
  · exact not_top_lt (hc ▸ hlt e'.1 (List.mem_map.2 ⟨e', he', rfl⟩))

/-- A rank without NaN does the same as with elements which are equal to themselves. -/
theorem local_of_not {Q : Nat} {A : Nat → List α} {me : Nat} (hl : 0 < (A me).length) (h : ⊤ ∉ A me) : puLocal Q A me = Verif.puLocal Q A me := by
  have h1 := npUnique_first hl
  have h2 := npUnique_last hl
  have e1 : ((npUnique (A me)).map Prod.fst).getD 0 default ≠ ⊤ := fun hc => h (hc ▸ h1.1)
  have e2 : ((npUnique (A me)).map Prod.fst).getD ((npUnique (A me)).length - 1) default ≠ ⊤ := fun hc => h (hc ▸ h2.1)
  unfold puLocal Verif.puLocal
  simp only [accum_eq e2, eqNan_iff (Or.inl e1)]

/-- A rank with NaN keeps its own NaN, and does the same with all other elements. -/
theorem local_of_mem {Q : Nat} {A : Nat → List α} {me : Nat} (h : ⊤ ∈ A me) :
    puLocal Q A me = (Verif.puLocal Q A me).filter (fun e => decide (e.1 ≠ ⊤)) ++ [(⊤, (A me).count ⊤)] := by
  obtain ⟨init, hu, hi⟩ := npUnique_top h
  have hc : 0 < (A me).count ⊤ := List.count_pos_iff.2 h
  unfold puLocal Verif.puLocal
  simp only [hu]
  have hlast : ((init ++ [(⊤, (A me).count ⊤)]).map Prod.fst).getD ((init ++ [(⊤, (A me).count ⊤)]).length - 1) default = (⊤ : α) := by simp [List.getD_eq_getElem?_getD]
  rw [hlast, accum_top]
  generalize Verif.puAccum Q _ _ (⊤ : α) _ _ = acc
  generalize ((npUnique (A (me - 1))).map Prod.fst).getD ((npUnique (A (me - 1))).length - 1) default = prev
  generalize hcc : (A me).count ⊤ = c at *
  have hset : ∀ x : Nat, ((init ++ [((⊤ : α), c)]).map Prod.snd).set (((init ++ [((⊤ : α), c)]).map Prod.snd).length - 1) x = init.map Prod.snd ++ [x] := by
    intro x
    simp
  have hget : ((init ++ [((⊤ : α), c)]).map Prod.snd).getD (((init ++ [((⊤ : α), c)]).map Prod.snd).length - 1) 0 = c := by
    simp [List.getD_eq_getElem?_getD]
  rw [hset, hset, hget, Nat.add_zero]
  have hz : ∀ (l : List (α × Nat)), (l.map Prod.fst).zip (l.map Prod.snd) = l := fun l => by
    induction l with
    | nil => rfl
    | cons a l ih => simp [ih]
  have hf : ∀ (l : List (α × Nat)), (∀ e ∈ l, e.1 ≠ ⊤) → l.filter (fun e => decide (e.1 ≠ ⊤)) = l := fun l hl => List.filter_eq_self.2 (fun e he => by simpa using hl e he)
  cases init with
  | nil =>
    have : ¬ (me > 0 ∧ eqNan ((([] ++ [((⊤ : α), c)]).map Prod.fst).getD 0 default) prev = true) := by
      simp [eqNan]
    rw [if_neg this]
    by_cases h0 : me > 0 ∧ (([] ++ [((⊤ : α), c)]).map Prod.fst).getD 0 default = prev
    · rw [if_pos h0]; simp [hc]
    · rw [if_neg h0]
      by_cases h1 : 0 < c + acc <;> simp [hc, h1, List.filter_cons]
  | cons e init =>
    have he : e.1 ≠ ⊤ := hi e (by simp)
    have hfirst : ((e :: init ++ [((⊤ : α), c)]).map Prod.fst).getD 0 default = e.1 := by simp
    rw [hfirst]
    have hi' : ∀ e ∈ init, e.1 ≠ ⊤ := fun x hx => hi x (by simp [hx])
    have hzip : ∀ (a x : Nat), (((e :: init ++ [((⊤ : α), c)]).map Prod.fst).zip (a :: (init.map Prod.snd ++ [x]))) = (e.1, a) :: (init ++ [(⊤, x)]) := by
      intro a x
      simp [List.zip_append, hz]
    simp only [eqNan_iff (Or.inl he)]
    have key : ∀ a : Nat, ((e.1, a) :: (init ++ [((⊤ : α), c)])).filter (fun e => decide (e.2 > 0)) =
        (((e.1, a) :: (init ++ [((⊤ : α), c + acc)])).filter (fun e => decide (e.2 > 0))).filter (fun e => decide (e.1 ≠ ⊤)) ++ [(⊤, c)] := by
      intro a
      have h1 : 0 < c + acc := by omega
      have h2 : (init.filter (fun e => decide (e.2 > 0))).filter (fun e => decide (e.1 ≠ ⊤)) = init.filter (fun e => decide (e.2 > 0)) :=
        hf _ (fun x hx => hi' x (List.mem_filter.1 hx).1)
      rw [List.filter_cons, List.filter_cons (x := (e.1, a)), List.filter_append, List.filter_append]
      have h3 : List.filter (fun e : α × Nat => decide (e.2 > 0)) [((⊤ : α), c)] = [(⊤, c)] := by simp [hc]
      have h4 : List.filter (fun e : α × Nat => decide (e.2 > 0)) [((⊤ : α), c + acc)] = [(⊤, c + acc)] := by simp [h1]
      have h5 : List.filter (fun e : α × Nat => decide (e.1 ≠ ⊤)) [((⊤ : α), c + acc)] = [] := by simp
      rw [h3, h4]
      split
      · rw [List.filter_cons, if_pos (by simpa using he), List.filter_append, h2, h5, List.append_nil]; rfl
      · rw [List.filter_append, h2, h5, List.append_nil]
    have hcons : ∀ x : Nat, List.map Prod.snd (e :: init) ++ [x] = e.2 :: (init.map Prod.snd ++ [x]) := fun x => rfl
    rw [hcons, hcons]
    split
    · rw [List.set_cons_zero, List.set_cons_zero, hzip, hzip]; exact key 0
    · rw [hzip, hzip]; exact key e.2

/-- The last rank does the same if the one before it has no NaN. -/
theorem local_last {Q : Nat} {A : Nat → List α} {me : Nat} (hme : me + 1 = Q) (hprev : 0 < me → 0 < (A (me - 1)).length ∧ ⊤ ∉ A (me - 1)) : puLocal Q A me = Verif.puLocal Q A me := by
  have hz : Q - (me + 1) = 0 := by omega
  unfold puLocal Verif.puLocal
  simp only [hz, puAccum, Verif.puAccum]
  by_cases h0 : 0 < me
  · have h1 := npUnique_last (hprev h0).1
    have e1 : ((npUnique (A (me - 1))).map Prod.fst).getD ((npUnique (A (me - 1))).length - 1) default ≠ ⊤ := fun hc => (hprev h0).2 (hc ▸ h1.1)
    simp only [eqNan_iff (Or.inr e1)]
  · have e : ∀ b : Prop, ¬ (me > 0 ∧ b) := fun b h => h0 h.1
    rw [if_neg (e _), if_neg (e _)]

/-- The communicator of the ranks with data, if `L` is the last one of them -/
theorem members_facts {P L : Nat} {arr : Nat → List α} (hL : L < P) (h0 : arr L ≠ []) (hlast : ∀ q, L < q → q < P → arr q = []) :
    0 < (psMembers P arr).length ∧ (psMembers P arr).getD ((psMembers P arr).length - 1) 0 = L ∧ gcat (psMembers P arr).length (fun q => arr ((psMembers P arr).getD q 0)) = gcat P arr ∧
      ∀ q < (psMembers P arr).length, 0 < (arr ((psMembers P arr).getD q 0)).length := by
  have hM := SortNan.members_last hL h0 hlast
  refine ⟨by rw [hM]; simp, ?_, gcat_members P arr arr (fun p _ h => List.eq_nil_of_length_eq_zero h), fun q hq => (member_getD hq).2⟩
  rw [hM]
  simp [List.getD_eq_getElem?_getD]

section
variable (P fuel : Nat) (arr : Nat → List α) (hfuel : (gcat P arr).length ≤ fuel) {L : Nat} (hL : L < P) (h0 : arr L ≠ []) (hlast : ∀ q, L < q → q < P → arr q = [])
include hfuel hL h0 hlast

/-- The sorted array, if the NaN fit on the last rank -/
theorem sorted_few (h : (gcat P arr).count ⊤ ≤ (arr L).length) :
    ∃ S, puSorted fuel (psMembers P arr).length (fun q => arr ((psMembers P arr).getD q 0)) false = .ok S ∧ Sorted (gcat (psMembers P arr).length S) ∧ (gcat (psMembers P arr).length S).Perm (gcat P arr) ∧
      (∀ q < (psMembers P arr).length, 0 < (S q).length) ∧ ∀ q, q + 1 < (psMembers P arr).length → ⊤ ∉ S q := by
  obtain ⟨hQ, hLast, hg, hne⟩ := members_facts hL h0 hlast
  set Q := (psMembers P arr).length
  set sub : Nat → List α := fun q => arr ((psMembers P arr).getD q 0) with hsub
  have hsl : sub (Q - 1) = arr L := by simp only [hsub]; rw [hLast]
  have e := MatchNan.sort_few (P := Q) (arr := sub) (fuel := fuel) (by rw [hg]; exact hfuel) (L := Q - 1) (by omega) (by rw [hsl]; exact h0) (fun q h1 h2 => by omega) (by rw [hg, hsl]; exact h)
  obtain ⟨res, e1, e2, e3, e4⟩ := C01_parallel_sort Q fuel sub (by rw [hg]; exact hfuel)
  rw [hg] at e3
  have hlen : ∀ q < Q, (res q).1.length = (sub q).length := e2
  have hsort : Sorted (gcat Q (fun q => (res q).1)) := e4
  have hperm : (gcat Q (fun q => (res q).1)).Perm (gcat P arr) := e3
  refine ⟨fun q => (res q).1, ?_, hsort, hperm, fun q hq => by beta_reduce; rw [hlen q hq]; exact hne q hq, fun q hq hc => ?_⟩
  · unfold puSorted
    rw [if_neg (by decide), e, e1]
  · have hall : ∀ x ∈ (res (Q - 1)).1, x = ⊤ := fun x hx => top_le_iff.1 ((gcat_pairwise_iff.1 hsort).2 q (Q - 1) (by omega) (by omega) ⊤ hc x hx)
    have hcL : ((res (Q - 1)).1).count ⊤ = ((res (Q - 1)).1).length := List.count_eq_length.2 (fun x hx => (hall x hx).symm)
    have hcq : 0 < ((res q).1).count ⊤ := List.count_pos_iff.2 hc
    rw [← hperm.count_eq, SortNan.gcat_count] at h
    have h6 := pre_mono (fun p => ((res p).1).count ⊤) (show (Q - 1) + 1 ≤ Q by omega)
    have h7 := pre_mono (fun p => ((res p).1).count ⊤) (show q + 1 ≤ Q - 1 by omega)
    rw [pre_succ] at h6 h7
    have h8 := hlen (Q - 1) (by omega)
    rw [hsl] at h8
    omega

/-- C140: `parallel_unique` returns each number once, in order, and NaN once as the last one, with the numbers of their occurrences, if the NaN fit on the last rank which has data. -/
theorem C140_unique (repart : Bool) (h : (gcat P arr).count ⊤ ≤ (arr L).length) :
    ∃ U C, parallelUnique fuel P arr false repart = .ok (U, C) ∧ (gcat P U).Pairwise (· < ·) ∧ (∀ x, x ∈ gcat P U ↔ x ∈ gcat P arr) ∧ gcat P C = (gcat P U).map (fun x => (gcat P arr).count x) ∧
      (∀ p < P, (U p).length = (C p).length) ∧ (repart = true → ∀ p < P, (U p).length = (gcat P U).length / P + (if p < (gcat P U).length % P then 1 else 0)) := by
  obtain ⟨S, hS, hSs, hSp, hSne, hSt⟩ := sorted_few P fuel arr hfuel hL h0 hlast h
  obtain ⟨hR1, hR2, hR3⟩ := puLocal_all hSs hSne
  have hP : 0 < P := by omega
  set M := psMembers P arr with hM
  have hloc : ∀ me < M.length, puLocal M.length S me = Verif.puLocal M.length S me := fun me hme => by
    by_cases hm : me + 1 < M.length
    · exact local_of_not (hSne me hme) (hSt me hm)
    · exact local_last (by omega) (fun h1 => ⟨hSne _ (by omega), hSt _ (by omega)⟩)
  set R := gcat M.length (Verif.puLocal M.length S) with hR
  set res : Nat → List (α × Nat) := fun p => if (arr p).length > 0 then puLocal M.length S (M.idxOf p) else [] with hres
  have hresg : gcat P res = R := (gcat_of_members P arr (puLocal M.length S)).trans (gcat_congr hloc)
  have hRc : R.map Prod.snd = (R.map Prod.fst).map (fun x => (gcat P arr).count x) := by
    rw [List.map_map]
    exact List.map_congr_left (fun e he => (hR3 e he).trans (hSp.count_eq _))
  have g1 : gcat P (fun p => (res p).map Prod.fst) = R.map Prod.fst := by rw [← map_gcat, hresg]
  have g2 : gcat P (fun p => (res p).map Prod.snd) = R.map Prod.snd := by rw [← map_gcat, hresg]
  cases repart with
  | false =>
    refine ⟨fun p => (res p).map Prod.fst, fun p => (res p).map Prod.snd, ?_, by rw [g1]; exact hR1, fun x => by rw [g1]; exact (hR2 x).trans hSp.mem_iff, by rw [g1, g2]; exact hRc, by simp, by simp⟩
    unfold parallelUnique
    simp only [← hM]
    rw [hS]
    rfl
  | true =>
    have hsz : pre (sizes (fun p => (res p).map Prod.fst)) P = R.length := by rw [← length_gcat, g1, List.length_map]
    have hsz2 : pre (sizes (fun p => (res p).map Prod.snd)) P = R.length := by rw [← length_gcat, g2, List.length_map]
    have hbal := pre_balanced R.length P hP
    obtain ⟨U, hU, hUl, hUg⟩ := (C08_repartition P (fun p => (res p).map Prod.fst) (fun p => R.length / P + if p < R.length % P then 1 else 0)).1 (hsz.trans hbal.symm)
    obtain ⟨C, hC, hCl, hCg⟩ := (C08_repartition P (fun p => (res p).map Prod.snd) (fun p => R.length / P + if p < R.length % P then 1 else 0)).1 (hsz2.trans hbal.symm)
    rw [g1] at hUg
    rw [g2] at hCg
    refine ⟨U, C, ?_, by rw [hUg]; exact hR1, fun x => by rw [hUg]; exact (hR2 x).trans hSp.mem_iff, by rw [hUg, hCg]; exact hRc, fun p hp => (hUl p hp).trans (hCl p hp).symm, fun _ p hp => by
      rw [hUg, List.length_map]; exact hUl p hp⟩
    unfold parallelUnique
    simp only [← hM]
    rw [hS]
    simp only [if_true]
    rw [hsz, if_neg (by rw [hbal]; simp)]
    simp only [hres] at hU hC
    rw [hU, hC]

/-- C140: otherwise it stops with an error. -/
theorem C140_many (repart : Bool) (h : (arr L).length < (gcat P arr).count ⊤) : parallelUnique fuel P arr false repart = .error .valueError := by
  obtain ⟨hQ, hLast, hg, hne⟩ := members_facts hL h0 hlast
  have e := (SortNan.C135_nan (psMembers P arr).length fuel (fun q => arr ((psMembers P arr).getD q 0)) (by rw [hg]; exact hfuel) (L := (psMembers P arr).length - 1) (by omega)
    (by beta_reduce; rw [hLast]; exact h0) (fun q h1 h2 => by omega)).2 (by rw [hg, hLast]; exact h)
  unfold parallelUnique puSorted
  simp only [Bool.false_eq_true, if_false, e]

end

/-- C140: with `arr_sorted=True`, numbers which are not NaN are returned as they should, but NaN is returned by each rank which has one, with the number of NaN on that rank only. `Uₑ` and `Cₑ` are the result
for elements which are equal to themselves. -/
theorem C140_sorted_defect (P fuel : Nat) (arr : Nat → List α) : ∃ U C Uₑ Cₑ, parallelUnique fuel P arr true false = .ok (U, C) ∧ Verif.parallelUnique fuel P arr true false = .ok (Uₑ, Cₑ) ∧
    ∀ p < P, (U p).zip (C p) = ((Uₑ p).zip (Cₑ p)).filter (fun e => decide (e.1 ≠ ⊤)) ++ if ⊤ ∈ arr p then [(⊤, (arr p).count ⊤)] else [] := by
  refine ⟨_, _, _, _, rfl, rfl, fun p hp => ?_⟩
  have hz : ∀ (l : List (α × Nat)), (l.map Prod.fst).zip (l.map Prod.snd) = l := fun l => by
    induction l with
    | nil => rfl
    | cons a l ih => simp [ih]
  beta_reduce
  rw [hz, hz]
  by_cases hl : (arr p).length > 0
  · rw [if_pos hl, if_pos hl]
    obtain ⟨h1, h2⟩ := psMembers_idxOf hp hl
    have hA : (fun q => arr ((psMembers P arr).getD q 0)) ((psMembers P arr).idxOf p) = arr p := by beta_reduce; rw [h2]
    by_cases ht : ⊤ ∈ arr p
    · rw [if_pos ht, local_of_mem (by beta_reduce; rw [h2]; exact ht)]
      beta_reduce
      rw [h2]
    · rw [if_neg ht, local_of_not (by beta_reduce; rw [h2]; exact hl) (by beta_reduce; rw [h2]; exact ht), List.append_nil, List.filter_eq_self.2]
      intro e he
      have : e.1 ∈ arr p := by
        have h3 : e.1 ∈ (npUnique ((fun q => arr ((psMembers P arr).getD q 0)) ((psMembers P arr).idxOf p))).map Prod.fst := by
          unfold Verif.puLocal at he
          exact (List.of_mem_zip (List.mem_filter.1 he).1).1
        rw [hA] at h3
        exact (npUnique_mem _ _).1 h3
      rw [decide_eq_true_iff]
      exact fun hc => ht (hc ▸ this)
  · rw [if_neg hl, if_neg hl, List.eq_nil_of_length_eq_zero (Nat.eq_zero_of_not_pos hl)]
    simp

/-- C140: `repartition_output` only moves the results between ranks, also with `arr_sorted=True`, so that NaN is then returned more than once too. -/
theorem C140_repartition (P fuel : Nat) (hP : 0 < P) (arr : Nat → List α) (arr_sorted : Bool) {U : Nat → List α} {C : Nat → List Nat} (h : parallelUnique fuel P arr arr_sorted false = .ok (U, C)) :
    ∃ U' C', parallelUnique fuel P arr arr_sorted true = .ok (U', C') ∧ gcat P U' = gcat P U ∧ gcat P C' = gcat P C ∧
      ∀ p < P, (U' p).length = (gcat P U).length / P + (if p < (gcat P U).length % P then 1 else 0) ∧ (C' p).length = (U' p).length := by
  unfold parallelUnique at h ⊢
  dsimp only at h ⊢
  cases hS : puSorted fuel (psMembers P arr).length (fun q => arr ((psMembers P arr).getD q 0)) arr_sorted with
  | error e => rw [hS] at h; cases h
  | ok S =>
    rw [hS] at h
    simp only [Bool.false_eq_true, if_false] at h
    injection h with h
    injection h with hU hC
    simp only [if_true]
    rw [hU, hC, length_gcat]
    have hsz : pre (sizes C) P = pre (sizes U) P := by rw [← hU, ← hC]; exact pre_congr (fun p _ => by simp [sizes])
    have hbal := pre_balanced (pre (sizes U) P) P hP
    obtain ⟨U', e1, l1, g1⟩ := (C08_repartition P U (fun p => pre (sizes U) P / P + if p < pre (sizes U) P % P then 1 else 0)).1 hbal.symm
    obtain ⟨C', e2, l2, g2⟩ := (C08_repartition P C (fun p => pre (sizes U) P / P + if p < pre (sizes U) P % P then 1 else 0)).1 (hsz.trans hbal.symm)
    rw [if_neg (by rw [hbal]; simp), e1, e2]
    exact ⟨U', C', rfl, g1, g2, fun p hp => ⟨l1 p hp, (l2 p hp).trans (l1 p hp).symm⟩⟩

namespace ExUniqueNan

def data : Nat → List (WithTop Nat)
  | 0 => [3, ⊤, 1]
  | _ => [⊤, 3]

example : (match parallelUnique 5 2 data false false with | .ok r => (List.range 2).map (fun p => (r.1 p).zip (r.2 p)) | .error _ => []) = [[(1, 1), (3, 2)], [(⊤, 2)]] := by decide +kernel

example : ∃ U C, parallelUnique 5 2 data false true = .ok (U, C) ∧ ⊤ ∈ gcat 2 U := by
  obtain ⟨U, C, h1, -, h3, -⟩ := C140_unique 2 5 data (by decide) (L := 1) (by decide) (by decide) (by omega) true (by decide)
  exact ⟨U, C, h1, (h3 ⊤).2 (by decide)⟩

def many : Nat → List (WithTop Nat)
  | 0 => [⊤, ⊤]
  | _ => [0]

example : parallelUnique 3 2 many false false = .error .valueError := C140_many 2 3 many (by decide) (L := 1) (by decide) (by decide) (by omega) false (by decide)

/-- Sorted data: NaN is returned twice. -/
def sorted : Nat → List (WithTop Nat)
  | 0 => [0, ⊤]
  | _ => [⊤, ⊤]

example : (match parallelUnique 3 2 sorted true false with | .ok r => (List.range 2).map (fun p => (r.1 p).zip (r.2 p)) | .error _ => []) = [[(0, 1), (⊤, 1)], [(⊤, 2)]] := by decide +kernel

example : ∃ U C, parallelUnique 3 2 sorted true false = .ok (U, C) ∧ (⊤, 1) ∈ (U 0).zip (C 0) ∧ (⊤, 2) ∈ (U 1).zip (C 1) := by
  obtain ⟨U, C, Ue, Ce, h1, -, h3⟩ := C140_sorted_defect 2 3 sorted
  refine ⟨U, C, h1, ?_, ?_⟩
  · rw [h3 0 (by decide)]
    exact List.mem_append_right _ (by decide)
  · rw [h3 1 (by decide)]
    exact List.mem_append_right _ (by decide)

/-- The same after moving the results between ranks -/
example : ∃ U C, parallelUnique 3 2 sorted true true = .ok (U, C) ∧ (gcat 2 U).count ⊤ = 2 := by
  obtain ⟨U, C, h1, h2⟩ : ∃ U C, parallelUnique 3 2 sorted true false = .ok (U, C) ∧ (gcat 2 U).count ⊤ = 2 := ⟨_, _, rfl, by decide +kernel⟩
  obtain ⟨U', C', h3, h4, -⟩ := C140_repartition 2 3 (by decide) sorted true h1
  exact ⟨U', C', h3, by rw [h4]; exact h2⟩

end ExUniqueNan

end Verif.UniqueNan
