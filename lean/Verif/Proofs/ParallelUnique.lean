import Verif.Model.ParallelUnique
import Verif.Proofs.ParallelMatch
import Verif.Proofs.Repartition

namespace Verif

set_option linter.unusedSectionVars false

variable {α : Type*}

section
variable [LinearOrder α]

theorem insertBy_sorted {x : α} {l : List α} (h : Sorted l) :
    Sorted (insertBy (fun x y => decide (x ≤ y)) x l) := by
  induction l with
  | nil => simp [insertBy]
  | cons y l ih =>
    obtain ⟨h1, h2⟩ := List.pairwise_cons.1 h
    simp only [insertBy, decide_eq_true_eq]
    split
    · rename_i hxy
      refine List.pairwise_cons.2 ⟨fun z hz => ?_, h⟩
      rcases List.mem_cons.1 hz with rfl | hz
      · exact hxy
      · exact le_trans hxy (h1 z hz)
    · rename_i hxy
      refine List.pairwise_cons.2 ⟨fun z hz => ?_, ih h2⟩
      rw [(insertBy_perm _ x l).mem_iff] at hz
      rcases List.mem_cons.1 hz with rfl | hz
      · exact le_of_lt (not_le.1 hxy)
      · exact h1 z hz

theorem sortBy_sorted (l : List α) : Sorted (sortBy (fun x y => decide (x ≤ y)) l) := by
  induction l with
  | nil => simp [sortBy]
  | cons x l ih => exact insertBy_sorted ih

theorem rle_cons (x : α) (l : List α) : ∃ n t, rle (x :: l) = (x, n) :: t ∧
    ((rle l = [] ∧ n = 1 ∧ t = []) ∨ (∃ m, rle l = (x, m) :: t ∧ n = m + 1) ∨
      (∃ y m t', rle l = (y, m) :: t' ∧ x ≠ y ∧ n = 1 ∧ t = (y, m) :: t')) := by
  rw [rle]
  cases h : rle l with
  | nil => exact ⟨1, [], rfl, Or.inl ⟨rfl, rfl, rfl⟩⟩
  | cons e t =>
    obtain ⟨y, m⟩ := e
    by_cases hxy : x = y
    · subst hxy
      exact ⟨m + 1, t, by simp, Or.inr (Or.inl ⟨m, rfl, rfl⟩)⟩
    · exact ⟨1, (y, m) :: t, by simp [hxy], Or.inr (Or.inr ⟨y, m, t, rfl, hxy, rfl, rfl⟩)⟩

theorem rle_mem (l : List α) (x : α) : x ∈ (rle l).map Prod.fst ↔ x ∈ l := by
  induction l with
  | nil => simp [rle]
  | cons y l ih =>
    obtain ⟨n, t, he, h⟩ := rle_cons y l
    rw [he, List.mem_cons, ← ih]
    rcases h with ⟨h1, h2, h3⟩ | ⟨m, h1, h2⟩ | ⟨z, m, t', h1, h2, h3, h4⟩
    · simp [h1, h3]
    · simp [h1]
    · simp [h1, h4]

theorem rle_spec {l : List α} (hs : Sorted l) :
    ((rle l).map Prod.fst).Pairwise (· < ·) ∧ ∀ e ∈ rle l, e.2 = l.count e.1 := by
  induction l with
  | nil => simp [rle]
  | cons x l ih =>
    obtain ⟨h1, h2⟩ := List.pairwise_cons.1 hs
    obtain ⟨ih1, ih2⟩ := ih h2
    obtain ⟨n, t, he, h⟩ := rle_cons x l
    have hnot : ∀ y m t', rle l = (y, m) :: t' → x ≠ y → x ∉ l := by
      intro y m t' hr hxy hx
      rw [← rle_mem, hr] at hx
      rw [hr] at ih1
      simp only [List.map_cons, List.mem_cons, List.pairwise_cons] at hx ih1
      have hy : y ∈ l := by rw [← rle_mem, hr]; simp
      rcases hx with hx | hx
      · exact hxy hx
      · exact lt_irrefl _ (lt_of_lt_of_le (ih1.1 x hx) (h1 y hy))
    rcases h with ⟨h3, h4, h5⟩ | ⟨m, h3, h4⟩ | ⟨z, m, t', h3, h4, h5, h6⟩
    · have hl : l = [] := by
        cases l with
        | nil => rfl
        | cons y l => obtain ⟨_, _, h, _⟩ := rle_cons y l; rw [h] at h3; cases h3
      subst hl
      rw [he, h5, h4]; simp
    · rw [h3] at ih1 ih2
      rw [he]
      refine ⟨ih1, ?_⟩
      intro e hm
      rcases List.mem_cons.1 hm with rfl | hm
      · have := ih2 (x, m) (by simp)
        simp only at this ⊢
        rw [List.count_cons_self, ← this, h4]
      · have hlt := (List.pairwise_cons.1 ih1).1 e.1 (List.mem_map.2 ⟨e, hm, rfl⟩)
        rw [List.count_cons_of_ne (ne_of_lt hlt)]
        exact ih2 e (by simp [hm])
    · have hx := hnot z m t' h3 h4
      rw [he, h6, ← h3]
      constructor
      · rw [List.map_cons, List.pairwise_cons]
        refine ⟨fun y hy => ?_, ih1⟩
        have hy' := (rle_mem l y).1 hy
        exact lt_of_le_of_ne (h1 y hy') (fun hxy => hx (by rw [show x = y from hxy]; exact hy'))
      · intro e hm
        rcases List.mem_cons.1 hm with rfl | hm
        · simp only
          rw [List.count_cons_self, h5, List.count_eq_zero.2 hx]
        · have hel := (rle_mem l e.1).1 (List.mem_map.2 ⟨e, hm, rfl⟩)
          rw [List.count_cons_of_ne (fun hh : x = e.1 => hx (by rw [hh]; exact hel))]
          exact ih2 e hm

theorem npUnique_mem (l : List α) (x : α) : x ∈ (npUnique l).map Prod.fst ↔ x ∈ l := by
  unfold npUnique; rw [rle_mem, (sortBy_perm _ l).mem_iff]

theorem npUnique_lt (l : List α) : ((npUnique l).map Prod.fst).Pairwise (· < ·) :=
  (rle_spec (sortBy_sorted l)).1

theorem npUnique_count {l : List α} {e : α × Nat} (h : e ∈ npUnique l) : e.2 = l.count e.1 := by
  rw [(rle_spec (sortBy_sorted l)).2 e h, (sortBy_perm _ l).count_eq]

theorem npUnique_pos {l : List α} (h : 0 < l.length) : 0 < (npUnique l).length := by
  cases l with
  | nil => simp at h
  | cons x l =>
    have : x ∈ (npUnique (x :: l)).map Prod.fst := (npUnique_mem _ _).2 (by simp)
    have := List.length_pos_of_mem this
    simpa using this

/-- First and last entry of the local result. -/
theorem npUnique_first [Inhabited α] {l : List α} (h : 0 < l.length) :
    ((npUnique l).map Prod.fst).getD 0 default ∈ l ∧
      ∀ x ∈ l, ((npUnique l).map Prod.fst).getD 0 default ≤ x := by
  have hp := npUnique_pos h
  have hp' : 0 < ((npUnique l).map Prod.fst).length := by simpa using hp
  rw [List.getD_eq_getElem?_getD, List.getElem?_eq_getElem hp', Option.getD_some]
  refine ⟨(npUnique_mem _ _).1 (List.getElem_mem hp'), fun x hx => ?_⟩
  obtain ⟨k, hk, hkx⟩ := List.getElem_of_mem ((npUnique_mem _ _).2 hx)
  rcases Nat.eq_zero_or_pos k with h0 | h0
  · subst h0; exact le_of_eq hkx
  · rw [← hkx]
    exact le_of_lt (List.pairwise_iff_getElem.1 (npUnique_lt l) 0 k hp' hk h0)

theorem npUnique_last [Inhabited α] {l : List α} (h : 0 < l.length) :
    ((npUnique l).map Prod.fst).getD ((npUnique l).length - 1) default ∈ l ∧
      ∀ x ∈ l, x ≤ ((npUnique l).map Prod.fst).getD ((npUnique l).length - 1) default := by
  have hp := npUnique_pos h
  have hp' : (npUnique l).length - 1 < ((npUnique l).map Prod.fst).length := by simp; omega
  rw [List.getD_eq_getElem?_getD, List.getElem?_eq_getElem hp', Option.getD_some]
  refine ⟨(npUnique_mem _ _).1 (List.getElem_mem hp'), fun x hx => ?_⟩
  obtain ⟨k, hk, hkx⟩ := List.getElem_of_mem ((npUnique_mem _ _).2 hx)
  have hk' : k < (npUnique l).length := by simpa using hk
  rcases Nat.eq_or_lt_of_le (show k ≤ (npUnique l).length - 1 by omega) with h0 | h0
  · subst h0; exact le_of_eq hkx.symm
  · rw [← hkx]
    exact le_of_lt (List.pairwise_iff_getElem.1 (npUnique_lt l) k _ hk hp' h0)

theorem npUnique_first_count [Inhabited α] {l : List α} (h : 0 < l.length) :
    ((npUnique l).map Prod.snd).getD 0 0 = l.count (((npUnique l).map Prod.fst).getD 0 default) := by
  have hp := npUnique_pos h
  rw [List.getD_eq_getElem?_getD, List.getD_eq_getElem?_getD, List.getElem?_map, List.getElem?_map,
    List.getElem?_eq_getElem hp]
  simp only [Option.map_some, Option.getD_some]
  exact npUnique_count (List.getElem_mem hp)

/-! ### The result on one rank -/

variable [Inhabited α] {Q : Nat} {A : Nat → List α}

abbrev puFirst (A : Nat → List α) (q : Nat) : α := ((npUnique (A q)).map Prod.fst).getD 0 default
abbrev puLast (A : Nat → List α) (q : Nat) : α :=
  ((npUnique (A q)).map Prod.fst).getD ((npUnique (A q)).length - 1) default

/-- The loop adds the instances of the last value on all later ranks. -/
theorem puAccum_eq (hA : Sorted (gcat Q A)) (hne : ∀ q < Q, 0 < (A q).length) (me : Nat) (v : α)
    (hme : ∀ q, me < q → q < Q → ∀ x ∈ A q, v ≤ x) :
    ∀ fuel rank_nr, me < rank_nr → Q - rank_nr ≤ fuel →
      puAccum Q (puFirst A) (fun q => ((npUnique (A q)).map Prod.snd).getD 0 0) v fuel rank_nr +
        pre (fun q => (A q).count v) (min rank_nr Q) = pre (fun q => (A q).count v) Q := by
  have hcross := gcat_pairwise_iff.1 hA
  intro fuel
  induction fuel with
  | zero =>
    intro k hk hf
    unfold puAccum
    rw [show min k Q = Q by omega]; omega
  | succ fuel ih =>
    intro k hk hf
    unfold puAccum
    split
    · rename_i hc
      have := ih (k + 1) (by omega) (by omega)
      rw [show min (k + 1) Q = k + 1 by omega, pre_succ] at this
      rw [show min k Q = k by omega]
      have h1 := npUnique_first_count (hne k hc.1)
      rw [show ((npUnique (A k)).map Prod.fst).getD 0 default = v from hc.2] at h1
      rw [h1]; omega
    · rename_i hc
      rw [Nat.zero_add]
      by_cases hkQ : k < Q
      · rw [show min k Q = k by omega]
        have hfirst := npUnique_first (hne k hkQ)
        have hgt : v < puFirst A k := by
          apply lt_of_le_of_ne (hme k hk hkQ _ hfirst.1)
          intro he; exact hc ⟨hkQ, he.symm⟩
        have hz : ∀ q, k ≤ q → q < Q → (A q).count v = 0 := by
          intro q hq hqQ
          rw [List.count_eq_zero]
          intro hm
          have : puFirst A k ≤ v := by
            rcases Nat.eq_or_lt_of_le hq with h | h
            · subst h; exact hfirst.2 v hm
            · exact hcross.2 k q h hqQ _ hfirst.1 v hm
          exact lt_irrefl _ (lt_of_lt_of_le hgt this)
        have : ∀ n, k + n ≤ Q → pre (fun q => (A q).count v) k = pre (fun q => (A q).count v) (k + n) := by
          intro n
          induction n with
          | zero => intro _; rfl
          | succ n ihn =>
            intro hn
            rw [← Nat.add_assoc, pre_succ, hz (k + n) (by omega) (by omega), ← ihn (by omega)]; rfl
        have := this (Q - k) (by omega)
        rwa [show k + (Q - k) = Q by omega] at this
      · rw [show min k Q = Q by omega]

/-- Does rank `me` leave its first value to an earlier rank. -/
def puDrop (A : Nat → List α) (me : Nat) (x : α) : Prop :=
  me > 0 ∧ puFirst A me = puLast A (me - 1) ∧ x = puFirst A me

instance (A : Nat → List α) (me : Nat) (x : α) : Decidable (puDrop A me x) := by
  unfold puDrop; infer_instance

theorem mem_earlier_drop (hA : Sorted (gcat Q A)) (hne : ∀ q < Q, 0 < (A q).length) {p me : Nat} (hp : p < me)
    (hme : me < Q) {x : α} (h1 : x ∈ A p) (h2 : x ∈ A me) : puDrop A me x := by
  have hcross := gcat_pairwise_iff.1 hA
  have hf := npUnique_first (hne me hme)
  have hl := npUnique_last (hne (me - 1) (by omega))
  have hxf : x ≤ puFirst A me := hcross.2 p me hp hme x h1 _ hf.1
  have hfx : puFirst A me ≤ x := hf.2 x h2
  have hxl : x ≤ puLast A (me - 1) := by
    rcases Nat.eq_or_lt_of_le (show p ≤ me - 1 by omega) with h | h
    · subst h; exact hl.2 x h1
    · exact hcross.2 p (me - 1) h (by omega) x h1 _ hl.1
  have hlx : puLast A (me - 1) ≤ x := hcross.2 (me - 1) me (by omega) hme _ hl.1 x h2
  exact ⟨by omega, le_antisymm (le_trans hfx hxl) (le_trans hlx hxf), le_antisymm hxf hfx⟩

theorem drop_mem_prev (hne : ∀ q < Q, 0 < (A q).length) {me : Nat} (hme : me < Q) {x : α} (h : puDrop A me x) :
    x ∈ A (me - 1) := by
  obtain ⟨_, h2, h3⟩ := h
  rw [h3, h2]
  exact (npUnique_last (hne (me - 1) (by omega))).1

theorem pre_split_zero {f : Nat → Nat} {me Q : Nat} (hme : me < Q) (h0 : ∀ q < me, f q = 0) :
    pre f (me + 1) = f me ∧ pre f (me + 1) ≤ pre f Q := by
  refine ⟨?_, pre_mono f hme⟩
  rw [pre_succ, pre_congr (g := fun _ => 0) h0, pre_const_zero, Nat.zero_add]

/-- Values kept on a rank, with their total counts. -/
theorem puLocal_eq (hA : Sorted (gcat Q A)) (hne : ∀ q < Q, 0 < (A q).length) {me : Nat} (hme : me < Q) :
    puLocal Q A me = ((((npUnique (A me)).map Prod.fst).filter (fun x => decide (¬ puDrop A me x))).map
      (fun x => (x, (gcat Q A).count x))) := by
  have hcross := gcat_pairwise_iff.1 hA
  have hcount : ∀ x, (gcat Q A).count x = pre (fun q => (A q).count x) Q := fun x => countP_gcat _ Q A
  set u := npUnique (A me) with hu
  have hup : 0 < u.length := npUnique_pos (hne me hme)
  unfold puLocal
  simp only [← hu]
  set acc := puAccum Q (puFirst A) (fun q => ((npUnique (A q)).map Prod.snd).getD 0 0) (puLast A me)
    (Q - (me + 1)) (me + 1) with hacc
  have hlast := npUnique_last (hne me hme)
  have hacc' := puAccum_eq hA hne me (puLast A me)
    (fun q h1 h2 x hx => hcross.2 me q h1 h2 _ hlast.1 x hx) (Q - (me + 1)) (me + 1) (by omega) (by omega)
  rw [← hacc, show min (me + 1) Q = me + 1 by omega] at hacc'
  have hlen : (u.map Prod.snd).length = u.length := by simp
  -- counts entry by entry
  set cs := (if me > 0 ∧ puFirst A me = puLast A (me - 1) then
      ((u.map Prod.snd).set ((u.map Prod.snd).length - 1)
        ((u.map Prod.snd).getD ((u.map Prod.snd).length - 1) 0 + acc)).set 0 0
    else (u.map Prod.snd).set ((u.map Prod.snd).length - 1)
        ((u.map Prod.snd).getD ((u.map Prod.snd).length - 1) 0 + acc)) with hcs
  have hcslen : cs.length = u.length := by rw [hcs]; split <;> simp
  have hentry : ∀ k (hk : k < u.length), cs[k]? = some (if puDrop A me u[k].1 then 0 else (gcat Q A).count u[k].1) := by
    intro k hk
    have hmem : u[k].1 ∈ A me := (npUnique_mem _ _).1 (List.mem_map.2 ⟨_, List.getElem_mem hk, rfl⟩)
    have hfirst0 : puFirst A me = u[0].1 := by
      unfold puFirst
      rw [← hu, List.getD_eq_getElem?_getD, List.getElem?_map, List.getElem?_eq_getElem hup]; rfl
    have hlast0 : puLast A me = u[u.length - 1].1 := by
      unfold puLast
      rw [← hu, List.getD_eq_getElem?_getD, List.getElem?_map, List.getElem?_eq_getElem (by omega)]; rfl
    have hinj : ∀ i j (hi : i < u.length) (hj : j < u.length), u[i].1 = u[j].1 → i = j := by
      intro i j hi hj hij
      by_contra hne'
      have hpw := npUnique_lt (A me)
      rw [← hu] at hpw
      rcases Nat.lt_or_gt_of_ne hne' with h | h
      · have := List.pairwise_iff_getElem.1 hpw i j (by simpa using hi) (by simpa using hj) h
        simp only [List.getElem_map] at this
        rw [hij] at this; exact lt_irrefl _ this
      · have := List.pairwise_iff_getElem.1 hpw j i (by simpa using hj) (by simpa using hi) h
        simp only [List.getElem_map] at this
        rw [hij] at this; exact lt_irrefl _ this
    have hdropk : puDrop A me u[k].1 ↔ (me > 0 ∧ puFirst A me = puLast A (me - 1)) ∧ k = 0 := by
      unfold puDrop
      constructor
      · rintro ⟨h1, h2, h3⟩
        exact ⟨⟨h1, h2⟩, hinj k 0 hk hup (by rw [h3, hfirst0])⟩
      · rintro ⟨⟨h1, h2⟩, rfl⟩
        exact ⟨h1, h2, hfirst0.symm⟩
    by_cases hd : puDrop A me u[k].1
    · rw [if_pos hd]
      obtain ⟨hc, rfl⟩ := hdropk.1 hd
      rw [hcs, if_pos hc, List.getElem?_set_self (by simpa using hup)]
    · rw [if_neg hd]
      have hlow : ∀ q < me, (A q).count u[k].1 = 0 := by
        intro q hq
        rw [List.count_eq_zero]
        intro hm
        exact hd (mem_earlier_drop hA hne hq hme hm hmem)
      have hsplit := pre_split_zero (f := fun q => (A q).count u[k].1) hme hlow
      have hcnt : u[k].2 = (A me).count u[k].1 := npUnique_count (List.getElem_mem hk)
      have h1 : cs[k]? = ((u.map Prod.snd).set ((u.map Prod.snd).length - 1)
        ((u.map Prod.snd).getD ((u.map Prod.snd).length - 1) 0 + acc))[k]? := by
        rw [hcs]
        split
        · rename_i hc
          rw [List.getElem?_set_ne]
          intro h0
          exact hd (hdropk.2 ⟨hc, h0.symm⟩)
        · rfl
      rw [h1, hlen, hcount]
      by_cases hkl : k = u.length - 1
      · subst hkl
        rw [List.getElem?_set_self (by simpa using hk), List.getD_eq_getElem?_getD, List.getElem?_map,
          List.getElem?_eq_getElem hk]
        simp only [Option.map_some, Option.getD_some]
        rw [← hlast0] at hsplit hcnt ⊢
        rw [hcnt, ← hacc', hsplit.1]
        congr 1; omega
      · rw [List.getElem?_set_ne (fun h => hkl h.symm), List.getElem?_map, List.getElem?_eq_getElem hk, Option.map_some]
        congr 1
        rw [hcnt]
        have hklt : u[k].1 < puLast A me := by
          rw [hlast0]
          have hpw := npUnique_lt (A me)
          rw [← hu] at hpw
          have := List.pairwise_iff_getElem.1 hpw k (u.length - 1) (by simpa using hk) (by simp; omega) (by omega)
          simpa using this
        have hhigh : ∀ q, me < q → q < Q → (A q).count u[k].1 = 0 := by
          intro q h1 h2
          rw [List.count_eq_zero]
          intro hm
          exact lt_irrefl _ (lt_of_lt_of_le hklt (hcross.2 me q h1 h2 _ hlast.1 _ hm))
        have : ∀ n, me + 1 + n ≤ Q → pre (fun q => (A q).count u[k].1) (me + 1 + n) = (A me).count u[k].1 := by
          intro n
          induction n with
          | zero => intro _; exact hsplit.1
          | succ n ihn =>
            intro hn
            rw [← Nat.add_assoc, pre_succ, ihn (by omega), hhigh (me + 1 + n) (by omega) (by omega)]; rfl
        have := this (Q - (me + 1)) (by omega)
        rw [show me + 1 + (Q - (me + 1)) = Q by omega] at this
        exact this.symm
  have hzip : (u.map Prod.fst).zip cs = (u.map Prod.fst).map
      (fun x => (x, if puDrop A me x then 0 else (gcat Q A).count x)) := by
    apply List.ext_getElem?
    intro k
    by_cases hk : k < u.length
    · rw [List.getElem?_map, List.getElem?_map, List.getElem?_eq_getElem hk, Option.map_some, Option.map_some,
        List.getElem?_zip_eq_some]
      refine ⟨by rw [List.getElem?_map, List.getElem?_eq_getElem hk]; rfl, hentry k hk⟩
    · rw [List.getElem?_eq_none (by simp; omega), List.getElem?_eq_none (by simp; omega)]
  rw [hzip, List.filter_map]
  have hfc : (u.map Prod.fst).filter ((fun e : α × Nat => decide (e.2 > 0)) ∘
      fun x => (x, if puDrop A me x then 0 else (gcat Q A).count x)) =
      (u.map Prod.fst).filter (fun x => decide (¬ puDrop A me x)) := by
    apply List.filter_congr
    intro x hx
    have hxm : x ∈ gcat Q A := mem_gcat.2 ⟨me, hme, (npUnique_mem _ _).1 hx⟩
    have := List.count_pos_iff.2 hxm
    by_cases hd : puDrop A me x
    · simp [hd]
    · simp [hd, this]
  rw [hfc]
  apply List.map_congr_left
  intro x hx
  have := (List.mem_filter.1 hx).2
  simp only [decide_eq_true_eq] at this
  rw [if_neg this]

/-- Over all ranks: strictly increasing values, those of the input. -/
theorem puLocal_all (hA : Sorted (gcat Q A)) (hne : ∀ q < Q, 0 < (A q).length) :
    ((gcat Q (puLocal Q A)).map Prod.fst).Pairwise (· < ·) ∧
      (∀ x, x ∈ (gcat Q (puLocal Q A)).map Prod.fst ↔ x ∈ gcat Q A) ∧
      ∀ e ∈ gcat Q (puLocal Q A), e.2 = (gcat Q A).count e.1 := by
  have hcross := gcat_pairwise_iff.1 hA
  have hfst : ∀ me < Q, (puLocal Q A me).map Prod.fst =
      ((npUnique (A me)).map Prod.fst).filter (fun x => decide (¬ puDrop A me x)) := by
    intro me hme
    rw [puLocal_eq hA hne hme, List.map_map]
    exact (List.map_congr_left (fun _ _ => rfl)).trans (List.map_id _)
  have hmem : ∀ me < Q, ∀ x, x ∈ (puLocal Q A me).map Prod.fst ↔ x ∈ A me ∧ ¬ puDrop A me x := by
    intro me hme x
    rw [hfst me hme, List.mem_filter, npUnique_mem, decide_eq_true_eq]
  rw [map_gcat]
  refine ⟨?_, ?_, ?_⟩
  · apply gcat_pairwise
    · intro p hp
      rw [hfst p hp]
      exact (npUnique_lt _).filter _
    · intro p q hpq hq x hx y hy
      rw [hmem p (by omega)] at hx
      rw [hmem q hq] at hy
      refine lt_of_le_of_ne (hcross.2 p q hpq hq x hx.1 y hy.1) ?_
      rintro rfl
      exact hy.2 (mem_earlier_drop hA hne hpq hq hx.1 hy.1)
  · intro x
    rw [mem_gcat, mem_gcat]
    constructor
    · rintro ⟨p, hp, hx⟩
      exact ⟨p, hp, ((hmem p hp x).1 hx).1⟩
    · rintro ⟨p, hp, hx⟩
      induction p with
      | zero => exact ⟨0, hp, (hmem 0 hp x).2 ⟨hx, fun h => by have := h.1; omega⟩⟩
      | succ p ih =>
        by_cases hd : puDrop A (p + 1) x
        · exact ih (by omega) (drop_mem_prev hne hp hd)
        · exact ⟨p + 1, hp, (hmem (p + 1) hp x).2 ⟨hx, hd⟩⟩
  · intro e he
    obtain ⟨p, hp, he⟩ := mem_gcat.1 he
    rw [puLocal_eq hA hne hp] at he
    obtain ⟨x, _, rfl⟩ := List.mem_map.1 he
    rfl

end

/-- Sizes of a balanced distribution. -/
theorem pre_balanced (n P : Nat) (hP : 0 < P) :
    pre (fun p => n / P + if p < n % P then 1 else 0) P = n := by
  have : ∀ k, pre (fun p => n / P + if p < n % P then 1 else 0) k = k * (n / P) + min k (n % P) := by
    intro k
    induction k with
    | zero => simp
    | succ k ih =>
      rw [pre_succ, ih, Nat.add_mul]
      split <;> omega
  rw [this]
  have h1 := Nat.mod_lt n hP
  have h2 := Nat.div_add_mod n P
  rw [show min P (n % P) = n % P by omega]; exact h2

/-- Concatenating what the members of the sub-communicator computed. -/
theorem gcat_of_members {β : Type*} (P : Nat) (arr : Nat → List α) (f : Nat → List β) :
    gcat P (fun p => if (arr p).length > 0 then f ((psMembers P arr).idxOf p) else []) =
      gcat (psMembers P arr).length f := by
  rw [← gcat_members P arr]
  · apply gcat_congr
    intro q hq
    beta_reduce
    rw [if_pos (by
      have : (psMembers P arr).getD q 0 ∈ psMembers P arr := by
        rw [List.getD_eq_getElem?_getD, List.getElem?_eq_getElem hq]; exact List.getElem_mem hq
      exact (mem_psMembers.1 this).2)]
    congr 1
    rw [List.getD_eq_getElem?_getD, List.getElem?_eq_getElem hq]
    exact List.Nodup.idxOf_getElem (psMembers_nodup P arr) _ _
  · intro p _ h
    rw [if_neg (by omega)]

theorem parallelUnique_any [LinearOrder α] [Inhabited α] {fuel P : Nat} {arr : Nat → List α} {arr_sorted : Bool}
    (hP : 0 < P) (hfuel : (gcat P arr).length ≤ fuel ∨ 3 ^ fuel * (gcat P arr).length < 4 ^ fuel) (hs : arr_sorted = true → Sorted (gcat P arr)) :
    ∃ R : List (α × Nat), (R.map Prod.fst).Pairwise (· < ·) ∧ (∀ x, x ∈ R.map Prod.fst ↔ x ∈ gcat P arr) ∧
      (∀ e ∈ R, e.2 = (gcat P arr).count e.1) ∧
      (∃ U C, parallelUnique fuel P arr arr_sorted false = .ok (U, C) ∧ (∀ p < P, (U p).length = (C p).length) ∧
        gcat P U = R.map Prod.fst ∧ gcat P C = R.map Prod.snd) ∧
      (∃ U C, parallelUnique fuel P arr arr_sorted true = .ok (U, C) ∧
        (∀ p < P, (U p).length = R.length / P + (if p < R.length % P then 1 else 0) ∧
          (C p).length = R.length / P + (if p < R.length % P then 1 else 0)) ∧
        gcat P U = R.map Prod.fst ∧ gcat P C = R.map Prod.snd) := by
  set M := psMembers P arr with hM
  have hg : gcat M.length (fun q => arr (M.getD q 0)) = gcat P arr :=
    gcat_members P arr arr (fun p _ h => List.eq_nil_of_length_eq_zero h)
  have hne : ∀ q < M.length, 0 < (arr (M.getD q 0)).length := by
    intro q hq
    have : M.getD q 0 ∈ psMembers P arr := by
      rw [List.getD_eq_getElem?_getD, List.getElem?_eq_getElem hq]; exact List.getElem_mem hq
    exact (mem_psMembers.1 this).2
  -- the sorted arrays
  obtain ⟨S, hS, hSs, hSp, hSne⟩ : ∃ S, puSorted fuel M.length (fun q => arr (M.getD q 0)) arr_sorted = .ok S ∧ Sorted (gcat M.length S) ∧
      (gcat M.length S).Perm (gcat P arr) ∧ ∀ q < M.length, 0 < (S q).length := by
    cases arr_sorted with
    | true =>
      exact ⟨_, rfl, by rw [hg]; exact hs rfl, by rw [hg], hne⟩
    | false =>
      obtain ⟨out, h, O, hO, hcat⟩ := parallelSort_any (fuel := fuel) (P := M.length)
        (arr := fun q => arr (M.getD q 0)) (by rw [hg]; exact hfuel)
      have h1 : gcat M.length (fun q => (out q).1) = (sortedPairs (gcat P arr)).map Prod.fst := by
        rw [hg] at hcat
        rw [← hcat, map_gcat]
        exact gcat_congr (fun p hp => by rw [(hO p hp).1])
      refine ⟨fun q => (out q).1, by simp only [puSorted]; rw [h]; rfl, ?_, ?_, ?_⟩
      · rw [h1, ← fancy_argsort]; exact fancy_argsort_sorted _
      · rw [h1, ← fancy_argsort]; exact fancy_argsort_perm _
      · intro q hq
        have := hO q hq
        beta_reduce
        rw [this.1]
        have h2 := hne q hq
        simp only [List.length_map]; omega
  obtain ⟨hR1, hR2, hR3⟩ := puLocal_all hSs hSne
  set R := gcat M.length (puLocal M.length S) with hR
  set res : Nat → List (α × Nat) :=
    fun p => if (arr p).length > 0 then puLocal M.length S (M.idxOf p) else [] with hres
  have hresg : gcat P res = R := gcat_of_members P arr (puLocal M.length S)
  refine ⟨R, hR1, fun x => (hR2 x).trans hSp.mem_iff, fun e he => (hR3 e he).trans (hSp.count_eq _), ?_, ?_⟩
  · refine ⟨fun p => (res p).map Prod.fst, fun p => (res p).map Prod.snd, ?_, by simp, ?_, ?_⟩
    · unfold parallelUnique
      simp only [← hM]
      rw [hS]; rfl
    · rw [← map_gcat, hresg]
    · rw [← map_gcat, hresg]
  · have hsz : pre (sizes (fun p => (res p).map Prod.fst)) P = R.length := by
      rw [← length_gcat, ← map_gcat, hresg, List.length_map]
    have hsz2 : pre (sizes (fun p => (res p).map Prod.snd)) P = R.length := by
      rw [← length_gcat, ← map_gcat, hresg, List.length_map]
    have hbal := pre_balanced R.length P hP
    obtain ⟨U, hU, hUv⟩ := repartition_ok (arr := fun p => (res p).map Prod.fst) (hsz.trans hbal.symm)
    obtain ⟨C, hC, hCv⟩ := repartition_ok (arr := fun p => (res p).map Prod.snd) (hsz2.trans hbal.symm)
    refine ⟨U, C, ?_, ?_, ?_, ?_⟩
    · unfold parallelUnique
      simp only [← hM]
      rw [hS]
      simp only [if_true]
      rw [hsz]
      rw [if_neg (by rw [hbal]; simp)]
      simp only [hres] at hU hC
      rw [hU, hC]
    · intro p hp
      have hle := pre_lt_total (f := fun p => R.length / P + if p < R.length % P then 1 else 0) hp
      rw [hbal] at hle
      constructor
      · rw [hUv p hp, length_slice_of_le (by rw [← map_gcat, hresg, List.length_map]; exact hle)]
      · rw [hCv p hp, length_slice_of_le (by rw [← map_gcat, hresg, List.length_map]; exact hle)]
    · have h1 := gcat_slice (gcat P (fun p => (res p).map Prod.fst))
        (fun p => R.length / P + if p < R.length % P then 1 else 0) 0 P
      rw [hbal] at h1
      have h2 : gcat P (fun p => (res p).map Prod.fst) = R.map Prod.fst := by rw [← map_gcat, hresg]
      rw [gcat_congr (fun r hr => hUv r hr)]
      simp only [Nat.zero_add] at h1
      rw [h1, h2, slice_of_le (by simp)]
    · have h1 := gcat_slice (gcat P (fun p => (res p).map Prod.snd))
        (fun p => R.length / P + if p < R.length % P then 1 else 0) 0 P
      rw [hbal] at h1
      have h2 : gcat P (fun p => (res p).map Prod.snd) = R.map Prod.snd := by rw [← map_gcat, hresg]
      rw [gcat_congr (fun r hr => hCv r hr)]
      simp only [Nat.zero_add] at h1
      rw [h1, h2, slice_of_le (by simp)]

theorem parallelUnique_ok [LinearOrder α] [Inhabited α] {fuel P : Nat} {arr : Nat → List α} {arr_sorted : Bool}
    (hP : 0 < P) (hfuel : (gcat P arr).length ≤ fuel) (hs : arr_sorted = true → Sorted (gcat P arr)) :
    ∃ R : List (α × Nat), (R.map Prod.fst).Pairwise (· < ·) ∧ (∀ x, x ∈ R.map Prod.fst ↔ x ∈ gcat P arr) ∧
      (∀ e ∈ R, e.2 = (gcat P arr).count e.1) ∧
      (∃ U C, parallelUnique fuel P arr arr_sorted false = .ok (U, C) ∧ (∀ p < P, (U p).length = (C p).length) ∧
        gcat P U = R.map Prod.fst ∧ gcat P C = R.map Prod.snd) ∧
      (∃ U C, parallelUnique fuel P arr arr_sorted true = .ok (U, C) ∧
        (∀ p < P, (U p).length = R.length / P + (if p < R.length % P then 1 else 0) ∧
          (C p).length = R.length / P + (if p < R.length % P then 1 else 0)) ∧
        gcat P U = R.map Prod.fst ∧ gcat P C = R.map Prod.snd) :=
  parallelUnique_any hP (Or.inl hfuel) hs

end Verif
