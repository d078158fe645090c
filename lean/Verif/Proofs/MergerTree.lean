import Verif.Model.MergerTree
import Verif.Spec.MergerTree
import Verif.Proofs.ParallelMatch
import Verif.Proofs.ParallelUnique
import Verif.Proofs.ReduceElements
import Verif.Props.Repartition

set_option linter.unusedSectionVars false

namespace Verif

variable {α β : Type*}

theorem maskAssign_filter (l : List β) (m : β → Bool) (f : β → α) (d : α) :
    maskAssign (List.replicate l.length d) (l.map m) ((l.filter m).map f) = l.map (fun x => if m x then f x else d) := by
  induction l with
  | nil => rfl
  | cons x l ih =>
    cases hm : m x <;> simp [hm, maskAssign, List.replicate_succ, ih]

/-! ### consistent_match -/

theorem consistentMatch_ok {P : Nat} {m12 m21 : Nat → List Int}
    (hin : ∀ p < P, ∀ m ∈ m12 p, m < (gcat P m21).length) :
    ∃ out, consistentMatch P m12 m21 = .ok out ∧ ∀ p < P, out p = (m12 p).mapIdx (fun i m =>
      if 0 ≤ m ∧ (gcat P m21)[m.toNat]? = some ((pre (sizes m12) p + i : Nat) : Int) then 1 else 0) := by
  obtain ⟨F, hF, hFe⟩ := fetchElements_ok (arr := m21) (result := none)
    (index := fun p => (m12 p).filter (fun m => decide (m ≥ 0))) (P := P) (by simp) (by
      intro p hp i hi
      rw [List.mem_filter] at hi
      rw [← length_gcat]
      exact ⟨by simpa using hi.2, hin p hp i hi.1⟩)
  unfold consistentMatch
  rw [hF]
  refine ⟨_, rfl, fun p hp => ?_⟩
  simp only
  rw [hFe p hp, maskAssign_filter]
  apply List.ext_getElem?
  intro i
  rw [List.getElem?_zipWith, List.getElem?_mapIdx, List.getElem?_map, List.getElem?_map]
  cases hm : (m12 p)[i]? with
  | none => simp
  | some m =>
    have hi := (List.getElem?_eq_some_iff.1 hm).1
    rw [List.getElem?_range hi]
    simp only [Option.map_some, Option.some.injEq]
    have hmem : m ∈ m12 p := List.mem_of_getElem? hm
    have hlt := hin p hp m hmem
    by_cases h0 : 0 ≤ m
    · have hlt' : m.toNat < (gcat P m21).length := by omega
      rw [List.getD_eq_getElem?_getD, List.getElem?_eq_getElem hlt']
      simp [h0]
    · have hne : (-1 : Int) ≠ ((pre (sizes m12) p + i : Nat) : Int) := by omega
      simp [h0]
      omega

/-! ### Exchange of the pairs -/

theorem countP_lt_succ (l : List β) (f : β → Nat) (d : Nat) : l.countP (fun x => decide (f x < d + 1)) =
    l.countP (fun x => decide (f x < d)) + l.countP (fun x => f x == d) := by
  induction l with
  | nil => rfl
  | cons y l ih =>
    simp only [List.countP_cons, ih]
    rcases Nat.lt_trichotomy (f y) d with h | h | h
    · have : f y ≠ d := by omega
      simp [h, this, show f y < d + 1 by omega]; omega
    · simp [h]; omega
    · have : f y ≠ d := by omega
      simp [this, show ¬ f y < d + 1 by omega, show ¬ f y < d by omega]

theorem countP_lt_eq_pre (l : List β) (f : β → Nat) (d : Nat) :
    l.countP (fun x => decide (f x < d)) = pre (fun e => (l.map f).count e) d := by
  induction d with
  | zero => simp
  | succ d ih =>
    rw [pre_succ, ← ih, List.count_eq_countP, List.countP_map, countP_lt_succ]
    rfl

/-- Blocks of a list ordered by `f` are the elements with a given value of `f`. -/
theorem slice_eq_filter {l : List β} {f : β → Nat} (hs : l.Pairwise (fun x y => f x ≤ f y)) (d : Nat) :
    slice l (pre (fun e => (l.map f).count e) d) ((l.map f).count d) = l.filter (fun x => decide (f x = d)) := by
  have hd1 : DownClosed (fun x => decide (f x < d)) l := by
    refine hs.imp ?_
    intro x y hxy h
    simp only [decide_eq_true_eq] at *
    omega
  unfold slice
  rw [← countP_lt_eq_pre, hd1.drop_countP]
  have hd2 : DownClosed (fun x => decide (f x = d)) (l.filter (fun x => !decide (f x < d))) := by
    have h1 : (l.filter (fun x => !decide (f x < d))).Pairwise (fun x y => f x ≤ f y) := hs.filter _
    refine h1.imp_of_mem ?_
    intro x y hx hy hxy h
    have hx' := (List.mem_filter.1 hx).2
    simp only [decide_eq_true_eq, Bool.not_eq_true', decide_eq_false_iff_not] at *
    omega
  have hcount : (l.map f).count d = (l.filter (fun x => !decide (f x < d))).countP (fun x => decide (f x = d)) := by
    rw [List.count_eq_countP, List.countP_map, List.countP_filter]
    apply List.countP_congr
    intro x _
    simp only [Function.comp, beq_iff_eq, Bool.and_eq_true, decide_eq_true_eq, Bool.not_eq_true', decide_eq_false_iff_not]
    omega
  rw [hcount, hd2.take_countP, List.filter_filter]
  apply List.filter_congr
  intro x _
  by_cases h : f x = d <;> simp [h]

/-! ### The loop -/

/-- Entry for halo `k` of the best match among the pairs `L`. -/
def MhBest (off : Nat) (L : List ((Int ×ₗ Int) × Nat)) (k : Nat) (g : Int) (c : Nat) : Prop :=
  (g = -1 ∧ c = 0 ∧ ∀ e ∈ L, (ofLex e.1).1 ≠ ((off + k : Nat) : Int)) ∨
  ((toLex (((off + k : Nat) : Int), g), c) ∈ L ∧ 0 < c ∧
    ∀ e ∈ L, (ofLex e.1).1 = ((off + k : Nat) : Int) → e.2 < c ∨ (e.2 = c ∧ g ≤ (ofLex e.1).2))

theorem mhLoop_ok {off size : Nat} : ∀ (L done : List ((Int ×ₗ Int) × Nat)) (st : MhState),
    st.grnr2.length = size → st.count.length = size →
    (∀ e ∈ L, (off : Int) ≤ (ofLex e.1).1 ∧ (ofLex e.1).1 < off + size ∧ 0 < e.2) →
    (∀ k < size, MhBest off done k (st.grnr2.getD k 0) (st.count.getD k 0)) →
    ∃ st', mhLoop off size L st = .ok st' ∧ st'.grnr2.length = size ∧ st'.count.length = size ∧
      ∀ k < size, MhBest off (done ++ L) k (st'.grnr2.getD k 0) (st'.count.getD k 0) := by
  intro L
  induction L with
  | nil =>
    intro done st h1 h2 _ h4
    exact ⟨st, rfl, h1, h2, by simpa using h4⟩
  | cons e L ih =>
    intro done st h1 h2 h3 h4
    obtain ⟨g, n⟩ := e
    obtain ⟨hlo, hhi, hpos⟩ := h3 (g, n) (by simp)
    simp only at hlo hhi hpos
    obtain ⟨k, hk⟩ : ∃ k : Nat, (ofLex g).1 = ((off + k : Nat) : Int) := ⟨((ofLex g).1 - off).toNat, by omega⟩
    have hks : k < size := by omega
    have hkk : ((ofLex g).1 - (off : Int)).toNat = k := by omega
    have hg : g = toLex (((off + k : Nat) : Int), (ofLex g).2) := by rw [← hk]; rfl
    -- one step
    have hstep : ∃ st1, mhStep off size st (ofLex g).1 (ofLex g).2 n = .ok st1 ∧ st1.grnr2.length = size ∧
        st1.count.length = size ∧
        ∀ j < size, MhBest off (done ++ [(g, n)]) j (st1.grnr2.getD j 0) (st1.count.getD j 0) := by
      -- entries for other halos are not affected
      have hother : ∀ j < size, j ≠ k → MhBest off (done ++ [(g, n)]) j (st.grnr2.getD j 0) (st.count.getD j 0) := by
        intro j hj hjk
        have hne : (ofLex g).1 ≠ ((off + j : Nat) : Int) := by omega
        rcases h4 j hj with ⟨a, b, c⟩ | ⟨a, b, c⟩
        · left
          refine ⟨a, b, ?_⟩
          intro e he
          rw [List.mem_append, List.mem_singleton] at he
          rcases he with he | rfl
          · exact c e he
          · exact hne
        · right
          refine ⟨List.mem_append_left _ a, b, ?_⟩
          intro e he
          rw [List.mem_append, List.mem_singleton] at he
          rcases he with he | rfl
          · exact c e he
          · intro h; exact (hne h).elim
      have hset : ∀ (h : MhBest off (done ++ [(g, n)]) k (ofLex g).2 n), ∀ j < size,
          MhBest off (done ++ [(g, n)]) j ((st.grnr2.set k (ofLex g).2).getD j 0) ((st.count.set k n).getD j 0) := by
        intro h j hj
        by_cases hjk : j = k
        · subst hjk
          rw [List.getD_eq_getElem?_getD, List.getD_eq_getElem?_getD, List.getElem?_set_self (by omega),
            List.getElem?_set_self (by omega)]
          exact h
        · rw [List.getD_eq_getElem?_getD, List.getD_eq_getElem?_getD, List.getElem?_set_ne (by omega),
            List.getElem?_set_ne (by omega), ← List.getD_eq_getElem?_getD, ← List.getD_eq_getElem?_getD]
          exact hother j hj hjk
      have hnew : (toLex (((off + k : Nat) : Int), (ofLex g).2), n) ∈ done ++ [(g, n)] := by
        rw [← hg]; simp
      unfold mhStep
      simp only
      rw [if_neg (by omega), hkk]
      split
      · rename_i hgt
        refine ⟨_, rfl, by simp [h1], by simp [h2], hset (Or.inr ⟨hnew, hpos, ?_⟩)⟩
        intro e he hek
        rw [List.mem_append, List.mem_singleton] at he
        rcases he with he | rfl
        · left
          rcases h4 k hks with ⟨a, b, c⟩ | ⟨a, b, c⟩
          · exact (c e he hek).elim
          · rcases c e he hek with hc | hc <;> omega
        · right; exact ⟨rfl, le_refl _⟩
      · rename_i hgt
        split
        · rename_i heq
          split
          · rename_i hlt
            refine ⟨_, rfl, by simp [h1], by simp [h2], hset (Or.inr ⟨hnew, hpos, ?_⟩)⟩
            intro e he hek
            rw [List.mem_append, List.mem_singleton] at he
            rcases he with he | rfl
            · rcases h4 k hks with ⟨a, b, c⟩ | ⟨a, b, c⟩
              · exact (c e he hek).elim
              · rcases c e he hek with hc | hc
                · left; omega
                · right; exact ⟨by omega, by omega⟩
            · right; exact ⟨rfl, le_refl _⟩
          · rename_i hlt
            refine ⟨_, rfl, h1, h2, ?_⟩
            intro j hj
            by_cases hjk : j = k
            · subst hjk
              rcases h4 j hj with ⟨a, b, c⟩ | ⟨a, b, c⟩
              · omega
              · refine Or.inr ⟨List.mem_append_left _ a, b, ?_⟩
                intro e he hek
                rw [List.mem_append, List.mem_singleton] at he
                rcases he with he | rfl
                · exact c e he hek
                · right; exact ⟨heq, by show _ ≤ (ofLex g).2; omega⟩
            · exact hother j hj hjk
        · rename_i hne
          refine ⟨_, rfl, h1, h2, ?_⟩
          intro j hj
          by_cases hjk : j = k
          · subst hjk
            rcases h4 j hj with ⟨a, b, c⟩ | ⟨a, b, c⟩
            · omega
            · refine Or.inr ⟨List.mem_append_left _ a, b, ?_⟩
              intro e he hek
              rw [List.mem_append, List.mem_singleton] at he
              rcases he with he | rfl
              · exact c e he hek
              · left; show n < _; omega
          · exact hother j hj hjk
    obtain ⟨st1, hs1, hl1, hl2, hb⟩ := hstep
    obtain ⟨st', hs', h5, h6, h7⟩ := ih (done ++ [(g, n)]) st1 hl1 hl2 (fun e he => h3 e (List.mem_cons_of_mem _ he)) hb
    refine ⟨st', ?_, h5, h6, by simpa using h7⟩
    rw [mhLoop, hs1]
    exact hs'

/-! ### Distribution of halos -/

theorem pre_mhLocalSize {P total : Nat} (d : Nat) (hd : d < P) : pre (mhLocalSize P total) d = d * (total / P) := by
  induction d with
  | zero => simp
  | succ d ih =>
    rw [pre_succ, ih (by omega), mhLocalSize, if_neg (by omega), Nat.succ_mul, Nat.add_zero]

theorem pre_mhLocalSize_total {P total : Nat} (hP : 0 < P) : pre (mhLocalSize P total) P = total := by
  obtain ⟨Q, rfl⟩ : ∃ Q, P = Q + 1 := ⟨P - 1, by omega⟩
  rw [pre_succ, pre_mhLocalSize Q (by omega), mhLocalSize, if_pos (by omega), ← Nat.add_assoc, ← Nat.succ_mul]
  exact Nat.div_add_mod total (Q + 1)

theorem mhDestination_spec {P total : Nat} (hP : 0 < P) {h : Nat} (hh : h < total) :
    mhDestination P (total / P) h < P ∧
    mhDestination P (total / P) h * (total / P) ≤ h ∧
    h < mhDestination P (total / P) h * (total / P) + mhLocalSize P total (mhDestination P (total / P) h) := by
  have hdm := Nat.div_add_mod total P
  have hmod := Nat.mod_lt total hP
  obtain ⟨Q, rfl⟩ : ∃ Q, P = Q + 1 := ⟨P - 1, by omega⟩
  rw [Nat.add_one_mul] at hdm
  unfold mhDestination mhLocalSize
  generalize total / (Q + 1) = n at *
  by_cases hn : n > 0
  · rw [if_pos hn]
    have e1 : (min ((h : Int) / (n : Nat)) (((Q + 1 : Nat) : Int) - 1)).toNat = min (h / n) Q := by
      have : ((h : Int) / (n : Nat)) = ((h / n : Nat) : Int) := by simp
      rw [this]
      generalize h / n = q
      omega
    rw [e1]
    have h1 := Nat.div_mul_le_self h n
    have h2 : h < (h / n + 1) * n := by
      have := Nat.lt_succ_iff.2 (Nat.le_refl (h / n))
      exact (Nat.div_lt_iff_lt_mul hn).1 this
    rw [Nat.add_one_mul] at h2
    rcases Nat.lt_or_ge (h / n) Q with hlt | hge
    · rw [Nat.min_eq_left (by omega), if_neg (by omega)]
      exact ⟨by omega, h1, by omega⟩
    · rw [Nat.min_eq_right hge, if_pos (by omega)]
      have := Nat.mul_le_mul_right n hge
      exact ⟨by omega, by omega, by omega⟩
  · have hn0 : n = 0 := by omega
    subst hn0
    simp only [Nat.mul_zero, Nat.zero_add] at hdm
    rw [if_neg (by omega), if_pos rfl]
    simp only [Nat.mul_zero, Nat.zero_add]
    exact ⟨by omega, by omega, by omega⟩

theorem mhDestination_mono {P n : Nat} {a b : Int} (h : a ≤ b) : mhDestination P n a ≤ mhDestination P n b := by
  unfold mhDestination
  split
  · rename_i hn
    have : a / (n : Int) ≤ b / (n : Int) := Int.ediv_le_ediv (by omega) h
    omega
  · exact Nat.le_refl _

/-! ### The pairs -/

/-- Group of the particle with a given ID in the second snapshot. -/
def mhLookup [DecidableEq α] (I2 : List α) (G2 : List Int) (i : α) : Int :=
  if i ∈ I2 then G2.getD (I2.idxOf i) default else -1

theorem mhPairs_ok [LinearOrder α] [Inhabited α] {fuel P : Nat} {grnr1 : Nat → List Int} {ids1 : Nat → List α}
    {grnr2 : Nat → List Int} {ids2 : Nat → List α} (hfuel : (gcat P ids2).length ≤ fuel)
    (hl1 : ∀ p < P, (grnr1 p).length = (ids1 p).length) (hl2 : ∀ p < P, (grnr2 p).length = (ids2 p).length) :
    ∃ out, mhPairs fuel P grnr1 ids1 grnr2 ids2 = .ok out ∧ ∀ p < P, out p =
      ((((grnr1 p).zip (ids1 p)).map (fun e => (e.1, mhLookup (gcat P ids2) (gcat P grnr2) e.2))).filter
        (fun e => decide (e.1 ≥ 0) && decide (e.2 ≥ 0))).map toLex := by
  obtain ⟨M, hM, hMe⟩ := parallelMatch_ok (arr1 := ids1) (arr2 := ids2) (arr2_sorted := false) hfuel (by simp)
  have hlen : (gcat P grnr2).length = (gcat P ids2).length := by
    rw [length_gcat, length_gcat]
    exact pre_congr (fun i hi => hl2 i hi)
  obtain ⟨F, hF, hFe⟩ := fetchElements_ok (arr := grnr2) (result := none)
    (index := fun p => (M p).filter (fun m => decide (m ≥ 0))) (P := P) (by simp) (by
      intro p hp i hi
      rw [List.mem_filter, hMe p hp, List.mem_map] at hi
      obtain ⟨⟨v, hv, rfl⟩, h0⟩ := hi
      rw [← length_gcat, hlen]
      unfold firstIdx at *
      split
      · rename_i hmem
        have := List.idxOf_lt_length_of_mem hmem
        exact ⟨by omega, by omega⟩
      · rename_i hmem
        rw [if_neg hmem] at h0
        simp at h0)
  unfold mhPairs
  rw [hM]
  simp only
  rw [hF]
  refine ⟨_, rfl, fun p hp => ?_⟩
  congr 2
  have hlenM : (ids1 p).length = (M p).length := by rw [hMe p hp, List.length_map]
  rw [hFe p hp, hlenM, maskAssign_filter, hMe p hp, List.map_map]
  have : (fun e : Int × α => (e.1, mhLookup (gcat P ids2) (gcat P grnr2) e.2)) =
      Prod.map id (mhLookup (gcat P ids2) (gcat P grnr2)) := rfl
  rw [this, ← List.zip_map, List.map_id]
  congr 1
  apply List.map_congr_left
  intro v _
  simp only [Function.comp]
  by_cases hv : v ∈ gcat P ids2
  · simp [mhLookup, firstIdx, hv]
  · simp [mhLookup, firstIdx, hv]

theorem mem_zip_iff_getElem? {l : List α} {m : List β} {a : α} {b : β} :
    (a, b) ∈ l.zip m ↔ ∃ i : Nat, l[i]? = some a ∧ m[i]? = some b := by
  rw [List.mem_iff_getElem?]
  simp only [List.getElem?_zip_eq_some]

theorem mhLookup_eq_iff [DecidableEq α] {I2 : List α} {G2 : List Int} (hl : G2.length = I2.length) (hnd : I2.Nodup)
    {i : α} {g : Int} (hg : 0 ≤ g) : mhLookup I2 G2 i = g ↔ (i, g) ∈ I2.zip G2 := by
  rw [mem_zip_iff_getElem?]
  unfold mhLookup
  by_cases hi : i ∈ I2
  · rw [if_pos hi]
    have hlt := List.idxOf_lt_length_of_mem hi
    rw [List.getD_eq_getElem?_getD, List.getElem?_eq_getElem (by omega : I2.idxOf i < G2.length), Option.getD_some]
    constructor
    · intro h
      refine ⟨I2.idxOf i, ?_, ?_⟩
      · rw [List.getElem?_eq_getElem hlt, List.getElem_idxOf hlt]
      · rw [List.getElem?_eq_getElem (by omega), h]
    · rintro ⟨j, h1, h2⟩
      obtain ⟨hj, h1⟩ := List.getElem?_eq_some_iff.1 h1
      have : I2.idxOf i = j := by
        rw [← h1]; exact hnd.idxOf_getElem j hj
      obtain ⟨hj', h2⟩ := List.getElem?_eq_some_iff.1 h2
      subst this
      exact h2
  · rw [if_neg hi]
    constructor
    · intro h; omega
    · rintro ⟨j, h1, -⟩
      exact (hi (List.mem_of_getElem? h1)).elim

/-- The pairs with their number of occurrences are what one gets by counting. -/
theorem count_pairs [DecidableEq α] {I1 I2 : List α} {G1 G2 : List Int} (hl : G2.length = I2.length) (hnd : I2.Nodup)
    (hl1 : G1.length = I1.length) {h g : Int} (hh : 0 ≤ h) (hg : 0 ≤ g) :
    ((((G1.zip I1).map (fun e => (e.1, mhLookup I2 G2 e.2))).filter
        (fun e => decide (e.1 ≥ 0) && decide (e.2 ≥ 0))).map toLex).countP (fun x => decide (x = toLex (h, g))) =
      sharedParticles I1 G1 I2 G2 h g := by
  unfold sharedParticles
  rw [List.countP_map, List.countP_filter, List.countP_map]
  have hzip : I1.zip G1 = (G1.zip I1).map Prod.swap := by
    clear hl1 hl hnd
    induction I1 generalizing G1 with
    | nil => simp
    | cons a l ih =>
      cases G1 with
      | nil => rfl
      | cons b m => simp [ih]
  rw [hzip, List.countP_map]
  apply List.countP_congr
  intro e _
  simp only [Function.comp, Bool.and_eq_true, decide_eq_true_eq, Prod.fst_swap, Prod.snd_swap]
  rw [toLex_inj, Prod.mk.injEq]
  constructor
  · rintro ⟨⟨h1, h2⟩, -⟩
    exact ⟨h1, (mhLookup_eq_iff hl hnd hg).1 h2⟩
  · rintro ⟨h1, h2⟩
    have := (mhLookup_eq_iff hl hnd hg).2 h2
    exact ⟨⟨h1, this⟩, by omega, by omega⟩

theorem matchHalos_ok [LinearOrder α] [Inhabited α] {fuel P : Nat} {grnr1 : Nat → List Int} {ids1 : Nat → List α}
    {grnr2 : Nat → List Int} {ids2 : Nat → List α} {nh : Nat → Nat} (hP : 0 < P)
    (hfuel1 : (gcat P ids1).length ≤ fuel) (hfuel2 : (gcat P ids2).length ≤ fuel)
    (hl1 : ∀ p < P, (grnr1 p).length = (ids1 p).length) (hl2 : ∀ p < P, (grnr2 p).length = (ids2 p).length)
    (hnd : (gcat P ids2).Nodup) (hg1 : ∀ g ∈ gcat P grnr1, g < (pre nh P : Nat)) :
    ∃ out, matchHalos fuel P grnr1 ids1 grnr2 ids2 nh = .ok out ∧ (∀ p < P, (out p).length = nh p) ∧
      ∀ h < pre nh P, ∃ g, (gcat P out)[h]? = some g ∧
        BestMatch (sharedParticles (gcat P ids1) (gcat P grnr1) (gcat P ids2) (gcat P grnr2) h) g := by
  obtain ⟨Z, hZ, hZe⟩ := mhPairs_ok (grnr1 := grnr1) (ids1 := ids1) (grnr2 := grnr2) (fuel := fuel) hfuel2 hl1 hl2
  -- all pairs
  have hgZ : gcat P Z = (((((gcat P grnr1).zip (gcat P ids1)).map
      (fun e => (e.1, mhLookup (gcat P ids2) (gcat P grnr2) e.2))).filter
        (fun e => decide (e.1 ≥ 0) && decide (e.2 ≥ 0))).map toLex) := by
    rw [gcat_congr hZe, zip_gcat hl1, map_gcat, filter_gcat, map_gcat]
  have hlen1 : (gcat P grnr1).length = (gcat P ids1).length := by
    rw [length_gcat, length_gcat]; exact pre_congr (fun i hi => hl1 i hi)
  have hlen2 : (gcat P grnr2).length = (gcat P ids2).length := by
    rw [length_gcat, length_gcat]; exact pre_congr (fun i hi => hl2 i hi)
  have hfuelZ : (gcat P Z).length ≤ fuel := by
    rw [hgZ, List.length_map]
    refine Nat.le_trans (List.length_filter_le _ _) ?_
    rw [List.length_map, List.length_zip]; omega
  obtain ⟨R, hR1, hR2, hR3, -, ⟨U, C, hUC, hUCl, hU, hC⟩⟩ :=
    parallelUnique_ok (arr := Z) (arr_sorted := false) hP hfuelZ (by simp)
  replace hR3 : ∀ e ∈ R, e.2 = (gcat P Z).countP (fun x => decide (x = e.1)) := by
    intro e he
    rw [hR3 e he]
    apply List.countP_congr
    intro x _
    simp
  have hUl : ∀ p < P, (U p).length = (C p).length := fun p hp => by rw [(hUCl p hp).1, (hUCl p hp).2]
  -- pairs with counts
  let E : Nat → List ((Int ×ₗ Int) × Nat) := fun p => (U p).zip (C p)
  have hE : gcat P E = R := by
    show gcat P (fun p => (U p).zip (C p)) = R
    rw [← zip_gcat hUl, hU, hC, List.zip_map']
    simp
  have hRmem : ∀ e ∈ R, 0 ≤ (ofLex e.1).1 ∧ (ofLex e.1).1 < (pre nh P : Nat) ∧ 0 ≤ (ofLex e.1).2 ∧ 0 < e.2 := by
    intro e he
    have h1 : e.1 ∈ gcat P Z := (hR2 e.1).1 (List.mem_map_of_mem he)
    have h2 : 0 < e.2 := by
      rw [hR3 e he, List.countP_pos_iff]; exact ⟨e.1, h1, by simp⟩
    rw [hgZ, List.mem_map] at h1
    obtain ⟨x, hx, hxe⟩ := h1
    rw [List.mem_filter, List.mem_map] at hx
    obtain ⟨⟨y, hy, rfl⟩, hx0⟩ := hx
    simp only [Bool.and_eq_true, decide_eq_true_eq] at hx0
    rw [← hxe]
    have : y.1 ∈ gcat P grnr1 := (List.of_mem_zip (show (y.1, y.2) ∈ _ from hy)).1
    exact ⟨hx0.1, hg1 _ this, hx0.2, h2⟩
  set tot := pre nh P with htot
  let n := tot / P
  let f : (Int ×ₗ Int) × Nat → Nat := fun e => mhDestination P n (ofLex e.1).1
  have hfs : R.Pairwise (fun x y => f x ≤ f y) := by
    rw [List.pairwise_map] at hR1
    refine hR1.imp ?_
    intro x y hxy
    apply mhDestination_mono
    have := le_of_lt hxy
    rw [Prod.Lex.le_iff] at this
    rcases this with h | h
    · exact le_of_lt h
    · exact le_of_eq h.1
  have hEs : ∀ p < P, (E p).Pairwise (fun x y => f x ≤ f y) := by
    intro p hp
    rw [← hE] at hfs
    exact (gcat_pairwise_iff.1 hfs).1 p hp
  have hdest : ∀ p < P, (U p).map (fun g => mhDestination P n (ofLex g).1) = (E p).map f := by
    intro p hp
    have : U p = (E p).map Prod.fst := by
      show _ = ((U p).zip (C p)).map Prod.fst
      rw [List.map_fst_zip (by rw [hUl p hp])]
    conv_lhs => rw [this]
    rw [List.map_map]; rfl
  -- exchange
  let sc : Nat → Nat → Nat := fun p d => ((U p).map (fun g => mhDestination P n (ofLex g).1)).count d
  let so : Nat → Nat → Nat := fun p => pre (sc p)
  have hsc : ∀ p < P, sc p = fun d => ((E p).map f).count d := by
    intro p hp; funext d; show List.count d _ = _; rw [hdest p hp]
  have hfit : ∀ d, ∀ s < P, so s d + sc s d ≤ (U s).length := by
    intro d s hs
    show pre (sc s) d + sc s d ≤ _
    rw [← pre_succ, hsc s hs, ← countP_lt_eq_pre]
    refine Nat.le_trans List.countP_le_length ?_
    show ((U s).zip (C s)).length ≤ _
    rw [List.length_zip]; omega
  have hrecv : ∀ d, (a2av P U sc so d).zip (a2av P C sc so d) = R.filter (fun e => decide (f e = d)) := by
    intro d
    rw [a2av_eq (hfit d), a2av_eq (fun s hs => by rw [← hUl s hs]; exact hfit d s hs), zip_gcat, ← hE, filter_gcat]
    · apply gcat_congr
      intro p hp
      rw [zip_slice, ← slice_eq_filter (hEs p hp)]
      show slice (E p) (pre (sc p) d) (sc p d) = _
      rw [hsc p hp]
    · intro p hp
      rw [length_slice_of_le (hfit d p hp), length_slice_of_le (by rw [← hUl p hp]; exact hfit d p hp)]
  -- the loop
  have hin : ∀ d, ∀ e ∈ R.filter (fun e => decide (f e = d)),
      ((d * n : Nat) : Int) ≤ (ofLex e.1).1 ∧ (ofLex e.1).1 < (d * n : Nat) + (mhLocalSize P tot d : Nat) ∧ 0 < e.2 := by
    intro d e he
    rw [List.mem_filter, decide_eq_true_eq] at he
    obtain ⟨h0, h1, -, h3⟩ := hRmem e he.1
    have hsp := mhDestination_spec (P := P) hP (h := (ofLex e.1).1.toNat) (total := tot) (by omega)
    have : (((ofLex e.1).1.toNat : Nat) : Int) = (ofLex e.1).1 := by omega
    rw [this] at hsp
    have hfd : mhDestination P (tot / P) (ofLex e.1).1 = d := he.2
    rw [hfd] at hsp
    exact ⟨by show ((d * (tot / P) : Nat) : Int) ≤ _; omega, by show _ < ((d * (tot / P) : Nat) : Int) + _; omega, h3⟩
  have hloop : ∀ d, ∃ st', mhLoop (d * n) (mhLocalSize P tot d) ((a2av P U sc so d).zip (a2av P C sc so d))
      ⟨List.replicate (mhLocalSize P tot d) (-1), List.replicate (mhLocalSize P tot d) 0⟩ = .ok st' ∧
      st'.grnr2.length = mhLocalSize P tot d ∧
      ∀ k < mhLocalSize P tot d, MhBest (d * n) (R.filter (fun e => decide (f e = d))) k (st'.grnr2.getD k 0)
        (st'.count.getD k 0) := by
    intro d
    rw [hrecv d]
    obtain ⟨st', h1, h2, -, h4⟩ := mhLoop_ok (off := d * n) (size := mhLocalSize P tot d)
      (R.filter (fun e => decide (f e = d))) []
      ⟨List.replicate (mhLocalSize P tot d) (-1), List.replicate (mhLocalSize P tot d) 0⟩ (by simp) (by simp) (hin d)
      (by
        intro k hk
        left
        simp [hk, List.getD_eq_getElem?_getD])
    exact ⟨st', h1, h2, by simpa using h4⟩
  choose st hst hstl hstb using hloop
  let B : Nat → List Int := fun p => (st p).grnr2
  have hBs : pre (sizes B) P = pre nh P := by
    rw [← htot, ← pre_mhLocalSize_total (total := tot) hP]
    exact pre_congr (fun i _ => hstl i)
  obtain ⟨out, hout, hol, hog⟩ := (C08_repartition P B nh).1 hBs
  refine ⟨out, ?_, hol, ?_⟩
  · unfold matchHalos
    rw [hZ]
    simp only
    rw [hUC]
    simp only
    rw [← htot, if_neg (by rw [pre_mhLocalSize_total hP]; simp)]
    have hres : ∀ p, mhLoop (p * (tot / P)) (mhLocalSize P tot p)
        ((a2av P U (fun p d => ((U p).map (fun g => mhDestination P (tot / P) (ofLex g).1)).count d)
            (fun p => pre (fun d => ((U p).map (fun g => mhDestination P (tot / P) (ofLex g).1)).count d)) p).zip
          (a2av P C (fun p d => ((U p).map (fun g => mhDestination P (tot / P) (ofLex g).1)).count d)
            (fun p => pre (fun d => ((U p).map (fun g => mhDestination P (tot / P) (ofLex g).1)).count d)) p))
        ⟨List.replicate (mhLocalSize P tot p) (-1), List.replicate (mhLocalSize P tot p) 0⟩ = .ok (st p) := hst
    simp only [hres]
    rw [if_pos (by intro p _; rfl)]
    exact hout
  · intro h hh
    obtain ⟨hdP, hd1, hd2⟩ := mhDestination_spec (P := P) hP hh
    generalize hd : mhDestination P (tot / P) h = d at *
    obtain ⟨k, rfl⟩ : ∃ k, h = d * (tot / P) + k := ⟨h - d * (tot / P), by omega⟩
    have hk : k < mhLocalSize P tot d := by omega
    refine ⟨(st d).grnr2.getD k 0, ?_, ?_⟩
    · rw [hog]
      have hpre : pre (sizes B) d = d * (tot / P) := by
        rw [← pre_mhLocalSize d hdP]
        exact pre_congr (fun i _ => hstl i)
      rw [← hpre, getElem?_gcat hdP (by show k < (st d).grnr2.length; rw [hstl d]; exact hk),
        List.getD_eq_getElem?_getD]
      show (st d).grnr2[k]? = _
      rw [List.getElem?_eq_getElem (by rw [hstl d]; exact hk)]
      rfl
    · -- counts are numbers of shared particles
      have hshare : ∀ (g : Int), 0 ≤ g → (gcat P Z).countP (fun x => decide (x = toLex (((d * (tot / P) + k : Nat) : Int), g))) =
          sharedParticles (gcat P ids1) (gcat P grnr1) (gcat P ids2) (gcat P grnr2) ((d * (tot / P) + k : Nat) : Int) g := by
        intro g hg
        rw [hgZ]
        exact count_pairs hlen2 hnd hlen1 (by omega) hg
      have hmemR : ∀ g : Int, 0 ≤ g → 0 < (gcat P Z).countP (fun x => decide (x = toLex (((d * (tot / P) + k : Nat) : Int), g))) →
          ∃ e ∈ R.filter (fun e => decide (f e = d)), e.1 = toLex (((d * (tot / P) + k : Nat) : Int), g) ∧
            e.2 = (gcat P Z).countP (fun x => decide (x = toLex (((d * (tot / P) + k : Nat) : Int), g))) := by
        intro g hg hpos
        obtain ⟨x, hxm, hx⟩ := List.countP_pos_iff.1 hpos
        rw [decide_eq_true_eq] at hx
        subst hx
        have h1 := (hR2 _).2 hxm
        rw [List.mem_map] at h1
        obtain ⟨e, he, hee⟩ := h1
        refine ⟨e, ?_, hee, by rw [hR3 e he, hee]⟩
        rw [List.mem_filter, decide_eq_true_eq]
        refine ⟨he, ?_⟩
        show mhDestination P (tot / P) (ofLex e.1).1 = d
        rw [hee]
        exact hd
      rcases hstb d k hk with ⟨hg, hc, hno⟩ | ⟨hmem, hc, hbest⟩
      · left
        refine ⟨hg, fun g' hg' => ?_⟩
        by_contra hcon
        rw [← hshare g' hg'] at hcon
        obtain ⟨e, he, hee, -⟩ := hmemR g' hg' (by omega)
        exact hno e he (by rw [hee]; rfl)
      · right
        have hmemR' := (List.mem_filter.1 hmem).1
        obtain ⟨-, -, hg0, -⟩ := hRmem _ hmemR'
        have hg0' : 0 ≤ (st d).grnr2.getD k 0 := hg0
        have hcnt : (st d).count.getD k 0 = (gcat P Z).countP
            (fun x => decide (x = toLex (((d * (tot / P) + k : Nat) : Int), (st d).grnr2.getD k 0))) := hR3 _ hmemR'
        refine ⟨hg0', ?_, fun g' hg' => ?_⟩
        · rw [← hshare _ hg0', ← hcnt]; exact hc
        · rw [← hshare _ hg0', ← hcnt, ← hshare _ hg']
          rcases Nat.eq_zero_or_pos ((gcat P Z).countP (fun x => decide (x = toLex (((d * (tot / P) + k : Nat) : Int), g')))) with h0 | h0
          · left; omega
          · obtain ⟨e, he, hee, hec⟩ := hmemR g' hg' h0
            have := hbest e he (by rw [hee]; rfl)
            rw [hec, hee] at this
            exact this

end Verif
