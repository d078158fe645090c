import Verif.Model.FortranSort
import Verif.Spec.FortranSort
import Mathlib.Tactic.Linarith
import Mathlib.Tactic.SplitIfs
import Mathlib.Order.Basic

set_option linter.unusedSectionVars false

namespace Verif.FSort

variable {α : Type*} [LinearOrder α] [Inhabited α]

/-! ### Swaps -/

theorem length_swapAt (l : List Nat) (i j : Nat) : (swapAt l i j).length = l.length := by simp [swapAt]

theorem swapAt_perm {l : List Nat} {i j : Nat} (hi : i < l.length) (hj : j < l.length) : (swapAt l i j).Perm l := by
  have := List.set_set_perm (as := l) (i := i) (j := j) hi hj
  simpa [swapAt, List.getD_eq_getElem?_getD, List.getElem?_eq_getElem hi, List.getElem?_eq_getElem hj] using this

theorem getD_swapAt {l : List Nat} {i j : Nat} (hi : i < l.length) (hj : j < l.length) (k : Nat) :
    (swapAt l i j).getD k 0 = if k = j then l.getD i 0 else if k = i then l.getD j 0 else l.getD k 0 := by
  simp only [swapAt, List.getD_eq_getElem?_getD, List.getElem?_set, List.length_set]
  by_cases h1 : j = k
  · subst h1; simp [hj]
  · by_cases h2 : i = k
    · subst h2; simp [h1, hi, Ne.symm h1]
    · simp [h1, h2, Ne.symm h1, Ne.symm h2]

theorem key_swapAt (arr : List α) {l : List Nat} {i j : Nat} (hi : i < l.length) (hj : j < l.length) (k : Nat) :
    key arr (swapAt l i j) k = if k = j then key arr l i else if k = i then key arr l j else key arr l k := by
  simp only [key, getD_swapAt hi hj]
  split_ifs <;> rfl

/-! ### Heap sort -/

/-- No node from `s` on is smaller than its children, up to `f`. -/
def HeapFrom (v : Nat → α) (s f : Nat) : Prop := ∀ i c, s ≤ i → (c = 2 * i + 1 ∨ c = 2 * i + 2) → c ≤ f → v c ≤ v i

/-- The same but for the node `r`, whose children are not larger than its parent. -/
def HeapBut (v : Nat → α) (s f r : Nat) : Prop :=
  (∀ i c, s ≤ i → i ≠ r → (c = 2 * i + 1 ∨ c = 2 * i + 2) → c ≤ f → v c ≤ v i) ∧
  (∀ p c, s ≤ p → (r = 2 * p + 1 ∨ r = 2 * p + 2) → (c = 2 * r + 1 ∨ c = 2 * r + 2) → c ≤ f → v c ≤ v p)

theorem siftDown_spec (arr : List α) (s f : Nat) : ∀ (fuel r : Nat) (l : List Nat), f < l.length → s ≤ r → f < fuel + r →
    HeapBut (key arr l) s f r →
    (siftDown arr f fuel r l).Perm l ∧ HeapFrom (key arr (siftDown arr f fuel r l)) s f ∧
    (∀ k, f < k → (siftDown arr f fuel r l).getD k 0 = l.getD k 0) ∧
    (∀ M, (∀ i, i ≤ f → key arr l i ≤ M) → ∀ i, i ≤ f → key arr (siftDown arr f fuel r l) i ≤ M) := by
  intro fuel
  induction fuel with
  | zero =>
    intro r l _ hs hf hb
    refine ⟨.refl _, ?_, fun _ _ => rfl, fun M h => h⟩
    intro i c h1 h2 h3
    exact hb.1 i c h1 (by omega) h2 h3
  | succ fuel ih =>
    intro r l hl hs hf hb
    unfold siftDown
    split_ifs with h1
    · set c : Nat := (if r * 2 + 1 < f ∧ key arr l (r * 2 + 1) < key arr l (r * 2 + 1 + 1) then r * 2 + 1 + 1 else r * 2 + 1) with hc
      have hcr : c = 2 * r + 1 ∨ c = 2 * r + 2 := by rw [hc]; split_ifs <;> omega
      have hcf : c ≤ f := by rw [hc]; split_ifs <;> omega
      have hmax : ∀ d, (d = 2 * r + 1 ∨ d = 2 * r + 2) → d ≤ f → key arr l d ≤ key arr l c := by
        intro d hd hdf
        rw [hc]
        split_ifs with h
        · rcases hd with rfl | rfl
          · rw [show 2 * r + 1 = r * 2 + 1 by omega]; exact h.2.le
          · exact le_of_eq (by congr 1; omega)
        · rcases hd with rfl | rfl
          · exact le_of_eq (by congr 1; omega)
          · rw [not_and] at h
            have := not_lt.1 (h (by omega))
            rwa [show 2 * r + 2 = r * 2 + 1 + 1 by omega]
      dsimp only
      rw [← hc]
      clear_value c
      split_ifs with h2
      · have hrl : r < l.length := by omega
        have hcl : c < l.length := by omega
        have hk := key_swapAt arr hrl hcl
        have hb' : HeapBut (key arr (swapAt l r c)) s f c := by
          constructor
          · intro i d hi hic hd hdf
            rw [hk, hk]
            by_cases hir : i = r
            · subst hir
              have : i ≠ c := by omega
              rw [if_neg this, if_pos rfl]
              by_cases hdc : d = c
              · rw [if_pos hdc]; exact h2.le
              · rw [if_neg hdc, if_neg (by omega)]; exact hmax d hd hdf
            · rw [if_neg hic, if_neg hir]
              have hdc : d ≠ c := by omega
              rw [if_neg hdc]
              by_cases hdr : d = r
              · rw [if_pos hdr]
                exact hb.2 i c hi (hdr ▸ hd) hcr hcf
              · rw [if_neg hdr]
                exact hb.1 i d hi hir hd hdf
          · intro p d hp hcp hd hdf
            have hpr : p = r := by omega
            subst hpr
            rw [hk, hk, if_neg (show d ≠ c by omega), if_neg (show d ≠ p by omega), if_neg (show p ≠ c by omega), if_pos rfl]
            exact hb.1 c d (by omega) (by omega) hd hdf
        obtain ⟨a1, a2, a3, a4⟩ := ih c (swapAt l r c) (by rw [length_swapAt]; exact hl) (by omega) (by omega) hb'
        refine ⟨a1.trans (swapAt_perm hrl hcl), a2, ?_, ?_⟩
        · intro k hk'
          rw [a3 k hk', getD_swapAt hrl hcl, if_neg (by omega), if_neg (by omega)]
        · intro M hM
          apply a4
          intro i hi
          rw [hk]
          split_ifs
          · exact hM _ (by omega)
          · exact hM _ (by omega)
          · exact hM _ hi
      · refine ⟨.refl _, ?_, fun _ _ => rfl, fun M h => h⟩
        intro i d hi hd hdf
        by_cases hir : i = r
        · subst hir
          exact (hmax d hd hdf).trans (not_lt.1 h2)
        · exact hb.1 i d hi hir hd hdf
    · refine ⟨.refl _, ?_, fun _ _ => rfl, fun M h => h⟩
      intro i d hi hd hdf
      exact hb.1 i d hi (by omega) hd hdf

theorem heapify_spec (arr : List α) (n : Nat) : ∀ (s : Nat) (l : List Nat), 0 < n → l.length = n → HeapFrom (key arr l) s (n - 1) →
    (heapify arr n s l).Perm l ∧ HeapFrom (key arr (heapify arr n s l)) 0 (n - 1) := by
  intro s
  induction s with
  | zero => intro l _ _ h; exact ⟨.refl _, h⟩
  | succ s ih =>
    intro l hn hl h
    obtain ⟨a1, a2, -, -⟩ := siftDown_spec arr s (n - 1) n s l (by omega) (le_refl s) (by omega)
      ⟨fun i c hi hne hc hcf => h i c (by omega) hc hcf, fun p c hp hr hc hcf => by omega⟩
    obtain ⟨b1, b2⟩ := ih _ hn (a1.length_eq.trans hl) a2
    exact ⟨b1.trans a1, b2⟩

theorem heap_max {v : Nat → α} {f : Nat} (h : HeapFrom v 0 f) : ∀ i, i ≤ f → v i ≤ v 0 := by
  intro i
  induction i using Nat.strong_induction_on with
  | _ i ih =>
    intro hi
    by_cases h0 : i = 0
    · rw [h0]
    · exact (h ((i - 1) / 2) i (Nat.zero_le _) (by omega) hi).trans (ih _ (by omega) (by omega))

theorem extract_spec (arr : List α) (n : Nat) : ∀ (f : Nat) (l : List Nat), l.length = n → f < n → HeapFrom (key arr l) 0 f →
    (∀ i j, i < j → f < j → j < n → key arr l i ≤ key arr l j) →
    (extract arr n f l).Perm l ∧ ∀ i j, i < j → j < n → key arr (extract arr n f l) i ≤ key arr (extract arr n f l) j := by
  intro f
  induction f with
  | zero =>
    intro l _ _ _ h
    exact ⟨.refl _, fun i j hij hj => h i j hij (by omega) hj⟩
  | succ f ih =>
    intro l hl hf hh hs
    have h0 : 0 < l.length := by omega
    have h1 : f + 1 < l.length := by omega
    have hk := key_swapAt arr h0 h1
    have hmax := heap_max hh
    obtain ⟨a1, a2, a3, a4⟩ := siftDown_spec arr 0 f n 0 (swapAt l 0 (f + 1)) (by rw [length_swapAt]; omega) (le_refl _) (by omega)
      ⟨fun i c hi hne hc hcf => by
          rw [hk, hk, if_neg (by omega), if_neg (by omega), if_neg (by omega), if_neg hne]
          exact hh i c hi hc (by omega),
        fun p c hp hr hc hcf => by omega⟩
    have hkk : ∀ k, f < k → key arr (siftDown arr f n 0 (swapAt l 0 (f + 1))) k = key arr (swapAt l 0 (f + 1)) k := by
      intro k hk'; simp only [key, a3 k hk']
    obtain ⟨b1, b2⟩ := ih (siftDown arr f n 0 (swapAt l 0 (f + 1))) (by rw [a1.length_eq, length_swapAt, hl]) (by omega) a2 (by
      intro i j hij hfj hj
      rw [hkk j hfj]
      have hbound : ∀ i, i ≤ f + 1 → key arr l i ≤ key arr (swapAt l 0 (f + 1)) j := by
        intro i hi
        rw [hk]
        by_cases hjf : j = f + 1
        · rw [if_pos hjf]; exact hmax i hi
        · rw [if_neg hjf, if_neg (by omega)]; exact hs i j (by omega) (by omega) hj
      by_cases hif : i ≤ f
      · apply a4 _ _ i hif
        intro i' hi'
        rw [hk i']
        split_ifs
        · omega
        · exact hbound _ (le_refl _)
        · exact hbound _ (by omega)
      · rw [hkk i (by omega)]
        by_cases hi : i = f + 1
        · rw [hk i, if_pos hi]; exact hbound 0 (by omega)
        · rw [hk i, if_neg hi, if_neg (by omega), hk j, if_neg (by omega), if_neg (by omega)]
          exact hs i j hij (by omega) hj)
    exact ⟨b1.trans (a1.trans (swapAt_perm h0 h1)), b2⟩

theorem heapSort_spec (arr : List α) (l : List Nat) (hl : l.length = arr.length) (hn : 0 < arr.length) :
    (heapSort arr l).Perm l ∧ ∀ i j, i < j → j < arr.length → key arr (heapSort arr l) i ≤ key arr (heapSort arr l) j := by
  obtain ⟨a1, a2⟩ := heapify_spec arr arr.length ((arr.length - 1) / 2 + 1) l hn hl (by intro i c hi hc hcf; omega)
  obtain ⟨b1, b2⟩ := extract_spec arr arr.length (arr.length - 1) _ (a1.length_eq.trans hl) (by omega) a2 (by intro i j _ h1 h2; omega)
  exact ⟨b1.trans a1, b2⟩

/-! ### Shell sort -/

theorem shellInner_perm (arr : List α) (inc tmp : Nat) (hinc : 0 < inc) : ∀ (fuel j : Nat) (l : List Nat), j < l.length →
    (shellInner arr inc tmp fuel j l).Perm (l.set j tmp) := by
  intro fuel
  induction fuel with
  | zero => intro j l _; exact .refl _
  | succ fuel ih =>
    intro j l hj
    unfold shellInner
    split_ifs with h1 h2
    · exact .refl _
    · refine (ih (j - inc) (l.set j (l.getD (j - inc) 0)) (by simp; omega)).trans ?_
      have e : (l.set j (l.getD (j - inc) 0)).set (j - inc) tmp = swapAt (l.set j tmp) j (j - inc) := by
        have hne : j ≠ j - inc := by omega
        simp [swapAt, List.getD_eq_getElem?_getD, List.getElem?_set, hne, hj]
      rw [e]
      exact swapAt_perm (by simpa using hj) (by simp; omega)
    · exact .refl _

theorem set_self {l : List Nat} {i : Nat} : l.set i (l.getD i 0) = l := by
  apply List.ext_getElem?
  intro k
  rw [List.getElem?_set]
  by_cases h : i = k
  · subst h
    by_cases h2 : i < l.length
    · simp [h2, List.getD_eq_getElem?_getD]
    · simp [h2]
  · simp [h]

theorem shellPass_perm (arr : List α) (inc : Nat) (hinc : 0 < inc) : ∀ (m : Nat) (l : List Nat), m ≤ arr.length → l.length = arr.length →
    (shellPass arr inc m l).Perm l := by
  intro m
  induction m with
  | zero => intro l _ _; exact .refl _
  | succ m ih =>
    intro l hm hl
    unfold shellPass
    have h := shellInner_perm arr inc (l.getD (arr.length - (m + 1)) 0) hinc arr.length (arr.length - (m + 1)) l (by omega)
    rw [set_self] at h
    exact (ih _ (by omega) (h.length_eq.trans hl)).trans h

theorem key_set (arr : List α) {l : List Nat} {j : Nat} (hj : j < l.length) (t k : Nat) :
    key arr (l.set j t) k = if k = j then arr.getD t default else key arr l k := by
  simp only [key, List.getD_eq_getElem?_getD, List.getElem?_set]
  by_cases h : j = k
  · subst h; simp [hj]
  · simp [h, Ne.symm h]

theorem shellInner_sorted (arr : List α) (tmp e : Nat) : ∀ (fuel j : Nat) (l : List Nat), j ≤ fuel → e < l.length → j ≤ e →
    (∀ a b, a < b → b ≤ e → a ≠ j → b ≠ j → key arr l a ≤ key arr l b) →
    (∀ b, j < b → b ≤ e → arr.getD tmp default ≤ key arr l b) →
    ∀ a b, a < b → b ≤ e → key arr (shellInner arr 1 tmp fuel j l) a ≤ key arr (shellInner arr 1 tmp fuel j l) b := by
  have done : ∀ (j : Nat) (l : List Nat), e < l.length → j ≤ e →
      (∀ a b, a < b → b ≤ e → a ≠ j → b ≠ j → key arr l a ≤ key arr l b) →
      (∀ b, j < b → b ≤ e → arr.getD tmp default ≤ key arr l b) → (∀ a, a < j → key arr l a ≤ arr.getD tmp default) →
      ∀ a b, a < b → b ≤ e → key arr (l.set j tmp) a ≤ key arr (l.set j tmp) b := by
    intro j l hl hj h1 h2 h3 a b hab hb
    rw [key_set arr (by omega), key_set arr (by omega)]
    split_ifs with x y
    · omega
    · exact h2 b (by omega) hb
    · exact h3 a (by omega)
    · exact h1 a b hab hb (by assumption) (by assumption)
  intro fuel
  induction fuel with
  | zero =>
    intro j l hf hl hj h1 h2
    exact done j l hl hj h1 h2 (by intro a ha; omega)
  | succ fuel ih =>
    intro j l hf hl hj h1 h2
    unfold shellInner
    split_ifs with x y
    · refine done j l hl hj h1 h2 ?_
      intro a ha
      by_cases haj : a = j - 1
      · rw [haj]; exact y
      · exact (h1 a (j - 1) (by omega) (by omega) (by omega) (by omega)).trans y
    · have hk := key_set arr (l := l) (j := j) (by omega) (l.getD (j - 1) 0)
      refine ih (j - 1) _ (by omega) (by simpa using hl) (by omega) ?_ ?_
      · intro a b hab hb ha' hb'
        rw [hk, hk]
        split_ifs with p q q
        · omega
        · exact h1 (j - 1) b (by omega) hb (by omega) (by omega)
        · exact h1 a (j - 1) (by omega) (by omega) (by omega) (by omega)
        · exact h1 a b hab hb p q
      · intro b hb1 hb2
        rw [hk]
        split_ifs with p
        · exact (not_le.1 y).le
        · exact h2 b (by omega) hb2
    · exact done j l hl hj h1 h2 (by intro a ha; omega)

theorem shellPass_sorted (arr : List α) : ∀ (m : Nat) (l : List Nat), m < arr.length → l.length = arr.length →
    (∀ a b, a < b → b < arr.length - m → key arr l a ≤ key arr l b) →
    ∀ a b, a < b → b < arr.length → key arr (shellPass arr 1 m l) a ≤ key arr (shellPass arr 1 m l) b := by
  intro m
  induction m with
  | zero => intro l _ _ h; simpa [shellPass] using h
  | succ m ih =>
    intro l hm hl h
    unfold shellPass
    have hp := shellInner_perm arr 1 (l.getD (arr.length - (m + 1)) 0) one_pos arr.length (arr.length - (m + 1)) l (by omega)
    refine ih _ (by omega) (by rw [hp.length_eq, List.length_set, hl]) ?_
    intro a b hab hb
    refine shellInner_sorted arr _ (arr.length - (m + 1)) _ _ l (by omega) (by omega) (le_refl _) ?_ ?_ a b hab (by omega)
    · intro a b hab hb ha' hb'
      exact h a b hab (by omega)
    · intro b h1 h2; omega

theorem shellLoop_spec (arr : List α) : ∀ (fuel inc : Nat) (l : List Nat), inc ≤ fuel → 0 < inc → inc < arr.length → l.length = arr.length →
    (shellLoop arr fuel inc l).Perm l ∧
    ∀ i j, i < j → j < arr.length → key arr (shellLoop arr fuel inc l) i ≤ key arr (shellLoop arr fuel inc l) j := by
  intro fuel
  induction fuel with
  | zero => intro inc l h1 h2; omega
  | succ fuel ih =>
    intro inc l h1 h2 h3 hl
    unfold shellLoop
    rw [if_pos h2]
    have hp := shellPass_perm arr inc h2 (arr.length - inc) l (by omega) hl
    by_cases hi : inc = 1
    · subst hi
      have e : shellLoop arr fuel (nextInc 1) (shellPass arr 1 (arr.length - 1) l) = shellPass arr 1 (arr.length - 1) l := by
        cases fuel <;> simp [shellLoop, nextInc]
      rw [e]
      exact ⟨hp, shellPass_sorted arr (arr.length - 1) l (by omega) hl (by intro a b _ _; omega)⟩
    · have hn : 0 < nextInc inc ∧ nextInc inc < inc := by
        unfold nextInc; split_ifs <;> omega
      obtain ⟨b1, b2⟩ := ih (nextInc inc) _ (by omega) hn.1 (by omega) (hp.length_eq.trans hl)
      exact ⟨b1.trans hp, b2⟩

theorem shellSort_spec (arr : List α) (l : List Nat) (hl : l.length = arr.length) (hn : 2 ≤ arr.length) :
    (shellSort arr l).Perm l ∧ ∀ i j, i < j → j < arr.length → key arr (shellSort arr l) i ≤ key arr (shellSort arr l) j :=
  shellLoop_spec arr arr.length (arr.length / 2) l (by omega) (by omega) (by omega) hl

theorem sortsOneBased_of (arr : List α) (l : List Nat) (hp : l.Perm (List.range arr.length))
    (hs : ∀ i j, i < j → j < arr.length → key arr l i ≤ key arr l j) : SortsOneBased arr (l.map (· + 1)) := by
  have hl : l.length = arr.length := by rw [hp.length_eq, List.length_range]
  constructor
  · have : List.range' 1 arr.length = (List.range arr.length).map (· + 1) := by
      rw [List.range'_eq_map_range]
      exact List.map_congr_left fun a _ => Nat.add_comm 1 a
    rw [this]
    exact hp.map _
  · intro i j p q hij hi hj
    simp only [List.getElem?_map, Option.map_eq_some_iff] at hi hj
    obtain ⟨p, hi, rfl⟩ := hi
    obtain ⟨q, hj, rfl⟩ := hj
    have hpl : p < arr.length := by
      have := hp.subset (List.mem_of_getElem? hi); simpa using this
    have hql : q < arr.length := by
      have := hp.subset (List.mem_of_getElem? hj); simpa using this
    have hjl : j < l.length := (List.getElem?_eq_some_iff.1 hj).1
    have := hs i j hij (by omega)
    refine ⟨arr[p], arr[q], by simp [hpl], by simp [hql], ?_⟩
    simpa [key, List.getD_eq_getElem?_getD, hi, hj, hpl, hql] using this

end Verif.FSort
