import Verif.Model.TreeMass
import Verif.Spec.TreeMass
import Verif.Props.IndexTrees
import Mathlib.Algebra.BigOperators.Group.Finset.Basic
import Mathlib.Algebra.BigOperators.Group.List.Basic
import Mathlib.Algebra.Order.Monoid.Defs

set_option linter.unusedSectionVars false

namespace Verif

variable {M : Type*}

/-! ### Arrays sorted by time -/

/-- Descendants have larger positions. -/
def Increasing (D : List (Option Nat)) : Prop := ∀ p q, D.getD p none = some q → p < q

theorem Increasing.rooted {D : List (Option Nat)} (hi : Increasing D) (hD : ValidDesc D) (i : Nat) : Rooted D i := by
  by_cases hil : i < D.length
  · induction hn : D.length - i using Nat.strong_induction_on generalizing i with
    | _ n ih =>
      cases hd : D.getD i none with
      | none => exact final_rooted hd
      | some j =>
        have := hi i j hd
        have hj := hD i j hd
        exact (ih (D.length - j) (by omega) j hj rfl).prog hd
  · exact final_rooted (by rw [List.getD_eq_default _ _ (by omega)])

theorem rangeSetup {D : List (Option Nat)} (hD : ValidDesc D) : Setup D (List.range D.length) := ⟨hD, List.nodup_range, fun k hk => List.mem_range.2 hk⟩

/-- Mass of a tree -/
def treeSum [AddCommMonoid M] (D : List (Option Nat)) (m : List M) (q : Nat) : M := ((sub D (List.range D.length) q).map (fun x => m.getD x 0)).sum

theorem treeSum_eq [AddCommMonoid M] {D : List (Option Nat)} (hi : Increasing D) (hD : ValidDesc D) (m : List M) {q : Nat} (hq : q < D.length) :
    treeSum D m q = m.getD q 0 + ∑ k ∈ (Finset.range q).filter (fun k => D.getD k none = some q), treeSum D m k := by
  unfold treeSum
  rw [sub_eq hD _ hq (hi.rooted hD q), List.map_cons, List.sum_cons]
  congr 1
  have hfl : ∀ (l : List Nat) (g : Nat → List M), (l.flatMap g).sum = (l.map (fun k => (g k).sum)).sum := by
    intro l g
    induction l with
    | nil => rfl
    | cons a l ih => rw [List.flatMap_cons, List.sum_append, ih, List.map_cons, List.sum_cons]
  rw [List.map_flatMap, hfl]
  have hn : (kids D (List.range D.length) q).Nodup := (List.nodup_reverse.2 List.nodup_range).filter _
  rw [← List.sum_toFinset _ hn]
  apply Finset.sum_congr _ (fun _ _ => rfl)
  ext k
  rw [List.mem_toFinset, mem_kids, Finset.mem_filter, Finset.mem_range, List.mem_range]
  constructor
  · rintro ⟨-, h⟩; exact ⟨hi k q h, h⟩
  · rintro ⟨-, h⟩; exact ⟨lt_of_desc h, h⟩

theorem getD_set_zero [Zero M] (l : List M) (i j : Nat) (v : M) (hi : i < l.length) : (l.set i v).getD j 0 = if i = j then v else l.getD j 0 := by
  rw [List.getD_eq_getElem?_getD, List.getD_eq_getElem?_getD, List.getElem?_set]
  by_cases h : i = j
  · subst h; simp [hi]
  · simp [h]

theorem treeMass_loop [AddCommMonoid M] {D : List (Option Nat)} (hi : Increasing D) (hD : ValidDesc D) {m : List M} (hm : m.length = D.length) (p : Nat) (hp : p ≤ D.length) :
    let mb := (List.range p).foldl (treeMassStep D) m
    mb.length = D.length ∧ ∀ q, q < D.length → mb.getD q 0 = m.getD q 0 + ∑ k ∈ (Finset.range p).filter (fun k => D.getD k none = some q), treeSum D m k := by
  induction p with
  | zero => simp [hm]
  | succ p ih =>
    obtain ⟨h1, h2⟩ := ih (by omega)
    simp only [List.range_succ, List.foldl_append, List.foldl_cons, List.foldl_nil]
    generalize (List.range p).foldl _ m = mb at h1 h2
    unfold treeMassStep
    have hsum : ∀ q, ∑ k ∈ (Finset.range (p + 1)).filter (fun k => D.getD k none = some q), treeSum D m k =
        (∑ k ∈ (Finset.range p).filter (fun k => D.getD k none = some q), treeSum D m k) + if D.getD p none = some q then treeSum D m p else 0 := by
      intro q
      rw [Finset.sum_filter, Finset.sum_range_succ, ← Finset.sum_filter]
    cases hd : D.getD p none with
    | none =>
      refine ⟨h1, fun q hq => ?_⟩
      rw [hsum, hd, h2 q hq]
      simp
    | some j =>
      have hj := hD p j hd
      refine ⟨by simp [h1], fun q hq => ?_⟩
      simp only
      rw [getD_set_zero _ _ _ _ (by omega), hsum, hd]
      by_cases hjq : j = q
      · subst hjq
        rw [if_pos rfl, if_pos rfl, h2 j hj, h2 p (by omega), ← treeSum_eq hi hD m (by omega), add_assoc]
      · rw [if_neg hjq, if_neg (fun h => hjq (Option.some.inj h)), h2 q hq, add_zero]

/-- After the loop of `find_progenitor_tree_mass` -/
theorem treeMass_final [AddCommMonoid M] {D : List (Option Nat)} (hi : Increasing D) (hD : ValidDesc D) {m : List M} (hm : m.length = D.length) :
    let mb := (List.range D.length).foldl (treeMassStep D) m
    mb.length = D.length ∧ ∀ q, q < D.length → mb.getD q 0 = treeSum D m q := by
  obtain ⟨h1, h2⟩ := treeMass_loop hi hD hm D.length le_rfl
  refine ⟨h1, fun q hq => ?_⟩
  rw [h2 q hq, treeSum_eq hi hD m hq]
  congr 1
  apply Finset.sum_congr _ (fun _ _ => rfl)
  ext k
  simp only [Finset.mem_filter, Finset.mem_range]
  constructor
  · rintro ⟨-, h⟩; exact ⟨hi k q h, h⟩
  · rintro ⟨-, h⟩; exact ⟨lt_of_desc h, h⟩

/-- The loop of `find_progenitor_branch_mass_delucia` -/
def delucia [AddCommMonoid M] [LinearOrder M] (D : List (Option Nat)) (mdesc m : List M) (p : Nat) : List M :=
  (List.range p).foldl (branchMassStep D mdesc) m

theorem delucia_loop [AddCommMonoid M] [LinearOrder M] [IsOrderedAddMonoid M] {D : List (Option Nat)} (hi : Increasing D) (hD : ValidDesc D) {mdesc m : List M} (hm : m.length = D.length)
    (hmd : ∀ p q, D.getD p none = some q → mdesc.getD p 0 = m.getD q 0) (p : Nat) (hp : p ≤ D.length) :
    (delucia D mdesc m p).length = D.length ∧
    ∀ q, q < D.length →
      (∃ x, ChainMass (fun a b => D.getD a none = some b) (fun x => m.getD x 0) x q ((delucia D mdesc m p).getD q 0)) ∧
      m.getD q 0 ≤ (delucia D mdesc m p).getD q 0 ∧
      ∀ x k v, k < p → D.getD k none = some q → ChainMass (fun a b => D.getD a none = some b) (fun x => m.getD x 0) x k v → m.getD q 0 + v ≤ (delucia D mdesc m p).getD q 0 := by
  induction p with
  | zero =>
    refine ⟨hm, fun q _ => ⟨⟨q, .single q⟩, le_rfl, fun x k v hk => by omega⟩⟩
  | succ p ih =>
    obtain ⟨h1, h2⟩ := ih (by omega)
    have hstep : delucia D mdesc m (p + 1) = match D.getD p none with
      | none => delucia D mdesc m p
      | some j => if mdesc.getD p 0 + (delucia D mdesc m p).getD p 0 > (delucia D mdesc m p).getD j 0 then (delucia D mdesc m p).set j (mdesc.getD p 0 + (delucia D mdesc m p).getD p 0) else delucia D mdesc m p := by
      unfold delucia
      rw [List.range_succ, List.foldl_append, List.foldl_cons, List.foldl_nil]
      rfl
    rw [hstep]
    generalize delucia D mdesc m p = mb at h1 h2
    cases hd : D.getD p none with
    | none =>
      refine ⟨h1, fun q hq => ?_⟩
      obtain ⟨a, b, c⟩ := h2 q hq
      refine ⟨a, b, fun x k v hk hkq hch => c x k v ?_ hkq hch⟩
      rcases Nat.lt_succ_iff_lt_or_eq.1 hk with hk | rfl
      · exact hk
      · rw [hd] at hkq; cases hkq
    | some j =>
      have hj := hD p j hd
      simp only
      rw [hmd p j hd]
      -- the mass of `p` is final
      obtain ⟨⟨x0, hx0⟩, hp1, hp2⟩ := h2 p (by omega)
      have hfin : ∀ x v, ChainMass (fun a b => D.getD a none = some b) (fun x => m.getD x 0) x p v → v ≤ mb.getD p 0 := by
        intro x v hch
        cases hch with
        | single => exact hp1
        | snoc h hd' => exact hp2 _ _ _ (hi _ _ hd') hd' h
      obtain ⟨⟨x1, hx1⟩, hj1, hj2⟩ := h2 j hj
      by_cases hgt : m.getD j 0 + mb.getD p 0 > mb.getD j 0
      · rw [if_pos hgt]
        refine ⟨by simp [h1], fun q hq => ?_⟩
        rw [getD_set_zero _ _ _ _ (by omega)]
        by_cases hjq : j = q
        · subst hjq
          rw [if_pos rfl]
          refine ⟨⟨x0, .snoc hx0 hd⟩, le_trans hj1 hgt.le, ?_⟩
          intro x k v hk hkq hch
          rcases Nat.lt_succ_iff_lt_or_eq.1 hk with hk | rfl
          · exact le_trans (hj2 x k v hk hkq hch) hgt.le
          · exact add_le_add_right (hfin x v hch) _
        · rw [if_neg hjq]
          obtain ⟨a, b, c⟩ := h2 q hq
          refine ⟨a, b, fun x k v hk hkq hch => c x k v ?_ hkq hch⟩
          rcases Nat.lt_succ_iff_lt_or_eq.1 hk with hk | rfl
          · exact hk
          · rw [hd] at hkq; exact absurd (Option.some.inj hkq) hjq
      · rw [if_neg hgt]
        refine ⟨h1, fun q hq => ?_⟩
        obtain ⟨a, b, c⟩ := h2 q hq
        refine ⟨a, b, fun x k v hk hkq hch => ?_⟩
        rcases Nat.lt_succ_iff_lt_or_eq.1 hk with hk | rfl
        · exact c x k v hk hkq hch
        · rw [hd] at hkq
          obtain rfl := Option.some.inj hkq
          exact le_trans (add_le_add_right (hfin x v hch) _) (not_lt.1 hgt)

/-! ### Back to the order of the input -/

/-- What is known about the arguments of the mass functions -/
structure MassArgs (nodeIndex descendantIndex snapnum : List Int) (mass : List M) (idx orderN : List Nat) : Prop where
  unique : nodeIndex.Nodup
  lenD : descendantIndex.length = nodeIndex.length
  lenS : snapnum.length = nodeIndex.length
  lenM : mass.length = nodeIndex.length
  sortI : IsArgsort (lexKeys nodeIndex snapnum) idx
  sortN : IsArgsort (fancy nodeIndex idx) orderN

variable {nodeIndex descendantIndex snapnum : List Int} {mass : List M} {idx orderN : List Nat}

theorem length_lexKeys (h : MassArgs nodeIndex descendantIndex snapnum mass idx orderN) : (lexKeys nodeIndex snapnum).length = nodeIndex.length := by
  rw [lexKeys, List.length_zipWith, h.lenS, Nat.min_self]

theorem MassArgs.perm (h : MassArgs nodeIndex descendantIndex snapnum mass idx orderN) : idx.Perm (List.range nodeIndex.length) := by
  have := h.sortI.1
  rwa [length_lexKeys h] at this

theorem MassArgs.len (h : MassArgs nodeIndex descendantIndex snapnum mass idx orderN) : idx.length = nodeIndex.length := by
  rw [h.perm.length_eq, List.length_range]

theorem MassArgs.lt (h : MassArgs nodeIndex descendantIndex snapnum mass idx orderN) {p : Nat} (hp : p < nodeIndex.length) : idx.getD p 0 < nodeIndex.length := by
  rw [List.getD_eq_getElem _ _ (by rw [h.len]; exact hp)]
  exact List.mem_range.1 (h.perm.mem_iff.1 (List.getElem_mem _))

theorem MassArgs.surj (h : MassArgs nodeIndex descendantIndex snapnum mass idx orderN) {i : Nat} (hi : i < nodeIndex.length) : ∃ p, p < nodeIndex.length ∧ idx.getD p 0 = i := by
  obtain ⟨p, hp, he⟩ := List.getElem_of_mem (h.perm.mem_iff.2 (List.mem_range.2 hi))
  exact ⟨p, by rw [← h.len]; exact hp, by rw [List.getD_eq_getElem _ _ hp]; exact he⟩

theorem MassArgs.inj (h : MassArgs nodeIndex descendantIndex snapnum mass idx orderN) {p q : Nat} (hp : p < nodeIndex.length) (hq : q < nodeIndex.length) (he : idx.getD p 0 = idx.getD q 0) : p = q := by
  rw [List.getD_eq_getElem _ _ (by rw [h.len]; exact hp), List.getD_eq_getElem _ _ (by rw [h.len]; exact hq)] at he
  exact (List.Nodup.getElem_inj_iff (h.perm.nodup_iff.2 List.nodup_range)).1 he

theorem getElem?_fancy_idx (h : MassArgs nodeIndex descendantIndex snapnum mass idx orderN) {l : List Int} (hl : l.length = nodeIndex.length) (p : Nat) :
    (fancy l idx)[p]? = if p < nodeIndex.length then l[idx.getD p 0]? else none := by
  unfold fancy
  rw [List.getElem?_map]
  by_cases hp : p < nodeIndex.length
  · have hp' : p < idx.length := by rw [h.len]; exact hp
    have hlt := h.lt hp
    rw [if_pos hp, List.getElem?_eq_getElem hp', List.getD_eq_getElem _ _ hp']
    rw [List.getD_eq_getElem _ _ hp'] at hlt
    rw [Option.map_some, List.getD_eq_getElem _ _ (by rw [hl]; exact hlt), List.getElem?_eq_getElem (by rw [hl]; exact hlt)]
  · rw [if_neg hp, List.getElem?_eq_none (by rw [h.len]; omega)]
    rfl

theorem isDesc_idx (h : MassArgs nodeIndex descendantIndex snapnum mass idx orderN) {p q : Nat} :
    IsDesc (fancy nodeIndex idx) (fancy descendantIndex idx) p q ↔ p < nodeIndex.length ∧ q < nodeIndex.length ∧ IsDesc nodeIndex descendantIndex (idx.getD p 0) (idx.getD q 0) := by
  unfold IsDesc
  constructor
  · rintro ⟨v, h1, h2⟩
    rw [getElem?_fancy_idx h h.lenD] at h1
    rw [getElem?_fancy_idx h rfl] at h2
    by_cases hp : p < nodeIndex.length
    · by_cases hq : q < nodeIndex.length
      · rw [if_pos hp] at h1; rw [if_pos hq] at h2
        exact ⟨hp, hq, v, h1, h2⟩
      · rw [if_neg hq] at h2; cases h2
    · rw [if_neg hp] at h1; cases h1
  · rintro ⟨hp, hq, v, h1, h2⟩
    exact ⟨v, by rw [getElem?_fancy_idx h h.lenD, if_pos hp]; exact h1, by rw [getElem?_fancy_idx h rfl, if_pos hq]; exact h2⟩

theorem isDesc_lt (h : descendantIndex.length = nodeIndex.length) {i j : Nat} (hd : IsDesc nodeIndex descendantIndex i j) : i < nodeIndex.length ∧ j < nodeIndex.length := by
  obtain ⟨v, h1, h2⟩ := hd
  exact ⟨by rw [← h]; exact (List.getElem?_eq_some_iff.1 h1).1, (List.getElem?_eq_some_iff.1 h2).1⟩

/-- The pointers of the sorted arrays -/
theorem sortedPtr (h : MassArgs nodeIndex descendantIndex snapnum mass idx orderN) (hf : Forward nodeIndex descendantIndex snapnum) :
    ∃ ptr, matchArr (fancy descendantIndex idx) (fancy nodeIndex idx) false none orderN = .ok ptr ∧ (ptr.map toPtr).length = nodeIndex.length ∧
      (∀ p q, (ptr.map toPtr).getD p none = some q ↔ p < nodeIndex.length ∧ q < nodeIndex.length ∧ IsDesc nodeIndex descendantIndex (idx.getD p 0) (idx.getD q 0)) ∧
      ValidDesc (ptr.map toPtr) ∧ Increasing (ptr.map toPtr) := by
  have hlen : (fancy nodeIndex idx).length = nodeIndex.length := by unfold fancy; rw [List.length_map, h.len]
  have hargs : TreeArgs (fancy nodeIndex idx) (fancy descendantIndex idx) (List.replicate nodeIndex.length (0 : Int)) orderN (List.range nodeIndex.length) sortOrder := by
    refine ⟨?_, by simp [fancy], by simp [hlen], h.sortN, ⟨by simp, ?_⟩, sortOrder_isArgsort⟩
    · unfold fancy
      apply List.Nodup.map_on _ (h.perm.nodup_iff.2 List.nodup_range)
      intro a ha b hb hab
      have ha := List.mem_range.1 (h.perm.mem_iff.1 ha)
      have hb := List.mem_range.1 (h.perm.mem_iff.1 hb)
      rw [List.getD_eq_getElem _ _ ha, List.getD_eq_getElem _ _ hb] at hab
      exact (List.Nodup.getElem_inj_iff h.unique).1 hab
    · unfold fancy
      rw [Sorted, List.pairwise_map]
      apply List.pairwise_of_forall_mem_list
      intro a ha b hb
      rw [List.getD_eq_getElem _ _ (by simpa using ha), List.getD_eq_getElem _ _ (by simpa using hb)]
      simp
  obtain ⟨ptr, h1, h2, h3, h4⟩ := descPtr hargs
  rw [hlen] at h2
  have hiff : ∀ p q, (ptr.map toPtr).getD p none = some q ↔ p < nodeIndex.length ∧ q < nodeIndex.length ∧ IsDesc nodeIndex descendantIndex (idx.getD p 0) (idx.getD q 0) := by
    intro p q
    rw [h3, isDesc_idx h]
  refine ⟨ptr, h1, h2, hiff, h4.valid, ?_⟩
  intro p q hpq
  obtain ⟨hp, hq, hd⟩ := (hiff p q).1 hpq
  by_contra hc
  have hp' := h.lt hp
  have hq' := h.lt hq
  rw [List.getD_eq_getElem _ _ (by rw [h.len]; exact hp)] at hp' hd
  rw [List.getD_eq_getElem _ _ (by rw [h.len]; exact hq)] at hq' hd
  have hlt := hf _ _ _ _ hd (List.getElem?_eq_getElem (by rw [h.lenS]; exact hp')) (List.getElem?_eq_getElem (by rw [h.lenS]; exact hq'))
  -- positions of the keys
  have hsort := h.sortI.2
  rw [Sorted, List.pairwise_iff_getElem] at hsort
  have hne : q ≠ p := by
    rintro rfl
    exact lt_irrefl _ hlt
  have hkey := hsort q p (by rw [fancy, List.length_map, h.len]; exact hq) (by rw [fancy, List.length_map, h.len]; exact hp) (by omega)
  unfold fancy at hkey
  rw [List.getElem_map, List.getElem_map] at hkey
  rw [List.getD_eq_getElem _ _ (by rw [length_lexKeys h]; exact hq'), List.getD_eq_getElem _ _ (by rw [length_lexKeys h]; exact hp')] at hkey
  unfold lexKeys at hkey
  rw [List.getElem_zipWith, List.getElem_zipWith, Prod.Lex.le_iff] at hkey
  simp only [ofLex_toLex] at hkey
  omega

end Verif
