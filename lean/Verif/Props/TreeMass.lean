import Verif.Proofs.TreeMass
import Mathlib.Algebra.Order.Ring.Rat
import Mathlib.Data.Rat.Defs

/-! C60, C61: `find_progenitor_tree_mass`, `find_progenitor_branch_mass_delucia` -/

set_option linter.unusedSectionVars false

namespace Verif

variable {M : Type*} {nodeIndex descendantIndex snapnum : List Int} {mass : List M} {idx orderN : List Nat}

theorem inTree_idx (h : MassArgs nodeIndex descendantIndex snapnum mass idx orderN) {D : List (Option Nat)}
    (hiff : ∀ p q, D.getD p none = some q ↔ p < nodeIndex.length ∧ q < nodeIndex.length ∧ IsDesc nodeIndex descendantIndex (idx.getD p 0) (idx.getD q 0))
    {y q : Nat} (hq : q < nodeIndex.length) :
    InTree nodeIndex descendantIndex y (idx.getD q 0) ↔ ∃ p, p < nodeIndex.length ∧ idx.getD p 0 = y ∧ ∃ d, up D d p = some q := by
  constructor
  · intro hy
    unfold InTree at hy
    generalize hi : idx.getD q 0 = i at hy
    induction hy using Relation.ReflTransGen.head_induction_on with
    | refl => exact ⟨q, hq, hi, 0, rfl⟩
    | head hd _ ih =>
      obtain ⟨p', hp', he, d, hu⟩ := ih
      obtain ⟨p, hp, hpe⟩ := h.surj (isDesc_lt h.lenD hd).1
      refine ⟨p, hp, hpe, d + 1, ?_⟩
      rw [up_succ, (hiff p p').2 ⟨hp, hp', by rw [hpe, he]; exact hd⟩]
      exact hu
  · rintro ⟨p, hp, rfl, d, hu⟩
    induction d generalizing q with
    | zero =>
      simp only [up, Option.some.injEq] at hu
      subst hu
      exact .refl
    | succ d ih =>
      rw [up] at hu
      cases hx : up D d p with
      | none => rw [hx] at hu; cases hu
      | some z =>
        rw [hx] at hu
        obtain ⟨hz, -, hd⟩ := (hiff z q).1 hu
        exact (ih hz hx).tail hd

/-- C60. Every halo gets the total mass of the halos in its tree, itself included. -/
theorem C60_tree_mass [AddCommMonoid M] (h : MassArgs nodeIndex descendantIndex snapnum mass idx orderN) (hf : Forward nodeIndex descendantIndex snapnum)
    {junk : List M} (hj : junk.length = nodeIndex.length) :
    ∃ out, treeMass nodeIndex descendantIndex mass idx orderN junk = .ok out ∧ out.length = nodeIndex.length ∧
      ∀ i < nodeIndex.length, ∀ tree : Finset Nat, (∀ x, x ∈ tree ↔ InTree nodeIndex descendantIndex x i) → out[i]? = some (∑ x ∈ tree, mass.getD x 0) := by
  obtain ⟨ptr, h1, h2, h3, h4, h5⟩ := sortedPtr h hf
  unfold treeMass
  simp only [h1]
  set D := ptr.map toPtr
  have hm : (idx.map (fun i => mass.getD i 0)).length = D.length := by rw [List.length_map, h.len, h2]
  obtain ⟨hl, hv⟩ := treeMass_final h5 h4 hm
  rw [h2] at hl hv
  refine ⟨_, rfl, by simp [hj], ?_⟩
  intro i hi tree ht
  obtain ⟨q, hq, hqe⟩ := h.surj hi
  have hk : idx[q]? = some i := by
    rw [List.getElem?_eq_getElem (by rw [h.len]; exact hq), ← hqe, List.getD_eq_getElem _ _ (by rw [h.len]; exact hq)]
  rw [getElem?_scatter (h.perm.nodup_iff.2 List.nodup_range) (by rw [hl, h.len]) hk (by rw [hj]; exact hi)]
  have := hv q hq
  rw [List.getD_eq_getElem _ _ (by rw [hl]; exact hq)] at this
  rw [List.getElem?_eq_getElem (by rw [hl]; exact hq), this]
  congr 1
  -- sums over the positions and over the halos
  unfold treeSum
  have hr := h5.rooted h4 q
  have hq' : q < D.length := by rw [h2]; exact hq
  have hall : ∀ k, k < D.length → k ∈ List.range D.length := fun k hk => List.mem_range.2 hk
  have hnd : (sub D (List.range D.length) q).Nodup := nodup_preorder hall List.nodup_range (hr.ht h4 _ hq') hr
  have hmem : ∀ p, p ∈ sub D (List.range D.length) q → p < nodeIndex.length := by
    intro p hp
    obtain ⟨d, hd⟩ := (mem_sub h4 hall hq' hr).1 hp
    cases d with
    | zero =>
      simp only [up, Option.some.injEq] at hd
      omega
    | succ d =>
      rw [up_succ] at hd
      cases hc : D.getD p none with
      | none => rw [hc] at hd; cases hd
      | some z => exact ((h3 p z).1 hc).1
  have hnd' : ((sub D (List.range D.length) q).map (fun p => idx.getD p 0)).Nodup :=
    List.Nodup.map_on (fun a ha b hb hab => h.inj (hmem a ha) (hmem b hb) hab) hnd
  have htree : tree = ((sub D (List.range D.length) q).map (fun p => idx.getD p 0)).toFinset := by
    ext y
    rw [ht, ← hqe, inTree_idx h h3 hq, List.mem_toFinset, List.mem_map]
    constructor
    · rintro ⟨p, hp, he, hd⟩
      exact ⟨p, (mem_sub h4 hall hq' hr).2 hd, he⟩
    · rintro ⟨p, hp, he⟩
      exact ⟨p, hmem p hp, he, (mem_sub h4 hall hq' hr).1 hp⟩
  rw [htree, List.sum_toFinset _ hnd', List.map_map]
  congr 1
  apply List.map_congr_left
  intro p hp
  have hp' : p < idx.length := by rw [h.len]; exact hmem p hp
  rw [Function.comp, List.getD_eq_getElem (idx.map _) _ (by rw [List.length_map]; exact hp'), List.getElem_map, List.getD_eq_getElem idx _ hp']

/-- Chains of sorted positions are chains of halos. -/
theorem chain_idx [AddCommMonoid M] (h : MassArgs nodeIndex descendantIndex snapnum mass idx orderN) {D : List (Option Nat)}
    (hiff : ∀ p q, D.getD p none = some q ↔ p < nodeIndex.length ∧ q < nodeIndex.length ∧ IsDesc nodeIndex descendantIndex (idx.getD p 0) (idx.getD q 0))
    {y q : Nat} {v : M} (hq : q < nodeIndex.length) :
    ChainMass (IsDesc nodeIndex descendantIndex) (fun x => mass.getD x 0) y (idx.getD q 0) v ↔
      ∃ p, idx.getD p 0 = y ∧ ChainMass (fun a b => D.getD a none = some b) (fun x => (idx.map (fun i => mass.getD i 0)).getD x 0) p q v := by
  have hget : ∀ q, q < nodeIndex.length → (idx.map (fun i => mass.getD i 0)).getD q 0 = mass.getD (idx.getD q 0) 0 := by
    intro q hq
    have hq' : q < idx.length := by rw [h.len]; exact hq
    rw [List.getD_eq_getElem (idx.map _) _ (by rw [List.length_map]; exact hq'), List.getElem_map, List.getD_eq_getElem idx _ hq']
  constructor
  · intro hc
    generalize hi : idx.getD q 0 = i at hc
    induction hc generalizing q with
    | single =>
      subst hi
      exact ⟨q, rfl, by rw [← hget q hq]; exact .single (mass := fun x => (idx.map (fun i => mass.getD i 0)).getD x 0) q⟩
    | snoc hc hd ih =>
      subst hi
      obtain ⟨p', hp', hpe⟩ := h.surj (isDesc_lt h.lenD hd).1
      obtain ⟨x, hx, hch⟩ := ih hp' hpe
      exact ⟨x, hx, by rw [← hget q hq]; exact .snoc hch ((hiff p' q).2 ⟨hp', hq, by rw [hpe]; exact hd⟩)⟩
  · rintro ⟨p, rfl, hc⟩
    induction hc with
    | single => rw [hget _ hq]; exact .single (mass := fun x => mass.getD x 0) _
    | snoc hc hd ih =>
      obtain ⟨hp', -, hd'⟩ := (hiff _ _).1 hd
      rw [hget _ hq]
      exact .snoc (ih hp') hd'

/-- C61. Every halo gets the largest total mass of a chain of progenitors which ends at it. -/
theorem C61_branch_mass [AddCommMonoid M] [LinearOrder M] [IsOrderedAddMonoid M] (h : MassArgs nodeIndex descendantIndex snapnum mass idx orderN) (hf : Forward nodeIndex descendantIndex snapnum)
    {junk : List M} (hj : junk.length = nodeIndex.length) :
    ∃ out, branchMass nodeIndex descendantIndex mass idx orderN junk = .ok out ∧ out.length = nodeIndex.length ∧
      ∀ i < nodeIndex.length, ∃ v, out[i]? = some v ∧
        (∃ x, ChainMass (IsDesc nodeIndex descendantIndex) (fun k => mass.getD k 0) x i v) ∧
        ∀ x w, ChainMass (IsDesc nodeIndex descendantIndex) (fun k => mass.getD k 0) x i w → w ≤ v := by
  obtain ⟨ptr, h1, h2, h3, h4, h5⟩ := sortedPtr h hf
  unfold branchMass
  simp only [h1]
  set D := ptr.map toPtr
  have hm : (idx.map (fun i => mass.getD i 0)).length = D.length := by rw [List.length_map, h.len, h2]
  have hmd : ∀ p q, D.getD p none = some q → (D.map (descMass (idx.map (fun i => mass.getD i 0)))).getD p 0 = (idx.map (fun i => mass.getD i 0)).getD q 0 := by
    intro p q hpq
    have hp := lt_of_desc hpq
    rw [List.getD_eq_getElem _ _ hp] at hpq
    rw [List.getD_eq_getElem (D.map _) _ (by rw [List.length_map]; exact hp), List.getElem_map, hpq, descMass]
  obtain ⟨hl, hv⟩ := delucia_loop h5 h4 hm hmd D.length le_rfl
  rw [h2] at hl hv
  unfold delucia at hl hv
  refine ⟨_, rfl, by simp [hj], ?_⟩
  intro i hi
  obtain ⟨q, hq, hqe⟩ := h.surj hi
  have hk : idx[q]? = some i := by
    rw [List.getElem?_eq_getElem (by rw [h.len]; exact hq), ← hqe, List.getD_eq_getElem _ _ (by rw [h.len]; exact hq)]
  rw [getElem?_scatter (h.perm.nodup_iff.2 List.nodup_range) (by rw [hl, h.len]) hk (by rw [hj]; exact hi)]
  obtain ⟨⟨x, hx⟩, hb, hc⟩ := hv q hq
  rw [List.getElem?_eq_getElem (by rw [hl]; exact hq), ← List.getD_eq_getElem _ 0]
  refine ⟨_, rfl, ?_, ?_⟩
  · exact ⟨idx.getD x 0, by rw [← hqe]; exact (chain_idx h h3 hq).2 ⟨x, rfl, hx⟩⟩
  · intro y w hw
    rw [← hqe] at hw
    obtain ⟨p, -, hp⟩ := (chain_idx h h3 hq).1 hw
    cases hp with
    | single => exact hb
    | snoc hp hd => exact hc _ _ _ ((h3 _ _).1 hd).1 hd hp

/-! ### Cases: the trees of C57 -/

def exSnap : List Int := [1, 2, 3, 3, 2, 1, 2]

/-- `np.lexsort` by insertion -/
def lexOrder (nodeIndex snapnum : List Int) : List Nat :=
  (List.range (lexKeys nodeIndex snapnum).length).insertionSort (fun a b => (lexKeys nodeIndex snapnum).getD a default ≤ (lexKeys nodeIndex snapnum).getD b default)

theorem lexOrder_isArgsort (nodeIndex snapnum : List Int) : IsArgsort (lexKeys nodeIndex snapnum) (lexOrder nodeIndex snapnum) := by
  refine ⟨List.perm_insertionSort _ _, ?_⟩
  unfold fancy
  rw [Sorted, List.pairwise_map]
  exact List.pairwise_insertionSort _ _

theorem exForward : Forward exNode exDesc exSnap := by
  have all : ∀ i < 7, ∀ j < 7, exDesc[i]? = exNode[j]? → exSnap.getD i 0 < exSnap.getD j 0 := by decide +kernel
  rintro i j s t ⟨v, h1, h2⟩ hs ht
  have hi : i < 7 := (List.getElem?_eq_some_iff.1 h1).1
  have hj : j < 7 := (List.getElem?_eq_some_iff.1 h2).1
  have := all i hi j hj (h1.trans h2.symm)
  rwa [List.getD_eq_getElem?_getD, List.getD_eq_getElem?_getD, hs, ht] at this

theorem exMassArgs : MassArgs exNode exDesc exSnap exMass (lexOrder exNode exSnap) (sortOrder (fancy exNode (lexOrder exNode exSnap))) :=
  ⟨by decide +kernel, rfl, rfl, rfl, lexOrder_isArgsort _ _, sortOrder_isArgsort _⟩

example : lexOrder exNode exSnap = [5, 0, 6, 4, 1, 3, 2] := by decide +kernel
example : treeMass exNode exDesc exMass (lexOrder exNode exSnap) (sortOrder (fancy exNode (lexOrder exNode exSnap))) (List.replicate 7 77) = .ok [1, 3, 28, 2, 13, 5, 3] := by decide +kernel
example : branchMass exNode exDesc exMass (lexOrder exNode exSnap) (sortOrder (fancy exNode (lexOrder exNode exSnap))) (List.replicate 7 77) = .ok [1, 3, 22, 2, 13, 5, 3] := by decide +kernel
-- a progenitor of the same snapshot may be dealt with too late: 30 misses the mass of 60 when it is added to 10
example : Forward exNode exDesc [1, 2, 3, 3, 1, 2, 2] → False := fun h => absurd (h 5 4 2 1 ⟨30, rfl, rfl⟩ rfl rfl) (by decide)
example : treeMass exNode exDesc exMass (lexOrder exNode [1, 2, 3, 3, 1, 2, 2]) (sortOrder (fancy exNode (lexOrder exNode [1, 2, 3, 3, 1, 2, 2]))) (List.replicate 7 77) = .ok [1, 3, 23, 2, 13, 5, 3] := by decide +kernel

end Verif
