import Verif.Proofs.IndexTrees
import Verif.Model.ReduceElements

set_option linter.unusedSectionVars false

namespace Verif

/-! ### Numbers -/

theorem length_numberFrom (df : List Int) (m : Nat) (L : List Nat) : (numberFrom df m L).length = df.length := by
  induction L generalizing df m with
  | nil => rfl
  | cons x L ih => rw [numberFrom_cons, ih, List.length_set]

theorem getD_set_int (l : List Int) (i j : Nat) (v : Int) (hi : i < l.length) : (l.set i v).getD j 0 = if i = j then v else l.getD j 0 := by
  rw [List.getD_eq_getElem?_getD, List.getD_eq_getElem?_getD, List.getElem?_set]
  by_cases h : i = j
  · subst h; simp [hi]
  · simp [h]

theorem getD_numberFrom {df : List Int} {m : Nat} {L : List Nat} (hn : L.Nodup) (hl : ∀ x ∈ L, x < df.length) (x : Nat) :
    (numberFrom df m L).getD x 0 = if x ∈ L then ((m + L.idxOf x : Nat) : Int) else df.getD x 0 := by
  induction L generalizing df m with
  | nil => simp [numberFrom]
  | cons y L ih =>
    obtain ⟨h1, h2⟩ := List.nodup_cons.1 hn
    rw [numberFrom_cons, ih h2 (fun x hx => by rw [List.length_set]; exact hl x (by simp [hx])), getD_set_int _ _ _ _ (hl y (by simp))]
    by_cases hxy : x = y
    · subst hxy
      rw [if_neg h1, if_pos rfl, if_pos (by simp), List.idxOf_cons_self, Nat.add_zero]
    · by_cases hx : x ∈ L
      · rw [if_pos hx, if_pos (by simp [hx]), List.idxOf_cons_ne _ (fun h => hxy h.symm)]
        congr 1
        omega
      · rw [if_neg hx, if_neg (fun h => hxy h.symm), if_neg (by simp [hx, hxy])]

theorem idxOf_span {A L B : List Nat} (hn : (A ++ L ++ B).Nodup) {x : Nat} : x ∈ L ↔ A.length ≤ (A ++ L ++ B).idxOf x ∧ (A ++ L ++ B).idxOf x < A.length + L.length := by
  rw [List.append_assoc] at hn ⊢
  obtain ⟨h1, h2, h3⟩ := List.nodup_append.1 hn
  by_cases hA : x ∈ A
  · rw [List.idxOf_append_of_mem hA]
    have := List.idxOf_lt_length_iff.2 hA
    constructor
    · intro hx; exact absurd rfl (h3 x hA x (by simp [hx]))
    · rintro ⟨h, -⟩; omega
  · rw [List.idxOf_append_of_notMem hA]
    by_cases hL : x ∈ L
    · rw [List.idxOf_append_of_mem hL]
      have := List.idxOf_lt_length_iff.2 hL
      simp only [hL, true_iff]
      omega
    · rw [List.idxOf_append_of_notMem hL]
      simp only [hL, false_iff]
      omega

theorem idxOf_head {A L B : List Nat} {x : Nat} (hn : (A ++ (x :: L) ++ B).Nodup) : (A ++ (x :: L) ++ B).idxOf x = A.length := by
  rw [List.append_assoc] at hn ⊢
  have hA : x ∉ A := by
    intro h
    exact (List.nodup_append.1 hn).2.2 x h x (by simp) rfl
  rw [List.idxOf_append_of_notMem hA]
  simp

/-! ### All trees -/

def finalHalos (D : List (Option Nat)) : List Nat := (List.range D.length).filter (fun i => decide (D.getD i none = none))

/-- The halos in the order in which they are numbered -/
def dfs (D : List (Option Nat)) (order : List Nat) : List Nat := (finalHalos D).flatMap (sub D order)

/-- What is known about `desc_ptr` and the sorting order -/
structure Setup (D : List (Option Nat)) (order : List Nat) : Prop where
  valid : ValidDesc D
  nodup : order.Nodup
  all : ∀ k, k < D.length → k ∈ order

variable {D : List (Option Nat)} {order : List Nat}

theorem mem_finalHalos {f : Nat} : f ∈ finalHalos D ↔ f < D.length ∧ D.getD f none = none := by simp [finalHalos]

theorem final_rooted {f : Nat} (h : D.getD f none = none) : Rooted D f := ⟨0, f, rfl, h⟩

theorem mem_dfs (hs : Setup D order) {x : Nat} : x ∈ dfs D order ↔ x < D.length ∧ Rooted D x := by
  unfold dfs
  rw [List.mem_flatMap]
  constructor
  · rintro ⟨f, hf, hx⟩
    obtain ⟨h1, h2⟩ := mem_finalHalos.1 hf
    obtain ⟨d, hd⟩ := (mem_sub hs.valid hs.all h1 (final_rooted h2)).1 hx
    refine ⟨?_, d, f, hd, h2⟩
    cases d with
    | zero => simp only [up, Option.some.injEq] at hd; omega
    | succ d =>
      rw [up_succ] at hd
      cases hq : D.getD x none with
      | none => rw [hq] at hd; cases hd
      | some j => exact lt_of_desc hq
  · rintro ⟨hx, d, r, h1, h2⟩
    have hr := up_lt hs.valid hx h1
    exact ⟨r, mem_finalHalos.2 ⟨hr, h2⟩, (mem_sub hs.valid hs.all hr (final_rooted h2)).2 ⟨d, h1⟩⟩

theorem nodup_dfs (hs : Setup D order) : (dfs D order).Nodup := by
  unfold dfs
  rw [List.nodup_flatMap]
  constructor
  · intro f hf
    obtain ⟨h1, h2⟩ := mem_finalHalos.1 hf
    exact nodup_preorder hs.all hs.nodup ((final_rooted h2).ht hs.valid order h1) (final_rooted h2)
  · have : (finalHalos D).Nodup := List.nodup_range.filter _
    refine this.imp_of_mem ?_
    intro a b ha hb hab
    rw [Function.onFun, List.disjoint_left]
    intro x hxa hxb
    obtain ⟨ha1, ha2⟩ := mem_finalHalos.1 ha
    obtain ⟨hb1, hb2⟩ := mem_finalHalos.1 hb
    obtain ⟨d, hd⟩ := (mem_sub hs.valid hs.all ha1 (final_rooted ha2)).1 hxa
    obtain ⟨e, he⟩ := (mem_sub hs.valid hs.all hb1 (final_rooted hb2)).1 hxb
    have := Rooted.end_inj hd ha2 he hb2
    subst this
    rw [hd] at he
    exact hab (Option.some.inj he)

theorem dfs_infix (hs : Setup D order) {i : Nat} (hi : i < D.length) (hr : Rooted D i) : ∃ A B, dfs D order = A ++ sub D order i ++ B := by
  obtain ⟨d, r, h1, h2⟩ := hr
  induction d generalizing i with
  | zero =>
    simp only [up, Option.some.injEq] at h1
    subst h1
    obtain ⟨a, b, hab⟩ := List.append_of_mem (mem_finalHalos.2 ⟨hi, h2⟩)
    exact ⟨a.flatMap (sub D order), b.flatMap (sub D order), by rw [dfs, hab]; simp⟩
  | succ d ih =>
    rw [up_succ] at h1
    cases hq : D.getD i none with
    | none => rw [hq] at h1; cases h1
    | some j =>
      rw [hq] at h1
      have hj := hs.valid i j hq
      obtain ⟨A, B, hAB⟩ := ih hj h1
      obtain ⟨a, b, hab⟩ := List.append_of_mem (mem_kids.2 ⟨hs.all i hi, hq⟩)
      rw [sub_eq hs.valid order hj ⟨d, r, h1, h2⟩, hab] at hAB
      exact ⟨A ++ j :: a.flatMap (sub D order), b.flatMap (sub D order) ++ B, by rw [hAB]; simp⟩

/-- Place of a halo in depth first order -/
def pos (D : List (Option Nat)) (order : List Nat) (x : Nat) : Nat := (dfs D order).idxOf x

theorem span_sub (hs : Setup D order) {i : Nat} (hi : i < D.length) (hr : Rooted D i) {x : Nat} :
    x ∈ sub D order i ↔ pos D order i ≤ pos D order x ∧ pos D order x < pos D order i + (sub D order i).length := by
  obtain ⟨A, B, h⟩ := dfs_infix hs hi hr
  have hn := nodup_dfs hs
  unfold pos
  rw [h] at hn ⊢
  have hpi : (A ++ sub D order i ++ B).idxOf i = A.length := by
    rw [sub_eq hs.valid order hi hr] at hn ⊢
    exact idxOf_head hn
  rw [hpi]
  exact idxOf_span hn

theorem kid_pos (hs : Setup D order) {i : Nat} (hi : i < D.length) (hr : Rooted D i) {a b : List Nat} {k : Nat} (hk : kids D order i = a ++ k :: b) :
    pos D order k = pos D order i + 1 + (a.flatMap (sub D order)).length ∧
    (sub D order i).length = 1 + (a.flatMap (sub D order)).length + (sub D order k).length + (b.flatMap (sub D order)).length := by
  obtain ⟨A, B, h⟩ := dfs_infix hs hi hr
  have hn := nodup_dfs hs
  have hkm : k ∈ kids D order i := by rw [hk]; simp
  have hkd := (mem_kids.1 hkm).2
  have hkl := lt_of_desc hkd
  constructor
  · unfold pos
    have h1 : dfs D order = A ++ (i :: (kids D order i).flatMap (sub D order)) ++ B := by rw [h, sub_eq hs.valid order hi hr]
    have h2 : dfs D order = (A ++ i :: a.flatMap (sub D order)) ++ (k :: ((kids D order k).flatMap (sub D order) ++ b.flatMap (sub D order))) ++ B := by
      rw [h1, hk, List.flatMap_append, List.flatMap_cons, sub_eq hs.valid order hkl (hr.prog hkd)]; simp
    have e1 : (dfs D order).idxOf i = A.length := by rw [h1] at hn ⊢; exact idxOf_head hn
    have e2 : (dfs D order).idxOf k = (A ++ i :: a.flatMap (sub D order)).length := by rw [h2] at hn ⊢; exact idxOf_head hn
    rw [e1, e2]
    simp only [List.length_append, List.length_cons]
    omega
  · rw [sub_eq hs.valid order hi hr, hk, List.flatMap_append, List.flatMap_cons]
    simp only [List.length_append, List.length_cons]
    omega

/-! ### The main branch -/

/-- The main branch; `h` bounds its length. -/
def mainChain (K : Nat → List Nat) : Nat → Nat → List Nat
  | 0, _ => []
  | h + 1, i => i :: match (K i).head? with
    | none => []
    | some k => mainChain K h k

theorem Ht.mainChain_succ {K : Nat → List Nat} {h i : Nat} (hh : Ht K h i) : mainChain K (h + 1) i = mainChain K h i := by
  induction h generalizing i with
  | zero => exact hh.elim
  | succ h ih =>
    rw [mainChain, mainChain]
    cases hk : (K i).head? with
    | none => rfl
    | some k => simp only; rw [ih (hh k (List.mem_of_mem_head? hk))]

theorem mainChain_prefix {K : Nat → List Nat} (h i : Nat) : mainChain K h i <+: preorder K h i := by
  induction h generalizing i with
  | zero => exact List.prefix_rfl
  | succ h ih =>
    rw [mainChain, preorder, List.cons_prefix_cons]
    refine ⟨rfl, ?_⟩
    cases hk : K i with
    | nil => simp
    | cons k b =>
      simp only [List.head?_cons, List.flatMap_cons]
      exact (ih k).trans (List.prefix_append _ _)

def mainBranch (D : List (Option Nat)) (order : List Nat) (i : Nat) : List Nat := mainChain (kids D order) D.length i

theorem mainBranch_eq (hs : Setup D order) {i : Nat} (hi : i < D.length) (hr : Rooted D i) : mainBranch D order i = i :: match (kids D order i).head? with
    | none => []
    | some k => mainBranch D order k := by
  unfold mainBranch
  rw [← (hr.ht hs.valid order hi).mainChain_succ, mainChain]

theorem span_main (hs : Setup D order) {i : Nat} (hi : i < D.length) (hr : Rooted D i) {x : Nat} :
    x ∈ mainBranch D order i ↔ pos D order i ≤ pos D order x ∧ pos D order x < pos D order i + (mainBranch D order i).length := by
  obtain ⟨A, B, h⟩ := dfs_infix hs hi hr
  obtain ⟨C, hC⟩ : mainBranch D order i <+: sub D order i := mainChain_prefix _ _
  have hn := nodup_dfs hs
  unfold pos
  have hpi : (dfs D order).idxOf i = A.length := by
    rw [h, sub_eq hs.valid order hi hr] at hn ⊢
    exact idxOf_head hn
  have h' : dfs D order = A ++ mainBranch D order i ++ (C ++ B) := by rw [h, ← hC]; simp
  rw [hpi, h']
  rw [h'] at hn
  exact idxOf_span hn

theorem mainBranch_length_le (i : Nat) : (mainBranch D order i).length ≤ (sub D order i).length := (mainChain_prefix _ _).length_le

/-! ### The second loop -/

/-- State of the arrays when the halos in `done` have been dealt with -/
structure LastInv (D : List (Option Nat)) (order : List Nat) (done : List Nat) (a : List Int × List Int) : Prop where
  len1 : a.1.length = D.length
  len2 : a.2.length = D.length
  off : ∀ i, i < D.length → ¬ Rooted D i → a.1.getD i 0 = -1 ∧ a.2.getD i 0 = -1
  le : ∀ i, i < D.length → Rooted D i → a.1.getD i 0 ≤ ((pos D order i + (sub D order i).length : Nat) : Int)
  ge : ∀ i, i < D.length → Rooted D i → ((pos D order i + 1 : Nat) : Int) ≤ a.1.getD i 0
  kid : ∀ i k, i < D.length → Rooted D i → k ∈ kids D order i → k ∈ done → ((pos D order k + (sub D order k).length : Nat) : Int) ≤ a.1.getD i 0
  main : ∀ i, i < D.length → Rooted D i → (∀ k, (kids D order i).head? = some k → k ∉ done) → a.2.getD i 0 = ((pos D order i + 1 : Nat) : Int)
  main' : ∀ i k, i < D.length → Rooted D i → (kids D order i).head? = some k → k ∈ done → a.2.getD i 0 = ((pos D order i + (mainBranch D order i).length : Nat) : Int)

theorem LastInv.full (hs : Setup D order) {done : List Nat} {a : List Int × List Int} (h : LastInv D order done a) {i : Nat} (hi : i < D.length) (hr : Rooted D i) (hk : ∀ k ∈ kids D order i, k ∈ done) :
    a.1.getD i 0 = ((pos D order i + (sub D order i).length : Nat) : Int) ∧ a.2.getD i 0 = ((pos D order i + (mainBranch D order i).length : Nat) : Int) := by
  constructor
  · apply le_antisymm (h.le i hi hr)
    rcases List.eq_nil_or_concat (kids D order i) with hnil | ⟨L, k, hL⟩
    · have := h.ge i hi hr
      rw [sub_eq hs.valid order hi hr, hnil]
      exact this
    · have hkm : k ∈ kids D order i := by rw [hL]; simp
      obtain ⟨h1, h2⟩ := kid_pos hs hi hr (a := L) (k := k) (b := []) (by rw [hL, List.concat_eq_append])
      have := h.kid i k hi hr hkm (hk k hkm)
      simp only [List.flatMap_nil, List.length_nil, Nat.add_zero] at h2
      rw [h2]
      rw [h1] at this
      have e : pos D order i + (1 + (L.flatMap (sub D order)).length + (sub D order k).length) = pos D order i + 1 + (L.flatMap (sub D order)).length + (sub D order k).length := by omega
      rw [e]
      exact this
  · cases hh : (kids D order i).head? with
    | none =>
      rw [h.main i hi hr (by rw [hh]; simp), mainBranch_eq hs hi hr, hh]
      rfl
    | some k => exact h.main' i k hi hr hh (hk k (List.mem_of_mem_head? hh))

theorem updateLast_inv (hs : Setup D order) {prog : List (Option Nat)} (hp : ∀ i, prog.getD i none = (kids D order i).head?) {done : List Nat} {a : List Int × List Int} (h : LastInv D order done a)
    {x : Nat} (hx : x < D.length) (hxd : x ∉ done) (hk : Rooted D x → ∀ k ∈ kids D order x, k ∈ done) : LastInv D order (done ++ [x]) (updateLast D prog a x) := by
  unfold updateLast
  cases hd : D.getD x none with
  | none =>
    -- not a progenitor of any halo
    have hno : ∀ i, x ∉ kids D order i := by
      intro i hc
      have := (mem_kids.1 hc).2
      rw [hd] at this; cases this
    refine ⟨h.len1, h.len2, h.off, h.le, h.ge, ?_, ?_, ?_⟩
    · intro i k hi hr hkk hkd
      rcases List.mem_append.1 hkd with hkd | hkd
      · exact h.kid i k hi hr hkk hkd
      · simp only [List.mem_singleton] at hkd
        subst hkd; exact absurd hkk (hno i)
    · intro i hi hr hm
      exact h.main i hi hr (fun k hk hc => hm k hk (by simp [hc]))
    · intro i k hi hr hh hkd
      rcases List.mem_append.1 hkd with hkd | hkd
      · exact h.main' i k hi hr hh hkd
      · simp only [List.mem_singleton] at hkd
        subst hkd; exact absurd (List.mem_of_mem_head? hh) (hno i)
  | some d =>
    have hdl := hs.valid x d hd
    have hxk : x ∈ kids D order d := mem_kids.2 ⟨hs.all x hx, hd⟩
    have hone : ∀ i, x ∈ kids D order i → i = d := by
      intro i hc
      have := (mem_kids.1 hc).2
      rw [hd] at this; exact (Option.some.inj this).symm
    simp only
    rw [hp d]
    -- values of the two arrays
    have g1 : ∀ i, (a.1.set d (max (a.1.getD x 0) (a.1.getD d 0))).getD i 0 = if d = i then max (a.1.getD x 0) (a.1.getD d 0) else a.1.getD i 0 := by
      intro i; exact getD_set_int _ _ _ _ (by rw [h.len1]; exact hdl)
    have g2 : ∀ i, (if (kids D order d).head? = some x then a.2.set d (max (a.2.getD x 0) (a.2.getD d 0)) else a.2).getD i 0 =
        if d = i ∧ (kids D order d).head? = some x then max (a.2.getD x 0) (a.2.getD d 0) else a.2.getD i 0 := by
      intro i
      by_cases hh : (kids D order d).head? = some x
      · rw [if_pos hh, getD_set_int _ _ _ _ (by rw [h.len2]; exact hdl)]
        simp [hh]
      · rw [if_neg hh, if_neg (fun hc => hh hc.2)]
    refine ⟨by simp [h.len1], ?_, ?_, ?_, ?_, ?_, ?_, ?_⟩
    · by_cases hh : (kids D order d).head? = some x <;> simp [hh, h.len2]
    · intro i hi hr
      simp only
      rw [g1, g2]
      by_cases hdi : d = i
      · subst hdi
        have hrx : ¬ Rooted D x := fun hc => hr (hc.desc hd)
        obtain ⟨e1, e2⟩ := h.off d hi hr
        obtain ⟨e3, e4⟩ := h.off x hx hrx
        rw [e1, e2, e3, e4]
        simp
      · simp only [hdi, if_false, false_and]
        exact h.off i hi hr
    · intro i hi hr
      simp only
      rw [g1]
      by_cases hdi : d = i
      · subst hdi
        rw [if_pos rfl]
        have hrx := hr.prog hd
        rw [(h.full hs hx hrx (hk hrx)).1]
        refine max_le ?_ (h.le d hi hr)
        obtain ⟨A, B, hAB⟩ := List.append_of_mem hxk
        obtain ⟨e1, e2⟩ := kid_pos hs hi hr hAB
        rw [e1, e2]
        exact_mod_cast (by omega)
      · rw [if_neg hdi]; exact h.le i hi hr
    · intro i hi hr
      simp only
      rw [g1]
      by_cases hdi : d = i
      · subst hdi
        rw [if_pos rfl]
        exact le_trans (h.ge d hi hr) (le_max_right _ _)
      · rw [if_neg hdi]; exact h.ge i hi hr
    · intro i k hi hr hkk hkd
      simp only
      rw [g1]
      rcases List.mem_append.1 hkd with hkd | hkd
      · have := h.kid i k hi hr hkk hkd
        by_cases hdi : d = i
        · subst hdi; rw [if_pos rfl]; exact le_trans this (le_max_right _ _)
        · rw [if_neg hdi]; exact this
      · simp only [List.mem_singleton] at hkd
        subst hkd
        have := hone i hkk
        subst this
        rw [if_pos rfl]
        have hrx := hr.prog hd
        rw [(h.full hs hx hrx (hk hrx)).1]
        exact le_max_left _ _
    · intro i hi hr hm
      simp only
      rw [g2, if_neg]
      · exact h.main i hi hr (fun k hk hc => hm k hk (by simp [hc]))
      · rintro ⟨rfl, hh⟩
        exact hm x hh (by simp)
    · intro i k hi hr hh hkd
      simp only
      rw [g2]
      rcases List.mem_append.1 hkd with hk1 | hkd
      · rw [if_neg]
        · exact h.main' i k hi hr hh hk1
        · rintro ⟨rfl, hh'⟩
          rw [hh] at hh'
          simp only [Option.some.injEq] at hh'
          subst hh'
          exact hxd hk1
      · simp only [List.mem_singleton] at hkd
        subst hkd
        have := hone i (List.mem_of_mem_head? hh)
        subst this
        rw [if_pos ⟨rfl, hh⟩]
        have hrx := hr.prog hd
        rw [(h.full hs hx hrx (hk hrx)).2]
        rw [h.main i hi hr (fun j hj => by rw [hh] at hj; simp only [Option.some.injEq] at hj; rw [← hj]; exact hxd)]
        obtain ⟨b, hb⟩ : ∃ b, kids D order i = k :: b := by
          cases hq : kids D order i with
          | nil => rw [hq] at hh; simp at hh
          | cons y b => rw [hq] at hh; simp at hh; subst hh; exact ⟨b, rfl⟩
        obtain ⟨e1, -⟩ := kid_pos hs hi hr (a := []) hb
        simp only [List.flatMap_nil, List.length_nil, Nat.add_zero] at e1
        have e2 : (mainBranch D order i).length = 1 + (mainBranch D order k).length := by
          rw [mainBranch_eq hs hi hr, hh]; simp only [List.length_cons]; omega
        rw [e1, e2]
        rw [max_eq_left]
        · congr 1; omega
        · exact_mod_cast (by omega)

/-- Numbers after the first loop -/
def dfNumber (D : List (Option Nat)) (order : List Nat) : List Int := numberFrom (List.replicate D.length (-1)) 1 (dfs D order)

theorem length_dfNumber : (dfNumber D order).length = D.length := by rw [dfNumber, length_numberFrom, List.length_replicate]

open Classical in
theorem getD_dfNumber (hs : Setup D order) {x : Nat} (hx : x < D.length) : (dfNumber D order).getD x 0 = if Rooted D x then ((pos D order x + 1 : Nat) : Int) else -1 := by
  rw [dfNumber, getD_numberFrom (nodup_dfs hs) (fun y hy => by rw [List.length_replicate]; exact ((mem_dfs hs).1 hy).1)]
  by_cases hr : Rooted D x
  · rw [if_pos ((mem_dfs hs).2 ⟨hx, hr⟩), if_pos hr, pos]
    congr 1; omega
  · rw [if_neg (fun hc => hr ((mem_dfs hs).1 hc).2), if_neg hr, List.getD_eq_getElem?_getD, List.getElem?_replicate, if_pos hx]
    rfl

theorem lastLoop (hs : Setup D order) {prog : List (Option Nat)} (hp : ∀ i, prog.getD i none = (kids D order i).head?) {order3 : List Nat}
    (ho : IsArgsort ((dfNumber D order).map (fun x => -x)) order3) :
    LastInv D order order3 (order3.foldl (updateLast D prog) (dfNumber D order, dfNumber D order)) := by
  obtain ⟨hperm, hsort⟩ := ho
  rw [List.length_map, length_dfNumber] at hperm
  have hnd : order3.Nodup := hperm.nodup_iff.2 List.nodup_range
  have hlt : ∀ x, x ∈ order3 ↔ x < D.length := by intro x; rw [hperm.mem_iff, List.mem_range]
  have hdesc : order3.Pairwise (fun a b => (dfNumber D order).getD b 0 ≤ (dfNumber D order).getD a 0) := by
    unfold fancy at hsort
    rw [Sorted, List.pairwise_map] at hsort
    refine hsort.imp_of_mem ?_
    intro a b ha hb hab
    have ha := (hlt a).1 ha
    have hb := (hlt b).1 hb
    rw [← length_dfNumber (D := D) (order := order)] at ha hb
    rw [List.getD_eq_getElem _ _ (by simpa using ha), List.getD_eq_getElem _ _ (by simpa using hb), List.getElem_map, List.getElem_map] at hab
    rw [List.getD_eq_getElem _ _ ha, List.getD_eq_getElem _ _ hb]
    omega
  suffices ∀ done rest a, order3 = done ++ rest → LastInv D order done a → LastInv D order order3 (rest.foldl (updateLast D prog) a) by
    refine this [] order3 _ rfl ?_
    classical
    refine ⟨length_dfNumber, length_dfNumber, ?_, ?_, ?_, by simp, ?_, by simp⟩
    · intro i hi hr; simp only; rw [getD_dfNumber hs hi, if_neg hr]; simp
    · intro i hi hr
      simp only
      rw [getD_dfNumber hs hi, if_pos hr, sub_eq hs.valid order hi hr]
      simp only [List.length_cons]
      exact_mod_cast (by omega)
    · intro i hi hr; simp only; rw [getD_dfNumber hs hi, if_pos hr]
    · intro i hi hr _; simp only; rw [getD_dfNumber hs hi, if_pos hr]
  intro done rest
  induction rest generalizing done with
  | nil => intro a h1 h2; rw [List.append_nil] at h1; rw [h1]; exact h2
  | cons x rest ih =>
    intro a h1 h2
    rw [List.foldl_cons]
    have hx : x < D.length := (hlt x).1 (by rw [h1]; simp)
    have hxd : x ∉ done := by
      intro hc
      rw [h1] at hnd
      exact (List.nodup_append.1 hnd).2.2 x hc x (by simp) rfl
    refine ih (done ++ [x]) _ (by rw [h1]; simp) (updateLast_inv hs hp h2 hx hxd ?_)
    intro hr k hk
    have hkd := (mem_kids.1 hk).2
    have hkl := lt_of_desc hkd
    have hmem := (hlt k).2 hkl
    rw [h1] at hmem hdesc
    rcases List.mem_append.1 hmem with h | h
    · exact h
    · exfalso
      obtain ⟨A, B, hAB⟩ := List.append_of_mem hk
      obtain ⟨e1, -⟩ := kid_pos hs hx hr hAB
      rcases List.mem_cons.1 h with rfl | h
      · omega
      · have := (List.pairwise_cons.1 (List.pairwise_append.1 hdesc).2.1).1 k h
        classical
        rw [getD_dfNumber hs hkl, getD_dfNumber hs hx, if_pos hr, if_pos (hr.prog hkd)] at this
        omega

end Verif
