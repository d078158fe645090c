import Verif.Spec.IndexTrees
import Verif.Proofs.IndexTreesRanges
import Verif.Props.Match
import Mathlib.Data.List.Sort

/-! C57, C58, C59: `depth_first_index` -/

set_option linter.unusedSectionVars false

namespace Verif

variable {α β : Type*} [LinearOrder α] [Inhabited α] [LinearOrder β] [Inhabited β]

/-- The arguments: halo indexes are unique, the arrays have the same length, and the sorting orders are those which `argsort` may return. -/
structure TreeArgs (nodeIndex descendantIndex : List α) (mBranch : List β) (orderN orderM : List Nat) (orderD : List Int → List Nat) : Prop where
  unique : nodeIndex.Nodup
  lenD : descendantIndex.length = nodeIndex.length
  lenM : mBranch.length = nodeIndex.length
  sortN : IsArgsort nodeIndex orderN
  sortM : IsArgsort mBranch orderM
  sortD : ∀ l, IsArgsort l (orderD l)

/-- `desc_ptr` holds the descendants. -/
theorem descPtr {nodeIndex descendantIndex : List α} {mBranch : List β} {orderN orderM : List Nat} {orderD : List Int → List Nat} (h : TreeArgs nodeIndex descendantIndex mBranch orderN orderM orderD) :
    ∃ ptr, matchArr descendantIndex nodeIndex false none orderN = .ok ptr ∧ (ptr.map toPtr).length = nodeIndex.length ∧
      (∀ i j, (ptr.map toPtr).getD i none = some j ↔ IsDesc nodeIndex descendantIndex i j) ∧ Setup (ptr.map toPtr) orderM := by
  obtain ⟨ptr, h1, h2, h3⟩ := C34_match (arr1 := descendantIndex) h.sortN
  have hlen : (ptr.map toPtr).length = nodeIndex.length := by rw [List.length_map, h2, h.lenD]
  have hiff : ∀ i j, (ptr.map toPtr).getD i none = some j ↔ IsDesc nodeIndex descendantIndex i j := by
    intro i j
    rw [List.getD_eq_getElem?_getD, List.getElem?_map]
    cases hv : descendantIndex[i]? with
    | none =>
      have : ptr[i]? = none := by
        rw [List.getElem?_eq_none_iff] at hv ⊢
        omega
      rw [this]
      constructor
      · intro hc; cases hc
      · rintro ⟨v, hv', -⟩
        rw [hv] at hv'; cases hv'
    | some v =>
      rcases h3 i v hv with ⟨hn, ho⟩ | ⟨j', hj', ho⟩
      · rw [ho]
        constructor
        · intro hc; simp [toPtr] at hc
        · rintro ⟨v', hv', hj⟩
          rw [hv] at hv'
          simp only [Option.some.injEq] at hv'
          subst hv'
          exact absurd (List.mem_of_getElem? hj) hn
      · rw [ho]
        have ht : toPtr (j' : Int) = some j' := by
          unfold toPtr
          rw [if_neg (by omega)]
          rfl
        simp only [Option.map_some, ht, Option.getD_some, Option.some.injEq]
        constructor
        · rintro rfl; exact ⟨v, hv, hj'⟩
        · rintro ⟨v', hv', hj⟩
          rw [hv] at hv'
          simp only [Option.some.injEq] at hv'
          subst hv'
          obtain ⟨l1, e1⟩ := List.getElem?_eq_some_iff.1 hj'
          obtain ⟨l2, e2⟩ := List.getElem?_eq_some_iff.1 hj
          exact (List.Nodup.getElem_inj_iff h.unique).1 (e1.trans e2.symm)
  refine ⟨ptr, h1, hlen, hiff, ⟨?_, ?_, ?_⟩⟩
  · intro i d hd
    obtain ⟨v, -, hv⟩ := (hiff i d).1 hd
    rw [hlen]
    exact (List.getElem?_eq_some_iff.1 hv).1
  · exact h.sortM.1.nodup_iff.2 List.nodup_range
  · intro k hk
    rw [h.sortM.1.mem_iff, List.mem_range, h.lenM, ← hlen]
    exact hk

section

variable {nodeIndex descendantIndex : List α} {D : List (Option Nat)} (hiff : ∀ i j, D.getD i none = some j ↔ IsDesc nodeIndex descendantIndex i j)

include hiff

theorem inTree_iff {x i : Nat} : InTree nodeIndex descendantIndex x i ↔ ∃ d, up D d x = some i := by
  constructor
  · intro h
    induction h with
    | refl => exact ⟨0, rfl⟩
    | tail _ hs ih =>
      obtain ⟨d, hd⟩ := ih
      exact ⟨d + 1, by rw [up, hd]; exact (hiff _ _).2 hs⟩
  · rintro ⟨d, hd⟩
    induction d generalizing i with
    | zero =>
      simp only [up, Option.some.injEq] at hd
      subst hd
      exact .refl
    | succ d ih =>
      rw [up] at hd
      cases hq : up D d x with
      | none => rw [hq] at hd; cases hd
      | some j =>
        rw [hq] at hd
        exact (ih hq).tail ((hiff _ _).1 hd)

theorem cycle_iff {x i : Nat} : Relation.TransGen (IsDesc nodeIndex descendantIndex) x i ↔ ∃ d, up D (d + 1) x = some i := by
  rw [Relation.TransGen.tail'_iff]
  constructor
  · rintro ⟨j, h1, h2⟩
    obtain ⟨d, hd⟩ := (inTree_iff hiff).1 h1
    exact ⟨d, by rw [up, hd]; exact (hiff _ _).2 h2⟩
  · rintro ⟨d, hd⟩
    rw [up] at hd
    cases hq : up D d x with
    | none => rw [hq] at hd; cases hd
    | some j =>
      rw [hq] at hd
      exact ⟨j, (inTree_iff hiff).2 ⟨d, hq⟩, (hiff _ _).1 hd⟩

theorem rooted_of_acyclic (hD : ValidDesc D) (h : Acyclic nodeIndex descendantIndex) {i : Nat} (hi : i < D.length) : Rooted D i := by
  by_contra hr
  have hall : ∀ d, ∃ x, up D d i = some x := by
    intro d
    induction d with
    | zero => exact ⟨i, rfl⟩
    | succ d ih =>
      obtain ⟨x, hx⟩ := ih
      cases hq : D.getD x none with
      | none => exact absurd ⟨d, x, hx, hq⟩ hr
      | some y => exact ⟨y, by rw [up, hx]; exact hq⟩
  have hnd : ((List.range (D.length + 1)).map (fun j => (up D j i).getD 0)).Nodup := by
    apply List.Nodup.map_on _ List.nodup_range
    have key : ∀ a b, a < b → (up D a i).getD 0 = (up D b i).getD 0 → False := by
      intro a b hlt hab
      obtain ⟨x, hx⟩ := hall a
      obtain ⟨y, hy⟩ := hall b
      rw [hx, hy] at hab
      simp only [Option.getD_some] at hab
      subst hab
      apply h x
      rw [cycle_iff hiff]
      refine ⟨b - a - 1, ?_⟩
      have := up_add D a (b - a) i
      rw [show a + (b - a) = b by omega, hx, hy] at this
      rw [show b - a - 1 + 1 = b - a by omega]
      exact this.symm
    intro a _ b _ hab
    rcases lt_trichotomy a b with hlt | heq | hlt
    · exact (key a b hlt hab).elim
    · exact heq
    · exact (key b a hlt hab.symm).elim
  have hsub : ((List.range (D.length + 1)).map (fun j => (up D j i).getD 0)) ⊆ List.range D.length := by
    intro y hy
    obtain ⟨j, -, rfl⟩ := List.mem_map.1 hy
    obtain ⟨x, hx⟩ := hall j
    rw [hx]
    exact List.mem_range.2 (up_lt hD hi hx)
  have := (List.subperm_of_subset hnd hsub).length_le
  simp at this

theorem not_rooted_of_cycle {i : Nat} (h : Relation.TransGen (IsDesc nodeIndex descendantIndex) i i) : ¬ Rooted D i := by
  intro hr
  obtain ⟨d, hd⟩ := (cycle_iff hiff).1 h
  have := hr.up_inj (a := 0) (b := d + 1) (y := i) rfl hd
  omega

end

/-- What the program computes before the final checks -/
theorem depthFirst_eval {nodeIndex descendantIndex : List α} {mBranch : List β} {orderN orderM : List Nat} {orderD : List Int → List Nat}
    (h : TreeArgs nodeIndex descendantIndex mBranch orderN orderM orderD) :
    ∃ (D : List (Option Nat)) (last main : List Int), D.length = nodeIndex.length ∧ (∀ i j, D.getD i none = some j ↔ IsDesc nodeIndex descendantIndex i j) ∧ Setup D orderM ∧
      last.length = D.length ∧ main.length = D.length ∧
      (∀ i, i < D.length → ¬ Rooted D i → main.getD i 0 = -1) ∧
      (∀ i, i < D.length → Rooted D i → last.getD i 0 = ((pos D orderM i + (sub D orderM i).length : Nat) : Int) ∧ main.getD i 0 = ((pos D orderM i + (mainBranch D orderM i).length : Nat) : Int)) ∧
      Returns (depthFirstIndex nodeIndex descendantIndex orderN orderM orderD)
        (if main.any (fun x => decide (x < 0)) ∨ last.any (fun x => decide (x < 0)) ∨ (dfNumber D orderM).any (fun x => decide (x < 0)) then .error .assertion
          else if (last.zip main).any (fun x => decide (x.1 < x.2)) ∨ (main.zip (dfNumber D orderM)).any (fun x => decide (x.1 < x.2)) then .error .assertion
          else .ok (dfNumber D orderM, main, last)) := by
  obtain ⟨ptr, hp, hlen, hiff, hs⟩ := descPtr h
  have hl := links_inv hs.valid hs.nodup
  obtain ⟨N, hN⟩ := walkAll_ok hs.valid hl (finalHalos (ptr.map toPtr)) (fun f hf => mem_finalHalos.1 hf) (List.replicate descendantIndex.length (-1)) 1
  have hinv := lastLoop hs (prog := (makeLinks (ptr.map toPtr) orderM).prog) hl.prog (h.sortD ((dfNumber (ptr.map toPtr) orderM).map (fun x => -x)))
  have hall : ∀ k, k < (ptr.map toPtr).length → k ∈ orderD ((dfNumber (ptr.map toPtr) orderM).map (fun x => -x)) := by
    intro k hk
    rw [(h.sortD _).1.mem_iff, List.mem_range, List.length_map, length_dfNumber]
    exact hk
  refine ⟨ptr.map toPtr, _, _, hlen, hiff, hs, hinv.len1, hinv.len2, fun i hi hr => (hinv.off i hi hr).2, ?_, N, fun fuel hf => ?_⟩
  · intro i hi hr
    exact hinv.full hs hi hr (fun k hk => hall k (lt_of_desc (mem_kids.1 hk).2))
  · obtain ⟨m', hm'⟩ := hN fuel hf
    unfold depthFirstIndex
    simp only [hp]
    have e : (List.range (ptr.map toPtr).length).filter (fun i => decide ((ptr.map toPtr).getD i none = none)) = finalHalos (ptr.map toPtr) := rfl
    have e2 : numberFrom (List.replicate descendantIndex.length (-1)) 1 ((finalHalos (ptr.map toPtr)).flatMap (sub (ptr.map toPtr) orderM)) = dfNumber (ptr.map toPtr) orderM := by
      rw [dfNumber, hlen, h.lenD]; rfl
    rw [e, hm', e2]

theorem any_false_of_getD {l : List Int} (h : ∀ i, i < l.length → 0 ≤ l.getD i 0) : l.any (fun x => decide (x < 0)) = false := by
  rw [List.any_eq_false]
  intro x hx
  obtain ⟨i, hi, rfl⟩ := List.getElem_of_mem hx
  have := h i hi
  rw [List.getD_eq_getElem _ _ hi] at this
  simpa using this

theorem zip_any_false {a b : List Int} (h : ∀ i, i < a.length → i < b.length → b.getD i 0 ≤ a.getD i 0) : (a.zip b).any (fun x => decide (x.1 < x.2)) = false := by
  rw [List.any_eq_false]
  intro x hx
  obtain ⟨i, hi, rfl⟩ := List.getElem_of_mem hx
  rw [List.length_zip] at hi
  have := h i (by omega) (by omega)
  rw [List.getD_eq_getElem _ _ (by omega), List.getD_eq_getElem _ _ (by omega)] at this
  rw [List.getElem_zip]
  simpa using this

/-- The results in terms of the recursive depth first order -/
theorem depthFirst_ok {nodeIndex descendantIndex : List α} {mBranch : List β} {orderN orderM : List Nat} {orderD : List Int → List Nat}
    (h : TreeArgs nodeIndex descendantIndex mBranch orderN orderM orderD) (hac : Acyclic nodeIndex descendantIndex) :
    ∃ (D : List (Option Nat)) (last main : List Int), D.length = nodeIndex.length ∧ (∀ i j, D.getD i none = some j ↔ IsDesc nodeIndex descendantIndex i j) ∧ Setup D orderM ∧
      last.length = D.length ∧ main.length = D.length ∧ (∀ i, i < D.length → Rooted D i) ∧
      (∀ i, i < D.length → (dfNumber D orderM).getD i 0 = ((pos D orderM i + 1 : Nat) : Int) ∧ last.getD i 0 = ((pos D orderM i + (sub D orderM i).length : Nat) : Int) ∧
        main.getD i 0 = ((pos D orderM i + (mainBranch D orderM i).length : Nat) : Int)) ∧
      Returns (depthFirstIndex nodeIndex descendantIndex orderN orderM orderD) (.ok (dfNumber D orderM, main, last)) := by
  obtain ⟨D, last, main, h1, h2, h3, h4, h5, -, h6, h7⟩ := depthFirst_eval h
  have hr : ∀ i, i < D.length → Rooted D i := fun i hi => rooted_of_acyclic h2 h3.valid hac hi
  have hval : ∀ i, i < D.length → (dfNumber D orderM).getD i 0 = ((pos D orderM i + 1 : Nat) : Int) ∧ last.getD i 0 = ((pos D orderM i + (sub D orderM i).length : Nat) : Int) ∧
      main.getD i 0 = ((pos D orderM i + (mainBranch D orderM i).length : Nat) : Int) := by
    intro i hi
    refine ⟨?_, h6 i hi (hr i hi)⟩
    classical
    rw [getD_dfNumber h3 hi, if_pos (hr i hi)]
  refine ⟨D, last, main, h1, h2, h3, h4, h5, hr, hval, ?_⟩
  have hpos : ∀ i, i < D.length → 1 ≤ (mainBranch D orderM i).length := by
    intro i hi
    rw [mainBranch_eq h3 hi (hr i hi)]
    simp
  have hle : ∀ i, (mainBranch D orderM i).length ≤ (sub D orderM i).length := fun i => mainBranch_length_le i
  rw [any_false_of_getD (l := main) (fun i hi => by rw [(hval i (by omega)).2.2]; omega), any_false_of_getD (l := last) (fun i hi => by rw [(hval i (by omega)).2.1]; omega),
    any_false_of_getD (l := dfNumber D orderM) (fun i hi => by rw [length_dfNumber] at hi; rw [(hval i hi).1]; omega),
    zip_any_false (a := last) (b := main) (fun i hi _ => by rw [(hval i (by omega)).2.1, (hval i (by omega)).2.2]; have := hle i; omega),
    zip_any_false (a := main) (b := dfNumber D orderM) (fun i hi _ => by rw [(hval i (by omega)).2.2, (hval i (by omega)).1]; have := hpos i (by omega); omega)] at h7
  simpa using h7

theorem kids_pairwise_pos {D : List (Option Nat)} {orderM : List Nat} (h3 : Setup D orderM) {i : Nat} (hi : i < D.length) (hr : Rooted D i) {a b c : List Nat} {k k' : Nat}
    (hk : kids D orderM i = a ++ k :: b ++ k' :: c) : pos D orderM k < pos D orderM k' := by
  obtain ⟨e1, -⟩ := kid_pos h3 hi hr (a := a) (k := k) (b := b ++ k' :: c) (by rw [hk]; simp)
  obtain ⟨e2, -⟩ := kid_pos h3 hi hr (a := a ++ k :: b) (k := k') (b := c) hk
  rw [e1, e2, List.flatMap_append, List.length_append, List.flatMap_cons]
  have hkd := (mem_kids.1 (show k ∈ kids D orderM i by rw [hk]; simp)).2
  rw [sub_eq h3.valid orderM (lt_of_desc hkd) (hr.prog hkd)]
  simp only [List.length_append, List.length_cons]
  omega

theorem kids_mass {mBranch : List β} {orderM : List Nat} (hM : IsArgsort mBranch orderM) {D : List (Option Nat)} {i : Nat} :
    (kids D orderM i).Pairwise (fun a b => mBranch.getD b default ≤ mBranch.getD a default) := by
  have := hM.2
  unfold fancy at this
  rw [Sorted, List.pairwise_map] at this
  exact (List.pairwise_reverse.2 this).sublist List.filter_sublist

theorem mem_mainChain {K : Nat → List Nat} {h i : Nat} (hh : Ht K h i) {x : Nat} : x ∈ mainChain K h i ↔ ∃ d, follow (fun i => (K i).head?) d i = some x := by
  induction h generalizing i with
  | zero => exact hh.elim
  | succ h ih =>
    rw [mainChain, List.mem_cons]
    cases hk : (K i).head? with
    | none =>
      simp only [List.not_mem_nil, or_false]
      constructor
      · rintro rfl; exact ⟨0, rfl⟩
      · rintro ⟨d, hd⟩
        cases d with
        | zero => simp only [follow, Option.some.injEq] at hd; exact hd.symm
        | succ d => simp only [follow, hk] at hd; cases hd
    | some k =>
      simp only
      rw [ih (hh k (List.mem_of_mem_head? hk))]
      constructor
      · rintro (rfl | ⟨d, hd⟩)
        · exact ⟨0, rfl⟩
        · exact ⟨d + 1, by simp only [follow, hk]; exact hd⟩
      · rintro ⟨d, hd⟩
        cases d with
        | zero => simp only [follow, Option.some.injEq] at hd; exact Or.inl hd.symm
        | succ d => simp only [follow, hk] at hd; exact Or.inr ⟨d, hd⟩

section

variable {nodeIndex descendantIndex : List α} {mBranch : List β} {orderN orderM : List Nat} {orderD : List Int → List Nat}

/-- C57: the program ends without an error for every forest. -/
theorem C57_returns (h : TreeArgs nodeIndex descendantIndex mBranch orderN orderM orderD) (hac : Acyclic nodeIndex descendantIndex) :
    ∃ df main last, Returns (depthFirstIndex nodeIndex descendantIndex orderN orderM orderD) (.ok (df, main, last)) := by
  obtain ⟨D, last, main, -, -, -, -, -, -, -, h8⟩ := depthFirst_ok h hac
  exact ⟨_, _, _, h8⟩

/-- C57: if some halo is its own descendant, the checks at the end fail. -/
theorem C57_cycle (h : TreeArgs nodeIndex descendantIndex mBranch orderN orderM orderD) (hc : ¬ Acyclic nodeIndex descendantIndex) :
    Returns (depthFirstIndex nodeIndex descendantIndex orderN orderM orderD) (.error .assertion) := by
  obtain ⟨D, last, main, h1, h2, h3, h4, h5, h6, -, h7⟩ := depthFirst_eval h
  obtain ⟨i, hi⟩ := not_forall_not.1 hc
  have hr := not_rooted_of_cycle h2 hi
  have hil : i < D.length := by
    obtain ⟨d, hd⟩ := (cycle_iff h2).1 hi
    rw [up_succ] at hd
    cases hq : D.getD i none with
    | none => rw [hq] at hd; cases hd
    | some j => exact lt_of_desc hq
  have hany : main.any (fun x => decide (x < 0)) = true := by
    rw [List.any_eq_true]
    refine ⟨main.getD i 0, ?_, by rw [h6 i hil hr]; rfl⟩
    rw [List.getD_eq_getElem _ _ (by omega)]
    exact List.getElem_mem _
  rw [hany] at h7
  simpa using h7

variable (h : TreeArgs nodeIndex descendantIndex mBranch orderN orderM orderD) (hac : Acyclic nodeIndex descendantIndex) {df main last : List Int}
  (hret : Returns (depthFirstIndex nodeIndex descendantIndex orderN orderM orderD) (.ok (df, main, last)))

include h hac hret

theorem depthFirst_result : ∃ (D : List (Option Nat)), D.length = nodeIndex.length ∧ (∀ i j, D.getD i none = some j ↔ IsDesc nodeIndex descendantIndex i j) ∧ Setup D orderM ∧
      df.length = D.length ∧ last.length = D.length ∧ main.length = D.length ∧ (∀ i, i < D.length → Rooted D i) ∧
      ∀ i, i < D.length → df[i]? = some ((pos D orderM i + 1 : Nat) : Int) ∧ last[i]? = some ((pos D orderM i + (sub D orderM i).length : Nat) : Int) ∧
        main[i]? = some ((pos D orderM i + (mainBranch D orderM i).length : Nat) : Int) := by
  obtain ⟨D, last', main', h1, h2, h3, h4, h5, h6, h7, h8⟩ := depthFirst_ok h hac
  have := hret.unique h8
  simp only [Except.ok.injEq, Prod.mk.injEq] at this
  obtain ⟨rfl, rfl, rfl⟩ := this
  refine ⟨D, h1, h2, h3, length_dfNumber, h4, h5, h6, fun i hi => ?_⟩
  obtain ⟨e1, e2, e3⟩ := h7 i hi
  rw [List.getD_eq_getElem _ _ (by rw [length_dfNumber]; exact hi)] at e1
  rw [List.getD_eq_getElem _ _ (by omega)] at e2 e3
  refine ⟨?_, ?_, ?_⟩
  · rw [List.getElem?_eq_getElem (by rw [length_dfNumber]; exact hi), e1]
  · rw [List.getElem?_eq_getElem (by omega), e2]
  · rw [List.getElem?_eq_getElem (by omega), e3]

/-- C57: the numbers are 1, ..., n, each used once. -/
theorem C57_numbers : df.length = nodeIndex.length ∧ df.Perm ((List.range nodeIndex.length).map (fun k : Nat => (k : Int) + 1)) := by
  obtain ⟨D, h1, h2, h3, h4, -, -, h7, h8⟩ := depthFirst_result h hac hret
  refine ⟨by omega, ?_⟩
  have hperm : (dfs D orderM).Perm (List.range D.length) := by
    rw [List.perm_ext_iff_of_nodup (nodup_dfs h3) List.nodup_range]
    intro x
    rw [mem_dfs h3, List.mem_range]
    exact ⟨fun hx => hx.1, fun hx => ⟨hx, h7 x hx⟩⟩
  have hdf : df = (List.range D.length).map (fun i => ((pos D orderM i + 1 : Nat) : Int)) := by
    apply List.ext_getElem?
    intro i
    by_cases hi : i < D.length
    · rw [(h8 i hi).1, List.getElem?_map, List.getElem?_range hi]; rfl
    · rw [List.getElem?_eq_none (by omega), List.getElem?_eq_none (by simp; omega)]
  rw [hdf]
  refine (hperm.symm.map _).trans ?_
  have hl : (dfs D orderM).length = nodeIndex.length := by rw [hperm.length_eq, List.length_range, h1]
  have : (dfs D orderM).map (fun i => ((pos D orderM i + 1 : Nat) : Int)) = (List.range nodeIndex.length).map (fun k : Nat => (k : Int) + 1) := by
    apply List.ext_getElem?
    intro k
    rw [List.getElem?_map, List.getElem?_map]
    by_cases hk : k < nodeIndex.length
    · rw [List.getElem?_range hk, List.getElem?_eq_getElem (by omega)]
      simp only [Option.map_some, Option.some.injEq, pos]
      rw [(nodup_dfs h3).idxOf_getElem k (by omega)]
      omega
    · rw [List.getElem?_eq_none (by omega), List.getElem?_eq_none (by simp; omega)]; rfl
  rw [this]

/-- C58: the halos from which `i` is reached, and `i` itself, are those whose number is in the range from depthFirst to lastProgenitor of `i`. -/
theorem C58_progenitors {i x : Nat} {a b l : Int} (ha : df[i]? = some a) (hb : df[x]? = some b) (hl : last[i]? = some l) :
    InTree nodeIndex descendantIndex x i ↔ a ≤ b ∧ b ≤ l := by
  obtain ⟨D, h1, h2, h3, h4, -, -, h7, h8⟩ := depthFirst_result h hac hret
  have hi : i < D.length := by have := (List.getElem?_eq_some_iff.1 ha).1; omega
  have hx : x < D.length := by have := (List.getElem?_eq_some_iff.1 hb).1; omega
  obtain ⟨e1, e2, -⟩ := h8 i hi
  obtain ⟨e3, -, -⟩ := h8 x hx
  rw [ha] at e1; rw [hl] at e2; rw [hb] at e3
  simp only [Option.some.injEq] at e1 e2 e3
  rw [inTree_iff h2, ← mem_sub h3.valid h3.all hi (h7 i hi), span_sub h3 hi (h7 i hi), e1, e2, e3]
  omega

/-- C57: the number of a halo is smaller than those of all its progenitors. -/
theorem C57_before_progenitors {i x : Nat} {a b : Int} (ha : df[i]? = some a) (hb : df[x]? = some b) (ht : InTree nodeIndex descendantIndex x i) (hne : x ≠ i) : a < b := by
  obtain ⟨D, h1, h2, h3, h4, h5, -, h7, h8⟩ := depthFirst_result h hac hret
  have hi : i < D.length := by have := (List.getElem?_eq_some_iff.1 ha).1; omega
  have hx : x < D.length := by have := (List.getElem?_eq_some_iff.1 hb).1; omega
  have hle := ((C58_progenitors h hac hret ha hb (h8 i hi).2.1).1 ht).1
  rcases lt_or_eq_of_le hle with hlt | heq
  · exact hlt
  · exfalso
    obtain ⟨e1, -⟩ := h8 i hi
    obtain ⟨e3, -⟩ := h8 x hx
    rw [ha] at e1; rw [hb] at e3
    simp only [Option.some.injEq] at e1 e3
    have hpp : pos D orderM x = pos D orderM i := by omega
    unfold pos at hpp
    exact hne ((List.idxOf_inj ((mem_dfs h3).2 ⟨hx, h7 x hx⟩)).1 hpp)

/-- C57: of two progenitors of the same halo, the one with the smaller number does not have the smaller branch mass. -/
theorem C57_progenitor_order {i k k' : Nat} {a b : Int} {m m' : β} (hk : IsDesc nodeIndex descendantIndex k i) (hk' : IsDesc nodeIndex descendantIndex k' i)
    (ha : df[k]? = some a) (hb : df[k']? = some b) (hab : a < b) (hm : mBranch[k]? = some m) (hm' : mBranch[k']? = some m') : m' ≤ m := by
  obtain ⟨D, h1, h2, h3, h4, -, -, h7, h8⟩ := depthFirst_result h hac hret
  have hkl := lt_of_desc ((h2 k i).2 hk)
  have hkl' := lt_of_desc ((h2 k' i).2 hk')
  have hi := h3.valid _ _ ((h2 k i).2 hk)
  obtain ⟨e1, -⟩ := h8 k hkl
  obtain ⟨e2, -⟩ := h8 k' hkl'
  rw [ha] at e1; rw [hb] at e2
  simp only [Option.some.injEq] at e1 e2
  have hmass := kids_mass (D := D) h.sortM (i := i)
  have hmem : k ∈ kids D orderM i := mem_kids.2 ⟨h3.all k hkl, (h2 k i).2 hk⟩
  have hmem' : k' ∈ kids D orderM i := mem_kids.2 ⟨h3.all k' hkl', (h2 k' i).2 hk'⟩
  obtain ⟨A, B, hAB⟩ := List.append_of_mem hmem
  rw [hAB] at hmem'
  rcases List.mem_append.1 hmem' with hA | hB
  · -- then the other order
    obtain ⟨A1, A2, hA'⟩ := List.append_of_mem hA
    have := kids_pairwise_pos h3 hi (h7 i hi) (a := A1) (k := k') (b := A2) (k' := k) (c := B) (by rw [hAB, hA'])
    omega
  · rcases List.mem_cons.1 hB with rfl | hB
    · omega
    · rw [hAB] at hmass
      have := (List.pairwise_cons.1 (List.pairwise_append.1 hmass).2.1).1 k' hB
      rw [List.getD_eq_getElem?_getD, List.getD_eq_getElem?_getD, hm, hm'] at this
      exact this

/-- C59: there is a choice of a main progenitor for each halo which has progenitors, with the largest branch mass, such that the main branch of a halo consists of the halos whose number is in
the range from depthFirst to endMainBranch. The main progenitor has the next number. -/
theorem C59_main_branch : ∃ mainProg : Nat → Option Nat,
    (∀ i k, mainProg i = some k → IsDesc nodeIndex descendantIndex k i ∧ (∀ k' m m', IsDesc nodeIndex descendantIndex k' i → mBranch[k]? = some m → mBranch[k']? = some m' → m' ≤ m) ∧
      ∀ a b, df[i]? = some a → df[k]? = some b → b = a + 1) ∧
    (∀ i, mainProg i = none → ∀ k, ¬ IsDesc nodeIndex descendantIndex k i) ∧
    ∀ i x a b e, df[i]? = some a → df[x]? = some b → main[i]? = some e → ((∃ d, follow mainProg d i = some x) ↔ a ≤ b ∧ b ≤ e) := by
  obtain ⟨D, h1, h2, h3, h4, -, -, h7, h8⟩ := depthFirst_result h hac hret
  refine ⟨fun i => (kids D orderM i).head?, ?_, ?_, ?_⟩
  · intro i k hk
    have hkm := List.mem_of_mem_head? hk
    have hkd := (mem_kids.1 hkm).2
    have hi := h3.valid _ _ hkd
    obtain ⟨B, hB⟩ : ∃ B, kids D orderM i = k :: B := by
      cases hq : kids D orderM i with
      | nil => simp only [hq, List.head?_nil] at hk; cases hk
      | cons y B => simp only [hq, List.head?_cons, Option.some.injEq] at hk; subst hk; exact ⟨B, rfl⟩
    refine ⟨(h2 k i).1 hkd, ?_, ?_⟩
    · intro k' m m' hk' hm hm'
      have hmem' : k' ∈ kids D orderM i := mem_kids.2 ⟨h3.all k' (lt_of_desc ((h2 k' i).2 hk')), (h2 k' i).2 hk'⟩
      have hmass := kids_mass (D := D) h.sortM (i := i)
      rw [hB] at hmem' hmass
      rcases List.mem_cons.1 hmem' with rfl | hmem'
      · rw [hm] at hm'; simp only [Option.some.injEq] at hm'; exact le_of_eq hm'.symm
      · have := (List.pairwise_cons.1 hmass).1 k' hmem'
        rw [List.getD_eq_getElem?_getD, List.getD_eq_getElem?_getD, hm, hm'] at this
        exact this
    · intro a b ha hb
      obtain ⟨e1, -⟩ := h8 i hi
      obtain ⟨e2, -⟩ := h8 k (lt_of_desc hkd)
      rw [ha] at e1; rw [hb] at e2
      simp only [Option.some.injEq] at e1 e2
      obtain ⟨e3, -⟩ := kid_pos h3 hi (h7 i hi) (a := []) hB
      simp only [List.flatMap_nil, List.length_nil, Nat.add_zero] at e3
      omega
  · intro i hnone k hk
    have hmem : k ∈ kids D orderM i := mem_kids.2 ⟨h3.all k (lt_of_desc ((h2 k i).2 hk)), (h2 k i).2 hk⟩
    rw [List.head?_eq_none_iff] at hnone
    rw [hnone] at hmem
    simp at hmem
  · intro i x a b e ha hb he
    have hi : i < D.length := by have := (List.getElem?_eq_some_iff.1 ha).1; omega
    have hx : x < D.length := by have := (List.getElem?_eq_some_iff.1 hb).1; omega
    obtain ⟨e1, -, e2⟩ := h8 i hi
    obtain ⟨e3, -, -⟩ := h8 x hx
    rw [ha] at e1; rw [he] at e2; rw [hb] at e3
    simp only [Option.some.injEq] at e1 e2 e3
    have hmb := mem_mainChain (K := kids D orderM) ((h7 i hi).ht h3.valid orderM hi) (x := x)
    rw [← hmb]
    have hsp := span_main h3 hi (h7 i hi) (x := x)
    unfold mainBranch at hsp e2
    rw [hsp, e1, e2, e3]
    omega

end

/-! ### Cases -/

/-- 20, 30 and 40 merge into 10, 50 into 20, 60 into 30; 70 is a tree of its own (its descendant is not in the list). The array order is not that of the trees. -/
def exNode : List Int := [50, 20, 10, 70, 30, 60, 40]
def exDesc : List Int := [20, 10, -1, 99, 10, 30, 10]
def exMass : List Int := [1, 2, 9, 2, 8, 5, 3]

/-- `argsort` by insertion -/
def sortOrder (l : List Int) : List Nat := (List.range l.length).insertionSort (fun a b => l.getD a 0 ≤ l.getD b 0)

example : depthFirstIndex exNode exDesc (sortOrder exNode) (sortOrder exMass) sortOrder 100 = .ok ([6, 5, 1, 7, 2, 3, 4], [6, 6, 3, 7, 3, 3, 4], [6, 6, 6, 7, 3, 3, 4]) := by decide +kernel
-- 20 is a progenitor of its progenitor
example : depthFirstIndex exNode [20, 50, -1, 99, 10, 30, 10] (sortOrder exNode) (sortOrder exMass) sortOrder 100 = .error .assertion := by decide +kernel

theorem sortOrder_isArgsort (l : List Int) : IsArgsort l (sortOrder l) := by
  refine ⟨List.perm_insertionSort _ _, ?_⟩
  unfold fancy
  rw [Sorted, List.pairwise_map]
  exact List.pairwise_insertionSort _ _

example : TreeArgs exNode exDesc exMass (sortOrder exNode) (sortOrder exMass) sortOrder :=
  ⟨by decide +kernel, rfl, rfl, sortOrder_isArgsort _, sortOrder_isArgsort _, sortOrder_isArgsort⟩

/-- The depth of a halo falls along descendants, so that there is no cycle. -/
example : Acyclic exNode exDesc := by
  have key : ∀ i j, IsDesc exNode exDesc i j → [2, 1, 0, 0, 1, 2, 1].getD j 0 < [2, 1, 0, 0, 1, 2, 1].getD i 0 := by
    have all : ∀ i < 7, ∀ j < 7, exDesc[i]? = exNode[j]? → [2, 1, 0, 0, 1, 2, 1].getD j 0 < [2, 1, 0, 0, 1, 2, 1].getD i 0 := by decide +kernel
    rintro i j ⟨v, h1, h2⟩
    have hi : i < 7 := (List.getElem?_eq_some_iff.1 h1).1
    have hj : j < 7 := (List.getElem?_eq_some_iff.1 h2).1
    have : exDesc[i]? = exNode[j]? := h1.trans h2.symm
    exact all i hi j hj this
  intro i hi
  have : ∀ j, Relation.TransGen (IsDesc exNode exDesc) i j → [2, 1, 0, 0, 1, 2, 1].getD j 0 < [2, 1, 0, 0, 1, 2, 1].getD i 0 := by
    intro j hj
    induction hj with
    | single h => exact key _ _ h
    | tail _ h ih => exact lt_trans (key _ _ h) ih
  exact lt_irrefl _ (this i hi)

end Verif
