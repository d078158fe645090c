import Verif.Props.TreeMass
import Mathlib.Tactic.Linarith
import Mathlib.Algebra.Order.Field.Basic

/-! C62: `find_main_progenitor` -/

set_option linter.unusedSectionVars false

namespace Verif

variable {M : Type*}

/-! ### The loops -/

/-- What the first loop knows about halo `j` after the halos `l` -/
def BestOf [Zero M] [LinearOrder M] (node : List Int) (mb : List M) (D : List (Option Nat)) (j : Nat) (l : List Nat) (mx : M) (main : Int) : Prop :=
  ((∀ k ∈ l, D.getD k none = some j → mb.getD k 0 ≤ 0) ∧ mx = 0 ∧ main = -1) ∨
  ∃ l1 i l2, l = l1 ++ i :: l2 ∧ D.getD i none = some j ∧ 0 < mb.getD i 0 ∧ mx = mb.getD i 0 ∧ main = node.getD i 0 ∧
    (∀ k ∈ l1, D.getD k none = some j → mb.getD k 0 < mb.getD i 0) ∧ (∀ k ∈ l2, D.getD k none = some j → mb.getD k 0 ≤ mb.getD i 0)

theorem BestOf.skip [Zero M] [LinearOrder M] {node : List Int} {mb : List M} {D : List (Option Nat)} {j : Nat} {l : List Nat} {mx : M} {main : Int} (h : BestOf node mb D j l mx main) {i : Nat}
    (hi : D.getD i none = some j → mb.getD i 0 ≤ mx) : BestOf node mb D j (l ++ [i]) mx main := by
  rcases h with ⟨h1, h2, h3⟩ | ⟨l1, x, l2, rfl, hx, hpos, rfl, hm, h4, h5⟩
  · refine .inl ⟨?_, h2, h3⟩
    intro k hk hkj
    rcases List.mem_append.1 hk with hk | hk
    · exact h1 k hk hkj
    · obtain rfl := List.mem_singleton.1 hk
      exact (hi hkj).trans h2.le
  · refine .inr ⟨l1, x, l2 ++ [i], by simp, hx, hpos, rfl, hm, h4, ?_⟩
    intro k hk hkj
    rcases List.mem_append.1 hk with hk | hk
    · exact h5 k hk hkj
    · obtain rfl := List.mem_singleton.1 hk
      exact hi hkj

theorem BestOf.nonneg [Zero M] [LinearOrder M] {node : List Int} {mb : List M} {D : List (Option Nat)} {j : Nat} {l : List Nat} {mx : M} {main : Int} (h : BestOf node mb D j l mx main) : 0 ≤ mx := by
  rcases h with ⟨-, h2, -⟩ | ⟨l1, x, l2, -, -, hpos, h2, -⟩
  · rw [h2]
  · rw [h2]; exact hpos.le

theorem BestOf.le [Zero M] [LinearOrder M] {node : List Int} {mb : List M} {D : List (Option Nat)} {j : Nat} {l : List Nat} {mx : M} {main : Int} (h : BestOf node mb D j l mx main) {k : Nat} (hk : k ∈ l) (hd : D.getD k none = some j) : mb.getD k 0 ≤ mx := by
  rcases h with ⟨h1, h2, -⟩ | ⟨l1, x, l2, rfl, -, -, rfl, -, h4, h5⟩
  · rw [h2]; exact h1 k hk hd
  · rcases List.mem_append.1 hk with hk | hk
    · exact (h4 k hk hd).le
    · rcases List.mem_cons.1 hk with rfl | hk
      · exact le_rfl
      · exact h5 k hk hd

theorem mainProg_loop [Zero M] [LinearOrder M] {node : List Int} {mb : List M} {D : List (Option Nat)} (hD : ValidDesc D) (l : List Nat) :
    let s := l.foldl (mainProgStep node mb D) ⟨List.replicate D.length 0, List.replicate D.length (-1)⟩
    s.mbranch_max.length = D.length ∧ s.mainprog.length = D.length ∧ ∀ j < D.length, BestOf node mb D j l (s.mbranch_max.getD j 0) (s.mainprog.getD j 0) := by
  induction l using List.reverseRecOn with
  | nil =>
    refine ⟨by simp, by simp, fun j hj => .inl ⟨by simp, ?_, ?_⟩⟩
    · simp
    · simp only [List.foldl_nil]
      rw [List.getD_eq_getElem _ _ (by simpa using hj), List.getElem_replicate]
  | append_singleton l i ih =>
    obtain ⟨h1, h2, h3⟩ := ih
    simp only [List.foldl_append, List.foldl_cons, List.foldl_nil]
    generalize l.foldl _ _ = s at h1 h2 h3
    unfold mainProgStep
    cases hd : D.getD i none with
    | none =>
      exact ⟨h1, h2, fun j hj => (h3 j hj).skip (fun h => by rw [hd] at h; cases h)⟩
    | some j0 =>
      have hj0 := hD i j0 hd
      simp only
      by_cases hgt : mb.getD i 0 > s.mbranch_max.getD j0 0
      · rw [if_pos hgt]
        refine ⟨by simp [h1], by simp [h2], fun j hj => ?_⟩
        simp only
        rw [getD_set_zero _ _ _ _ (by omega), getD_set_zero _ _ _ _ (by omega)]
        by_cases hjj : j0 = j
        · subst hjj
          rw [if_pos rfl, if_pos rfl]
          refine .inr ⟨l, i, [], rfl, hd, lt_of_le_of_lt (h3 j0 hj).nonneg hgt, rfl, rfl, ?_, by simp⟩
          intro k hk hkj
          exact lt_of_le_of_lt ((h3 j0 hj).le hk hkj) hgt
        · rw [if_neg hjj, if_neg hjj]
          exact (h3 j hj).skip (fun h => by rw [hd] at h; exact absurd (Option.some.inj h) hjj)
      · rw [if_neg hgt]
        refine ⟨h1, h2, fun j hj => (h3 j hj).skip (fun h => ?_)⟩
        rw [hd] at h
        obtain rfl := Option.some.inj h
        exact not_lt.1 hgt

theorem tie_loop [Field M] [LinearOrder M] {eps : M} {mb mx : List M} {D : List (Option Nat)} (hD : ValidDesc D) (l : List Nat) :
    let s := l.foldl (tieStep eps mb mx D) (List.replicate D.length 0)
    s.length = D.length ∧ ∀ j < D.length, s.getD j 0 = (l.countP (fun i => decide (D.getD i none = some j) && isTie eps (mb.getD i 0) (mx.getD j 0)) : Int) := by
  induction l using List.reverseRecOn with
  | nil =>
    refine ⟨by simp, fun j hj => ?_⟩
    simp
  | append_singleton l i ih =>
    obtain ⟨h1, h2⟩ := ih
    simp only [List.foldl_append, List.foldl_cons, List.foldl_nil, List.countP_append, List.countP_singleton]
    generalize l.foldl _ _ = s at h1 h2
    unfold tieStep
    cases hd : D.getD i none with
    | none =>
      refine ⟨h1, fun j hj => ?_⟩
      rw [h2 j hj]
      simp [-List.getD_eq_getElem?_getD]
    | some j0 =>
      have hj0 := hD i j0 hd
      simp only
      by_cases ht : isTie eps (mb.getD i 0) (mx.getD j0 0) = true
      · rw [if_pos ht]
        refine ⟨by simp [h1], fun j hj => ?_⟩
        rw [getD_set_zero _ _ _ _ (by omega)]
        by_cases hjj : j0 = j
        · subst hjj
          rw [if_pos rfl, h2 j0 hj]
          simp [-List.getD_eq_getElem?_getD, ht]
        · rw [if_neg hjj, h2 j hj]
          simp [hjj]
      · rw [if_neg ht]
        refine ⟨h1, fun j hj => ?_⟩
        rw [h2 j hj]
        by_cases hjj : j0 = j
        · subst hjj
          simp [-List.getD_eq_getElem?_getD, ht]
        · simp [hjj]

/-! ### The property -/

/-- The orders are those which `np.lexsort` and `np.argsort` may return, and halo indexes are unique. -/
structure ProgArgs (H : List (Halo M)) (idx orderN : List Nat) : Prop where
  unique : (H.map (·.node)).Nodup
  sortI : IsArgsort (lexKeys (H.map (·.node)) (H.map (·.snap))) idx
  sortN : IsArgsort (H.map (·.node)) orderN

theorem ProgArgs.perm {H : List (Halo M)} {idx orderN : List Nat} (h : ProgArgs H idx orderN) : idx.Perm (List.range H.length) := by
  have := h.sortI.1
  unfold lexKeys at this
  rwa [List.length_zipWith, List.length_map, List.length_map, Nat.min_self] at this

theorem ProgArgs.inj {H : List (Halo M)} {idx orderN : List Nat} (h : ProgArgs H idx orderN) {i j : Nat} (hi : i < H.length) (hj : j < H.length) (he : H[i] = H[j]) : i = j := by
  have := (List.Nodup.getElem_inj_iff h.unique (i := i) (j := j) (hi := by simpa using hi) (hj := by simpa using hj)).1 (by simp [he])
  exact this

theorem isDesc_halos {H : List (Halo M)} {i j : Nat} : IsDesc (H.map (·.node)) (H.map (·.desc)) i j ↔ ∃ (hi : i < H.length) (hj : j < H.length), H[i].desc = H[j].node := by
  unfold IsDesc
  constructor
  · rintro ⟨v, h1, h2⟩
    rw [List.getElem?_map, Option.map_eq_some_iff] at h1 h2
    obtain ⟨a, ha, rfl⟩ := h1
    obtain ⟨b, hb, hab⟩ := h2
    obtain ⟨l1, e1⟩ := List.getElem?_eq_some_iff.1 ha
    obtain ⟨l2, e2⟩ := List.getElem?_eq_some_iff.1 hb
    exact ⟨l1, l2, by rw [e1, e2, hab]⟩
  · rintro ⟨hi, hj, he⟩
    exact ⟨H[j].node, by rw [List.getElem?_map, List.getElem?_eq_getElem hi, Option.map_some, he], by rw [List.getElem?_map, List.getElem?_eq_getElem hj]; rfl⟩

/-- Order of positions in `idx` is order of the keys. -/
theorem ProgArgs.before {H : List (Halo M)} {idx orderN : List Nat} (h : ProgArgs H idx orderN) {l1 l2 : List Nat} {i k : Nat} (he : idx = l1 ++ i :: l2) (hk : k ∈ l2) (hi : i < H.length) (hkl : k < H.length) :
    H[i].snap < H[k].snap ∨ (H[i].snap = H[k].snap ∧ H[k].node < H[i].node) := by
  have hs := h.sortI.2
  rw [he] at hs
  unfold fancy at hs
  rw [Sorted, List.map_append, List.pairwise_append, List.map_cons, List.pairwise_cons] at hs
  have hle := hs.2.1.1 _ (List.mem_map_of_mem hk)
  have hlen : (lexKeys (H.map (·.node)) (H.map (·.snap))).length = H.length := by
    unfold lexKeys
    rw [List.length_zipWith, List.length_map, List.length_map, Nat.min_self]
  rw [List.getD_eq_getElem _ _ (by rw [hlen]; exact hi), List.getD_eq_getElem _ _ (by rw [hlen]; exact hkl)] at hle
  unfold lexKeys at hle
  rw [List.getElem_zipWith, List.getElem_zipWith, Prod.Lex.le_iff] at hle
  simp only [ofLex_toLex, List.getElem_map] at hle
  have hne : i ≠ k := by
    rintro rfl
    have hn : idx.Nodup := h.perm.nodup_iff.2 List.nodup_range
    rw [he, List.nodup_append, List.nodup_cons] at hn
    exact hn.2.1.1 hk
  have hnn : H[i].node ≠ H[k].node := by
    intro hc
    exact hne ((List.Nodup.getElem_inj_iff h.unique (i := i) (j := k) (hi := by simpa using hi) (hj := by simpa using hkl)).1 (by simpa using hc))
  omega

section

variable [Field M] [LinearOrder M]

/-- What the function returns in terms of the pointers -/
theorem mainProg_eval {eps : M} {H : List (Halo M)} {idx orderN : List Nat} (h : ProgArgs H idx orderN) :
    ∃ D : List (Option Nat), ∃ mx : List M, ∃ ntie mainprog : List Int,
      findMainProgenitor eps (H.map (·.node)) (H.map (·.desc)) (H.map (·.mbranch)) idx orderN = .ok (ntie, mainprog) ∧
      ntie.length = H.length ∧ mainprog.length = H.length ∧
      (∀ i j, D.getD i none = some j ↔ ∃ (hi : i < H.length) (hj : j < H.length), H[i].desc = H[j].node) ∧
      ∀ j < H.length, BestOf (H.map (·.node)) (H.map (·.mbranch)) D j idx (mx.getD j 0) (mainprog.getD j 0) ∧
        ntie.getD j 0 = (idx.countP (fun i => decide (D.getD i none = some j) && isTie eps ((H.map (·.mbranch)).getD i 0) (mx.getD j 0)) - 1 : Nat) := by
  have hargs : TreeArgs (H.map (·.node)) (H.map (·.desc)) (List.replicate H.length (0 : Int)) orderN (List.range H.length) sortOrder := by
    refine ⟨h.unique, by simp, by simp, h.sortN, ⟨by simp, ?_⟩, sortOrder_isArgsort⟩
    unfold fancy
    rw [Sorted, List.pairwise_map]
    apply List.pairwise_of_forall_mem_list
    intro a ha b hb
    rw [List.getD_eq_getElem _ _ (by simpa using ha), List.getD_eq_getElem _ _ (by simpa using hb)]
    simp
  obtain ⟨ptr, h1, h2, h3, h4⟩ := descPtr hargs
  have h2 : (ptr.map toPtr).length = H.length := by rw [h2, List.length_map]
  unfold findMainProgenitor
  simp only [h1]
  set D := ptr.map toPtr
  have hlM : (H.map (·.mbranch)).length = D.length := by rw [List.length_map, h2]
  have hlN : (H.map (·.node)).length = D.length := by rw [List.length_map, h2]
  simp only [hlM, hlN]
  obtain ⟨s1, s2, s3⟩ := mainProg_loop (node := H.map (·.node)) (mb := H.map (·.mbranch)) h4.valid idx
  generalize idx.foldl (mainProgStep (H.map (·.node)) (H.map (·.mbranch)) D) ⟨List.replicate D.length 0, List.replicate D.length (-1)⟩ = s at s1 s2 s3
  obtain ⟨t1, t2⟩ := tie_loop (eps := eps) (mb := H.map (·.mbranch)) (mx := s.mbranch_max) h4.valid idx
  refine ⟨D, s.mbranch_max, _, _, rfl, by rw [List.length_map, List.length_map, t1, h2], by rw [s2, h2], fun i j => by rw [h3, isDesc_halos], ?_⟩
  intro j hj
  rw [← h2] at hj
  refine ⟨s3 j hj, ?_⟩
  rw [List.map_map, List.getD_eq_getElem _ _ (by rw [List.length_map, t1]; exact hj), List.getElem_map]
  have := t2 j hj
  rw [List.getD_eq_getElem _ _ (by rw [t1]; exact hj)] at this
  rw [this]
  simp only [Function.comp]
  generalize List.countP _ _ = c
  split <;> omega

theorem getD_mbranch {H : List (Halo M)} {i : Nat} (hi : i < H.length) : (H.map (·.mbranch)).getD i 0 = H[i].mbranch := by
  rw [List.getD_eq_getElem _ _ (by simpa using hi), List.getElem_map]

/-- The best halo of the loop is the main progenitor. -/
theorem bestOf_main {H : List (Halo M)} {idx orderN : List Nat} (h : ProgArgs H idx orderN) {D : List (Option Nat)}
    (hD : ∀ i j, D.getD i none = some j ↔ ∃ (hi : i < H.length) (hj : j < H.length), H[i].desc = H[j].node) {j : Nat} (hj : j < H.length) {mx : M} {main : Int}
    (hb : BestOf (H.map (·.node)) (H.map (·.mbranch)) D j idx mx main) :
    (∃ r, IsMain H H[j].node r ∧ main = r.node ∧ mx = r.mbranch) ∨ ((∀ r ∈ H, r.desc = H[j].node → r.mbranch ≤ 0) ∧ main = -1 ∧ mx = 0) := by
  have hmem : ∀ k, k < H.length → k ∈ idx := fun k hk => h.perm.mem_iff.2 (List.mem_range.2 hk)
  rcases hb with ⟨h1, h2, h3⟩ | ⟨l1, i, l2, he, hx, hpos, h2, h3, h4, h5⟩
  · refine .inr ⟨?_, h3, h2⟩
    intro r hr hd
    obtain ⟨k, hk, rfl⟩ := List.getElem_of_mem hr
    have := h1 k (hmem k hk) ((hD k j).2 ⟨hk, hj, hd⟩)
    rwa [getD_mbranch hk] at this
  · obtain ⟨hi, hj', hd⟩ := (hD i j).1 hx
    rw [getD_mbranch hi] at hpos h2 h4 h5
    refine .inl ⟨H[i], ⟨List.getElem_mem hi, hd, hpos, ?_⟩, ?_, h2⟩
    · intro k hk hkd hne
      obtain ⟨k, hkl, rfl⟩ := List.getElem_of_mem hk
      have hkj := (hD k j).2 ⟨hkl, hj, hkd⟩
      have hm := hmem k hkl
      rw [he] at hm
      rcases List.mem_append.1 hm with hm | hm
      · left
        have := h4 k hm hkj
        rwa [getD_mbranch hkl] at this
      · rcases List.mem_cons.1 hm with rfl | hm
        · exact absurd rfl hne
        · have := h5 k hm hkj
          rw [getD_mbranch hkl] at this
          rcases lt_or_eq_of_le this with hlt | heq
          · exact .inl hlt
          · exact .inr ⟨heq, h.before he hm hi hkl⟩
    · rw [h3, List.getD_eq_getElem _ _ (by simpa using hi), List.getElem_map]

/-- C62. For each halo the main progenitor is the best one; if there is none with positive branch mass, -1 is returned. -/
theorem C62_main_progenitor {eps : M} {H : List (Halo M)} {idx orderN : List Nat} (h : ProgArgs H idx orderN) :
    ∃ ntie mainprog, findMainProgenitor eps (H.map (·.node)) (H.map (·.desc)) (H.map (·.mbranch)) idx orderN = .ok (ntie, mainprog) ∧
      mainprog.length = H.length ∧
      ∀ (j : Nat) (x : Halo M), H[j]? = some x → (∃ r, IsMain H x.node r ∧ mainprog[j]? = some r.node) ∨ ((∀ r ∈ H, r.desc = x.node → r.mbranch ≤ 0) ∧ mainprog[j]? = some (-1)) := by
  obtain ⟨D, mx, ntie, mainprog, h1, h2, h3, h4, h5⟩ := mainProg_eval (eps := eps) h
  refine ⟨ntie, mainprog, h1, h3, ?_⟩
  intro j x hx
  obtain ⟨hj, rfl⟩ := List.getElem?_eq_some_iff.1 hx
  have hg : mainprog[j]? = some (mainprog.getD j 0) := by
    rw [List.getElem?_eq_getElem (by rw [h3]; exact hj), List.getD_eq_getElem _ _ (by rw [h3]; exact hj)]
  rw [hg]
  rcases bestOf_main h h4 hj (h5 j hj).1 with ⟨r, hr, he, -⟩ | ⟨hr, he, -⟩
  · exact .inl ⟨r, hr, by rw [he]⟩
  · exact .inr ⟨hr, by rw [he]⟩

theorem isMain_unique {H : List (Halo M)} {v : Int} {r s : Halo M} (hr : IsMain H v r) (hs : IsMain H v s) : r = s := by
  by_contra hne
  have h1 := hr.2.2.2 s hs.1 hs.2.1 (fun h => hne h.symm)
  have h2 := hs.2.2.2 r hr.1 hr.2.1 hne
  rcases h1 with h1 | ⟨h1, h1'⟩
  · rcases h2 with h2 | ⟨h2, -⟩
    · exact lt_asymm h1 h2
    · exact (ne_of_lt h1) h2.symm
  · rcases h2 with h2 | ⟨-, h2'⟩
    · exact (ne_of_lt h2) h1.symm
    · omega

/-- C62. The choice does not depend on the order of the halos in the file, nor on the sorting algorithms. -/
theorem C62_file_order {eps : M} {H H' : List (Halo M)} {idx orderN idx' orderN' : List Nat} (hp : H.Perm H') (h : ProgArgs H idx orderN) (h' : ProgArgs H' idx' orderN') {ntie mainprog ntie' mainprog' : List Int}
    (e : findMainProgenitor eps (H.map (·.node)) (H.map (·.desc)) (H.map (·.mbranch)) idx orderN = .ok (ntie, mainprog))
    (e' : findMainProgenitor eps (H'.map (·.node)) (H'.map (·.desc)) (H'.map (·.mbranch)) idx' orderN' = .ok (ntie', mainprog'))
    {j j' : Nat} {x : Halo M} (hj : H[j]? = some x) (hj' : H'[j']? = some x) : mainprog[j]? = mainprog'[j']? := by
  obtain ⟨nt, mp, h1, -, h3⟩ := C62_main_progenitor (eps := eps) h
  obtain ⟨nt', mp', h1', -, h3'⟩ := C62_main_progenitor (eps := eps) h'
  rw [h1] at e; rw [h1'] at e'
  simp only [Except.ok.injEq, Prod.mk.injEq] at e e'
  obtain ⟨rfl, rfl⟩ := e
  obtain ⟨rfl, rfl⟩ := e'
  have hmain : ∀ r, IsMain H' x.node r → IsMain H x.node r := fun r hr => ⟨hp.mem_iff.2 hr.1, hr.2.1, hr.2.2.1, fun k hk => hr.2.2.2 k (hp.mem_iff.1 hk)⟩
  rcases h3 j x hj with ⟨r, hr, he⟩ | ⟨hr, he⟩ <;> rcases h3' j' x hj' with ⟨r', hr', he'⟩ | ⟨hr', he'⟩
  · rw [he, he', isMain_unique hr (hmain r' hr')]
  · exact absurd hr.2.2.1 (not_lt.2 (hr' r (hp.mem_iff.1 hr.1) hr.2.1))
  · exact absurd hr'.2.2.1 (not_lt.2 (hr r' (hp.mem_iff.2 hr'.1) hr'.2.1))
  · rw [he, he']

variable [IsStrictOrderedRing M]

theorem countP_range {α : Type*} {l : List α} {f : Nat → Bool} {g : α → Bool} (h : ∀ i (hi : i < l.length), f i = g l[i]) : (List.range l.length).countP f = l.countP g := by
  induction l using List.reverseRecOn with
  | nil => rfl
  | append_singleton l a ih =>
    rw [List.length_append, List.length_singleton, List.range_succ, List.countP_append, List.countP_append, ih, List.countP_singleton, List.countP_singleton]
    · have := h l.length (by simp)
      rw [this]
      simp
    · intro i hi
      have := h i (by simp; omega)
      rw [this, List.getElem_append_left hi]

theorem isTie_iff {eps a b : M} (ha : 0 ≤ a) : isTie eps a b = true ↔ |a - b| < eps * a := by
  unfold isTie
  rw [decide_eq_true_iff]
  rcases eq_or_lt_of_le ha with rfl | hpos
  · simp
  · rw [div_lt_iff₀ hpos]
    exact ⟨fun h => h.2, fun h => ⟨hpos.ne', h⟩⟩

/-- C62. If branch masses are not negative, the number of ties is that of other progenitors whose branch mass is equal to the largest up to the relative tolerance. -/
theorem C62_ties {eps : M} (heps : 0 < eps) {H : List (Halo M)} {idx orderN : List Nat} (h : ProgArgs H idx orderN) (hnn : ∀ k ∈ H, 0 ≤ k.mbranch) :
    ∃ ntie mainprog, findMainProgenitor eps (H.map (·.node)) (H.map (·.desc)) (H.map (·.mbranch)) idx orderN = .ok (ntie, mainprog) ∧
      ntie.length = H.length ∧
      ∀ (j : Nat) (x : Halo M), H[j]? = some x →
        (∀ r, IsMain H x.node r → ntie[j]? = some (((H.erase r).countP (fun k => decide (k.desc = x.node ∧ |k.mbranch - r.mbranch| < eps * k.mbranch)) : Nat) : Int)) ∧
        ((∀ r, ¬ IsMain H x.node r) → ntie[j]? = some 0) := by
  obtain ⟨D, mx, ntie, mainprog, h1, h2, h3, h4, h5⟩ := mainProg_eval (eps := eps) h
  refine ⟨ntie, mainprog, h1, h2, ?_⟩
  intro j x hx
  obtain ⟨hj, rfl⟩ := List.getElem?_eq_some_iff.1 hx
  have hg : ntie[j]? = some (ntie.getD j 0) := by
    rw [List.getElem?_eq_getElem (by rw [h2]; exact hj), List.getD_eq_getElem _ _ (by rw [h2]; exact hj)]
  have hcount : idx.countP (fun i => decide (D.getD i none = some j) && isTie eps ((H.map (·.mbranch)).getD i 0) (mx.getD j 0)) =
      H.countP (fun k => decide (k.desc = H[j].node ∧ |k.mbranch - mx.getD j 0| < eps * k.mbranch)) := by
    rw [h.perm.countP_eq]
    apply countP_range
    intro i hi
    rw [Bool.eq_iff_iff]
    have hs : (decide (D.getD i none = some j) = true) ↔ H[i].desc = H[j].node := by
      rw [decide_eq_true_iff, h4]
      exact ⟨fun ⟨_, _, e⟩ => e, fun e => ⟨hi, hj, e⟩⟩
    simp only [Bool.and_eq_true, hs, getD_mbranch hi, isTie_iff (hnn _ (List.getElem_mem hi)), decide_eq_true_iff]
  rw [hg, (h5 j hj).2, hcount]
  rcases bestOf_main h h4 hj (h5 j hj).1 with ⟨r, hr, -, he⟩ | ⟨hr, -, he⟩
  · refine ⟨fun r' hr' => ?_, fun hn => absurd hr (hn r)⟩
    obtain rfl := isMain_unique hr hr'
    rw [he, List.countP_erase, if_pos ⟨hr.1, by
      rw [decide_eq_true_iff]
      exact ⟨hr.2.1, by rw [sub_self, abs_zero]; exact mul_pos heps hr.2.2.1⟩⟩]
  · refine ⟨fun r' hr' => absurd hr'.2.2.1 (not_lt.2 (hr r' hr'.1 hr'.2.1)), fun _ => ?_⟩
    have : H.countP (fun k => decide (k.desc = H[j].node ∧ |k.mbranch - mx.getD j 0| < eps * k.mbranch)) = 0 := by
      rw [List.countP_eq_zero]
      intro k hk
      rw [decide_eq_true_iff]
      rintro ⟨hkd, hlt⟩
      have : k.mbranch = 0 := le_antisymm (hr k hk hkd) (hnn k hk)
      rw [this, he] at hlt
      simp at hlt
    rw [this]
    rfl

end

/-! ### Cases -/

/-- 20, 30, 40, 50 and 60 merge into 10, the last one with no mass; 30, 40 and 50 have equal mass. 30 is at the earliest time. 80 and 90, at the same time, merge into 20. 95 without mass merges into 30. -/
def exHalos : List (Halo Rat) := [⟨10, -1, 5, 9⟩, ⟨50, 10, 4, 7⟩, ⟨20, 10, 4, 2⟩, ⟨30, 10, 3, 7⟩, ⟨40, 10, 4, 7⟩, ⟨60, 10, 2, 0⟩, ⟨80, 20, 3, 4⟩, ⟨90, 20, 3, 4⟩, ⟨95, 30, 2, 0⟩]

def exProg (H : List (Halo Rat)) : Except Err (List Int × List Int) :=
  findMainProgenitor (1 / 100000) (H.map (·.node)) (H.map (·.desc)) (H.map (·.mbranch)) (lexOrder (H.map (·.node)) (H.map (·.snap))) (sortOrder (H.map (·.node)))

example : ProgArgs exHalos (lexOrder (exHalos.map (·.node)) (exHalos.map (·.snap))) (sortOrder (exHalos.map (·.node))) :=
  ⟨by decide +kernel, lexOrder_isArgsort _ _, sortOrder_isArgsort _⟩

example : exProg exHalos = .ok ([2, 0, 1, 0, 0, 0, 0, 0, 0], [30, -1, 90, -1, -1, -1, -1, -1, -1]) := by decide +kernel
example : exProg exHalos.reverse = .ok ([0, 0, 0, 0, 0, 0, 1, 0, 2], [-1, -1, -1, -1, -1, -1, 90, -1, 30]) := by decide +kernel
example : ∀ k ∈ exHalos, 0 ≤ k.mbranch := by decide +kernel
example : IsMain exHalos 10 ⟨30, 10, 3, 7⟩ := by
  unfold IsMain
  decide +kernel

end Verif
