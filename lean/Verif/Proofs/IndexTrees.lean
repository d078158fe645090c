import Verif.Model.IndexTrees
import Mathlib.Data.List.Induction
import Mathlib.Data.List.GetD
import Mathlib.Data.List.Nodup
import Mathlib.Data.List.Flatten
import Mathlib.Data.List.Perm.Subperm

set_option linter.unusedSectionVars false

namespace Verif

/-! ### The forest -/

/-- The halo reached from `i` by following descendants `k` times -/
def up (D : List (Option Nat)) : Nat → Nat → Option Nat
  | 0, i => some i
  | k + 1, i => (up D k i).bind (fun j => D.getD j none)

theorem up_succ (D : List (Option Nat)) (k i : Nat) : up D (k + 1) i = (D.getD i none).bind (up D k) := by
  induction k with
  | zero => simp [up]
  | succ k ih =>
    rw [up, ih]
    cases h : D.getD i none with
    | none => rfl
    | some j => simp [up]

theorem up_add (D : List (Option Nat)) (a b i : Nat) : up D (a + b) i = (up D a i).bind (up D b) := by
  induction b with
  | zero => cases h : up D a i <;> simp [up, h]
  | succ b ih =>
    rw [← Nat.add_assoc, up, ih]
    cases up D a i <;> simp [up]

theorem up_none_of_le {D : List (Option Nat)} {a b i : Nat} (hab : a ≤ b) (h : up D a i = none) : up D b i = none := by
  obtain ⟨c, rfl⟩ := Nat.exists_eq_add_of_le hab
  rw [up_add, h]; rfl

/-- A final halo is reached. -/
def Rooted (D : List (Option Nat)) (i : Nat) : Prop := ∃ d r, up D d i = some r ∧ D.getD r none = none

theorem Rooted.up_inj {D : List (Option Nat)} {i : Nat} (h : Rooted D i) {a b y : Nat} (ha : up D a i = some y) (hb : up D b i = some y) : a = b := by
  obtain ⟨d, r, h1, h2⟩ := h
  have hnone : up D (d + 1) i = none := by rw [up, h1]; exact h2
  wlog hlt : a ≤ b generalizing a b
  · exact (this hb ha (by omega)).symm
  by_contra hne
  -- y reaches itself in b - a > 0 steps, hence the end is never reached
  have hcyc : up D (b - a) y = some y := by
    have := up_add D a (b - a) i
    rw [show a + (b - a) = b by omega, ha, hb] at this
    exact this.symm
  have hall : ∀ m, up D (a + m * (b - a)) i = some y := by
    intro m
    induction m with
    | zero => simpa using ha
    | succ m ih => rw [Nat.succ_mul, ← Nat.add_assoc, up_add, ih]; exact hcyc
  have hge : d + 1 ≤ a + (d + 1) * (b - a) := by
    have : d + 1 ≤ (d + 1) * (b - a) := Nat.le_mul_of_pos_right _ (by omega)
    omega
  have := up_none_of_le hge hnone
  rw [hall] at this
  cases this

theorem Rooted.end_inj {D : List (Option Nat)} {i : Nat} {a b r s : Nat} (ha : up D a i = some r) (hr : D.getD r none = none) (hb : up D b i = some s) (hs : D.getD s none = none) : a = b := by
  wlog hlt : a ≤ b generalizing a b r s
  · exact (this hb hs ha hr (by omega)).symm
  by_contra hne
  have : up D (a + 1) i = none := by rw [up, ha]; exact hr
  rw [up_none_of_le (by omega : a + 1 ≤ b) this] at hb
  cases hb

theorem Rooted.desc {D : List (Option Nat)} {k i : Nat} (h : Rooted D k) (hk : D.getD k none = some i) : Rooted D i := by
  obtain ⟨d, r, h1, h2⟩ := h
  cases d with
  | zero =>
    simp only [up, Option.some.injEq] at h1
    rw [← h1, hk] at h2; cases h2
  | succ d =>
    rw [up_succ, hk] at h1
    exact ⟨d, r, h1, h2⟩

theorem Rooted.prog {D : List (Option Nat)} {k i : Nat} (h : Rooted D i) (hk : D.getD k none = some i) : Rooted D k := by
  obtain ⟨d, r, h1, h2⟩ := h
  exact ⟨d + 1, r, by rw [up_succ, hk]; exact h1, h2⟩

theorem Rooted.of_up {D : List (Option Nat)} {k i d : Nat} (h : Rooted D i) (hk : up D d k = some i) : Rooted D k := by
  obtain ⟨e, r, h1, h2⟩ := h
  exact ⟨d + e, r, by rw [up_add, hk]; exact h1, h2⟩

/-- Descendants are halos. -/
def ValidDesc (D : List (Option Nat)) : Prop := ∀ i d, D.getD i none = some d → d < D.length

theorem lt_of_desc {D : List (Option Nat)} {k i : Nat} (h : D.getD k none = some i) : k < D.length := by
  by_contra hc
  rw [List.getD_eq_default _ _ (by omega)] at h
  cases h

theorem up_lt {D : List (Option Nat)} (hD : ValidDesc D) {d i j : Nat} (hi : i < D.length) (h : up D d i = some j) : j < D.length := by
  cases d with
  | zero => simp only [up, Option.some.injEq] at h; omega
  | succ d =>
    rw [up] at h
    cases hq : up D d i with
    | none => rw [hq] at h; cases h
    | some m => rw [hq] at h; exact hD m j h

/-- A chain of descendants visits each halo once, so that it is shorter than the number of halos. -/
theorem depth_lt {D : List (Option Nat)} (hD : ValidDesc D) {i d r : Nat} (hi : i < D.length) (h1 : up D d i = some r) (h2 : D.getD r none = none) : d < D.length := by
  have hsome : ∀ j, j ≤ d → ∃ x, up D j i = some x := by
    intro j hj
    cases hq : up D j i with
    | none => rw [up_none_of_le hj hq] at h1; cases h1
    | some x => exact ⟨x, rfl⟩
  have hnd : ((List.range (d + 1)).map (fun j => (up D j i).getD 0)).Nodup := by
    apply List.Nodup.map_on _ List.nodup_range
    intro a ha b hb hab
    obtain ⟨x, hx⟩ := hsome a (by have := List.mem_range.1 ha; omega)
    obtain ⟨y, hy⟩ := hsome b (by have := List.mem_range.1 hb; omega)
    rw [hx, hy] at hab
    simp only [Option.getD_some] at hab
    exact Rooted.up_inj ⟨d, r, h1, h2⟩ hx (by rw [hy, hab])
  have hsub : ((List.range (d + 1)).map (fun j => (up D j i).getD 0)) ⊆ List.range D.length := by
    intro y hy
    obtain ⟨j, hj, rfl⟩ := List.mem_map.1 hy
    obtain ⟨x, hx⟩ := hsome j (by have := List.mem_range.1 hj; omega)
    rw [hx]
    exact List.mem_range.2 (up_lt hD hi hx)
  have := (List.subperm_of_subset hnd hsub).length_le
  simp at this
  omega

/-! ### Lists of progenitors -/

/-- Progenitors of `i`, the last in the sorting order first -/
def kids (D : List (Option Nat)) (order : List Nat) (i : Nat) : List Nat := order.reverse.filter (fun k => decide (D.getD k none = some i))

theorem kids_append (D : List (Option Nat)) (order : List Nat) (x i : Nat) : kids D (order ++ [x]) i = if D.getD x none = some i then x :: kids D order i else kids D order i := by
  unfold kids
  rw [List.reverse_append, List.reverse_singleton, List.singleton_append, List.filter_cons]
  by_cases h : D.getD x none = some i <;> simp [h]

theorem mem_kids {D : List (Option Nat)} {order : List Nat} {k i : Nat} : k ∈ kids D order i ↔ k ∈ order ∧ D.getD k none = some i := by
  simp [kids]

theorem getD_set_opt (l : List (Option Nat)) (i j : Nat) (v : Option Nat) (hi : i < l.length) : (l.set i v).getD j none = if i = j then v else l.getD j none := by
  rw [List.getD_eq_getElem?_getD, List.getD_eq_getElem?_getD, List.getElem?_set]
  by_cases h : i = j
  · subst h; simp [hi]
  · simp [h]

theorem getD_replicate_none (n i : Nat) : (List.replicate n (none : Option Nat)).getD i none = none := by
  rw [List.getD_eq_getElem?_getD, List.getElem?_replicate]
  split <;> rfl

/-- The linked lists are the lists of progenitors. -/
structure LinksInv (D : List (Option Nat)) (order : List Nat) (l : Links) : Prop where
  plen : l.prog.length = D.length
  nlen : l.next.length = D.length
  prog : ∀ i, l.prog.getD i none = (kids D order i).head?
  next : ∀ i a k b, kids D order i = a ++ k :: b → l.next.getD k none = b.head?
  fresh : ∀ k, k ∉ order → l.next.getD k none = none

theorem links_inv {D : List (Option Nat)} (hD : ValidDesc D) {order : List Nat} (hn : order.Nodup) : LinksInv D order (makeLinks D order) := by
  induction order using List.reverseRecOn with
  | nil =>
    refine ⟨by simp [makeLinks], by simp [makeLinks], ?_, ?_, ?_⟩
    · intro i; simp only [makeLinks, List.foldl_nil, getD_replicate_none]; rfl
    · intro i a k b h; simp [kids] at h
    · intro k _; simp only [makeLinks, List.foldl_nil, getD_replicate_none]
  | append_singleton order x ih =>
    obtain ⟨hn1, -, hn2⟩ := List.nodup_append.1 hn
    have hx : x ∉ order := fun hc => hn2 x hc x (by simp) rfl
    have ih := ih hn1
    have hmk : makeLinks D (order ++ [x]) = addProgenitor D (makeLinks D order) x := by simp [makeLinks]
    rw [hmk]
    generalize makeLinks D order = l at ih
    unfold addProgenitor
    cases hd : D.getD x none with
    | none =>
      have hk : ∀ i, kids D (order ++ [x]) i = kids D order i := by intro i; rw [kids_append, hd]; simp
      refine ⟨ih.plen, ih.nlen, fun i => by rw [hk]; exact ih.prog i, fun i a k b h => ih.next i a k b (by rw [← hk]; exact h), fun k hk => ih.fresh k (fun hc => hk (by simp [hc]))⟩
    | some d =>
      have hdl := hD x d hd
      have hxl := lt_of_desc hd
      have hk : ∀ i, kids D (order ++ [x]) i = if d = i then x :: kids D order i else kids D order i := by intro i; rw [kids_append, hd]; simp
      have hxk : ∀ i, x ∉ kids D order i := fun i hc => hx (mem_kids.1 hc).1
      simp only
      cases hp : l.prog.getD d none with
      | none =>
        have hnil : kids D order d = [] := by
          rw [ih.prog d] at hp
          simpa using hp
        simp only
        refine ⟨by simp [ih.plen], ih.nlen, ?_, ?_, fun k hk => ih.fresh k (fun hc => hk (by simp [hc]))⟩
        · intro i
          rw [getD_set_opt _ _ _ _ (by rw [ih.plen]; exact hdl), hk]
          by_cases h : d = i
          · simp [h]
          · simp only [h, if_false]; exact ih.prog i
        · intro i a k b h
          rw [hk] at h
          by_cases hi : d = i
          · subst hi
            rw [if_pos rfl, hnil] at h
            have ha : a = [] := by
              cases a with
              | nil => rfl
              | cons y a => simp at h
            subst ha
            simp only [List.nil_append, List.cons.injEq] at h
            rw [← h.1, ← h.2]
            exact ih.fresh x hx
          · rw [if_neg hi] at h
            exact ih.next i a k b h
      | some t =>
        have hhead : (kids D order d).head? = some t := by rw [← ih.prog d]; exact hp
        simp only
        refine ⟨by simp [ih.plen], by simp [ih.nlen], ?_, ?_, ?_⟩
        · intro i
          rw [getD_set_opt _ _ _ _ (by rw [ih.plen]; exact hdl), hk]
          by_cases h : d = i
          · simp [h]
          · simp only [h, if_false]; exact ih.prog i
        · intro i a k b h
          rw [getD_set_opt _ _ _ _ (by rw [ih.nlen]; exact hxl)]
          rw [hk] at h
          by_cases hi : d = i
          · subst hi
            rw [if_pos rfl] at h
            cases a with
            | nil =>
              simp only [List.nil_append, List.cons.injEq] at h
              rw [if_pos h.1, ← h.2, hhead]
            | cons y a =>
              simp only [List.cons_append, List.cons.injEq] at h
              rw [if_neg, ih.next d a k b h.2]
              rintro rfl
              exact hxk d (by rw [h.2]; simp)
          · rw [if_neg hi] at h
            rw [if_neg, ih.next i a k b h]
            rintro rfl
            exact hxk i (by rw [h]; simp)
        · intro k hk
          rw [getD_set_opt _ _ _ _ (by rw [ih.nlen]; exact hxl), if_neg (by rintro rfl; exact hk (by simp))]
          exact ih.fresh k (fun hc => hk (by simp [hc]))

/-! ### Depth first order, recursively -/

/-- A halo, then the trees of its progenitors; `h` bounds the depth. -/
def preorder (K : Nat → List Nat) : Nat → Nat → List Nat
  | 0, _ => []
  | h + 1, i => i :: (K i).flatMap (preorder K h)

/-- The tree has at most `h` levels. -/
def Ht (K : Nat → List Nat) : Nat → Nat → Prop
  | 0, _ => False
  | h + 1, i => ∀ k ∈ K i, Ht K h k

theorem Ht.succ {K : Nat → List Nat} {h i : Nat} (hh : Ht K h i) : Ht K (h + 1) i ∧ preorder K (h + 1) i = preorder K h i := by
  induction h generalizing i with
  | zero => exact hh.elim
  | succ h ih =>
    refine ⟨fun k hk => (ih (hh k hk)).1, ?_⟩
    rw [preorder, preorder]
    congr 1
    apply List.flatMap_congr
    intro k hk
    exact (ih (hh k hk)).2

theorem ht_of_depth {D : List (Option Nat)} (hD : ValidDesc D) (order : List Nat) {h i d r : Nat} (hi : i < D.length) (h1 : up D d i = some r) (h2 : D.getD r none = none) (hh : D.length ≤ h + d) :
    Ht (kids D order) h i := by
  induction h generalizing i d with
  | zero => have := depth_lt hD hi h1 h2; omega
  | succ h ih =>
    intro k hk
    have hk := (mem_kids.1 hk).2
    exact ih (d := d + 1) (lt_of_desc hk) (by rw [up_succ, hk]; exact h1) (by omega)

/-- The tree of a halo -/
def sub (D : List (Option Nat)) (order : List Nat) (i : Nat) : List Nat := preorder (kids D order) D.length i

theorem Rooted.ht {D : List (Option Nat)} (hD : ValidDesc D) (order : List Nat) {i : Nat} (hi : i < D.length) (h : Rooted D i) : Ht (kids D order) D.length i := by
  obtain ⟨d, r, h1, h2⟩ := h
  exact ht_of_depth hD order hi h1 h2 (by omega)

theorem sub_eq {D : List (Option Nat)} (hD : ValidDesc D) (order : List Nat) {i : Nat} (hi : i < D.length) (h : Rooted D i) : sub D order i = i :: (kids D order i).flatMap (sub D order) := by
  unfold sub
  rw [← (h.ht hD order hi).succ.2, preorder]

theorem mem_preorder {D : List (Option Nat)} {order : List Nat} (ho : ∀ k, k < D.length → k ∈ order) {h i : Nat} (hh : Ht (kids D order) h i) {x : Nat} :
    x ∈ preorder (kids D order) h i ↔ ∃ d, up D d x = some i := by
  induction h generalizing i with
  | zero => exact hh.elim
  | succ h ih =>
    rw [preorder, List.mem_cons, List.mem_flatMap]
    constructor
    · rintro (rfl | ⟨k, hk, hx⟩)
      · exact ⟨0, rfl⟩
      · obtain ⟨d, hd⟩ := (ih (hh k hk)).1 hx
        exact ⟨d + 1, by rw [up, hd]; exact (mem_kids.1 hk).2⟩
    · rintro ⟨d, hd⟩
      cases d with
      | zero => left; simpa [up] using hd
      | succ d =>
        right
        rw [up] at hd
        cases hq : up D d x with
        | none => rw [hq] at hd; cases hd
        | some k =>
          rw [hq] at hd
          have hd : D.getD k none = some i := hd
          have hk : k ∈ kids D order i := mem_kids.2 ⟨ho k (lt_of_desc hd), hd⟩
          exact ⟨k, hk, (ih (hh k hk)).2 ⟨d, hq⟩⟩

theorem mem_sub {D : List (Option Nat)} (hD : ValidDesc D) {order : List Nat} (ho : ∀ k, k < D.length → k ∈ order) {i : Nat} (hi : i < D.length) (h : Rooted D i) {x : Nat} :
    x ∈ sub D order i ↔ ∃ d, up D d x = some i := mem_preorder ho (h.ht hD order hi)

theorem nodup_preorder {D : List (Option Nat)} {order : List Nat} (ho : ∀ k, k < D.length → k ∈ order) (hn : order.Nodup) {h i : Nat} (hh : Ht (kids D order) h i) (hr : Rooted D i) :
    (preorder (kids D order) h i).Nodup := by
  induction h generalizing i with
  | zero => exact hh.elim
  | succ h ih =>
    rw [preorder, List.nodup_cons]
    constructor
    · intro hc
      obtain ⟨k, hk, hx⟩ := List.mem_flatMap.1 hc
      obtain ⟨d, hd⟩ := (mem_preorder ho (hh k hk)).1 hx
      have := hr.up_inj (a := 0) (b := d + 1) (y := i) rfl (by rw [up, hd]; exact (mem_kids.1 hk).2)
      omega
    · rw [List.nodup_flatMap]
      refine ⟨fun k hk => ih (hh k hk) (hr.prog (mem_kids.1 hk).2), ?_⟩
      have hkn : (kids D order i).Nodup := ((List.nodup_reverse.2 hn)).filter _
      refine hkn.imp_of_mem ?_
      intro a b ha hb hab
      rw [Function.onFun, List.disjoint_left]
      intro x hxa hxb
      obtain ⟨d, hd⟩ := (mem_preorder ho (hh a ha)).1 hxa
      obtain ⟨e, he⟩ := (mem_preorder ho (hh b hb)).1 hxb
      have ha' := (mem_kids.1 ha).2
      have hb' := (mem_kids.1 hb).2
      have hrx : Rooted D x := (hr.prog ha').of_up hd
      have := hrx.up_inj (a := d + 1) (b := e + 1) (y := i) (by rw [up, hd]; exact ha') (by rw [up, he]; exact hb')
      have : d = e := by omega
      subst this
      rw [hd] at he
      exact hab (Option.some.inj he)

/-! ### The walk -/

/-- Successive numbers for the elements of a list -/
def numberFrom (df : List Int) (m : Nat) : List Nat → List Int
  | [] => df
  | x :: xs => numberFrom (df.set x m) (m + 1) xs

theorem numberFrom_cons (df : List Int) (m x : Nat) (xs : List Nat) : numberFrom df m (x :: xs) = numberFrom (df.set x m) (m + 1) xs := rfl

theorem numberFrom_append (df : List Int) (m : Nat) (a b : List Nat) : numberFrom df m (a ++ b) = numberFrom (numberFrom df m a) (m + a.length) b := by
  induction a generalizing df m with
  | nil => rfl
  | cons x a ih =>
    rw [List.cons_append, numberFrom, ih, numberFrom, List.length_cons]
    congr 1
    omega

/-- Reached in some number of steps, before the end of the walk -/
inductive Reach (D : List (Option Nat)) (l : Links) (f : Nat) : Walk → Walk → Prop
  | refl (w : Walk) : Reach D l f w w
  | step {w w' w'' : Walk} (h : w.pc ≠ .done) (hs : walkStep D l f w = .ok w') (hr : Reach D l f w' w'') : Reach D l f w w''

theorem Reach.trans {D : List (Option Nat)} {l : Links} {f : Nat} {a b c : Walk} (h : Reach D l f a b) (g : Reach D l f b c) : Reach D l f a c := by
  induction h with
  | refl => exact g
  | step h hs _ ih => exact .step h hs (ih g)

theorem Reach.run {D : List (Option Nat)} {l : Links} {f : Nat} {a b : Walk} (h : Reach D l f a b) (hb : b.pc = .done) : ∃ N, ∀ fuel, N ≤ fuel → walkRun D l f fuel a = .ok b := by
  induction h with
  | refl w =>
    refine ⟨1, fun fuel hf => ?_⟩
    obtain ⟨fuel, rfl⟩ := Nat.exists_eq_add_of_le' hf
    rw [walkRun, if_pos hb]
  | step h hs _ ih =>
    obtain ⟨N, hN⟩ := ih hb
    refine ⟨N + 1, fun fuel hf => ?_⟩
    obtain ⟨fuel, rfl⟩ := Nat.exists_eq_add_of_le' (Nat.le_of_add_left_le hf)
    rw [walkRun, if_neg h, hs]
    exact hN fuel (by omega)

theorem reach_subtree {D : List (Option Nat)} {order : List Nat} {l : Links} (hl : LinksInv D order l) {f : Nat} (hf : D.getD f none = none) {h i : Nat} (hh : Ht (kids D order) h i)
    (S : List (Option Nat)) (df : List Int) (m : Nat) :
    Reach D l f ⟨.descend, i, S, df, m⟩ ⟨.ascend, i, S, numberFrom df m (preorder (kids D order) h i).tail, m + (preorder (kids D order) h i).tail.length⟩ := by
  induction h generalizing i S df m with
  | zero => exact hh.elim
  | succ h ih =>
    rw [preorder, List.tail_cons]
    -- the trees of the remaining progenitors
    have hsib : ∀ b a k (df : List Int) (m : Nat), kids D order i = a ++ k :: b →
        Reach D l f ⟨.descend, k, b.head? :: S, df, m⟩
          ⟨.ascend, i, S, numberFrom df m ((preorder (kids D order) h k).tail ++ b.flatMap (preorder (kids D order) h)),
            m + ((preorder (kids D order) h k).tail ++ b.flatMap (preorder (kids D order) h)).length⟩ := by
      intro b
      induction b with
      | nil =>
        intro a k df m hk
        have hkm : k ∈ kids D order i := by rw [hk]; simp
        refine (ih (hh k hkm) _ df m).trans ?_
        refine .step (by simp) (w' := ⟨.ascend, i, S, numberFrom df m (preorder (kids D order) h k).tail, m + (preorder (kids D order) h k).tail.length⟩) ?_ ?_
        · simp only [walkStep, (mem_kids.1 hkm).2, List.head?_nil]
        · simp only [List.flatMap_nil, List.append_nil]
          exact .refl _
      | cons s b ihb =>
        intro a k df m hk
        have hkm : k ∈ kids D order i := by rw [hk]; simp
        have hsm : s ∈ kids D order i := by rw [hk]; simp
        have hk' : kids D order i = (a ++ [k]) ++ s :: b := by rw [hk]; simp
        have hsf : s ≠ f := by
          rintro rfl
          rw [(mem_kids.1 hsm).2] at hf; cases hf
        refine (ih (hh k hkm) _ df m).trans ?_
        refine .step (by simp) (w' := ⟨.check, s, b.head? :: S, numberFrom df m (preorder (kids D order) h k).tail, m + (preorder (kids D order) h k).tail.length⟩) ?_ ?_
        · simp only [walkStep, (mem_kids.1 hkm).2, List.head?_cons, hl.next i _ s b hk']
        refine .step (by simp) (by simp only [walkStep, if_neg hsf]; rfl) ?_
        refine .step (by simp) rfl ?_
        have := ihb (a ++ [k]) s ((numberFrom df m (preorder (kids D order) h k).tail).set s ((m + (preorder (kids D order) h k).tail.length : Nat) : Int)) (m + (preorder (kids D order) h k).tail.length + 1) hk'
        refine this.trans ?_
        have hpre : ∃ t, preorder (kids D order) h s = s :: t := by
          cases h with
          | zero => exact (hh s hsm).elim
          | succ h => exact ⟨_, rfl⟩
        obtain ⟨t, ht⟩ := hpre
        rw [List.flatMap_cons, ht, List.tail_cons, List.cons_append, numberFrom_append df m, numberFrom_cons]
        have hlen : m + (preorder (kids D order) h k).tail.length + 1 + (t ++ b.flatMap (preorder (kids D order) h)).length =
            m + ((preorder (kids D order) h k).tail ++ s :: (t ++ b.flatMap (preorder (kids D order) h))).length := by
          simp only [List.length_append, List.length_cons]; omega
        rw [hlen]
        exact .refl _
    cases hk : kids D order i with
    | nil =>
      refine .step (by simp) (w' := ⟨.ascend, i, S, df, m⟩) ?_ (.refl _)
      simp only [walkStep, hl.prog i, hk, List.head?_nil]
    | cons k b =>
      have hkm : k ∈ kids D order i := by rw [hk]; simp
      refine .step (by simp) (w' := ⟨.descend, k, b.head? :: S, df.set k m, m + 1⟩) ?_ ?_
      · simp only [walkStep, hl.prog i, hk, List.head?_cons, hl.next i [] k b hk]
      · refine (hsib b [] k (df.set k m) (m + 1) hk).trans ?_
        have hpre : ∃ t, preorder (kids D order) h k = k :: t := by
          cases h with
          | zero => exact (hh k hkm).elim
          | succ h => exact ⟨_, rfl⟩
        obtain ⟨t, ht⟩ := hpre
        rw [List.flatMap_cons, ht, List.tail_cons, List.cons_append, numberFrom_cons]
        have hlen : m + 1 + (t ++ b.flatMap (preorder (kids D order) h)).length = m + (k :: (t ++ b.flatMap (preorder (kids D order) h))).length := by
          simp only [List.length_cons]; omega
        rw [hlen]
        exact .refl _

theorem walkRun_tree {D : List (Option Nat)} (hD : ValidDesc D) {order : List Nat} {l : Links} (hl : LinksInv D order l) {f : Nat} (hfl : f < D.length) (hf : D.getD f none = none) (df : List Int) (m : Nat) :
    ∃ N, ∀ fuel, N ≤ fuel → ∃ w, walkRun D l f fuel ⟨.assign, f, [none], df, m⟩ = .ok w ∧ w.depthFirst = numberFrom df m (sub D order f) ∧ w.next_index = m + (sub D order f).length := by
  have hr : Rooted D f := ⟨0, f, rfl, hf⟩
  have hh := hr.ht hD order hfl
  have key : Reach D l f ⟨.assign, f, [none], df, m⟩ ⟨.done, f, [none], numberFrom df m (sub D order f), m + (sub D order f).length⟩ := by
    refine .step (by simp) rfl ?_
    refine (reach_subtree hl hf hh [none] (df.set f (m : Int)) (m + 1)).trans ?_
    refine .step (by simp) (by simp only [walkStep, hf]; rfl) ?_
    refine .step (by simp) (by simp only [walkStep, if_true]; rfl) ?_
    have hsub : sub D order f = f :: (preorder (kids D order) D.length f).tail := by
      unfold sub
      cases hn : D.length with
      | zero => omega
      | succ n => rfl
    rw [hsub, numberFrom_cons, List.length_cons]
    have : m + 1 + (preorder (kids D order) D.length f).tail.length = m + ((preorder (kids D order) D.length f).tail.length + 1) := by omega
    rw [this]
    exact .refl _
  obtain ⟨N, hN⟩ := key.run rfl
  exact ⟨N, fun fuel hf => ⟨_, hN fuel hf, rfl, rfl⟩⟩

theorem walkAll_ok {D : List (Option Nat)} (hD : ValidDesc D) {order : List Nat} {l : Links} (hl : LinksInv D order l) (finals : List Nat) (hfin : ∀ f ∈ finals, f < D.length ∧ D.getD f none = none)
    (df : List Int) (m : Nat) :
    ∃ N, ∀ fuel, N ≤ fuel → ∃ m', walkAll D l fuel finals df m = .ok (numberFrom df m (finals.flatMap (sub D order)), m') := by
  induction finals generalizing df m with
  | nil => exact ⟨0, fun fuel _ => ⟨m, rfl⟩⟩
  | cons f finals ih =>
    obtain ⟨h1, h2⟩ := hfin f (by simp)
    obtain ⟨N, hN⟩ := walkRun_tree hD hl h1 h2 df m
    obtain ⟨N', hN'⟩ := ih (fun g hg => hfin g (by simp [hg])) (numberFrom df m (sub D order f)) (m + (sub D order f).length)
    refine ⟨max N N', fun fuel hfu => ?_⟩
    obtain ⟨w, hw1, hw2, hw3⟩ := hN fuel (le_trans (le_max_left _ _) hfu)
    obtain ⟨m', hm'⟩ := hN' fuel (le_trans (le_max_right _ _) hfu)
    refine ⟨m', ?_⟩
    rw [walkAll, hw1]
    simp only
    rw [hw2, hw3, hm', List.flatMap_cons, numberFrom_append]

end Verif
