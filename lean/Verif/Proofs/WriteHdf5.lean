import Verif.Proofs.ReadBinaryAttrs
import Verif.Spec.WriteHdf5
import Mathlib.Data.List.Nodup

/-! `write_hdf5` gives a copy of the tree. -/

namespace Verif.WriteHdf5

/-! ### Dictionaries -/

theorem mem_dset {β : Type*} {d : List (Name × β)} {k : Name} {v : β} {e : Name × β} (h : e ∈ dset d k v) : e = (k, v) ∨ e ∈ d := by
  induction d with
  | nil => simp [dset] at h; exact Or.inl h
  | cons x d ih =>
    obtain ⟨a, w⟩ := x
    simp only [dset] at h
    split at h
    · rename_i hk
      rcases List.mem_cons.1 h with h | h
      · left; rw [h, hk]
      · right; exact List.mem_cons_of_mem _ h
    · rcases List.mem_cons.1 h with h | h
      · right; rw [h]; exact List.mem_cons_self
      · rcases ih h with h | h
        · exact Or.inl h
        · exact Or.inr (List.mem_cons_of_mem _ h)

theorem keys_dset {β : Type*} {d : List (Name × β)} {k : Name} {v : β} {x : Name} (h : x ∈ (dset d k v).map Prod.fst) : x = k ∨ x ∈ d.map Prod.fst := by
  obtain ⟨e, he, rfl⟩ := List.mem_map.1 h
  rcases mem_dset he with rfl | he
  · exact Or.inl rfl
  · exact Or.inr (List.mem_map_of_mem he)

theorem nodup_dset {β : Type*} {d : List (Name × β)} (k : Name) (v : β) (h : (d.map Prod.fst).Nodup) : ((dset d k v).map Prod.fst).Nodup := by
  induction d with
  | nil => simp [dset]
  | cons x d ih =>
    obtain ⟨a, w⟩ := x
    simp only [List.map_cons, List.nodup_cons] at h
    simp only [dset]
    split
    · simpa using h
    · rename_i hk
      simp only [List.map_cons, List.nodup_cons]
      refine ⟨fun hm => ?_, ih h.2⟩
      rcases keys_dset hm with e | e
      · exact hk e
      · exact h.1 e

theorem dget_of_mem {β : Type*} {d : List (Name × β)} (h : (d.map Prod.fst).Nodup) {n : Name} {v : β} (hm : (n, v) ∈ d) : dget d n = some v := by
  induction d with
  | nil => simp at hm
  | cons x d ih =>
    obtain ⟨a, w⟩ := x
    simp only [List.map_cons, List.nodup_cons] at h
    rcases List.mem_cons.1 hm with e | e
    · cases e; simp [dget]
    · have hne : a ≠ n := by rintro rfl; exact h.1 (List.mem_map_of_mem (f := Prod.fst) e)
      have : dget ((a, w) :: d) n = dget d n := by simp [dget, hne]
      rw [this]; exact ih h.2 e

theorem mem_of_dget {β : Type*} {d : List (Name × β)} {n : Name} {v : β} (h : dget d n = some v) : (n, v) ∈ d := by
  induction d with
  | nil => simp [dget] at h
  | cons x d ih =>
    obtain ⟨a, w⟩ := x
    by_cases e : a = n
    · subst e; simp [dget] at h; rw [h]; exact List.mem_cons_self
    · have : dget ((a, w) :: d) n = dget d n := by simp [dget, e]
      rw [this] at h; exact List.mem_cons_of_mem _ (ih h)

theorem dget_notin {β : Type*} {d : List (Name × β)} {n : Name} (h : n ∉ d.map Prod.fst) : dget d n = none := by
  cases hq : dget d n with
  | none => rfl
  | some v => exact absurd (List.mem_map_of_mem (f := Prod.fst) (mem_of_dget hq)) h

theorem dset_new {β : Type*} {d : List (Name × β)} {n : Name} (v : β) (h : n ∉ d.map Prod.fst) : dset d n v = d ++ [(n, v)] := by
  induction d with
  | nil => rfl
  | cons x d ih =>
    obtain ⟨a, w⟩ := x
    simp only [List.map_cons, List.mem_cons, not_or] at h
    simp only [dset, if_neg (Ne.symm h.1), ih h.2, List.cons_append]

theorem dget_map {β γ : Type*} (f : β → γ) (d : List (Name × β)) (n : Name) : dget (d.map (fun e => (e.1, f e.2))) n = (dget d n).map f := by
  induction d with
  | nil => rfl
  | cons x d ih =>
    obtain ⟨a, w⟩ := x
    by_cases e : a = n
    · simp [dget, e]
    · have h1 : dget ((a, w) :: d) n = dget d n := by simp [dget, e]
      have h2 : dget (((a, w) :: d).map (fun e => (e.1, f e.2))) n = dget (d.map (fun e => (e.1, f e.2))) n := by simp [dget, e]
      rw [h1, h2, ih]

/-! ### The tree of a file -/

/-- What holds for one group; `top` is the file itself. -/
structure Local (top : Bool) (h : BGroup) : Prop where
  ds : (h.datasets.map Prod.fst).Nodup
  gs : (h.groups.map Prod.fst).Nodup
  ats : (h.attrs.map Prod.fst).Nodup
  da : ∀ e ∈ h.datasets, (e.2.2.map Prod.fst).Nodup ∧ ∀ x ∈ e.2.2, x.1 ≠ []
  disj : ∀ n d, dget h.datasets n = some d → dget h.groups n = none
  gn : ∀ e ∈ h.groups, e.1 ≠ []
  dn : top = false → ∀ e ∈ h.datasets, e.1 ≠ []
  an : top = false → ∀ e ∈ h.attrs, e.1 ≠ []

/-- The same for all groups below -/
def Tidy (top : Bool) (g : BGroup) : Prop := ∀ cs h, groupAt g cs = some h → Local (top && cs.isEmpty) h

theorem tidy_iff (top : Bool) (g : BGroup) : Tidy top g ↔ Local top g ∧ ∀ n h, dget g.groups n = some h → Tidy false h := by
  constructor
  · intro hc
    refine ⟨by simpa using hc [] g rfl, fun n h hn cs k hk => ?_⟩
    have := hc (n :: cs) k (by simp only [groupAt, hn, hk])
    simpa using this
  · rintro ⟨h1, h2⟩ cs h hh
    cases cs with
    | nil => simp only [groupAt, Option.some.injEq] at hh; subst hh; simpa using h1
    | cons n rest =>
      simp only [groupAt] at hh
      split at hh
      · rename_i k hk
        have := h2 n k hk rest h hh
        simpa using this
      · cases hh

theorem tidy_empty (top : Bool) : Tidy top .empty := by
  rw [tidy_iff]
  refine ⟨⟨?_, ?_, ?_, ?_, ?_, ?_, ?_, ?_⟩, fun n h hh => ?_⟩ <;> simp_all [BGroup.empty, BGroup.datasets, BGroup.groups, BGroup.attrs, dget_nil]

theorem tidy_getD {top a d g} (hc : Tidy top (.mk a d g)) (n : Name) : Tidy false ((dget g n).getD .empty) := by
  cases h : dget g n with
  | none => exact tidy_empty false
  | some k => exact ((tidy_iff _ _).1 hc).2 n k h

theorem tidy_dset {top a d g} (hc : Tidy top (.mk a d g)) {n : Name} {h : BGroup} (hn : dget d n = none) (hne : n ≠ []) (hh : Tidy false h) : Tidy top (.mk a d (dset g n h)) := by
  rw [tidy_iff] at hc ⊢
  obtain ⟨⟨c1, c2, c3, c4, c5, c6, c7, c8⟩, h2⟩ := hc
  simp only [BGroup.datasets, BGroup.groups, BGroup.attrs] at c1 c2 c3 c4 c5 c6 c7 c8 h2
  refine ⟨⟨c1, nodup_dset n h c2, c3, c4, fun m x hm => ?_, fun e he => ?_, c7, c8⟩, fun m k hk => ?_⟩
  · simp only [BGroup.groups, BGroup.datasets, dget_dset] at hm ⊢
    by_cases e : n = m
    · subst e; rw [hn] at hm; cases hm
    · rw [if_neg e]; exact c5 m x hm
  · rcases mem_dset he with rfl | he
    · exact hne
    · exact c6 e he
  · simp only [BGroup.groups, dget_dset] at hk
    by_cases e : n = m
    · rw [if_pos e] at hk; cases hk; exact hh
    · rw [if_neg e] at hk; exact h2 m k hk

theorem comps_nonempty {p : Name} (h : pieces p ≠ []) : ∀ n ∈ comps p, n ≠ [] := by
  intro n hn
  rw [comps, if_neg h] at hn
  simpa using (List.mem_filter.1 hn).2

/-- A path with a slash inside has names which are not empty. -/
theorem splitPath_names {p h t : Name} (hp : splitPath p = (some h, t)) : h ≠ [] ∧ pieces t ≠ [] ∧ t ≠ [] := by
  obtain ⟨h1, h2, -⟩ := splitPath_some hp
  have hpp : pieces p ≠ [] := by
    intro hq
    rw [comps, if_pos hq] at h1
    simp only [List.cons.injEq] at h1
    exact h2 h1.2.symm
  have hall := comps_nonempty hpp
  rw [h1] at hall
  have ht : pieces t ≠ [] := by
    intro hq
    have : comps t = [[]] := by rw [comps, if_pos hq]
    rw [this] at hall
    exact hall [] (by simp) rfl
  refine ⟨hall h (by simp), ht, ?_⟩
  rintro rfl
  exact ht (by decide)

theorem tidy_add (is_attr : Bool) (id fuel : Nat) (top : Bool) (g g' : BGroup) (name : Name) (flag : Bool) (hc : Tidy top g) (hn : top = false → pieces name ≠ [])
    (h : BGroup.addBlock is_attr id fuel g name = .ok (g', flag)) : Tidy top g' := by
  induction fuel generalizing top g g' name flag with
  | zero => cases g; simp [BGroup.addBlock] at h
  | succ n ih =>
    obtain ⟨attrs, datasets, groups⟩ := g
    rcases hsp : splitPath name with ⟨_ | head, tail⟩
    · have htail : top = false → tail ≠ [] := fun ht => comps_nonempty (hn ht) tail (by rw [splitPath_none hsp]; simp)
      rw [tidy_iff] at hc ⊢
      obtain ⟨⟨c1, c2, c3, c4, c5, c6, c7, c8⟩, c9⟩ := hc
      simp only [BGroup.datasets, BGroup.groups, BGroup.attrs] at c1 c2 c3 c4 c5 c6 c7 c8 c9
      simp only [BGroup.addBlock, hsp] at h
      cases is_attr with
      | true =>
        simp only [if_true] at h
        split at h
        · cases h
        · simp only [Except.ok.injEq, Prod.mk.injEq] at h
          rw [← h.1]
          refine ⟨⟨c1, c2, nodup_dset _ _ c3, c4, c5, c6, c7, fun ht e he => ?_⟩, c9⟩
          rcases mem_dset he with rfl | he
          · exact htail ht
          · exact c8 ht e he
      | false =>
        simp only [Bool.false_eq_true, if_false] at h
        split at h
        · cases h
        · split at h
          · cases h
          · rename_i hd hg
            simp only [Except.ok.injEq, Prod.mk.injEq] at h
            rw [← h.1]
            have hg' : dget groups tail = none := by simpa using hg
            refine ⟨⟨nodup_dset _ _ c1, c2, c3, fun e he => ?_, fun m x hm => ?_, c6, fun ht e he => ?_, c8⟩, c9⟩
            · rcases mem_dset he with rfl | he
              · simp
              · exact c4 e he
            · simp only [BGroup.datasets, dget_dset] at hm
              by_cases e : tail = m
              · subst e; exact hg'
              · rw [if_neg e] at hm; exact c5 m x hm
            · rcases mem_dset he with rfl | he
              · exact htail ht
              · exact c7 ht e he
    · obtain ⟨hne, hpt, htne⟩ := splitPath_names hsp
      simp only [BGroup.addBlock, hsp] at h
      split at h
      · rename_i d dattrs hd
        split at h
        · cases h
        · simp only [Except.ok.injEq, Prod.mk.injEq] at h
          rw [← h.1]
          rw [tidy_iff] at hc ⊢
          obtain ⟨⟨c1, c2, c3, c4, c5, c6, c7, c8⟩, c9⟩ := hc
          simp only [BGroup.datasets, BGroup.groups, BGroup.attrs] at c1 c2 c3 c4 c5 c6 c7 c8 c9
          refine ⟨⟨nodup_dset _ _ c1, c2, c3, fun e he => ?_, fun m x hm => ?_, c6, fun ht e he => ?_, c8⟩, c9⟩
          · rcases mem_dset he with rfl | he
            · obtain ⟨a1, a2⟩ := c4 _ (mem_of_dget hd)
              refine ⟨nodup_dset _ _ a1, fun x hx => ?_⟩
              rcases mem_dset hx with rfl | hx
              · exact htne
              · exact a2 x hx
            · exact c4 e he
          · simp only [BGroup.datasets, dget_dset] at hm
            by_cases e : head = m
            · subst e; exact c5 head _ hd
            · rw [if_neg e] at hm; exact c5 m x hm
          · rcases mem_dset he with rfl | he
            · exact hne
            · exact c7 ht e he
      · split at h
        · cases h
        · rename_i hbad
          split at h
          · cases h
          · rename_i h2 fl hq
            simp only [Except.ok.injEq, Prod.mk.injEq] at h
            rw [← h.1]
            refine tidy_dset hc ?_ hne (ih false _ _ _ _ (tidy_getD hc head) (fun _ => hpt) hq)
            cases hd : dget datasets head with
            | none => rfl
            | some d =>
              exfalso
              have := ((tidy_iff _ _).1 hc).1.disj head d hd
              simp only [BGroup.groups] at this
              exact hbad (by simp [this, hd])

/-! ### Writing -/

section
variable (data : Nat → Except Err HData) (gzip : Int) (val : Nat → HData)

/-- A block which can be written as a dataset -/
def Stored (id : Nat) : Prop := data id = .ok (val id) ∧ ((val id).shape = [] ∨ gzip ≤ 0 ∨ (gzip ≤ 9 ∧ chunksOk (val id).dtype.itemsize (hdf5Chunks (val id).shape) = true))

/-- What can be written in one group -/
structure LocalGood (top : Bool) (h : BGroup) : Prop where
  ds : ∀ e ∈ h.datasets, e.1 ≠ [] ∧ Stored data gzip val e.2.1 ∧ ∀ x ∈ e.2.2, data x.2 = .ok (val x.2)
  ats : top = false → ∀ x ∈ h.attrs, data x.2 = .ok (val x.2)

def Good (top : Bool) (g : BGroup) : Prop := ∀ cs h, groupAt g cs = some h → LocalGood data gzip val (top && cs.isEmpty) h

theorem good_iff (top : Bool) (g : BGroup) : Good data gzip val top g ↔ LocalGood data gzip val top g ∧ ∀ n h, dget g.groups n = some h → Good data gzip val false h := by
  constructor
  · intro hc
    refine ⟨by simpa using hc [] g rfl, fun n h hn cs k hk => ?_⟩
    have := hc (n :: cs) k (by simp only [groupAt, hn, hk])
    simpa using this
  · rintro ⟨h1, h2⟩ cs h hh
    cases cs with
    | nil => simp only [groupAt, Option.some.injEq] at hh; subst hh; simpa using h1
    | cons n rest =>
      simp only [groupAt] at hh
      split at hh
      · rename_i k hk
        have := h2 n k hk rest h hh
        simpa using this
      · cases hh

/-- The copy of a list of attributes -/
def convAttrs (a : List (Name × Nat)) : List (Name × HData) := a.map (fun x => (x.1, val x.2))

/-- The copy of a dataset with its attributes -/
def convDataset (y : Nat × List (Name × Nat)) : HData × List (Name × HData) := (val y.1, convAttrs val y.2)

mutual
/-- The copy of a group -/
def conv : BGroup → HGroup
  | .mk a d g => .mk (convAttrs val a) (d.map (fun e => (e.1, convDataset val e.2))) (convs g)
def convs : List (Name × BGroup) → List (Name × HGroup)
  | [] => []
  | (n, g) :: rest => (n, conv g) :: convs rest
end

theorem dget_convs (gs : List (Name × BGroup)) (n : Name) : dget (convs val gs) n = (dget gs n).map (conv val) := by
  induction gs with
  | nil => simp [convs, dget]
  | cons x gs ih =>
    obtain ⟨a, g⟩ := x
    by_cases e : a = n
    · simp [convs, dget, e]
    · have h1 : dget ((a, g) :: gs) n = dget gs n := by simp [dget, e]
      have h2 : dget ((a, conv val g) :: convs val gs) n = dget (convs val gs) n := by simp [dget, e]
      rw [convs, h1, h2, ih]

variable {data gzip val}

theorem writeAttrs_ok (l : List (Name × Nat)) (out : List (Name × HData)) (h1 : (l.map Prod.fst).Nodup) (h2 : ∀ x ∈ l, x.1 ≠ [] ∧ data x.2 = .ok (val x.2)) (h3 : ∀ x ∈ l, x.1 ∉ out.map Prod.fst) :
    writeAttrs data l out = .ok (out ++ convAttrs val l) := by
  induction l generalizing out with
  | nil => simp [writeAttrs, convAttrs]
  | cons x l ih =>
    obtain ⟨n, id⟩ := x
    simp only [List.map_cons, List.nodup_cons] at h1
    obtain ⟨a1, a2⟩ := h2 (n, id) (by simp)
    simp only [writeAttrs, a2, if_neg a1]
    rw [dset_new _ (h3 (n, id) (by simp)), ih _ h1.2 (fun x hx => h2 x (by simp [hx]))]
    · simp [convAttrs]
    · intro x hx
      simp only [List.map_append, List.map_cons, List.map_nil, List.mem_append, List.mem_singleton, not_or]
      exact ⟨h3 x (by simp [hx]), fun e => h1.1 (by rw [← e]; exact List.mem_map_of_mem (f := Prod.fst) hx)⟩

theorem writeDatasets_ok (l : List (Name × Nat × List (Name × Nat))) (a : List (Name × HData)) (ds : List (Name × HData × List (Name × HData))) (h1 : (l.map Prod.fst).Nodup)
    (h2 : ∀ e ∈ l, e.1 ≠ [] ∧ Stored data gzip val e.2.1 ∧ ∀ x ∈ e.2.2, data x.2 = .ok (val x.2)) (h3 : ∀ e ∈ l, (e.2.2.map Prod.fst).Nodup ∧ ∀ x ∈ e.2.2, x.1 ≠ []) (h4 : ∀ e ∈ l, e.1 ∉ ds.map Prod.fst) :
    writeDatasets data gzip l (.mk a ds []) = .ok (.mk a (ds ++ l.map (fun e => (e.1, convDataset val e.2))) []) := by
  induction l generalizing ds with
  | nil => simp [writeDatasets]
  | cons x l ih =>
    obtain ⟨n, id, at'⟩ := x
    simp only [List.map_cons, List.nodup_cons] at h1
    obtain ⟨a1, ⟨a2, a3⟩, a4⟩ := h2 (n, id, at') (by simp)
    obtain ⟨b1, b2⟩ := h3 (n, id, at') (by simp)
    have b3 := h4 (n, id, at') (by simp)
    simp only at a1 a2 a3 a4 b1 b2 b3
    have hcr : createDataset gzip (.mk a ds []) n (val id) = .ok () := by
      unfold createDataset
      rw [if_neg (by simp [HGroup.taken, HGroup.datasets, HGroup.groups, dget_notin b3, a1, dget_nil]), if_neg]
      rintro ⟨c1, c2, c3⟩
      rcases a3 with a3 | a3 | ⟨a3, a5⟩
      · exact c1 a3
      · omega
      · rcases c3 with c3 | c3
        · omega
        · simp [a5] at c3
    simp only [writeDatasets, a2, hcr]
    rw [writeAttrs_ok at' [] b1 (fun x hx => ⟨b2 x hx, a4 x hx⟩) (by simp)]
    simp only [List.nil_append, HGroup.attrs, HGroup.datasets, HGroup.groups]
    rw [dset_new _ b3, ih _ h1.2 (fun e he => h2 e (by simp [he])) (fun e he => h3 e (by simp [he]))]
    · simp [convDataset]
    · intro e he
      simp only [List.map_append, List.map_cons, List.map_nil, List.mem_append, List.mem_singleton, not_or]
      exact ⟨h4 e (by simp [he]), fun hq => h1.1 (by rw [← hq]; exact List.mem_map_of_mem (f := Prod.fst) he)⟩

mutual
theorem writeHdf5_ok (g : BGroup) (top : Bool) (ht : Tidy top g) (hg : Good data gzip val top g) (a : List (Name × HData)) :
    writeHdf5 data gzip g (.mk a [] []) = .ok (.mk a (conv val g).datasets (conv val g).groups) := by
  match g with
  | .mk attrs datasets groups =>
    obtain ⟨t1, t2⟩ := (tidy_iff _ _).1 ht
    obtain ⟨g1, g2⟩ := (good_iff _ _ _ _ _).1 hg
    have h1 := writeDatasets_ok (data := data) (gzip := gzip) (val := val) datasets a [] t1.ds g1.ds t1.da (by simp)
    simp only [writeHdf5, h1]
    rw [writeGroups_ok groups _ t1.gs t1.gn (fun n k hk => t2 n k (dget_of_mem t1.gs hk)) (fun n k hk => g2 n k (dget_of_mem t1.gs hk)) (fun e he => by
      obtain ⟨n, k⟩ := e
      have hk := dget_of_mem t1.gs he
      simp only [HGroup.datasets, HGroup.groups, List.nil_append, List.map_nil, List.not_mem_nil, not_false_eq_true, and_true]
      rw [dget_map]
      cases hd : dget datasets n with
      | none => rfl
      | some d =>
        have := t1.disj n d hd
        rw [this] at hk; cases hk)]
    simp [conv, HGroup.attrs, HGroup.datasets, HGroup.groups]
theorem writeGroups_ok (gs : List (Name × BGroup)) (h : HGroup) (h1 : (gs.map Prod.fst).Nodup) (h2 : ∀ e ∈ gs, e.1 ≠ []) (ht : ∀ n k, (n, k) ∈ gs → Tidy false k)
    (hg : ∀ n k, (n, k) ∈ gs → Good data gzip val false k) (h3 : ∀ e ∈ gs, dget h.datasets e.1 = none ∧ e.1 ∉ h.groups.map Prod.fst) :
    writeGroups data gzip gs h = .ok (.mk h.attrs h.datasets (h.groups ++ convs val gs)) := by
  match gs with
  | [] => cases h; simp [writeGroups, convs, HGroup.attrs, HGroup.datasets, HGroup.groups]
  | (n, g) :: rest =>
    simp only [List.map_cons, List.nodup_cons] at h1
    have hn := h2 (n, g) (by simp)
    obtain ⟨b1, b2⟩ := h3 (n, g) (by simp)
    have tg := ht n g (by simp)
    have gg := hg n g (by simp)
    simp only at hn b1 b2
    obtain ⟨t1, -⟩ := (tidy_iff _ _).1 tg
    obtain ⟨g1, -⟩ := (good_iff _ _ _ _ _).1 gg
    have h4 := writeHdf5_ok g false tg gg (convAttrs val g.attrs)
    simp only [writeGroups]
    rw [if_neg (by simp [HGroup.taken, hn, b1, dget_notin b2]), writeAttrs_ok g.attrs [] t1.ats (fun x hx => ⟨t1.an rfl x hx, g1.ats rfl x hx⟩) (by simp)]
    simp only [List.nil_append, h4]
    rw [dset_new _ b2, writeGroups_ok rest _ h1.2 (fun e he => h2 e (by simp [he])) (fun n k hk => ht n k (by simp [hk])) (fun n k hk => hg n k (by simp [hk])) (fun e he => by
      simp only [HGroup.datasets, HGroup.groups, List.map_append, List.map_cons, List.map_nil, List.mem_append, List.mem_singleton, not_or]
      have := h3 e (by simp [he])
      exact ⟨this.1, this.2, fun hq => h1.1 (by rw [← hq]; exact List.mem_map_of_mem (f := Prod.fst) he)⟩)]
    obtain ⟨ga, gd, gg'⟩ := g
    simp [convs, HGroup.attrs, HGroup.datasets, HGroup.groups, conv, BGroup.attrs]
end

/-! ### The copy at any path -/

theorem h5Dataset_conv (g : BGroup) (top : Bool) (ht : Tidy top g) (a : List (Name × HData)) (cs : List Name) :
    h5Dataset (.mk a (conv val g).datasets (conv val g).groups) cs = ((kindAt g cs).bind (fun x => x)).map val := by
  induction cs generalizing g top a with
  | nil => rfl
  | cons n rest ih =>
    obtain ⟨ga, gd, gg⟩ := g
    obtain ⟨t1, t2⟩ := (tidy_iff _ _).1 ht
    cases rest with
    | nil =>
      simp only [h5Dataset, kindAt, conv, HGroup.datasets, BGroup.groups, BGroup.datasets]
      rw [dget_map]
      cases hd : dget gd n with
      | none => cases hg : dget gg n <;> simp
      | some d =>
        have := t1.disj n d hd
        simp only [BGroup.groups] at this
        simp [this, convDataset]
    | cons m r =>
      simp only [h5Dataset, kindAt, conv, HGroup.groups, BGroup.groups]
      rw [dget_convs]
      cases hg : dget gg n with
      | none => simp
      | some k =>
        have := ih k false (t2 n k hg) (conv val k).attrs
        obtain ⟨ka, kd, kg⟩ := k
        simpa [conv, HGroup.attrs, HGroup.datasets, HGroup.groups] using this

theorem h5IsGroup_conv (g : BGroup) (a : List (Name × HData)) (cs : List Name) (hcs : cs ≠ []) :
    h5IsGroup (.mk a (conv val g).datasets (conv val g).groups) cs = true ↔ kindAt g cs = some none := by
  induction cs generalizing g a with
  | nil => exact absurd rfl hcs
  | cons n rest ih =>
    obtain ⟨ga, gd, gg⟩ := g
    cases rest with
    | nil =>
      simp only [h5IsGroup, kindAt, conv, HGroup.groups, BGroup.groups, BGroup.datasets]
      rw [dget_convs]
      cases hg : dget gg n with
      | none => cases hd : dget gd n <;> simp
      | some k => simp
    | cons m r =>
      rw [h5IsGroup]
      simp only [kindAt, conv, HGroup.groups, BGroup.groups]
      rw [dget_convs]
      cases hg : dget gg n with
      | none => simp
      | some k =>
        have := ih k (conv val k).attrs (by simp)
        obtain ⟨ka, kd, kg⟩ := k
        simpa [conv, HGroup.attrs, HGroup.datasets, HGroup.groups] using this

theorem h5Attr_conv (g : BGroup) (cs : List Name) (x : Name) : h5Attr (conv val g) cs x = (attrAtPath g cs x).map val := by
  induction cs generalizing g with
  | nil => obtain ⟨ga, gd, gg⟩ := g; simp only [h5Attr, attrAtPath, conv, HGroup.attrs, BGroup.attrs, convAttrs]; rw [dget_map]
  | cons n rest ih =>
    obtain ⟨ga, gd, gg⟩ := g
    simp only [h5Attr, attrAtPath, conv, HGroup.groups, HGroup.datasets, BGroup.groups, BGroup.datasets]
    rw [dget_convs]
    cases hg : dget gg n with
    | some k => exact ih k
    | none =>
      simp only [Option.map_none]
      split
      · rw [dget_map]
        cases hd : dget gd n with
        | none => rfl
        | some d => simp only [Option.map_some, Option.bind_some, convDataset, convAttrs]; rw [dget_map]
      · rfl

/-- The attributes of the top of the copy do not matter below. -/
theorem h5Attr_cons (g : HGroup) (a : List (Name × HData)) (n : Name) (rest : List Name) (x : Name) : h5Attr (.mk a g.datasets g.groups) (n :: rest) x = h5Attr g (n :: rest) x := by
  simp only [h5Attr, HGroup.groups, HGroup.datasets]

/-! ### What follows if a file is written -/

theorem writeDatasets_inv (l : List (Name × Nat × List (Name × Nat))) (h h' : HGroup) (hw : writeDatasets data gzip l h = .ok h') : h'.attrs = h.attrs ∧
    ∀ e ∈ l, e.1 ≠ [] ∧ ∃ v, data e.2.1 = .ok v ∧ (v.shape ≠ [] → gzip > 0 → gzip ≤ 9 ∧ chunksOk v.dtype.itemsize (hdf5Chunks v.shape) = true) := by
  induction l generalizing h with
  | nil => simp only [writeDatasets, Except.ok.injEq] at hw; subst hw; simp
  | cons x l ih =>
    obtain ⟨n, id, at'⟩ := x
    simp only [writeDatasets] at hw
    split at hw
    · cases hw
    · rename_i v hv
      split at hw
      · cases hw
      · rename_i hcr
        split at hw
        · cases hw
        · obtain ⟨i1, i2⟩ := ih _ hw
          refine ⟨i1, fun e he => ?_⟩
          rcases List.mem_cons.1 he with rfl | he
          · unfold createDataset at hcr
            split at hcr
            · cases hcr
            · rename_i hta
              split at hcr
              · cases hcr
              · rename_i hno
                refine ⟨?_, v, hv, fun s1 s2 => ?_⟩
                · intro hq
                  apply hta
                  simp only at hq
                  simp [HGroup.taken, hq]
                · by_contra hc
                  apply hno
                  refine ⟨s1, s2, ?_⟩
                  by_cases hz : gzip ≤ 9
                  · right
                    by_contra hk
                    exact hc ⟨hz, by simpa using hk⟩
                  · left; omega
          · exact i2 e he

mutual
theorem writeHdf5_inv (g : BGroup) (h h' : HGroup) (hw : writeHdf5 data gzip g h = .ok h') : h'.attrs = h.attrs ∧
    ∀ cs id, kindAt g cs = some (some id) → ∃ v, data id = .ok v ∧ (v.shape ≠ [] → gzip > 0 → gzip ≤ 9 ∧ chunksOk v.dtype.itemsize (hdf5Chunks v.shape) = true) := by
  match g with
  | .mk attrs datasets groups =>
    simp only [writeHdf5] at hw
    split at hw
    · cases hw
    · rename_i h2 hd
      obtain ⟨d1, d2⟩ := writeDatasets_inv _ _ _ hd
      obtain ⟨g1, g2⟩ := writeGroups_inv groups _ _ hw
      refine ⟨g1.trans d1, fun cs id hk => ?_⟩
      match cs, hk with
      | [], hk => simp [kindAt] at hk
      | [n], hk =>
        simp only [kindAt, BGroup.groups, BGroup.datasets] at hk
        split at hk
        · simp at hk
        · cases hq : dget datasets n with
          | none => simp [hq] at hk
          | some d =>
            simp only [hq, Option.map_some, Option.some.injEq] at hk
            obtain ⟨-, v, hv⟩ := d2 (n, d) (mem_of_dget hq)
            rw [← hk]
            exact ⟨v, hv⟩
      | n :: m :: r, hk =>
        simp only [kindAt, BGroup.groups] at hk
        split at hk
        · rename_i k hq
          exact g2 (n, k) (mem_of_dget hq) (m :: r) id hk
        · cases hk
theorem writeGroups_inv (gs : List (Name × BGroup)) (h h' : HGroup) (hw : writeGroups data gzip gs h = .ok h') : h'.attrs = h.attrs ∧
    ∀ e ∈ gs, ∀ cs id, kindAt e.2 cs = some (some id) → ∃ v, data id = .ok v ∧ (v.shape ≠ [] → gzip > 0 → gzip ≤ 9 ∧ chunksOk v.dtype.itemsize (hdf5Chunks v.shape) = true) := by
  match gs with
  | [] => simp only [writeGroups, Except.ok.injEq] at hw; subst hw; simp
  | (n, g) :: rest =>
    simp only [writeGroups] at hw
    split at hw
    · cases hw
    · split at hw
      · cases hw
      · split at hw
        · cases hw
        · rename_i new hnew
          obtain ⟨i1, i2⟩ := writeGroups_inv rest _ _ hw
          refine ⟨i1, fun e he => ?_⟩
          rcases List.mem_cons.1 he with rfl | he
          · exact (writeHdf5_inv g _ _ hnew).2
          · exact i2 e he
end

end

end Verif.WriteHdf5
