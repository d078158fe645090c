import Verif.Proofs.ReadBinaryNames

/-! Attributes of a binary file. -/

namespace Verif

/-- The group at the given components -/
def groupAt : BGroup → List Name → Option BGroup
  | g, [] => some g
  | g, n :: rest => match dget g.groups n with
    | some h => groupAt h rest
    | none => none

/-- No name is that of a dataset and of a group, in this group and all groups below -/
def Clean (g : BGroup) : Prop := ∀ cs h, groupAt g cs = some h → ∀ n d, dget h.datasets n = some d → dget h.groups n = none

theorem clean_iff (g : BGroup) : Clean g ↔ (∀ n d, dget g.datasets n = some d → dget g.groups n = none) ∧ ∀ n h, dget g.groups n = some h → Clean h := by
  constructor
  · intro hc
    refine ⟨hc [] g rfl, fun n h hn cs k hk => hc (n :: cs) k ?_⟩
    simp only [groupAt, hn, hk]
  · rintro ⟨h1, h2⟩ cs h hh
    cases cs with
    | nil => simp only [groupAt, Option.some.injEq] at hh; subst hh; exact h1
    | cons n rest =>
      simp only [groupAt] at hh
      split at hh
      · rename_i k hk; exact h2 n k hk rest h hh
      · cases hh

theorem dget_nil {β : Type*} (n : Name) : dget ([] : List (Name × β)) n = none := rfl

theorem clean_empty : Clean .empty := by
  rw [clean_iff]
  exact ⟨fun n d h => (by simp [BGroup.empty, BGroup.datasets, dget_nil] at h), fun n h hh => (by simp [BGroup.empty, BGroup.groups, dget_nil] at hh)⟩

theorem clean_getD {a d g} (hc : Clean (.mk a d g)) (n : Name) : Clean ((dget g n).getD .empty) := by
  cases h : dget g n with
  | none => exact clean_empty
  | some k => exact ((clean_iff _).1 hc).2 n k h

/-- Replacing a group which does not have the name of a dataset -/
theorem clean_dset {a d g} (hc : Clean (.mk a d g)) {n : Name} {h : BGroup} (hn : dget d n = none) (hh : Clean h) : Clean (.mk a d (dset g n h)) := by
  rw [clean_iff] at hc ⊢
  obtain ⟨h1, h2⟩ := hc
  simp only [BGroup.datasets, BGroup.groups, dget_dset] at h1 h2 ⊢
  refine ⟨fun m x hm => ?_, fun m k hk => ?_⟩
  · by_cases e : n = m
    · subst e; rw [hn] at hm; cases hm
    · rw [if_neg e]; exact h1 m x hm
  · by_cases e : n = m
    · rw [if_pos e] at hk; cases hk; exact hh
    · rw [if_neg e] at hk; exact h2 m k hk

theorem clean_dataset (id fuel : Nat) (g g' : BGroup) (name : Name) (flag : Bool) (hc : Clean g) (h : BGroup.addBlock false id fuel g name = .ok (g', flag)) : Clean g' := by
  induction fuel generalizing g g' name flag with
  | zero => cases g; simp [BGroup.addBlock] at h
  | succ n ih =>
    obtain ⟨attrs, datasets, groups⟩ := g
    rcases hsp : splitPath name with ⟨_ | head, tail⟩
    · simp only [BGroup.addBlock, hsp, Bool.false_eq_true, if_false] at h
      split at h
      · cases h
      · split at h
        · cases h
        · rename_i hd hg
          simp only [Except.ok.injEq, Prod.mk.injEq] at h
          rw [← h.1]
          have hg' : dget groups tail = none := by simpa using hg
          rw [clean_iff] at hc ⊢
          refine ⟨fun m x hm => ?_, hc.2⟩
          simp only [BGroup.datasets, dget_dset] at hm
          by_cases e : tail = m
          · subst e; exact hg'
          · rw [if_neg e] at hm; exact hc.1 m x hm
    · simp only [BGroup.addBlock, hsp] at h
      split at h
      · cases h
      · rename_i hbad
        rcases hq : BGroup.addBlock false id n ((dget groups head).getD .empty) tail with e | ⟨h2, fl⟩
        · simp only [hq] at h; cases h
        · simp only [hq, Except.ok.injEq, Prod.mk.injEq] at h
          rw [← h.1]
          refine clean_dset hc ?_ (ih _ _ _ _ (clean_getD hc head) hq)
          cases hd : dget datasets head with
          | none => rfl
          | some d =>
            exfalso
            have := ((clean_iff _).1 hc).1 head d hd
            simp only [BGroup.groups] at this
            exact hbad (by simp [this, hd])

theorem attrAtPath_empty (cs : List Name) (a : Name) : attrAtPath .empty cs a = none := by
  cases cs with
  | nil => rfl
  | cons n rest => simp [attrAtPath, BGroup.empty, BGroup.groups, BGroup.datasets, dget_nil]

/-- Attributes below a group -/
theorem attrAtPath_old {a d g} (head : Name) (hd : dget d head = none) (cs : List Name) (x : Name) :
    attrAtPath ((dget g head).getD .empty) cs x = attrAtPath (.mk a d g) (head :: cs) x := by
  cases h : dget g head with
  | none => simp [attrAtPath, BGroup.groups, BGroup.datasets, h, hd, attrAtPath_empty]
  | some k => simp [attrAtPath, BGroup.groups, h]

theorem attrAtPath_dset {a d g} (head : Name) (h : BGroup) (n : Name) (cs : List Name) (x : Name) :
    attrAtPath (.mk a d (dset g head h)) (n :: cs) x = if head = n then attrAtPath h cs x else attrAtPath (.mk a d g) (n :: cs) x := by
  by_cases e : head = n <;> simp [attrAtPath, BGroup.groups, BGroup.datasets, dget_dset, e]

/-- Declaring a dataset does not change attributes. -/
theorem attrAtPath_dataset (id fuel : Nat) (g g' : BGroup) (name : Name) (flag : Bool) (hc : Clean g) (h : BGroup.addBlock false id fuel g name = .ok (g', flag)) (cs : List Name) (x : Name) :
    attrAtPath g' cs x = attrAtPath g cs x := by
  induction fuel generalizing g g' name flag cs with
  | zero => cases g; simp [BGroup.addBlock] at h
  | succ n ih =>
    obtain ⟨attrs, datasets, groups⟩ := g
    rcases hsp : splitPath name with ⟨_ | head, tail⟩
    · simp only [BGroup.addBlock, hsp, Bool.false_eq_true, if_false] at h
      split at h
      · cases h
      · split at h
        · cases h
        · rename_i hd hg
          simp only [Except.ok.injEq, Prod.mk.injEq] at h
          rw [← h.1]
          cases cs with
          | nil => rfl
          | cons k rest =>
            have hd' : dget datasets tail = none := by simpa using hd
            simp only [attrAtPath, BGroup.groups, BGroup.datasets, dget_dset]
            by_cases e : tail = k
            · subst e; simp [hd', dget_nil]
            · simp [e]
    · simp only [BGroup.addBlock, hsp] at h
      split at h
      · cases h
      · rename_i hbad
        rcases hq : BGroup.addBlock false id n ((dget groups head).getD .empty) tail with e | ⟨h2, fl⟩
        · simp only [hq] at h; cases h
        · simp only [hq, Except.ok.injEq, Prod.mk.injEq] at h
          rw [← h.1]
          have hd : dget datasets head = none := by
            cases hd : dget datasets head with
            | none => rfl
            | some d =>
              exfalso
              have := ((clean_iff _).1 hc).1 head d hd
              simp only [BGroup.groups] at this
              exact hbad (by simp [this, hd])
          cases cs with
          | nil => rfl
          | cons k rest =>
            rw [attrAtPath_dset]
            by_cases e : head = k
            · subst e
              rw [if_pos rfl, ih _ _ _ _ (clean_getD hc head) hq, attrAtPath_old head hd]
            · rw [if_neg e]

theorem restAfter_split {p h t : Name} (hp : splitPath p = (some h, t)) (k : Nat) : restAfter (k + 1) p = restAfter k t := by
  unfold splitPath at hp
  dsimp only at hp
  split at hp
  · simp at hp
  · rename_i c tail hd
    simp only [Prod.mk.injEq] at hp
    rw [restAfter, hd, List.drop_one, List.tail_cons, hp.2]

/-- The target of a name without a slash -/
theorem target_none {g : BGroup} {name tail : Name} (h : splitPath name = (none, tail)) (cs : List Name) (x : Name) : AttrTarget g name cs x ↔ cs = [] ∧ x = tail := by
  unfold AttrTarget
  rw [splitPath_none h]
  have hpre : ∀ ds : List Name, ds <+: [tail] → ds ≠ [tail] → ds = [] := by
    intro ds h1 h2
    match ds, h1 with
    | [], _ => rfl
    | [a], h1 => simp only [List.cons_prefix_cons, List.nil_prefix, and_true] at h1; exact absurd (by rw [h1]) h2
    | a :: b :: c, h1 => simp [List.cons_prefix_cons] at h1
  constructor
  · rintro (⟨h1, h2, ⟨id, h3⟩, -⟩ | ⟨-, h2⟩)
    · rw [hpre cs h1 h2] at h3; simp [kindAt] at h3
    · match cs, h2 with
      | [], h2 => simp at h2; exact ⟨rfl, h2.symm⟩
      | a :: b, h2 => simp at h2
  · rintro ⟨rfl, rfl⟩
    right
    refine ⟨fun ds id h1 h2 => ?_, rfl⟩
    rw [hpre ds h1 h2]; simp [kindAt]

/-- The target of a name which starts with the name of a dataset -/
theorem target_dataset {a d g} (hc : Clean (.mk a d g)) {name head tail : Name} (h : splitPath name = (some head, tail)) {v} (hd : dget d head = some v) (cs : List Name) (x : Name) :
    AttrTarget (.mk a d g) name cs x ↔ cs = [head] ∧ x = tail := by
  have hg : dget g head = none := ((clean_iff _).1 hc).1 head v hd
  obtain ⟨h1, h2, -⟩ := splitPath_some h
  have hk : kindAt (.mk a d g) [head] = some (some v.1) := by simp [kindAt, BGroup.groups, BGroup.datasets, hg, hd]
  have hp : [head] <+: comps name ∧ [head] ≠ comps name := by
    rw [h1]
    exact ⟨by simp [List.cons_prefix_cons], by simpa using h2.symm⟩
  unfold AttrTarget
  constructor
  · rintro (⟨h3, -, ⟨id, h4⟩, h5⟩ | ⟨h3, -⟩)
    · match cs, h3, h4, h5 with
      | [], _, h4, _ => simp [kindAt] at h4
      | [c], h3, _, h5 =>
        rw [h1] at h3
        simp only [List.cons_prefix_cons, List.nil_prefix, and_true] at h3
        rw [List.length_singleton, restAfter_split h] at h5
        exact ⟨by rw [h3], h5⟩
      | c :: m :: rest, h3, h4, _ =>
        rw [h1] at h3
        rw [(List.cons_prefix_cons.1 h3).1] at h4
        simp [kindAt, BGroup.groups, hg] at h4
    · exact absurd hk (h3 [head] v.1 hp.1 hp.2)
  · rintro ⟨rfl, rfl⟩
    exact Or.inl ⟨hp.1, hp.2, ⟨v.1, hk⟩, by rw [List.length_singleton, restAfter_split h]; rfl⟩

/-- The target of any other name -/
theorem target_group {a d g} {name head tail : Name} (h : splitPath name = (some head, tail)) (hd : dget d head = none) (cs : List Name) (x : Name) :
    AttrTarget (.mk a d g) name cs x ↔ ∃ rest, cs = head :: rest ∧ AttrTarget ((dget g head).getD .empty) tail rest x := by
  obtain ⟨h1, h2, -⟩ := splitPath_some h
  have hnone : ∀ id, kindAt (.mk a d g) [head] ≠ some (some id) := by
    intro id
    cases hg : dget g head <;> simp [kindAt, BGroup.groups, BGroup.datasets, hg, hd]
  unfold AttrTarget
  rw [h1]
  constructor
  · rintro (⟨h3, h3', ⟨id, h4⟩, h5⟩ | ⟨h3, h4⟩)
    · match cs, h3, h3', h4, h5 with
      | [], _, _, h4, _ => simp [kindAt] at h4
      | [c], h3, _, h4, _ =>
        rw [(List.cons_prefix_cons.1 h3).1] at h4
        exact absurd h4 (hnone id)
      | c :: m :: rest, h3, h3', h4, h5 =>
        obtain ⟨rfl, h6⟩ := List.cons_prefix_cons.1 h3
        rw [List.length_cons, restAfter_split h] at h5
        rw [← kindAt_old] at h4
        exact ⟨m :: rest, rfl, Or.inl ⟨h6, fun e => h3' (by rw [e]), ⟨id, h4⟩, h5⟩⟩
    · match cs, h4 with
      | [], h4 =>
        simp only [List.nil_append, List.cons.injEq] at h4
        exact absurd h4.2 h2
      | c :: rest, h4 =>
        simp only [List.cons_append, List.cons.injEq] at h4
        refine ⟨rest, by rw [h4.1], Or.inr ⟨fun ds id h5 h6 => ?_, h4.2⟩⟩
        match ds, h5, h6 with
        | [], _, _ => simp [kindAt]
        | y :: z, h5, h6 =>
          rw [kindAt_old a d]
          exact h3 (head :: y :: z) id (by rw [List.cons_prefix_cons]; exact ⟨rfl, h5⟩) (fun e => h6 (by simpa using e))
  · rintro ⟨rest, rfl, ⟨h3, h3', ⟨id, h4⟩, h5⟩ | ⟨h3, h4⟩⟩
    · match rest, h3, h3', h4, h5 with
      | [], _, _, h4, _ => simp [kindAt] at h4
      | y :: z, h3, h3', h4, h5 =>
        rw [kindAt_old a d] at h4
        exact Or.inl ⟨List.cons_prefix_cons.2 ⟨rfl, h3⟩, fun e => h3' (by simpa using e), ⟨id, h4⟩, by rw [List.length_cons, restAfter_split h]; exact h5⟩
    · refine Or.inr ⟨fun ds id h5 h6 => ?_, by rw [h4]; rfl⟩
      match ds, h5, h6 with
      | [], _, _ => simp [kindAt]
      | [y], h5, _ => rw [(List.cons_prefix_cons.1 h5).1]; exact hnone id
      | y :: m :: z, h5, h6 =>
        obtain ⟨rfl, h7⟩ := List.cons_prefix_cons.1 h5
        rw [← kindAt_old]
        exact h3 (m :: z) id h7 (fun e => h6 (by rw [e]))

/-- Declaring an attribute -/
theorem addBlock_attr_at (id fuel : Nat) (g : BGroup) (name : Name) (hf : name.length < fuel) (hc : Clean g) :
    ∃ cs x, (∀ cs' x', AttrTarget g name cs' x' ↔ cs' = cs ∧ x' = x) ∧
      ((attrAtPath g cs x ≠ none ∧ BGroup.addBlock true id fuel g name = .error .keyError) ∨
       (attrAtPath g cs x = none ∧ ∃ g' flag, BGroup.addBlock true id fuel g name = .ok (g', flag) ∧ Clean g' ∧ (flag = false ↔ ∃ k, kindAt g cs = some (some k)) ∧
          ∀ cs' x', attrAtPath g' cs' x' = if cs' = cs ∧ x' = x then some id else attrAtPath g cs' x')) := by
  induction fuel generalizing g name with
  | zero => omega
  | succ n ih =>
    obtain ⟨attrs, datasets, groups⟩ := g
    rcases hsp : splitPath name with ⟨_ | head, tail⟩
    · refine ⟨[], tail, target_none hsp, ?_⟩
      simp only [BGroup.addBlock, hsp, if_true]
      cases hq : dget attrs tail with
      | some v => exact Or.inl ⟨by simp [attrAtPath, BGroup.attrs, hq], by simp⟩
      | none =>
        refine Or.inr ⟨by simp [attrAtPath, BGroup.attrs, hq], .mk (dset attrs tail id) datasets groups, true, by simp, ?_, by simp [kindAt], ?_⟩
        · rw [clean_iff] at hc ⊢; exact hc
        · intro cs' x'
          cases cs' with
          | nil => simp only [attrAtPath, BGroup.attrs, dget_dset, true_and]; by_cases e : tail = x' <;> simp [e, eq_comm]
          | cons k rest => simp [attrAtPath, BGroup.groups, BGroup.datasets]
    · obtain ⟨hcomp, hne, hlt⟩ := splitPath_some hsp
      cases hd : dget datasets head with
      | some v =>
        obtain ⟨d, dattrs⟩ := v
        have hg : dget groups head = none := ((clean_iff _).1 hc).1 head _ hd
        refine ⟨[head], tail, target_dataset hc hsp hd, ?_⟩
        simp only [BGroup.addBlock, hsp, hd]
        cases hq : dget dattrs tail with
        | some w => exact Or.inl ⟨by simp [attrAtPath, BGroup.groups, BGroup.datasets, hg, hd, hq], by simp⟩
        | none =>
          refine Or.inr ⟨by simp [attrAtPath, BGroup.groups, BGroup.datasets, hg, hd, hq], _, false, by simp; rfl, ?_, ?_, ?_⟩
          · rw [clean_iff] at hc ⊢
            refine ⟨fun m y hm => ?_, hc.2⟩
            simp only [BGroup.datasets, dget_dset] at hm
            by_cases e : head = m
            · subst e; exact hg
            · rw [if_neg e] at hm; exact hc.1 m y hm
          · simp [kindAt, BGroup.groups, BGroup.datasets, hg, hd]
          · intro cs' x'
            cases cs' with
            | nil => simp [attrAtPath, BGroup.attrs]
            | cons k rest =>
              simp only [attrAtPath, BGroup.groups, BGroup.datasets, dget_dset]
              by_cases e : head = k
              · subst e
                cases rest with
                | nil => simp only [hg, hd, if_true, Option.bind_some, dget_dset]; by_cases e2 : tail = x' <;> simp [e2, eq_comm]
                | cons m r => simp [hg]
              · simp [e, Ne.symm e]
      | none =>
        obtain ⟨cs, x, h1, h2⟩ := ih ((dget groups head).getD .empty) tail (by omega) (clean_getD hc head)
        have hold : ∀ cs' x', attrAtPath ((dget groups head).getD .empty) cs' x' = attrAtPath (.mk attrs datasets groups) (head :: cs') x' := fun cs' x' => attrAtPath_old head hd cs' x'
        refine ⟨head :: cs, x, fun cs' x' => ?_, ?_⟩
        · rw [target_group hsp hd]
          constructor
          · rintro ⟨rest, rfl, ht⟩
            obtain ⟨rfl, rfl⟩ := (h1 _ _).1 ht
            exact ⟨rfl, rfl⟩
          · rintro ⟨rfl, rfl⟩
            exact ⟨cs, rfl, (h1 _ _).2 ⟨rfl, rfl⟩⟩
        · simp only [BGroup.addBlock, hsp, hd, Option.isSome_none, Bool.false_eq_true, and_false, if_false]
          rw [← hold]
          rcases h2 with ⟨h3, h4⟩ | ⟨h3, g', flag, h4, h5, h6, h7⟩
          · exact Or.inl ⟨h3, by rw [h4]⟩
          · refine Or.inr ⟨h3, .mk attrs datasets (dset groups head g'), flag, by rw [h4], clean_dset hc hd h5, ?_, ?_⟩
            · rw [h6]
              cases cs with
              | nil =>
                cases hg : dget groups head <;> simp [kindAt, BGroup.groups, BGroup.datasets, hg, hd]
              | cons m r => rw [kindAt_old attrs datasets]
            · intro cs' x'
              cases cs' with
              | nil => simp [attrAtPath, BGroup.attrs]
              | cons k rest =>
                rw [attrAtPath_dset]
                by_cases e : head = k
                · subst e; rw [if_pos rfl, h7, hold]; simp
                · rw [if_neg e, if_neg (by simp [Ne.symm e])]

/-- Looking up an attribute -/
theorem getAttr_at (g : BGroup) (path : Option Name) (x : Name) :
    BGroup.getAttr g path x = match attrAtPath g (path.elim [] comps) x with
      | some id => .ok id
      | none => .error .keyError := by
  cases path with
  | none => rfl
  | some p =>
    have key : ∀ fuel (g : BGroup) (p : Name), p.length < fuel → (match BGroup.getItem fuel g p with
        | .error e => Except.error e
        | .ok (.dataset _ attrs) => (match dget attrs x with
          | some id => .ok id
          | none => .error .keyError)
        | .ok (.group h) => match dget h.attrs x with
          | some id => .ok id
          | none => .error .keyError) = (match attrAtPath g (comps p) x with
        | some id => .ok id
        | none => .error .keyError) := by
      intro fuel
      induction fuel with
      | zero => intro g p h; omega
      | succ n ih =>
        intro g p h
        rcases hsp : splitPath p with ⟨_ | head, tail⟩
        · rw [splitPath_none hsp]
          simp only [BGroup.getItem, hsp, attrAtPath]
          cases h1 : dget g.groups tail with
          | some k => rfl
          | none =>
            cases h2 : dget g.datasets tail with
            | none => rfl
            | some d => rfl
        · obtain ⟨hc, hne, hlt⟩ := splitPath_some hsp
          rw [hc]
          simp only [BGroup.getItem, hsp, attrAtPath]
          cases h1 : dget g.groups head with
          | none => simp [hne]
          | some k => exact ih k tail (by omega)
    exact key (p.length + 1) g p (by omega)

end Verif
