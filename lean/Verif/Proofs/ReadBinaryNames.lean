import Verif.Proofs.ReadBinary

namespace Verif

theorem splitSlash_ne_nil (p : Name) : splitSlash p ≠ [] := by
  cases p with
  | nil => simp [splitSlash]
  | cons c cs =>
    simp only [splitSlash]
    split
    · simp
    · split <;> simp

theorem splitSlash_noslash (w : Name) (hw : '/' ∉ w) : splitSlash w = [w] := by
  induction w with
  | nil => rfl
  | cons c cs ih =>
    simp only [List.mem_cons, not_or] at hw
    simp [splitSlash, Ne.symm hw.1, ih hw.2]

theorem splitSlash_append (w t : Name) (hw : '/' ∉ w) : splitSlash (w ++ '/' :: t) = w :: splitSlash t := by
  induction w with
  | nil => simp [splitSlash]
  | cons c cs ih =>
    simp only [List.mem_cons, not_or] at hw
    simp [splitSlash, Ne.symm hw.1, ih hw.2]

theorem pieces_slash (p : Name) : pieces ('/' :: p) = pieces p := by simp [pieces, splitSlash]

theorem splitSlash_snoc (p : Name) : splitSlash (p ++ ['/']) = splitSlash p ++ [[]] := by
  induction p with
  | nil => simp [splitSlash]
  | cons c cs ih =>
    by_cases h : c = '/'
    · simp [splitSlash, h, ih]
    · simp only [List.cons_append, splitSlash, if_neg h, ih]
      cases hq : splitSlash cs with
      | nil => exact absurd hq (splitSlash_ne_nil cs)
      | cons a l => simp

theorem pieces_snoc (p : Name) : pieces (p ++ ['/']) = pieces p := by simp [pieces, splitSlash_snoc]

theorem pieces_dropWhile (p : Name) : pieces (p.dropWhile (fun c => c == '/')) = pieces p := by
  induction p with
  | nil => rfl
  | cons c cs ih =>
    by_cases h : c = '/'
    · simp only [List.dropWhile_cons, h, beq_self_eq_true, if_true, ih, pieces_slash]
    · simp [List.dropWhile_cons, h]

theorem pieces_rdrop (p : Name) : pieces (p.dropWhile (fun c => c == '/')).reverse = pieces p.reverse := by
  induction p with
  | nil => rfl
  | cons c cs ih =>
    by_cases h : c = '/'
    · simp only [List.dropWhile_cons, h, beq_self_eq_true, if_true, ih, List.reverse_cons, pieces_snoc]
    · simp [List.dropWhile_cons, h]

theorem pieces_strip (p : Name) : pieces (stripSlashes p) = pieces p := by
  rw [stripSlashes, pieces_rdrop, List.reverse_reverse, pieces_dropWhile]

theorem head_dropWhile (p : Name) : ∀ c ∈ (p.dropWhile (fun c => c == '/')).head?, c ≠ '/' := by
  induction p with
  | nil => simp
  | cons c cs ih =>
    by_cases h : c = '/'
    · simpa [List.dropWhile_cons, h] using ih
    · simp [List.dropWhile_cons, h]

theorem last_strip (p : Name) : ∀ c ∈ (stripSlashes p).getLast?, c ≠ '/' := by
  rw [stripSlashes, List.getLast?_reverse]
  exact head_dropWhile _

theorem rdrop_eq (p : Name) : ∃ t, p = (p.reverse.dropWhile (fun c => c == '/')).reverse ++ t := by
  refine ⟨(p.reverse.takeWhile (fun c => c == '/')).reverse, ?_⟩
  rw [← List.reverse_append, List.takeWhile_append_dropWhile, List.reverse_reverse]

theorem head_strip (p : Name) : ∀ c ∈ (stripSlashes p).head?, c ≠ '/' := by
  intro c hc
  obtain ⟨t, ht⟩ := rdrop_eq (p.dropWhile (fun c => c == '/'))
  apply head_dropWhile p c
  rw [ht]
  change c ∈ (stripSlashes p ++ t).head?
  cases hq : stripSlashes p with
  | nil => rw [hq] at hc; simp at hc
  | cons a l => rw [hq] at hc; simpa using hc

theorem length_strip (p : Name) : (stripSlashes p).length ≤ p.length := by
  simp only [stripSlashes, List.length_reverse]
  have h1 := (List.dropWhile_sublist (l := (p.dropWhile (fun c => c == '/')).reverse) (fun c => c == '/')).length_le
  have h2 := (List.dropWhile_sublist (l := p) (fun c => c == '/')).length_le
  rw [List.length_reverse] at h1
  exact h1.trans h2

theorem pieces_ne_nil_of_last (t : Name) (c : Char) (hc : c ≠ '/') : pieces (t ++ [c]) ≠ [] := by
  induction t with
  | nil => simp [pieces, splitSlash, hc]
  | cons d t ih =>
    by_cases h : d = '/'
    · rw [List.cons_append, h, pieces_slash]; exact ih
    · simp only [List.cons_append, pieces, splitSlash, if_neg h]
      split <;> simp

theorem mem_takeWhile_ne (s : Name) : '/' ∉ s.takeWhile (fun c => c != '/') := by
  induction s with
  | nil => simp
  | cons c cs ih =>
    by_cases h : c = '/'
    · simp [List.takeWhile_cons, h]
    · simp [List.takeWhile_cons, h, ih, Ne.symm h]

theorem dropWhile_head_slash (s : Name) (c : Char) (t : Name) (h : s.dropWhile (fun c => c != '/') = c :: t) : c = '/' := by
  induction s with
  | nil => simp at h
  | cons d s ih =>
    by_cases hd : d = '/'
    · simp [List.dropWhile_cons, hd] at h; exact h.1.symm
    · simp [List.dropWhile_cons, hd] at h; exact ih h

/-- `_split_path` takes off the first component. -/
theorem splitPath_none {p t : Name} (h : splitPath p = (none, t)) : comps p = [t] := by
  unfold splitPath at h
  dsimp only at h
  split at h
  · rename_i hd
    simp only [Prod.mk.injEq, true_and] at h
    have hs : '/' ∉ stripSlashes p := by
      have := List.takeWhile_append_dropWhile (p := fun c => c != '/') (l := stripSlashes p)
      rw [hd, List.append_nil] at this
      rw [← this]
      exact mem_takeWhile_ne _
    rw [comps, ← pieces_strip, pieces, splitSlash_noslash _ hs, h]
    by_cases ht : t = [] <;> simp [ht]
  · simp at h

theorem splitPath_some {p h t : Name} (hp : splitPath p = (some h, t)) : comps p = h :: comps t ∧ comps t ≠ [] ∧ t.length < p.length := by
  unfold splitPath at hp
  dsimp only at hp
  split at hp
  · simp at hp
  · rename_i c tail hd
    simp only [Prod.mk.injEq, Option.some.injEq] at hp
    obtain ⟨h1, h2⟩ := hp
    have hc := dropWhile_head_slash _ _ _ hd
    have hs := List.takeWhile_append_dropWhile (p := fun c => c != '/') (l := stripSlashes p)
    rw [hd, hc, h1, h2] at hs
    have hslash : '/' ∉ h := by rw [← h1]; exact mem_takeWhile_ne _
    have hne : h ≠ [] := by
      rintro rfl
      have := head_strip p '/' (by rw [← hs]; simp)
      exact this rfl
    have ht : pieces t ≠ [] := by
      rcases List.eq_nil_or_concat t with rfl | ⟨u, d, rfl⟩
      · have := last_strip p '/' (by rw [← hs]; simp)
        exact absurd rfl this
      · have := last_strip p d (by rw [← hs, List.concat_eq_append, ← List.cons_append, ← List.append_assoc, List.getLast?_append]; simp)
        rw [List.concat_eq_append]
        exact pieces_ne_nil_of_last u d this
    have hp : pieces p = h :: pieces t := by
      rw [← pieces_strip, ← hs, pieces, splitSlash_append _ _ hslash]
      simp [pieces, hne]
    refine ⟨?_, ?_, ?_⟩
    · simp [comps, hp, ht]
    · simp [comps, ht]
    · have := length_strip p
      rw [← hs] at this
      simp at this
      omega

theorem comps_ne_nil (p : Name) : comps p ≠ [] := by
  unfold comps; split
  · simp
  · assumption

/-! ### Dictionaries -/

theorem dget_dset {β : Type*} (d : List (Name × β)) (k k' : Name) (v : β) : dget (dset d k v) k' = if k = k' then some v else dget d k' := by
  induction d with
  | nil => by_cases h : k = k' <;> simp [dset, dget, h]
  | cons e d ih =>
    obtain ⟨a, w⟩ := e
    by_cases h1 : a = k
    · subst h1
      by_cases h2 : a = k' <;> simp [dset, dget, h2]
    · by_cases h2 : a = k'
      · subst h2
        simp [dset, dget, h1, Ne.symm h1]
      · have : dget ((a, w) :: dset d k v) k' = dget (dset d k v) k' := by simp [dget, h2]
        simp only [dset, if_neg h1, this, ih]
        have : dget ((a, w) :: d) k' = dget d k' := by simp [dget, h2]
        rw [this]

theorem kindAt_empty (cs : List Name) : kindAt .empty cs = none := by
  match cs with
  | [] => rfl
  | [_] => rfl
  | _ :: _ :: _ => rfl

/-- Looking up a path depends on its components only. -/
theorem getItem_kind (fuel : Nat) (g : BGroup) (p : Name) (hf : p.length < fuel) :
    (BGroup.getItem fuel g p).toOption.map BNode.kind = kindAt g (comps p) ∧ ∀ e, BGroup.getItem fuel g p = .error e → e = .keyError := by
  induction fuel generalizing g p with
  | zero => omega
  | succ n ih =>
    rcases hsp : splitPath p with ⟨_ | head, tail⟩
    · rw [splitPath_none hsp]
      simp only [BGroup.getItem, hsp, kindAt]
      cases h1 : dget g.groups tail with
      | some h => simp [Except.toOption, BNode.kind]
      | none =>
        cases h2 : dget g.datasets tail with
        | none => simp [Except.toOption]
        | some d => simp [Except.toOption, BNode.kind]
    · obtain ⟨hc, hne, hlt⟩ := splitPath_some hsp
      rw [hc]
      obtain ⟨m, rest, hm⟩ := List.exists_cons_of_ne_nil hne
      rw [hm]
      simp only [BGroup.getItem, hsp, kindAt]
      cases h1 : dget g.groups head with
      | none => simp [Except.toOption]
      | some h => rw [← hm]; exact ih h tail (by omega)

/-- What is at a path after a subgroup was replaced -/
theorem kindAt_dset (attrs : List (Name × Nat)) (datasets : List (Name × Nat × List (Name × Nat))) (groups : List (Name × BGroup)) (head : Name) (h : BGroup) (cs : List Name) :
    kindAt (.mk attrs datasets (dset groups head h)) cs = match cs with
      | [] => none
      | [n] => if head = n then some none else kindAt (.mk attrs datasets groups) [n]
      | n :: m :: rest => if head = n then kindAt h (m :: rest) else kindAt (.mk attrs datasets groups) (n :: m :: rest) := by
  match cs with
  | [] => rfl
  | [n] => by_cases hn : head = n <;> simp [kindAt, BGroup.groups, BGroup.datasets, dget_dset, hn]
  | n :: m :: rest => by_cases hn : head = n <;> simp [kindAt, BGroup.groups, dget_dset, hn]

theorem kindAt_old (attrs : List (Name × Nat)) (datasets : List (Name × Nat × List (Name × Nat))) (groups : List (Name × BGroup)) (head m : Name) (rest : List Name) :
    kindAt ((dget groups head).getD .empty) (m :: rest) = kindAt (.mk attrs datasets groups) (head :: m :: rest) := by
  cases h : dget groups head with
  | none => simp [kindAt, BGroup.groups, h, kindAt_empty]
  | some g => simp [kindAt, BGroup.groups, h]

/-- Declaring a dataset -/
theorem addBlock_dataset (id fuel : Nat) (g g' : BGroup) (name : Name) (flag : Bool) (h : BGroup.addBlock false id fuel g name = .ok (g', flag)) (cs : List Name) :
    kindAt g' cs = if cs = comps name then some (some id) else if cs ≠ [] ∧ cs <+: comps name then some none else kindAt g cs := by
  induction fuel generalizing g g' name flag cs with
  | zero => cases g; simp [BGroup.addBlock] at h
  | succ n ih =>
    obtain ⟨attrs, datasets, groups⟩ := g
    rcases hsp : splitPath name with ⟨_ | head, tail⟩
    · rw [splitPath_none hsp]
      simp only [BGroup.addBlock, hsp, Bool.false_eq_true, if_false] at h
      split at h
      · cases h
      · split at h
        · cases h
        · rename_i hd hg
          simp only [Except.ok.injEq, Prod.mk.injEq] at h
          rw [← h.1]
          have hg' : dget groups tail = none := by simpa using hg
          match cs with
          | [] => simp [kindAt]
          | [k] =>
            by_cases hk : k = tail
            · subst hk; simp [kindAt, BGroup.groups, BGroup.datasets, hg', dget_dset]
            · simp [kindAt, BGroup.groups, BGroup.datasets, dget_dset, hk, Ne.symm hk, List.cons_prefix_cons]
          | k :: m :: rest => simp [kindAt, BGroup.groups, List.cons_prefix_cons]
    · obtain ⟨hc, hne, -⟩ := splitPath_some hsp
      obtain ⟨c0, crest, hcr⟩ := List.exists_cons_of_ne_nil hne
      simp only [BGroup.addBlock, hsp] at h
      split at h
      · cases h
      · rcases hq : BGroup.addBlock false id n ((dget groups head).getD .empty) tail with e | ⟨h2, fl⟩
        · simp only [hq] at h; cases h
        · simp only [hq, Except.ok.injEq, Prod.mk.injEq] at h
          rw [← h.1, kindAt_dset, hc]
          match cs with
          | [] => simp [kindAt]
          | [k] =>
            rw [hcr]
            by_cases hk : k = head
            · subst hk; simp
            · simp [hk, Ne.symm hk, List.cons_prefix_cons]
          | k :: m :: rest =>
            by_cases hk : k = head
            · subst hk
              simp only [if_true]
              rw [ih _ _ _ _ hq (m :: rest), kindAt_old attrs datasets]
              simp [List.cons_prefix_cons]
            · simp [hk, Ne.symm hk, List.cons_prefix_cons]

/-- A dataset can be declared exactly if nothing is at its path and no dataset is on the way. -/
theorem addBlock_dataset_ok (id fuel : Nat) (g : BGroup) (name : Name) (hf : name.length < fuel) :
    ((∃ r, BGroup.addBlock false id fuel g name = .ok r) ↔ kindAt g (comps name) = none ∧ ∀ cs k, cs <+: comps name → kindAt g cs ≠ some (some k)) ∧
    ∀ e, BGroup.addBlock false id fuel g name = .error e → e = .keyError := by
  induction fuel generalizing g name with
  | zero => omega
  | succ n ih =>
    obtain ⟨attrs, datasets, groups⟩ := g
    rcases hsp : splitPath name with ⟨_ | head, tail⟩
    · rw [splitPath_none hsp]
      simp only [BGroup.addBlock, hsp, Bool.false_eq_true, if_false]
      cases h1 : dget datasets tail with
      | some d =>
        refine ⟨?_, by simp⟩
        cases h2 : dget groups tail <;> simp [kindAt, BGroup.groups, BGroup.datasets, h1, h2]
      | none =>
        cases h2 : dget groups tail with
        | some h => simp [kindAt, BGroup.groups, h2]
        | none =>
          refine ⟨?_, by simp⟩
          simp only [Option.isSome_none, Bool.false_eq_true, if_false, Except.ok.injEq, exists_eq', true_iff]
          refine ⟨by simp [kindAt, BGroup.groups, BGroup.datasets, h1, h2], ?_⟩
          intro cs k hcs
          match cs, hcs with
          | [], _ => simp [kindAt]
          | [x], hx =>
            simp only [List.cons_prefix_cons, List.nil_prefix, and_true] at hx
            simp [kindAt, BGroup.groups, BGroup.datasets, hx, h1, h2]
          | x :: y :: z, hx => simp [List.cons_prefix_cons] at hx
    · obtain ⟨hc, hne, hlt⟩ := splitPath_some hsp
      obtain ⟨c0, crest, hcr⟩ := List.exists_cons_of_ne_nil hne
      obtain ⟨i1, i2⟩ := ih ((dget groups head).getD .empty) tail (by omega)
      simp only [BGroup.addBlock, hsp]
      by_cases hbad : (dget groups head).isNone = true ∧ (dget datasets head).isSome = true
      · rw [if_pos hbad]
        refine ⟨?_, by simp⟩
        refine ⟨fun ⟨_, hr⟩ => (by cases hr), fun ⟨_, hall⟩ => ?_⟩
        exfalso
        obtain ⟨d, hd⟩ := Option.isSome_iff_exists.1 hbad.2
        have hg : dget groups head = none := by simpa using hbad.1
        exact hall [head] d.1 (by rw [hc]; simp [List.cons_prefix_cons]) (by simp [kindAt, BGroup.groups, BGroup.datasets, hg, hd])
      · rw [if_neg hbad]
        have hhead : ∀ k, kindAt (.mk attrs datasets groups) [head] ≠ some (some k) := by
          intro k hk
          simp only [kindAt, BGroup.groups, BGroup.datasets] at hk
          cases hg : dget groups head with
          | some h => simp [hg] at hk
          | none =>
            cases hd : dget datasets head with
            | none => simp [hg, hd] at hk
            | some d => exact hbad ⟨by simp [hg], by simp [hd]⟩
        have hiff : (kindAt ((dget groups head).getD .empty) (comps tail) = none ∧ ∀ cs k, cs <+: comps tail → kindAt ((dget groups head).getD .empty) cs ≠ some (some k)) ↔
            (kindAt (.mk attrs datasets groups) (comps name) = none ∧ ∀ cs k, cs <+: comps name → kindAt (.mk attrs datasets groups) cs ≠ some (some k)) := by
          rw [hc, hcr, kindAt_old attrs datasets]
          refine and_congr_right fun _ => ⟨fun H cs k hcs => ?_, fun H cs k hcs => ?_⟩
          · match cs, hcs with
            | [], _ => simp [kindAt]
            | [x], hx =>
              simp only [List.cons_prefix_cons, List.nil_prefix, and_true] at hx
              rw [hx]; exact hhead k
            | x :: y :: z, hx =>
              rw [List.cons_prefix_cons] at hx
              rw [hx.1, ← kindAt_old]
              exact H (y :: z) k hx.2
          · match cs, hcs with
            | [], _ => simp [kindAt]
            | y :: z, hx =>
              rw [kindAt_old attrs datasets]
              exact H (head :: y :: z) k (by rw [List.cons_prefix_cons]; exact ⟨rfl, hx⟩)
        rcases hq : BGroup.addBlock false id n ((dget groups head).getD .empty) tail with e | ⟨h2, fl⟩
        · refine ⟨?_, ?_⟩
          · rw [← hiff, ← i1, hq]
          · simp only [Except.error.injEq]
            rintro e' rfl
            exact i2 _ hq
        · refine ⟨?_, by simp⟩
          rw [← hiff, ← i1, hq]; simp

/-- Declaring an attribute may only create groups on the way to it. -/
theorem addBlock_attr (id fuel : Nat) (g g' : BGroup) (name : Name) (flag : Bool) (h : BGroup.addBlock true id fuel g name = .ok (g', flag)) (cs : List Name) :
    kindAt g' cs = kindAt g cs ∨ (kindAt g cs = none ∧ kindAt g' cs = some none ∧ cs <+: comps name ∧ cs ≠ comps name) := by
  induction fuel generalizing g g' name flag cs with
  | zero => cases g; simp [BGroup.addBlock] at h
  | succ n ih =>
    obtain ⟨attrs, datasets, groups⟩ := g
    rcases hsp : splitPath name with ⟨_ | head, tail⟩
    · simp only [BGroup.addBlock, hsp, if_true] at h
      split at h
      · cases h
      · simp only [Except.ok.injEq, Prod.mk.injEq] at h
        rw [← h.1]
        left
        match cs with
        | [] => rfl
        | [k] => rfl
        | k :: m :: rest => rfl
    · obtain ⟨hc, hne, -⟩ := splitPath_some hsp
      obtain ⟨c0, crest, hcr⟩ := List.exists_cons_of_ne_nil hne
      simp only [BGroup.addBlock, hsp] at h
      cases hd : dget datasets head with
      | some d =>
        obtain ⟨d, dattrs⟩ := d
        simp only [hd] at h
        split at h
        · cases h
        · simp only [Except.ok.injEq, Prod.mk.injEq] at h
          rw [← h.1]
          left
          match cs with
          | [] => rfl
          | [k] =>
            simp only [kindAt, BGroup.groups, BGroup.datasets, dget_dset]
            by_cases hk : head = k
            · subst hk; simp [hd]
            · simp [hk]
          | k :: m :: rest => rfl
      | none =>
        simp only [hd, Option.isSome_none, Bool.false_eq_true, and_false, if_false] at h
        rcases hq : BGroup.addBlock true id n ((dget groups head).getD .empty) tail with e | ⟨h2, fl⟩
        · simp only [hq] at h; cases h
        · simp only [hq, Except.ok.injEq, Prod.mk.injEq] at h
          rw [← h.1, kindAt_dset, hc]
          match cs with
          | [] => left; rfl
          | [k] =>
            by_cases hk : head = k
            · subst hk
              cases hg : dget groups head with
              | some x => left; simp [kindAt, BGroup.groups, hg]
              | none =>
                right
                rw [hcr]
                simp [kindAt, BGroup.groups, BGroup.datasets, hg, hd, List.cons_prefix_cons]
            · left; simp [hk]
          | k :: m :: rest =>
            by_cases hk : head = k
            · subst hk
              simp only [if_true]
              rw [← kindAt_old attrs datasets]
              rcases ih _ _ _ _ hq (m :: rest) with h3 | ⟨h3, h4, h5, h6⟩
              · exact Or.inl h3
              · exact Or.inr ⟨h3, h4, by rw [List.cons_prefix_cons]; exact ⟨rfl, h5⟩, by simpa using h6⟩
            · left; simp [hk]

end Verif
