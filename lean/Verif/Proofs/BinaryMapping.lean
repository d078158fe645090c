import Verif.Model.BinaryMapping
import Verif.Spec.BinaryMapping
import Verif.Props.FileCache
import Verif.Props.WriteHdf5

/-! Proofs for C129 -/

namespace Verif.BinaryMapping

open WriteHdf5

/-! ### Names of members have no slashes -/

/-- No name of a member has a slash, in this group and all groups below. -/
def Plain (g : BGroup) : Prop := ∀ cs h, groupAt g cs = some h → (∀ e ∈ h.datasets, '/' ∉ e.1) ∧ ∀ e ∈ h.groups, '/' ∉ e.1

theorem plain_iff (g : BGroup) : Plain g ↔ ((∀ e ∈ g.datasets, '/' ∉ e.1) ∧ ∀ e ∈ g.groups, '/' ∉ e.1) ∧ ∀ n h, dget g.groups n = some h → Plain h := by
  constructor
  · intro hc
    refine ⟨hc [] g rfl, fun n h hn cs k hk => hc (n :: cs) k ?_⟩
    simp only [groupAt, hn, hk]
  · rintro ⟨h1, h2⟩ cs h hh
    cases cs with
    | nil => simp only [groupAt, Option.some.injEq] at hh; subst hh; exact h1
    | cons n rest =>
      simp only [groupAt] at hh
      split at hh
      · rename_i k hk; exact h2 n k hk rest h hh
      · cases hh

theorem plain_empty : Plain .empty := by
  rw [plain_iff]
  refine ⟨⟨?_, ?_⟩, fun n h hh => ?_⟩ <;> simp_all [BGroup.empty, BGroup.datasets, BGroup.groups, dget_nil]

theorem splitPath_plain {p t : Name} {h : Option Name} (hp : splitPath p = (h, t)) : (h = none → '/' ∉ t) ∧ ∀ x, h = some x → '/' ∉ x := by
  unfold splitPath at hp
  dsimp only at hp
  split at hp
  · rename_i hd
    simp only [Prod.mk.injEq] at hp
    obtain ⟨rfl, rfl⟩ := hp
    refine ⟨fun _ => ?_, by simp⟩
    have := List.takeWhile_append_dropWhile (p := fun c => c != '/') (l := stripSlashes p)
    rw [hd, List.append_nil] at this
    rw [← this]
    exact mem_takeWhile_ne _
  · simp only [Prod.mk.injEq] at hp
    obtain ⟨rfl, rfl⟩ := hp
    refine ⟨by simp, fun x hx => ?_⟩
    cases hx
    exact mem_takeWhile_ne _

theorem plain_add (is_attr : Bool) (id fuel : Nat) (g g' : BGroup) (name : Name) (flag : Bool) (hc : Plain g) (h : BGroup.addBlock is_attr id fuel g name = .ok (g', flag)) : Plain g' := by
  induction fuel generalizing g g' name flag with
  | zero => cases g; simp [BGroup.addBlock] at h
  | succ n ih =>
    obtain ⟨attrs, datasets, groups⟩ := g
    have hc0 := hc
    rw [plain_iff] at hc
    obtain ⟨⟨c1, c2⟩, c3⟩ := hc
    simp only [BGroup.datasets, BGroup.groups] at c1 c2 c3
    rcases hsp : splitPath name with ⟨_ | head, tail⟩
    · have htail := (splitPath_plain hsp).1 rfl
      simp only [BGroup.addBlock, hsp] at h
      cases is_attr with
      | true =>
        simp only [if_true] at h
        split at h
        · cases h
        · simp only [Except.ok.injEq, Prod.mk.injEq] at h
          rw [← h.1, plain_iff]
          exact ⟨⟨c1, c2⟩, c3⟩
      | false =>
        simp only [Bool.false_eq_true, if_false] at h
        split at h
        · cases h
        · split at h
          · cases h
          · simp only [Except.ok.injEq, Prod.mk.injEq] at h
            rw [← h.1, plain_iff]
            refine ⟨⟨fun e he => ?_, c2⟩, c3⟩
            rcases mem_dset he with rfl | he
            · exact htail
            · exact c1 e he
    · have hhead := (splitPath_plain hsp).2 _ rfl
      simp only [BGroup.addBlock, hsp] at h
      split at h
      · rename_i d dattrs hd
        split at h
        · cases h
        · simp only [Except.ok.injEq, Prod.mk.injEq] at h
          rw [← h.1, plain_iff]
          refine ⟨⟨fun e he => ?_, c2⟩, c3⟩
          rcases mem_dset he with rfl | he
          · exact hhead
          · exact c1 e he
      · split at h
        · cases h
        · split at h
          · cases h
          · rename_i h2 fl hq
            simp only [Except.ok.injEq, Prod.mk.injEq] at h
            have hsub : Plain ((dget groups head).getD .empty) := by
              cases hg : dget groups head with
              | none => exact plain_empty
              | some k => exact c3 head k hg
            have hnew := ih _ _ _ _ hsub hq
            rw [← h.1, plain_iff]
            refine ⟨⟨c1, fun e he => ?_⟩, fun m k hk => ?_⟩
            · rcases mem_dset he with rfl | he
              · exact hhead
              · exact c2 e he
            · simp only [BGroup.groups, dget_dset] at hk
              by_cases e : head = m
              · rw [if_pos e] at hk; cases hk; exact hnew
              · rw [if_neg e] at hk; exact c3 m k hk

theorem run_plain (s : Bool) (file : List Byte) (ops : List BOp) : Plain (BFile.run s file ops).root := by
  induction ops using List.reverseRecOn with
  | nil => exact plain_empty
  | append_singleton ops op ih =>
    have hrun : BFile.run s file (ops ++ [op]) = ((BFile.run s file ops).step s file op).1 := by rw [run_append]; rfl
    rw [hrun]
    have hv := run_valid s file ops
    generalize BFile.run s file ops = f at *
    cases op with
    | addDataset name d sh =>
      simp only [BFile.step, BFile.addBlock, hv, Bool.not_true, Bool.false_eq_true, if_false]
      rcases hq : BGroup.addBlock false f.blocks.length (name.length + 1) f.root name with e | ⟨r, fl⟩
      · exact ih
      · exact plain_add _ _ _ _ _ _ _ ih hq
    | addAttribute name d sh =>
      simp only [BFile.step, BFile.addBlock, hv, Bool.not_true, Bool.false_eq_true, if_false]
      rcases hq : BGroup.addBlock true f.blocks.length (name.length + 1) f.root name with e | ⟨r, fl⟩
      · exact ih
      · exact plain_add _ _ _ _ _ _ _ ih hq
    | _ => rw [(step_root s file _ _ hv).2 (by intros; simp) (by intros; simp)]; exact ih

/-- The group which a path leads to -/
theorem getItem_group (fuel : Nat) (g h : BGroup) (p : Name) (hg : BGroup.getItem fuel g p = .ok (.group h)) : ∃ cs, groupAt g cs = some h := by
  induction fuel generalizing g p with
  | zero => cases hg
  | succ n ih =>
    rcases hsp : splitPath p with ⟨_ | head, tail⟩
    · simp only [BGroup.getItem, hsp] at hg
      cases h1 : dget g.groups tail with
      | some k =>
        simp only [h1, Except.ok.injEq, BNode.group.injEq] at hg
        exact ⟨[tail], by simp only [groupAt, h1, hg]⟩
      | none =>
        simp only [h1] at hg
        cases h2 : dget g.datasets tail with
        | none => simp [h2] at hg
        | some d => simp [h2] at hg
    · simp only [BGroup.getItem, hsp] at hg
      cases h1 : dget g.groups head with
      | none => simp [h1] at hg
      | some k =>
        simp only [h1] at hg
        obtain ⟨cs, hcs⟩ := ih k tail hg
        exact ⟨head :: cs, by simp only [groupAt, h1, hcs]⟩

theorem strip_noslash {k : Name} (h : '/' ∉ k) : stripSlashes k = k := by
  have hd : ∀ l : Name, '/' ∉ l → l.dropWhile (fun c => c == '/') = l := by
    intro l hl
    cases l with
    | nil => rfl
    | cons c l =>
      have : (c == '/') = false := by
        rw [beq_eq_false_iff_ne]
        rintro rfl
        exact hl List.mem_cons_self
      rw [List.dropWhile_cons, this]
      rfl
  unfold stripSlashes
  rw [hd k h, hd k.reverse (by simpa using h), List.reverse_reverse]

theorem splitPath_noslash {k : Name} (h : '/' ∉ k) : splitPath k = (none, k) := by
  unfold splitPath
  rw [strip_noslash h]
  have : k.dropWhile (fun c => c != '/') = [] := by
    clear * - h
    induction k with
    | nil => rfl
    | cons c k ih =>
      have hc : (c != '/') = true := by
        rw [bne_iff_ne]
        rintro rfl
        exact h List.mem_cons_self
      rw [List.dropWhile_cons, hc]
      exact ih (fun hm => h (List.mem_cons_of_mem _ hm))
  simp only [this]

theorem dget_isSome_iff {β : Type} (d : List (Name × β)) (n : Name) : (∃ v, dget d n = some v) ↔ n ∈ d.map Prod.fst := by
  constructor
  · rintro ⟨v, hv⟩
    exact List.mem_map.2 ⟨_, mem_of_dget hv, rfl⟩
  · intro h
    by_contra hc
    have : dget d n = none := by
      cases hd : dget d n with
      | none => rfl
      | some v => exact absurd ⟨v, hd⟩ hc
    unfold dget at this
    rw [Option.map_eq_none_iff, List.find?_eq_none] at this
    obtain ⟨e, he, rfl⟩ := List.mem_map.1 h
    simpa using this e he

theorem getItem_plain {k : Name} (h : '/' ∉ k) (g : BGroup) : (∃ node, BGroup.getItem (k.length + 1) g k = .ok node) ↔ k ∈ keysOf g := by
  unfold keysOf
  rw [List.mem_append, ← dget_isSome_iff, ← dget_isSome_iff]
  simp only [BGroup.getItem, splitPath_noslash h]
  cases h1 : dget g.groups k with
  | some x => simp
  | none =>
    cases h2 : dget g.datasets k with
    | none => simp
    | some d => simp

/-! ### Rows -/

theorem foldl_mul (l : List Nat) (a : Nat) : l.foldl (fun n s => n * s) a = a * l.foldl (fun n s => n * s) 1 := by
  induction l generalizing a with
  | nil => simp
  | cons x l ih => rw [List.foldl_cons, List.foldl_cons, ih (a * x), ih (1 * x), Nat.one_mul, Nat.mul_assoc]

theorem rowKeys (w : Nat) : ∀ n, (List.range n).flatMap (rowKey w) = List.range (n * w)
  | 0 => by simp
  | n + 1 => by
    rw [List.range_succ, List.flatMap_append, rowKeys w n, Nat.succ_mul, List.range_add]
    simp [rowKey]

/-- Reading several elements is reading each of them. -/
theorem read_part (s : Bool) (file : List Byte) (b : Block) {key all : List Nat} {vals : List (List Byte)} (h : b.read s file all = .ok vals) (hk : ∀ i ∈ key, i ∈ all) :
    ∃ f : Nat → List Byte, vals = all.map f ∧ b.read s file key = .ok (key.map f) ∧ ∀ key' : List Nat, (∀ i ∈ key', i ∈ all) → b.read s file key' = .ok (key'.map f) := by
  have main : ∃ f : Nat → List Byte, vals = all.map f ∧ ∀ key' : List Nat, (∀ i ∈ key', i ∈ all) → b.read s file key' = .ok (key'.map f) := by
    unfold Block.read at h ⊢
    by_cases h1 : file = []
    · rw [if_pos h1] at h; cases h
    by_cases h2 : b.offset < 0
    · rw [if_neg h1, if_pos h2] at h; cases h
    by_cases h3 : b.offset + b.nbytes > file.length
    · rw [if_neg h1, if_neg h2, if_pos h3] at h; cases h
    simp only [if_neg h1, if_neg h2, if_neg h3] at h ⊢
    rcases hn : needByteswap s b.endian b.dtype with e | swap
    · rw [hn] at h; cases h
    rw [hn] at h
    dsimp only at h ⊢
    by_cases h4 : all.any (fun i => decide (i ≥ b.size)) = true
    · rw [if_pos h4] at h; cases h
    rw [if_neg h4] at h
    have ha : ∀ key' : List Nat, (∀ i ∈ key', i ∈ all) → ¬ key'.any (fun i => decide (i ≥ b.size)) = true := by
      intro key' hk' hc
      obtain ⟨i, hi, hp⟩ := List.any_eq_true.1 hc
      exact h4 (List.any_eq_true.2 ⟨i, hk' i hi, hp⟩)
    cases swap with
    | true =>
      simp only [if_true] at h ⊢
      refine ⟨_, ?_, fun key' hk' => by rw [if_neg (ha key' hk'), List.map_map]⟩
      rw [List.map_map] at h
      exact (Except.ok.inj h).symm
    | false =>
      simp only [Bool.false_eq_true, if_false] at h ⊢
      refine ⟨_, ?_, fun key' hk' => by rw [if_neg (ha key' hk'), List.map_map]⟩
      rw [List.map_map] at h
      exact (Except.ok.inj h).symm
  obtain ⟨f, h1, h2⟩ := main
  exact ⟨f, h1, h2 key hk, h2⟩

theorem iterRows_ok (s : Bool) (file : List Byte) (b : Block) (w : Nat) (f : Nat → List Byte) (is : List Nat) (h : ∀ i ∈ is, b.read s file (rowKey w i) = .ok ((rowKey w i).map f)) :
    iterRows s file b w is = .ok (is.map (fun i => (rowKey w i).map f)) := by
  induction is with
  | nil => rfl
  | cons i is ih =>
    unfold iterRows
    rw [h i List.mem_cons_self]
    show (iterRows s file b w is >>= _) = _
    rw [ih (fun j hj => h j (List.mem_cons_of_mem _ hj))]
    rfl

/-! ### `close()` -/

section close

variable {φ : Type} [DecidableEq φ] {disk : φ → Option (List Byte)} {s : CacheState φ}

/-- One dataset is closed. -/
theorem close_step (hi : CacheInv s) {d : Nat} {fname : φ} (hp : PartOf s d fname) :
    (¬ Holds s d → (cacheStep disk s (.close d)).1 = s) ∧
    (Holds s d → ¬ IsOpen (cacheStep disk s (.close d)).1 fname) ∧
    (∀ other, other ≠ fname → (IsOpen (cacheStep disk s (.close d)).1 other ↔ IsOpen s other)) ∧
    (cacheStep disk s (.close d)).1.datasets = s.datasets := by
  obtain ⟨x, hx, rfl⟩ := hp
  have open_iff : ∀ id, x.file = some id → (hasOpenFile s.objs x.file = true ↔ Holds s d) := by
    intro id hid
    unfold hasOpenFile Holds
    rw [hid]
    dsimp only
    constructor
    · intro h
      cases ho : s.objs[id]? with
      | none => rw [ho] at h; cases h
      | some o => rw [ho] at h; exact ⟨x, id, o, hx, hid, ho, by simpa using h⟩
    · rintro ⟨y, id', o, hy, hid', ho, hc⟩
      rw [hx] at hy
      cases hy
      rw [hid] at hid'
      cases hid'
      rw [ho]
      simpa using hc
  unfold cacheStep
  simp only [hx]
  cases hf : x.file with
  | none =>
    refine ⟨fun _ => rfl, ?_, fun _ _ => Iff.rfl, rfl⟩
    rintro ⟨y, id, o, hy, hid, _⟩
    rw [hx] at hy
    cases hy
    rw [hf] at hid
    cases hid
  | some id =>
    have hoi := open_iff id hf
    rw [hf] at hoi
    dsimp only
    by_cases hh : hasOpenFile s.objs (some id) = true
    · rw [if_pos hh]
      obtain ⟨o, ho, hn⟩ := hi.own d x id hx hf
      refine ⟨fun h => absurd (hoi.1 hh) h, ?_, ?_, rfl⟩
      · rintro _ ⟨j, o', hj, hn', hc'⟩
        simp only [closeObj, List.getElem?_modify] at hj
        by_cases e : id = j
        · subst e
          rw [ho] at hj
          simp at hj
          rw [← hj] at hc'
          cases hc'
        · simp [e] at hj
          have hoc : o.closed = false := by
            obtain ⟨y, id', o2, hy, hid', ho2, hc⟩ := hoi.1 hh
            rw [hx] at hy
            cases hy
            rw [hf] at hid'
            cases hid'
            rw [ho] at ho2
            cases ho2
            exact hc
          have := List.inj_on_of_nodup_map hi.keys (hi.cached id o ho hoc) (hi.cached j o' hj hc') (hn.trans hn'.symm)
          exact e (Prod.mk.inj this).2
      · intro other hne
        constructor
        · rintro ⟨j, o', hj, hn', hc'⟩
          simp only [closeObj, List.getElem?_modify] at hj
          by_cases e : id = j
          · subst e
            rw [ho] at hj
            simp at hj
            rw [← hj] at hc'
            cases hc'
          · simp [e] at hj
            exact ⟨j, o', hj, hn', hc'⟩
        · rintro ⟨j, o', hj, hn', hc'⟩
          refine ⟨j, o', ?_, hn', hc'⟩
          simp only [closeObj, List.getElem?_modify]
          have : id ≠ j := by
            rintro rfl
            rw [ho] at hj
            cases hj
            exact hne (hn'.symm.trans hn)
          simp [this, hj]
    · rw [if_neg hh]
      exact ⟨fun _ => rfl, fun h => absurd (hoi.2 h) hh, fun _ _ => Iff.rfl, rfl⟩

theorem close_fold {dsOf : Nat → Nat} {fname : φ} (ids : List Nat) (hi : CacheInv s) (hp : ∀ id ∈ ids, PartOf s (dsOf id) fname) :
    (IsOpen (ids.foldl (fun s id => (cacheStep disk s (.close (dsOf id))).1) s) fname ↔ IsOpen s fname ∧ ∀ id ∈ ids, ¬ Holds s (dsOf id)) ∧
    ∀ other, other ≠ fname → (IsOpen (ids.foldl (fun s id => (cacheStep disk s (.close (dsOf id))).1) s) other ↔ IsOpen s other) := by
  induction ids generalizing s with
  | nil => simp
  | cons a l ih =>
    obtain ⟨h1, h2, h3, h4⟩ := close_step (disk := disk) hi (hp a List.mem_cons_self)
    have hp' : ∀ id ∈ l, PartOf (cacheStep disk s (.close (dsOf a))).1 (dsOf id) fname := by
      intro id hid
      obtain ⟨x, hx, hn⟩ := hp id (List.mem_cons_of_mem _ hid)
      exact ⟨x, by rw [h4]; exact hx, hn⟩
    obtain ⟨i1, i2⟩ := ih (cacheStep_inv disk hi (.close (dsOf a))) hp'
    rw [List.foldl_cons]
    refine ⟨?_, fun other ho => (i2 other ho).trans (h3 other ho)⟩
    rw [i1]
    by_cases hh : Holds s (dsOf a)
    · constructor
      · intro h
        exact absurd h.1 (h2 hh)
      · intro h
        exact absurd hh (h.2 a List.mem_cons_self)
    · rw [h1 hh]
      simp [hh]

end close

/-! ### The blocks which are closed -/

/-- The block is a dataset or an attribute of this group. -/
def Own (h : BGroup) (id : Nat) : Prop := id ∈ h.attrs.map Prod.snd ∨ id ∈ h.datasets.map (fun e => e.2.1)

mutual
theorem mem_closeIds (id : Nat) : ∀ (g : BGroup) (top : Bool), Tidy top g → (id ∈ closeIds g ↔ ∃ cs h, groupAt g cs = some h ∧ Own h id)
  | .mk attrs datasets groups, top, ht => by
    rw [tidy_iff] at ht
    obtain ⟨hl, hs⟩ := ht
    have hgs := hl.gs
    simp only [BGroup.groups] at hgs hs
    have ih := mem_closeGroups id groups (fun n k hk => hs n k (dget_of_mem hgs hk))
    unfold closeIds
    rw [List.mem_append, List.mem_append, ih]
    constructor
    · rintro (h | ⟨e, he, cs, h, h1, h2⟩)
      · exact ⟨[], _, rfl, h⟩
      · refine ⟨e.1 :: cs, h, ?_, h2⟩
        simp only [groupAt, BGroup.groups, dget_of_mem hgs (show (e.1, e.2) ∈ groups from he), h1]
    · rintro ⟨cs, h, h1, h2⟩
      cases cs with
      | nil =>
        simp only [groupAt, Option.some.injEq] at h1
        subst h1
        exact Or.inl h2
      | cons n rest =>
        simp only [groupAt, BGroup.groups] at h1
        split at h1
        · rename_i k hk
          exact Or.inr ⟨(n, k), mem_of_dget hk, rest, h, h1, h2⟩
        · cases h1
theorem mem_closeGroups (id : Nat) : ∀ (gs : List (Name × BGroup)), (∀ n k, (n, k) ∈ gs → Tidy false k) → (id ∈ closeGroups gs ↔ ∃ e ∈ gs, ∃ cs h, groupAt e.2 cs = some h ∧ Own h id)
  | [], _ => by simp [closeGroups]
  | (n, g) :: rest, ht => by
    unfold closeGroups
    rw [List.mem_append, mem_closeIds id g false (ht n g List.mem_cons_self), mem_closeGroups id rest (fun m k hk => ht m k (List.mem_cons_of_mem _ hk))]
    simp
end

theorem groupAt_iff (g : BGroup) (cs : List Name) : (∃ h, groupAt g cs = some h) ↔ cs = [] ∨ kindAt g cs = some none := by
  induction cs generalizing g with
  | nil => simp [groupAt]
  | cons n rest ih =>
    simp only [groupAt]
    cases hd : dget g.groups n with
    | none =>
      cases rest with
      | nil => simp [kindAt, hd]
      | cons m rest => simp [kindAt, hd]
    | some k =>
      have := ih k
      cases rest with
      | nil => simp [kindAt, hd, groupAt]
      | cons m rest => simpa [kindAt, hd] using this

theorem kindAt_split (g : BGroup) (cs : List Name) (id : Nat) (h : kindAt g cs = some (some id)) : ∃ cs' n k, cs = cs' ++ [n] ∧ groupAt g cs' = some k ∧ kindAt k [n] = some (some id) := by
  induction cs generalizing g with
  | nil => cases h
  | cons n rest ih =>
    cases rest with
    | nil => exact ⟨[], n, g, rfl, rfl, h⟩
    | cons m rest =>
      simp only [kindAt] at h
      split at h
      · rename_i k hk
        obtain ⟨cs', x, k', h1, h2, h3⟩ := ih k h
        exact ⟨n :: cs', x, k', by rw [h1]; rfl, by simp only [groupAt, hk, h2], h3⟩
      · cases h

theorem closeIds_member {g : BGroup} {top : Bool} (ht : Tidy top g) (id : Nat) : id ∈ closeIds g ↔ Member g id := by
  rw [mem_closeIds id g top ht]
  unfold Member
  constructor
  · rintro ⟨cs, h, h1, h2⟩
    have hl := ht cs h h1
    rcases h2 with h2 | h2
    · obtain ⟨e, he, rfl⟩ := List.mem_map.1 h2
      refine Or.inr ⟨cs, e.1, (groupAt_iff g cs).1 ⟨h, h1⟩, ?_⟩
      have := attrAtPath_groupAt g h cs h1 [] e.1
      rw [List.append_nil] at this
      rw [this]
      exact dget_of_mem hl.ats (show (e.1, e.2) ∈ h.attrs from he)
    · obtain ⟨e, he, rfl⟩ := List.mem_map.1 h2
      refine Or.inl ⟨cs ++ [e.1], ?_⟩
      rw [kindAt_groupAt g h cs h1]
      have hd : dget h.datasets e.1 = some e.2 := dget_of_mem hl.ds (show (e.1, e.2) ∈ h.datasets from he)
      simp only [kindAt, hl.disj _ _ hd, hd, Option.map_some]
  · rintro (⟨cs, hk⟩ | ⟨cs, x, hcs, hx⟩)
    · obtain ⟨cs', n, h, rfl, h2, h3⟩ := kindAt_split g cs id hk
      refine ⟨cs', h, h2, Or.inr ?_⟩
      simp only [kindAt] at h3
      split at h3
      · cases h3
      · rw [Option.map_eq_some_iff] at h3
        obtain ⟨d, hd, he⟩ := h3
        exact List.mem_map.2 ⟨(n, d), mem_of_dget hd, Option.some.inj he⟩
    · obtain ⟨h, hh⟩ := (groupAt_iff g cs).2 hcs
      refine ⟨cs, h, hh, Or.inl ?_⟩
      have := attrAtPath_groupAt g h cs hh [] x
      rw [List.append_nil, hx] at this
      exact List.mem_map.2 ⟨(x, id), mem_of_dget this.symm, rfl⟩

end Verif.BinaryMapping
