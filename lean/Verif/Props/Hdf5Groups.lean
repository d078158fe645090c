import Verif.Proofs.Hdf5Groups
import Verif.Proofs.Hdf5Write

/-!
C97: groups and attributes of the Fortran wrapper of HDF5
-/

namespace Verif.Hdf5

open FortranReaders

theorem createGroup_path {cs : List Name} (hne : cs ≠ []) (hp : ∀ c ∈ cs, Part c) (hl : (pathName cs).length ≤ 255) (lead : Bool) (f : H5File) :
    createGroup f (absName lead cs) = groupLoop ((slashed cs).length + 1) f [] 0 (slashed cs) := by
  unfold createGroup absName
  rw [groupString_path hne hp hl lead]

theorem root_reach (f : H5File) : f.reach [] [] = some .group := by
  unfold H5File.reach H5File.link
  rw [if_pos rfl]

/-- **C97** (groups): a path of at most ten groups with less than 256 characters is created with all groups along it, whichever of them were there before, with or without a slash at the beginning. Nothing
else changes. If one of the names is a dataset the program ends. -/
theorem C97_create_group {f : H5File} {cs : List Name} (hne : cs ≠ []) (hp : ∀ c ∈ cs, Part c) (hl : (pathName cs).length ≤ 255) (h10 : cs.length ≤ 10) (lead : Bool) :
    ((∀ p a, p <+: cs → f.link p ≠ some (.dset a)) → ∃ f', createGroup f (absName lead cs) = .ok f' ∧ (∀ p, p <+: cs → f'.link p = some .group) ∧ (∀ p, ¬ p <+: cs → f'.link p = f.link p) ∧
      f'.heap = f.heap ∧ f'.attrs = f.attrs) ∧
      ((∃ p a, p <+: cs ∧ f.link p = some (.dset a)) → createGroup f (absName lead cs) = .error .abort) := by
  have hsl := slashed_length hp
  have hcase : ∀ p, (∀ a, f.link p ≠ some (.dset a)) → f.link p = none ∨ f.link p = some .group := by
    intro p h
    cases hx : f.link p with
    | none => exact Or.inl rfl
    | some l =>
      cases l with
      | group => exact Or.inr rfl
      | dset a => exact absurd hx (h a)
  rw [createGroup_path hne hp hl lead]
  constructor
  · intro h
    obtain ⟨f', h1, h2⟩ := groupLoop_made (f := f) (path := []) (n := 0) hp (root_reach f) (by omega) (show cs.length < (slashed cs).length + 1 by omega)
      (fun k _ _ => hcase _ (fun a => h _ a (by rw [List.nil_append]; exact List.take_prefix k cs)))
    have hg := groupLoop_grows h1
    refine ⟨f', h1, fun p hpre => ?_, fun p hpre => ?_, hg.heap, hg.attrs⟩
    · have := h2.groups p.length hpre.length_le
      rwa [List.nil_append, ← List.prefix_iff_eq_take.1 hpre] at this
    · refine h2.others p (fun k _ _ hk => hpre ?_)
      rw [hk, List.nil_append]
      exact List.take_prefix k cs
  · rintro ⟨p, a, hpre, ha⟩
    -- the first such name
    classical
    have hex : ∃ j, ∃ b, f.link (cs.take j) = some (.dset b) := ⟨p.length, a, by rw [← List.prefix_iff_eq_take.1 hpre]; exact ha⟩
    have hj := Nat.find_spec hex
    have hmin := fun m (hm : m < Nat.find hex) => Nat.find_min hex hm
    obtain ⟨b, hb⟩ := hj
    have hle : Nat.find hex ≤ cs.length := by
      refine (Nat.find_min' hex ⟨a, ?_⟩).trans hpre.length_le
      rw [← List.prefix_iff_eq_take.1 hpre]; exact ha
    have hpos : 1 ≤ Nat.find hex := by
      by_contra h0
      have h0 : Nat.find hex = 0 := by omega
      rw [h0] at hb
      simp [H5File.link] at hb
    exact (groupLoop_fails (f := f) (path := []) (n := 0) hp (root_reach f) (show cs.length < (slashed cs).length + 1 by omega) (by omega) (Nat.find hex) hpos hle
      (fun k _ hk => hcase _ (fun a ha => hmin k hk ⟨a, ha⟩))).1 b hb (by omega)

/-- Defect: there is room for ten groups only. With more, memory outside of `id_chain` is written. -/
theorem C97_nesting_defect {f : H5File} {cs : List Name} (hp : ∀ c ∈ cs, Part c) (hl : (pathName cs).length ≤ 255) (h10 : 10 < cs.length) (lead : Bool)
    (h : ∀ p a, p <+: cs → f.link p ≠ some (.dset a)) : createGroup f (absName lead cs) = .error .other := by
  have hsl := slashed_length hp
  have hne : cs ≠ [] := fun h => by rw [h] at h10; simp at h10
  have hcase : ∀ k, f.link ([] ++ cs.take k) = none ∨ f.link ([] ++ cs.take k) = some .group := by
    intro k
    cases hx : f.link ([] ++ cs.take k) with
    | none => exact Or.inl rfl
    | some l =>
      cases l with
      | group => exact Or.inr rfl
      | dset a => exact absurd hx (h _ a (by rw [List.nil_append]; exact List.take_prefix k cs))
  rw [createGroup_path hne hp hl lead]
  exact (groupLoop_fails (f := f) (path := []) (n := 0) hp (root_reach f) (show cs.length < (slashed cs).length + 1 by omega) (by omega) 11 (by omega) (by omega) (fun k _ _ => hcase k)).2 (hcase 11) (by omega)

/-- Defect: in HDF5 two slashes are the same as one, but groups with such a name are not created, and not even opened if they exist. -/
theorem C97_double_slash_defect {f : H5File} {c d : Name} (hc : Part c) (hd : Part d) (hl : c.length + d.length ≤ 253) (h : ∀ a, f.link [c] ≠ some (.dset a)) :
    createGroup f (c ++ '/' :: '/' :: d) = .error .abort ∧ h5Components (trimBlanks (c ++ '/' :: '/' :: d)) = [c, d] := by
  obtain ⟨x, hx, hx1, hx2⟩ := getLast_part hd
  have hlast : (c ++ '/' :: '/' :: d).getLast? = some x := by
    obtain ⟨y, l, hy⟩ := List.exists_cons_of_ne_nil hd.ne
    rw [List.getLast?_append, List.getLast?_cons_cons]
    rw [hy, List.getLast?_cons_cons, ← hy, hx]
    rfl
  have htrim : trimBlanks (c ++ '/' :: '/' :: d) = c ++ '/' :: '/' :: d := trimBlanks_last (by rw [hlast]; simpa using hx2)
  obtain ⟨y, l, hy⟩ := List.exists_cons_of_ne_nil hc.ne
  have hy2 : y ≠ '/' := by
    rintro rfl
    exact hc.slash (by rw [hy]; simp)
  constructor
  · unfold createGroup
    have hs : groupString (c ++ '/' :: '/' :: d) = .ok (c ++ '/' :: '/' :: (d ++ ['/'])) := by
      unfold groupString
      simp only
      rw [List.take_of_length_le (by simp; omega), htrim]
      have hstrip : stripSlash (c ++ '/' :: '/' :: d) = c ++ '/' :: '/' :: d := by
        rw [hy, List.cons_append, stripSlash, if_neg hy2]
      rw [hstrip, if_neg, if_neg (by simp; omega)]
      · simp
      · rintro (h1 | h1)
        · rw [hlast] at h1; exact hx1 (Option.some.inj h1)
        · simp at h1
    rw [hs]
    simp only
    rw [groupLoop_succ hc]
    have hg : f.link [c] = none ∨ f.link [c] = some .group := by
      cases hx : f.link [c] with
      | none => exact Or.inl rfl
      | some l =>
        cases l with
        | group => exact Or.inr rfl
        | dset a => exact absurd hx (h a)
    obtain ⟨h2, _⟩ := (add_group_step (path := []) (root_reach f)).1 hg
    have h2c := h2 ([] ++ [c])
    rw [if_pos rfl] at h2c
    rw [if_pos h2c, if_neg (by omega)]
    obtain ⟨m, hm⟩ : ∃ m, (c ++ '/' :: '/' :: (d ++ ['/'])).length = m + 1 := ⟨c.length + d.length + 2, by simp; omega⟩
    rw [hm, groupLoop, cutSlash, if_pos rfl]
    simp only
    rw [if_pos (by decide)]
  · rw [htrim]
    have h1 := components_path (cs := [c]) (by intro e he; simp at he; rw [he]; exact hc)
    have h2 := components_path (cs := [d]) (by intro e he; simp at he; rw [he]; exact hd)
    have h3 := components_slash d
    rw [pathName] at h1 h2
    rw [h2] at h3
    unfold h5Components at h1 h3 ⊢
    rw [slashParts_append, List.filter_append, h1, h3]
    rfl

/-- Defect: names of groups are cut after 256 characters, so that another group is created. -/
theorem C97_long_name_defect (f : H5File) (name : Name) : createGroup f name = createGroup f (name.take 256) := by
  unfold createGroup groupString
  rw [List.take_take]
  rfl

/-! ### Attributes -/

theorem lastSlash_append {a b : Name} (h : '/' ∉ b) : lastSlash (a ++ '/' :: b) = a.length + 1 := by
  unfold lastSlash
  rw [if_pos (by simp)]
  have hrev : (a ++ '/' :: b).reverse = b.reverse ++ '/' :: a.reverse := by simp
  rw [hrev, List.findIdx_append]
  have hb : ¬ ∃ x ∈ b.reverse, (x == '/') = true := by
    rintro ⟨x, hx, he⟩
    have : x = '/' := by simpa using he
    rw [this] at hx
    exact h (List.mem_reverse.1 hx)
  have hlen : List.findIdx (fun x => x == '/') b.reverse = b.reverse.length := by
    rw [List.findIdx_eq_length]
    intro x hx
    by_contra hc
    exact hb ⟨x, hx, by simpa using hc⟩
  rw [hlen, if_neg (lt_irrefl _), List.findIdx_cons]
  simp
  omega

theorem pathName_snoc {gs : List Name} (h : gs ≠ []) (d : Name) : pathName (gs ++ [d]) = pathName gs ++ '/' :: d := by
  induction gs with
  | nil => exact absurd rfl h
  | cons c cs ih =>
    cases cs with
    | nil => rfl
    | cons e cs =>
      have := ih (by simp)
      rw [List.cons_append] at this
      show c ++ '/' :: pathName (e :: (cs ++ [d])) = _
      rw [this, pathName]
      simp

theorem find_path {f : H5File} {cs : List Name} (hne : cs ≠ []) (hp : ∀ c ∈ cs, Part c) (lead : Bool) : f.find (absName lead cs) = f.reach [] cs := by
  obtain ⟨x, h1, h2, h3⟩ := pathName_end hne hp
  have htrim : trimBlanks (absName lead cs) = absName lead cs := by
    apply trimBlanks_last
    unfold absName
    rw [List.getLast?_append, h1]
    simpa using h3
  have hcomp : h5Components (absName lead cs) = cs := by
    unfold absName
    cases lead with
    | false => exact components_path hp
    | true =>
      simp only [if_true, List.cons_append, List.nil_append]
      rw [components_slash, components_path hp]
  unfold H5File.find
  rw [htrim, hcomp, if_neg]
  unfold absName
  intro h0
  rw [(List.append_eq_nil_iff.1 h0).2] at h1
  simp at h1

theorem reach_prefix {f : H5File} {cs : List Name} (h : f.reach [] cs = some .group) : ∀ p, p <+: cs → f.link p = some .group := by
  induction cs using List.reverseRecOn with
  | nil =>
    intro p hp
    rw [List.prefix_nil.1 hp]
    simpa using reach_link h
  | append_singleton cs c ih =>
    intro p hp
    rcases List.prefix_concat_iff.1 (by simpa using hp) with rfl | hp
    · simpa using reach_link h
    · rw [reach_snoc] at h
      split at h
      · next h' => exact ih h' p hp
      · simp at h

theorem prefix_reach {f : H5File} {cs : List Name} (h : ∀ p, p <+: cs → f.link p = some .group) : f.reach [] cs = some .group := by
  induction cs using List.reverseRecOn with
  | nil => exact root_reach f
  | append_singleton cs c ih =>
    rw [reach_snoc, if_pos (ih (fun p hp => h p (hp.trans (List.prefix_append cs [c]))))]
    exact h _ (List.prefix_refl _)

/-- **C97** (datasets): a new dataset is written whichever of the groups in its name were there before. The missing ones are created, and apart from them only the dataset is new. -/
theorem C97_dataset_groups {f : H5File} {gs : List Name} {d : Name} (hp : ∀ c ∈ gs, Part c) (hd : Part d) (hl : (pathName gs).length ≤ 255) (h10 : gs.length ≤ 10) (lead : Bool)
    (hfree : f.link (gs ++ [d]) = none) (hg : ∀ p a, p <+: gs → f.link p ≠ some (.dset a)) {a : WriteArgs} (hz : ¬ (0 < a.options.gzip ∧ a.options.szip = true)) {ds : Dset}
    (hds : writeNew a.options a.memtype a.region a.arr = .ok ds) :
    ∃ f', writeFile f (absName lead (gs ++ [d])) a = .ok f' ∧ f'.link (gs ++ [d]) = some (.dset f.heap.length) ∧ f'.heap = f.heap ++ [ds] ∧ (∀ p, p <+: gs → f'.link p = some .group) ∧
      (∀ p, ¬ p <+: gs ++ [d] → f'.link p = f.link p) ∧ f'.attrs = f.attrs := by
  have hpd : ∀ c ∈ gs ++ [d], Part c := by
    intro c hc
    rcases List.mem_append.1 hc with hc | hc
    · exact hp c hc
    · rw [List.mem_singleton.1 hc]; exact hd
  have hnotpre : ¬ (gs ++ [d]) <+: gs := fun h => by have := h.length_le; simp at this
  -- the groups
  have hpar : ∃ f1, parentGroups f (absName lead (gs ++ [d])) = .ok f1 ∧ (∀ p, p <+: gs → f1.link p = some .group) ∧ (∀ p, ¬ p <+: gs → f1.link p = f.link p) ∧ f1.heap = f.heap ∧ f1.attrs = f.attrs := by
    have hsame : f.reach [] gs = some .group → (∀ p, p <+: gs → f.link p = some .group) := reach_prefix
    by_cases hne : gs = []
    · refine ⟨f, ?_, hsame (by rw [hne]; exact root_reach f), fun p _ => rfl, rfl, rfl⟩
      subst hne
      unfold parentGroups
      simp only
      rw [if_neg]
      rintro ⟨h1, _⟩
      cases lead with
      | false =>
        have : lastSlash (absName false ([] ++ [d])) = 0 := by
          unfold lastSlash
          exact if_neg hd.slash
        omega
      | true =>
        have : lastSlash (absName true ([] ++ [d])) = 1 := lastSlash_append (a := []) hd.slash
        omega
    · have hname : absName lead (gs ++ [d]) = absName lead gs ++ '/' :: d := by
        unfold absName
        rw [pathName_snoc hne, List.append_assoc]
      obtain ⟨x, l, hx, _⟩ := pathName_head hne hp
      have hpos : 1 ≤ (absName lead gs).length := by
        unfold absName
        rw [hx]
        simp
        omega
      have htake : (absName lead gs ++ '/' :: d).take ((absName lead gs).length + 1 - 1) = absName lead gs := by
        rw [Nat.add_sub_cancel, List.take_left']
        rfl
      have htrim : trimBlanks (absName lead gs) = absName lead gs := by
        obtain ⟨x, h1, h2, h3⟩ := pathName_end hne hp
        apply trimBlanks_last
        unfold absName
        rw [List.getLast?_append, h1]
        simpa using h3
      unfold parentGroups
      simp only
      rw [hname, lastSlash_append hd.slash, htake, htrim]
      unfold h5gopen
      rw [find_path hne hp]
      by_cases hr : f.reach [] gs = some .group
      · rw [if_neg (by simp [hr])]
        exact ⟨f, rfl, hsame hr, fun p _ => rfl, rfl, rfl⟩
      · rw [if_pos ⟨by omega, by simp [hr]⟩]
        obtain ⟨f1, h1, h2, h3, h4, h5⟩ := (C97_create_group (f := f) hne hp hl h10 lead).1 hg
        exact ⟨f1, h1, h2, h3, h4, h5⟩
  obtain ⟨f1, h1, h2, h3, h4, h5⟩ := hpar
  have hopen : h5dopen f (absName lead (gs ++ [d])) = none := by
    unfold h5dopen
    rw [find_path (by simp) hpd, reach_snoc, List.nil_append, hfree]
    split
    · next h => split at h <;> simp at h
    · rfl
  have hcomp : h5Components (trimBlanks (absName lead (gs ++ [d]))) = gs ++ [d] := by
    obtain ⟨x, e1, e2, e3⟩ := pathName_end (cs := gs ++ [d]) (by simp) hpd
    rw [trimBlanks_last (by unfold absName; rw [List.getLast?_append, e1]; simpa using e3)]
    unfold absName
    cases lead with
    | false => exact components_path hpd
    | true =>
      simp only [if_true, List.cons_append, List.nil_append]
      rw [components_slash, components_path hpd]
  have hadd : f1.add (gs ++ [d]) (.dset f1.heap.length) = some { f1 with links := (gs ++ [d], .dset f1.heap.length) :: f1.links } := by
    unfold H5File.add
    rw [if_neg (by simp), if_pos ⟨by rw [List.dropLast_concat]; exact prefix_reach h2, by rw [h3 _ hnotpre]; exact hfree⟩]
  have hlink : ∀ p, H5File.link { f1 with links := (gs ++ [d], .dset f1.heap.length) :: f1.links, heap := f1.heap ++ [ds] } p = if p = gs ++ [d] then some (.dset f1.heap.length) else f1.link p :=
    fun p => link_add (f := f1) (by simp) p
  refine ⟨{ f1 with links := (gs ++ [d], .dset f1.heap.length) :: f1.links, heap := f1.heap ++ [ds] }, ?_, ?_, ?_, ?_, ?_, ?_⟩
  · unfold writeFile
    rw [if_neg hz, hopen]
    simp only
    unfold newDset
    rw [h1]
    unfold writeNew at hds
    obtain ⟨ds0, hc, hput⟩ := except_bind_ok hds
    simp only [bind, Except.bind, hc, hcomp, hadd, hput]
  · rw [hlink, if_pos rfl, h4]
  · show f1.heap ++ [ds] = _
    rw [h4]
  · intro p hpre
    rw [hlink, if_neg (fun h : p = gs ++ [d] => hnotpre (h ▸ hpre)), h2 p hpre]
  · intro p hpre
    rw [hlink, if_neg (fun h : p = gs ++ [d] => hpre (h ▸ List.prefix_refl _)), h3 p (fun h => hpre (h.trans (List.prefix_append _ _)))]
  · exact h5

theorem attrKey_split {f : H5File} {loc attr : Name} (ha : AttrName attr) (hl : loc.length ≤ 256) :
    attrKey f (loc ++ '/' :: attr) = match f.find loc with
      | some (.dset a) => .ok (.dset a, attr)
      | some .group => .ok (.group (h5Components (trimBlanks loc)), attr)
      | none => .error .abort := by
  obtain ⟨x, l, hx⟩ := List.exists_cons_of_ne_nil ha.ne
  have htrim : trimBlanks (loc ++ '/' :: attr) = loc ++ '/' :: attr := by
    apply trimBlanks_last
    rw [List.getLast?_append, hx, List.getLast?_cons_cons, ← hx]
    cases he : attr.getLast? with
    | none => exact absurd (List.getLast?_eq_none_iff.1 he) ha.ne
    | some y =>
      have := ha.blank
      rw [he] at this
      simpa using this
  unfold attrKey
  simp only
  rw [lastSlash_append ha.slash, if_neg (by omega), htrim]
  have h1 : (loc ++ '/' :: attr).take (loc.length + 1 - 1) = loc := by
    rw [Nat.add_sub_cancel, List.take_left']
    rfl
  have h2 : (loc ++ '/' :: attr).drop (loc.length + 1) = attr := by
    rw [show loc ++ '/' :: attr = (loc ++ ['/']) ++ attr by simp, List.drop_left']
    simp
  rw [h1, h2, List.take_of_length_le hl, List.take_of_length_le ha.length, trimBlanks_last ha.blank, find_trim]
  cases f.find loc with
  | none => rfl
  | some l => cases l <;> rfl

/-- The object of an attribute -/
theorem attrKey_path {f : H5File} (hw : f.WF) {cs : List Name} {attr : Name} (hne : cs ≠ []) (hp : ∀ c ∈ cs, Part c) (ha : AttrName attr) (lead : Bool) (hl : (absName lead cs).length ≤ 256) :
    attrKey f (absName lead cs ++ '/' :: attr) = match f.owner cs with | none => .error .abort | some o => .ok (o, attr) := by
  obtain ⟨x, h1, h2, h3⟩ := pathName_end hne hp
  have htrim : trimBlanks (absName lead cs) = absName lead cs := by
    apply trimBlanks_last
    unfold absName
    rw [List.getLast?_append, h1]
    simpa using h3
  have hcomp : h5Components (absName lead cs) = cs := by
    unfold absName
    cases lead with
    | false => exact components_path hp
    | true =>
      simp only [if_true, List.cons_append, List.nil_append]
      rw [components_slash, components_path hp]
  have hne' : trimBlanks (absName lead cs) ≠ [] := by
    rw [htrim]
    unfold absName
    intro h0
    rw [(List.append_eq_nil_iff.1 h0).2] at h1
    simp at h1
  rw [attrKey_split ha hl, find_of_link hw hne', htrim, hcomp]
  unfold H5File.owner
  cases f.link cs with
  | none => rfl
  | some l => cases l <;> rfl

theorem assoc_filter_key {α β : Type} [DecidableEq α] (k k' : α) (l : List (α × β)) : assoc k' (l.filter (fun x => decide (x.1 ≠ k))) = if k' = k then none else assoc k' l := by
  induction l with
  | nil => simp [assoc]
  | cons x l ih =>
    obtain ⟨a, b⟩ := x
    by_cases ha : a = k
    · rw [List.filter_cons_of_neg (by simp [ha]), ih, assoc]
      by_cases hp : k' = k
      · rw [if_pos hp, if_pos hp]
      · rw [if_neg hp, if_neg hp, if_neg (fun h : a = k' => hp (h.symm.trans ha))]
    · rw [List.filter_cons_of_pos (by simp [ha]), assoc, ih, assoc]
      by_cases hp : k' = k
      · rw [if_pos hp, if_neg (fun h => ha (h.trans hp)), if_pos hp]
      · rw [if_neg hp, if_neg hp]

/-- **C97** (attributes): an attribute of a group or dataset is written exactly if the object exists, and the attribute does not or is to be replaced. It has the type, the shape and the elements of the array; all other
attributes and all objects are unchanged. -/
theorem C97_write_attribute {f : H5File} (hw : f.WF) {cs : List Name} {attr : Name} (hne : cs ≠ []) (hp : ∀ c ∈ cs, Part c) (ha : AttrName attr) (lead : Bool) (hl : (absName lead cs).length ≤ 256)
    (overwrite : Bool) (t : DType) (arr : FArray) :
    (f.owner cs ≠ none ∧ (overwrite = true ∨ f.attr cs attr = none) → ∃ f', writeAttrFile f (absName lead cs ++ '/' :: attr) overwrite t arr = .ok f' ∧ f'.attr cs attr = some ⟨t, arr.dims, arr.elems⟩ ∧
      (∀ cs' attr', attr' ≠ attr ∨ f.owner cs' ≠ f.owner cs → f'.attr cs' attr' = f.attr cs' attr') ∧ f'.links = f.links ∧ f'.heap = f.heap) ∧
      (¬ (f.owner cs ≠ none ∧ (overwrite = true ∨ f.attr cs attr = none)) → writeAttrFile f (absName lead cs ++ '/' :: attr) overwrite t arr = .error .abort) := by
  unfold writeAttrFile
  rw [attrKey_path hw hne hp ha lead hl]
  cases ho : f.owner cs with
  | none => exact ⟨fun h => absurd rfl h.1, fun _ => rfl⟩
  | some o =>
    simp only [bind, Except.bind]
    have hattr : f.attr cs attr = assoc (o, attr) f.attrs := by unfold H5File.attr; rw [ho]; rfl
    have hkeep : ∀ k', k' ≠ (o, attr) → assoc k' (if overwrite = true then f.attrs.filter (fun x => decide (x.1 ≠ (o, attr))) else f.attrs) = assoc k' f.attrs := by
      intro k' hk
      split
      · rw [assoc_filter_key, if_neg hk]
      · rfl
    have hself : assoc (o, attr) (if overwrite = true then f.attrs.filter (fun x => decide (x.1 ≠ (o, attr))) else f.attrs) = if overwrite = true then none else assoc (o, attr) f.attrs := by
      split
      · rw [assoc_filter_key, if_pos rfl]
      · rfl
    constructor
    · rintro ⟨_, hc⟩
      rw [if_neg]
      · refine ⟨_, rfl, ?_, fun cs' attr' hd => ?_, rfl, rfl⟩
        · show (f.owner cs).bind _ = _
          rw [ho]
          show assoc (o, attr) (((o, attr), _) :: _) = _
          rw [assoc, if_pos rfl]
        · show (f.owner cs').bind _ = (f.owner cs').bind _
          cases hco : f.owner cs' with
          | none => rfl
          | some o' =>
            show assoc (o', attr') (((o, attr), _) :: _) = assoc (o', attr') f.attrs
            have hk : (o', attr') ≠ (o, attr) := by
              intro h
              obtain ⟨h1, h2⟩ := Prod.mk.inj h
              rcases hd with hd | hd
              · exact hd h2
              · rw [hco, h1] at hd; exact hd rfl
            rw [assoc, if_neg (fun h => hk h.symm), hkeep _ hk]
      · rintro (h | h)
        · exact ha.ne h
        · rw [hself] at h
          rcases hc with hc | hc
          · rw [if_pos hc] at h; simp at h
          · rw [hattr] at hc
            rw [hc] at h
            split at h <;> simp at h
    · intro hc
      rw [if_pos]
      right
      rw [hself]
      have h1 : ¬ overwrite = true := fun h => hc ⟨by simp, Or.inl h⟩
      have h2 : ¬ f.attr cs attr = none := fun h => hc ⟨by simp, Or.inr h⟩
      rw [if_neg h1]
      rw [hattr] at h2
      exact Option.isSome_iff_ne_none.2 h2

/-- **C97**: an attribute of a compatible type is read into an array which has as many elements or more: the elements of the attribute come first, in the order of the memory, and the rest is unchanged. -/
theorem C97_read_attribute {w : World} {ifile : Int} {h : Handle} {f : H5File} (hh : w.handle ifile = .ok h) (hd : w.disk h.file = some f) (hw : f.WF) {cs : List Name} {attr : Name} (hne : cs ≠ [])
    (hp : ∀ c ∈ cs, Part c) (ha : AttrName attr) (lead : Bool) (hl : (absName lead cs).length ≤ 256) (t : DType) (b : FArray) :
    (f.attr cs attr = none → readAttr w ifile (absName lead cs ++ '/' :: attr) t b = .error .abort) ∧
      ∀ a, f.attr cs attr = some a → Compatible a.dtype t → (∀ v ∈ a.data, v.length = a.dtype.size) → 0 < a.dtype.size → a.data.length ≤ b.elems.length →
        ∃ b', readAttr w ifile (absName lead cs ++ '/' :: attr) t b = .ok b' ∧ b'.dims = b.dims ∧ b'.elems.length = b.elems.length ∧
          (∀ (i : Nat) (v : List Byte), a.data[i]? = some v → ∃ v', b'.elems[i]? = some v' ∧ Converted a.dtype t v v') ∧ ∀ (i : Nat), a.data.length ≤ i → b'.elems[i]? = b.elems[i]? := by
  unfold readAttr
  rw [hh]
  simp only [bind, Except.bind, hd]
  rw [attrKey_path hw hne hp ha lead hl]
  have hattr : f.attr cs attr = (f.owner cs).bind (fun o => assoc (o, attr) f.attrs) := rfl
  cases ho : f.owner cs with
  | none =>
    rw [ho] at hattr
    refine ⟨fun _ => rfl, fun a h1 => ?_⟩
    rw [hattr] at h1; simp at h1
  | some o =>
    rw [ho] at hattr
    have hattr : f.attr cs attr = assoc (o, attr) f.attrs := hattr
    rw [hattr]
    simp only
    constructor
    · intro h1
      rw [h1]
    · intro a h1 hc hv hs hlen
      rw [h1]
      simp only
      have hcls : ¬ (a.dtype.cls.sameClass t.cls = false ∨ (if t.cls = .string then t.size < a.dtype.size else a.dtype.size ≠ t.size)) := by
        obtain ⟨h2, h3⟩ := (compatible_iff _ _).1 hc
        rintro (h4 | h4)
        · rw [h2] at h4; simp at h4
        · exact h3 h4
      rw [if_neg hcls, if_neg (by omega)]
      refine ⟨_, rfl, rfl, ?_, fun i v hi => ?_, fun i hi => ?_⟩
      · simp [overlay]; omega
      · have hil : i < a.data.length := (List.getElem?_eq_some_iff.1 hi).1
        refine ⟨convert a.dtype t v, ?_, convert_converted hc (hv v (List.mem_of_getElem? hi)) hs⟩
        show (overlay b.elems 0 _)[i]? = _
        unfold overlay
        rw [List.take_zero, List.nil_append, List.getElem?_append_left (by simpa using hil), List.getElem?_map, hi]
        rfl
      · show (overlay b.elems 0 _)[i]? = _
        unfold overlay
        rw [List.take_zero, List.nil_append, List.getElem?_append_right (by simpa using hi), List.getElem?_drop]
        congr 1
        simp
        omega

/-- **C97** (round trip): an attribute which was written is read back with any handle of the file, into an array of the same shape. -/
theorem C97_attribute_round_trip {w w' : World} {i j : Int} {h h' : Handle} {f : H5File} (hh : w.handle i = .ok h) (hh' : w.handle j = .ok h') (hfile : h'.file = h.file) (hd : w.disk h.file = some f) (hw : f.WF)
    {cs : List Name} {attr : Name} (hne : cs ≠ []) (hp : ∀ c ∈ cs, Part c) (ha : AttrName attr) (lead lead' : Bool) (hl : (absName lead cs).length ≤ 256) (hl' : (absName lead' cs).length ≤ 256)
    (overwrite : Bool) {t : DType} {arr b : FArray} (hta : arr.HasType t) (hwa : arr.WF) (hwb : b.WF) (hb : b.dims = arr.dims)
    (e : writeAttr w i (absName lead cs ++ '/' :: attr) overwrite t arr = .ok w') : readAttr w' j (absName lead' cs ++ '/' :: attr) t b = .ok arr := by
  unfold writeAttr onFile at e
  rw [hh] at e
  obtain ⟨_, hgg, e⟩ := except_bind_ok e
  obtain rfl := Except.ok.inj hgg
  split at e
  · simp at e
  · rw [hd] at e
    simp only at e
    obtain ⟨f', hf', e⟩ := except_bind_ok e
    simp only [Except.ok.injEq] at e
    have hsp := C97_write_attribute hw hne hp ha lead hl overwrite t arr
    have hc : f.owner cs ≠ none ∧ (overwrite = true ∨ f.attr cs attr = none) := by
      by_contra hc
      rw [hsp.2 hc] at hf'
      simp at hf'
    obtain ⟨f'', h1, h2, _, h4, h5⟩ := hsp.1 hc
    rw [h1] at hf'
    obtain rfl := Except.ok.inj hf'
    have hd' : w'.disk h'.file = some f'' := by
      rw [← e, hfile]
      show setKey w.disk h.file (some f'') h.file = _
      unfold setKey
      rw [if_pos rfl]
    have hhj : w'.handle j = .ok h' := by rw [← e]; exact hh'
    have hlink : ∀ p, f''.link p = f.link p := by
      intro p; unfold H5File.link; rw [h4]
    have hreach : ∀ q p, f''.reach q p = f.reach q p := by
      intro q p
      induction p generalizing q with
      | nil => exact hlink q
      | cons c p ih => rw [H5File.reach, H5File.reach, ih, hlink]
    have hw'' : f''.WF := ⟨fun p a hpa => by rw [h5]; exact hw.addr p a (by rw [← hlink]; exact hpa), fun p l hpl => by rw [hreach]; exact hw.rooted p l (by rw [← hlink]; exact hpl)⟩
    have hself : Compatible t t := by
      unfold Compatible
      cases t.cls <;> simp
    have hlen : arr.elems.length = b.elems.length := by
      have e1 : arr.elems.length = arr.dims.prod := hwa
      have e2 : b.elems.length = b.dims.prod := hwb
      rw [e1, e2, hb]
    obtain ⟨b', k1, k2, k3, k4, _⟩ := (C97_read_attribute hhj hd' hw'' hne hp ha lead' hl' t b).2 _ h2 hself hta.elems hta.size (by show arr.elems.length ≤ _; omega)
    rw [k1]
    congr 1
    have hel : b'.elems = arr.elems := by
      apply List.ext_getElem?
      intro k
      cases hk : arr.elems[k]? with
      | none =>
        have := List.getElem?_eq_none_iff.1 hk
        exact List.getElem?_eq_none_iff.2 (by omega)
      | some v =>
        obtain ⟨v', k5, k6⟩ := k4 k v hk
        have hvt := hta.elems v (List.mem_of_getElem? hk)
        have : Converted t t v v := by
          have := convert_converted hself hvt hta.size
          rwa [convert_self t v hvt] at this
        rw [k5, converted_unique k6 this]
    cases b'
    cases arr
    simp only at k2 hel hb
    rw [k2, hb, hel]

/-- Defect: attributes of the root group cannot be named by their path: `/attr` ends the program, both for writing and reading. Only `//attr` is the attribute of the root group. -/
theorem C97_root_defect {f : H5File} {attr : Name} (ha : AttrName attr) : attrKey f ('/' :: attr) = .error .abort ∧ attrKey f ('/' :: '/' :: attr) = .ok (.group [], attr) := by
  constructor
  · have := attrKey_split (f := f) (loc := []) ha (by simp)
    rw [List.nil_append] at this
    rw [this, show f.find [] = none from by unfold H5File.find; rw [if_pos (by decide)]]
  · have := attrKey_split (f := f) (loc := ['/']) ha (by simp)
    rw [List.cons_append, List.nil_append] at this
    rw [this]
    have hf : f.find ['/'] = some .group := by
      unfold H5File.find
      rw [if_neg (by decide), show h5Components (trimBlanks ['/']) = [] from by decide]
      exact root_reach f
    rw [hf, show h5Components (trimBlanks ['/']) = [] from by decide]

/-- Defect: the size of the array is not compared with that of the attribute. An attribute with more elements is written to memory outside of the array. -/
theorem C97_small_array_defect {w : World} {ifile : Int} {h : Handle} {f : H5File} (hh : w.handle ifile = .ok h) (hd : w.disk h.file = some f) (hw : f.WF) {cs : List Name} {attr : Name} (hne : cs ≠ [])
    (hp : ∀ c ∈ cs, Part c) (ha : AttrName attr) (lead : Bool) (hl : (absName lead cs).length ≤ 256) (t : DType) (b : FArray) (a : Attr) (h1 : f.attr cs attr = some a) (hlen : b.elems.length < a.data.length) :
    readAttr w ifile (absName lead cs ++ '/' :: attr) t b = .error .other := by
  unfold readAttr
  rw [hh]
  simp only [bind, Except.bind, hd]
  rw [attrKey_path hw hne hp ha lead hl]
  cases ho : f.owner cs with
  | none => unfold H5File.attr at h1; rw [ho] at h1; simp at h1
  | some o =>
    have h1 : assoc (o, attr) f.attrs = some a := by
      unfold H5File.attr at h1; rw [ho] at h1; exact h1
    simp only [h1]
    rw [if_pos hlen, ite_self]

/-- Defect (noted in the README): an attribute with two dimensions which is read into an array with more elements in the first of them is mixed up: the first element of the second column comes after those of the
first column of the attribute, and not of the array. -/
theorem C97_mixed_defect {w : World} {ifile : Int} {h : Handle} {f : H5File} (hh : w.handle ifile = .ok h) (hd : w.disk h.file = some f) (hw : f.WF) {cs : List Name} {attr : Name} (hne : cs ≠ [])
    (hp : ∀ c ∈ cs, Part c) (ha : AttrName attr) (lead : Bool) (hl : (absName lead cs).length ≤ 256) {t : DType} {b : FArray} {a : Attr} (h1 : f.attr cs attr = some a) (ht : a.dtype = t)
    (hv : ∀ v ∈ a.data, v.length = t.size) (hs : 0 < t.size) (m n m' n' : Nat) (ham : a.dims = [m, n]) (hlen : a.data.length = m * n) (hbm : b.dims = [m', n']) (hwb : b.WF) (hm : 0 < m) (hmm : m < m') (hn : 2 ≤ n) (hn' : n ≤ n') :
    ∃ b', readAttr w ifile (absName lead cs ++ '/' :: attr) t b = .ok b' ∧ b'.at [m, 0] = a.data[offset a.dims [0, 1]]? ∧ (a.data[offset a.dims [0, 1]]?).isSome := by
  have hself : Compatible a.dtype t := by
    rw [ht]
    unfold Compatible
    cases t.cls <;> simp
  have hwb : b.elems.length = m' * n' := by
    have : b.elems.length = b.dims.prod := hwb
    rw [this, hbm]; simp
  have hmn : m * n ≤ m' * n' := Nat.mul_le_mul (by omega) hn'
  obtain ⟨b', k1, k2, k3, k4, _⟩ := (C97_read_attribute hh hd hw hne hp ha lead hl t b).2 a h1 hself (by rw [ht]; exact hv) (by rw [ht]; exact hs) (by omega)
  refine ⟨b', k1, ?_, ?_⟩
  · have ho : offset a.dims [0, 1] = m := by rw [ham]; simp [offset, List.range_succ]
    have ho' : offset b'.dims [m, 0] = m := by rw [k2, hbm]; simp [offset, List.range_succ]
    unfold FArray.at
    rw [ho, ho']
    have hmlt : m < a.data.length := by
      rw [hlen]
      have := Nat.mul_le_mul_left m hn
      omega
    obtain ⟨v', k5, k6⟩ := k4 m _ (List.getElem?_eq_getElem hmlt)
    rw [k5, List.getElem?_eq_getElem hmlt]
    have hvt := hv _ (List.getElem_mem hmlt)
    rw [ht] at k6
    have hx : Converted t t a.data[m] a.data[m] := by
      have := convert_converted (ht ▸ hself) hvt hs
      rwa [convert_self t _ hvt] at this
    rw [converted_unique k6 hx]
  · have ho : offset a.dims [0, 1] = m := by rw [ham]; simp [offset, List.range_succ]
    rw [ho, List.getElem?_eq_getElem (by rw [hlen]; have := Nat.mul_le_mul_left m hn; omega)]
    rfl

/-- **C97**: types and dimensions are those of the dataset with the name, or of the attribute if there is no such dataset, as long as the name of the object has at most 200 characters. -/
theorem C97_info {w : World} {ifile : Int} {h : Handle} {f : H5File} (hh : w.handle ifile = .ok h) (hd : w.disk h.file = some f) (hw : f.WF) :
    (∀ name ds, f.dset name = some ds → getInfo w ifile name = .ok (ds.dtype, ds.dims)) ∧
      ∀ cs attr lead, cs ≠ [] → (∀ c ∈ cs, Part c) → AttrName attr → attr.length ≤ 200 → (absName lead cs).length ≤ 200 → h5dopen f (absName lead cs ++ '/' :: attr) = none →
        getInfo w ifile (absName lead cs ++ '/' :: attr) = match f.attr cs attr with | none => .error .abort | some a => .ok (a.dtype, a.dims) := by
  constructor
  · intro name ds hds
    unfold getInfo
    rw [hh]
    simp only [bind, Except.bind, hd]
    unfold H5File.dset at hds
    cases ho : h5dopen f name with
    | none => rw [ho] at hds; simp at hds
    | some a =>
      rw [ho] at hds
      have hds : f.heap[a]? = some ds := hds
      simp only [hds]
  · intro cs attr lead hne hp ha hla hl hno
    unfold getInfo
    rw [hh]
    simp only [bind, Except.bind, hd, hno]
    obtain ⟨x, l, hx⟩ := List.exists_cons_of_ne_nil ha.ne
    have htrim : trimBlanks (absName lead cs ++ '/' :: attr) = absName lead cs ++ '/' :: attr := by
      apply trimBlanks_last
      rw [List.getLast?_append, hx, List.getLast?_cons_cons, ← hx]
      cases he : attr.getLast? with
      | none => exact absurd (List.getLast?_eq_none_iff.1 he) ha.ne
      | some y =>
        have := ha.blank
        rw [he] at this
        simpa using this
    have h1 : (absName lead cs ++ '/' :: attr).take ((absName lead cs).length + 1 - 1) = absName lead cs := by
      rw [Nat.add_sub_cancel, List.take_left']
      rfl
    have h2 : (absName lead cs ++ '/' :: attr).drop ((absName lead cs).length + 1) = attr := by
      rw [show absName lead cs ++ '/' :: attr = (absName lead cs ++ ['/']) ++ attr by simp, List.drop_left']
      simp
    obtain ⟨y, e1, e2, e3⟩ := pathName_end hne hp
    have htrim2 : trimBlanks (absName lead cs) = absName lead cs := by
      apply trimBlanks_last
      unfold absName
      rw [List.getLast?_append, e1]
      simpa using e3
    have hcomp : h5Components (absName lead cs) = cs := by
      unfold absName
      cases lead with
      | false => exact components_path hp
      | true =>
        simp only [if_true, List.cons_append, List.nil_append]
        rw [components_slash, components_path hp]
    have hne' : trimBlanks (absName lead cs) ≠ [] := by
      rw [htrim2]
      unfold absName
      intro h0
      rw [(List.append_eq_nil_iff.1 h0).2] at e1
      simp at e1
    rw [lastSlash_append ha.slash, if_neg (by omega), htrim, h1, h2, List.take_of_length_le hl, List.take_of_length_le hla, trimBlanks_last ha.blank, htrim2, find_of_link hw hne', htrim2, hcomp]
    unfold H5File.attr H5File.owner
    cases f.link cs with
    | none => rfl
    | some l => cases l <;> rfl

namespace ExHdf5Groups

def t : DType := ⟨.integer true, 1⟩
def f : H5File := { links := [(["g".toList, "a".toList], .dset 0), (["g".toList], .group)], heap := [⟨t, [2], [some 2], [[3], [4]]⟩] }

example : Part "g".toList ∧ Part "name with blanks".toList ∧ AttrName ".".toList := ⟨⟨by decide, by decide, by decide, by decide⟩, ⟨by decide, by decide, by decide, by decide⟩, ⟨by decide, by decide, by decide, by decide⟩⟩
example : absName true ["g".toList, "h".toList, "k".toList] = "/g/h/k".toList := by decide +kernel

/-- Two groups are new. -/
example : (createGroup f "/g/h/k".toList).toOption.map (·.links) = some ((["g".toList, "h".toList, "k".toList], .group) :: (["g".toList, "h".toList], .group) :: f.links) := by decide +kernel
example : (createGroup f "g/h/k/ ".toList).toOption.map (·.links) = some ((["g".toList, "h".toList, "k".toList], .group) :: (["g".toList, "h".toList], .group) :: f.links) := by decide +kernel
example : (createGroup f "/g/a/k".toList).toOption.map (·.links) = none := by decide +kernel
example : (match createGroup f "/a/b/c/d/e/f/g/h/i/j/k".toList with | .error e => some e | .ok _ => none) = some .other := by decide +kernel
example : (match createGroup f "g//h".toList with | .error e => some e | .ok _ => none) = some .abort := by decide +kernel

/-- Attributes of the dataset -/
def w : World := { disk := fun n => if n = "x".toList then some f else none, table := some [some ⟨"x".toList, false, "x".toList⟩] }
def arr (dims : List Nat) : FArray := ⟨dims, (List.range dims.prod).map (fun i => [⟨(i + 1) % 256, by omega⟩])⟩
def twice (dims : List Nat) (name : String) : Except Err FArray := do
  let w ← writeAttr w 1 "g/a/size".toList false t (arr [2, 2])
  readAttr w 1 name.toList t ⟨dims, List.replicate dims.prod [0]⟩

example : twice [2, 2] "/g/a/size " = .ok (arr [2, 2]) := by decide +kernel
example : twice [2, 2] "/g/size " = .error .abort := by decide +kernel
example : twice [2] "g/a/size" = .error .other := by decide +kernel
example : twice [3, 2] "g/a/size" = .ok ⟨[3, 2], [[1], [2], [3], [4], [0], [0]]⟩ := by decide +kernel
example : (writeAttr w 1 "/size".toList false t (arr [2])).toOption.isSome = false := by decide +kernel
example : (writeAttr w 1 "//size".toList false t (arr [2])).toOption.isSome = true := by decide +kernel
example : getInfo w 1 "g/a".toList = .ok (t, [2]) := by decide +kernel

/-- The groups of a new dataset are created, also if their names have one character. -/
example : (writeFile f "a/b".toList { memtype := t, arr := arr [2] }).toOption.map (·.links) = some ((["a".toList, "b".toList], .dset 1) :: (["a".toList], .group) :: f.links) := by decide +kernel
example : ((writeFile f "/g/h/b".toList { memtype := t, arr := arr [2] }).toOption.map (·.links)) =
    some ((["g".toList, "h".toList, "b".toList], .dset 1) :: (["g".toList, "h".toList], .group) :: f.links) := by decide +kernel

end ExHdf5Groups

end Verif.Hdf5
