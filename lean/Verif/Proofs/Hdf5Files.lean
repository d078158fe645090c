import Verif.Spec.Hdf5Files
import Mathlib.Data.List.DropRight

/-!
Proofs about files of the Fortran wrapper of HDF5
-/

namespace Verif.Hdf5

open FortranReaders

/-! ### Names -/

theorem trimBlanks_prefix (s : Name) : ∃ t, s = trimBlanks s ++ t ∧ ∀ c ∈ t, c = ' ' := by
  unfold trimBlanks
  refine ⟨(s.reverse.takeWhile (fun c => c == ' ')).reverse, ?_, ?_⟩
  · rw [← List.reverse_append, List.takeWhile_append_dropWhile, List.reverse_reverse]
  · intro c hc
    have := List.mem_takeWhile_imp (List.mem_reverse.1 hc)
    simpa using this

theorem trimBlanks_idem (s : Name) : trimBlanks (trimBlanks s) = trimBlanks s := by
  unfold trimBlanks
  rw [List.reverse_reverse]
  congr 1
  rw [List.dropWhile_idempotent]

theorem trimBlanks_head {s : Name} (h : s.head? ≠ some ' ') : (trimBlanks s).head? ≠ some ' ' := by
  obtain ⟨t, ht, _⟩ := trimBlanks_prefix s
  intro hh
  apply h
  rw [ht]
  cases hs : trimBlanks s with
  | nil => rw [hs] at hh; simp at hh
  | cons c r => rw [hs] at hh; simpa using hh

theorem adjustl_plain {s : Name} (h : s.head? ≠ some ' ') : adjustl s = s := by
  unfold adjustl
  cases s with
  | nil => rfl
  | cons c r =>
    rw [List.dropWhile_cons_of_neg]
    intro hc
    apply h
    have : c = ' ' := by simpa using hc
    rw [this]
    rfl

theorem charEq_iff (a b : Name) : charEq a b = true ↔ trimBlanks a = trimBlanks b := by
  unfold charEq
  rw [beq_iff_eq]

theorem find_trim (f : H5File) (name : Name) : f.find (trimBlanks name) = f.find name := by
  unfold H5File.find
  rw [trimBlanks_idem]

theorem h5dopen_trim (f : H5File) (name : Name) : h5dopen f (trimBlanks name) = h5dopen f name := by
  unfold h5dopen
  rw [find_trim]

/-! ### Objects in files -/

theorem reach_link {f : H5File} {p cs : List Name} {l : Link} (h : f.reach p cs = some l) : f.link (p ++ cs) = some l := by
  induction cs generalizing p with
  | nil => simpa [H5File.reach] using h
  | cons c cs ih =>
    rw [H5File.reach] at h
    split at h
    · have := ih h
      simpa using this
    · simp at h

theorem reach_mono {f f' : H5File} {p cs : List Name} {l : Link} (ex : Link → Prop) (hg : ¬ ex .group) (hm : ∀ p x, f.link p = some x → ¬ ex x → f'.link p = some x) (hl : ¬ ex l) (h : f.reach p cs = some l) :
    f'.reach p cs = some l := by
  induction cs generalizing p with
  | nil => exact hm p l h hl
  | cons c cs ih =>
    rw [H5File.reach] at h ⊢
    split at h
    · next hp =>
      rw [if_pos (hm p _ hp hg)]
      exact ih h
    · simp at h

theorem h5dopen_some {f : H5File} {name : Name} {a : Nat} : h5dopen f name = some a ↔ f.find name = some (.dset a) := by
  unfold h5dopen
  cases f.find name with
  | none => simp
  | some l => cases l <;> simp

theorem find_link {f : H5File} {name : Name} {l : Link} (h : f.find name = some l) : trimBlanks name ≠ [] ∧ f.reach [] (h5Components (trimBlanks name)) = some l ∧ f.link (h5Components (trimBlanks name)) = some l := by
  unfold H5File.find at h
  split at h
  · simp at h
  · next hn => exact ⟨hn, h, by simpa using reach_link h⟩

theorem find_mono {f f' : H5File} {name : Name} {l : Link} (ex : Link → Prop) (hg : ¬ ex .group) (hm : ∀ p x, f.link p = some x → ¬ ex x → f'.link p = some x) (hl : ¬ ex l) (h : f.find name = some l) :
    f'.find name = some l := by
  obtain ⟨h1, h2, _⟩ := find_link h
  unfold H5File.find
  rw [if_neg h1]
  exact reach_mono ex hg hm hl h2

theorem add_eq {f f' : H5File} {cs : List Name} {l : Link} (h : f.add cs l = some f') :
    cs ≠ [] ∧ f.reach [] cs.dropLast = some .group ∧ f.link cs = none ∧ f' = { f with links := (cs, l) :: f.links } := by
  unfold H5File.add at h
  split at h
  · simp at h
  · next h1 =>
    split at h
    · next h2 => exact ⟨h1, h2.1, h2.2, (Option.some.inj h).symm⟩
    · simp at h

theorem link_add {f : H5File} {cs : List Name} {l : Link} (hc : cs ≠ []) (p : List Name) : ({ f with links := (cs, l) :: f.links } : H5File).link p = if p = cs then some l else f.link p := by
  unfold H5File.link
  by_cases hp : p = []
  · rw [if_pos hp, if_neg (fun h : p = cs => hc (h.symm.trans hp)), if_pos hp]
  · rw [if_neg hp, if_neg hp]
    show assoc p ((cs, l) :: f.links) = _
    rw [assoc]
    by_cases he : p = cs
    · rw [if_pos he.symm, if_pos he]
    · rw [if_neg (fun h => he h.symm), if_neg he]

theorem assoc_filter {β : Type} {p cs : List Name} (l : List (List Name × β)) : assoc p (l.filter (fun x => decide (x.1 ≠ cs))) = if p = cs then none else assoc p l := by
  induction l with
  | nil => simp [assoc]
  | cons x l ih =>
    obtain ⟨a, b⟩ := x
    by_cases ha : a = cs
    · rw [List.filter_cons_of_neg (by simp [ha]), ih, assoc]
      by_cases hp : p = cs
      · rw [if_pos hp, if_pos hp]
      · rw [if_neg hp, if_neg hp, if_neg (fun h : a = p => hp (h.symm.trans ha))]
    · rw [List.filter_cons_of_pos (by simp [ha]), assoc, ih, assoc]
      by_cases hp : p = cs
      · rw [if_pos hp, if_neg (fun h => ha (h.trans hp)), if_pos hp]
      · rw [if_neg hp, if_neg hp]

theorem link_unlink (f : H5File) (name : Name) (p : List Name) (hn : h5Components (trimBlanks name) ≠ []) : (h5gunlink f name).link p = if p = h5Components (trimBlanks name) then none else f.link p := by
  unfold H5File.link h5gunlink
  by_cases hp : p = []
  · rw [if_pos hp, if_neg (fun h : p = h5Components (trimBlanks name) => hn (h.symm.trans hp)), if_pos hp]
  · rw [if_neg hp, if_neg hp]
    exact assoc_filter f.links

theorem reach_snoc (f : H5File) (p cs : List Name) (c : Name) : f.reach p (cs ++ [c]) = if f.reach p cs = some .group then f.link (p ++ cs ++ [c]) else none := by
  induction cs generalizing p with
  | nil => simp [H5File.reach]
  | cons d cs ih =>
    rw [List.cons_append, H5File.reach, H5File.reach, ih]
    by_cases hp : f.link p = some .group
    · rw [if_pos hp, if_pos hp]; simp
    · rw [if_neg hp, if_neg hp, if_neg (by simp)]

theorem link_added {f f' : H5File} {cs : List Name} {l : Link} (h : f.add cs l = some f') (p : List Name) : f'.link p = if p = cs then some l else f.link p := by
  obtain ⟨h1, _, _, rfl⟩ := add_eq h
  exact link_add h1 p

theorem add_old {f f' : H5File} {cs : List Name} {l : Link} (h : f.add cs l = some f') (p : List Name) (x : Link) (hx : f.link p = some x) : f'.link p = some x := by
  rw [link_added h, if_neg]
  · exact hx
  · intro hp
    rw [hp, (add_eq h).2.2.1] at hx
    simp at hx

theorem add_rooted {f f' : H5File} {cs : List Name} {l : Link} (hw : ∀ p l, f.link p = some l → f.reach [] p = some l) (h : f.add cs l = some f') (p : List Name) (x : Link) (hx : f'.link p = some x) :
    f'.reach [] p = some x := by
  have hm : ∀ q y, f.reach [] q = some y → f'.reach [] q = some y := fun q y hy =>
    reach_mono (fun _ => False) (fun h => h) (fun p x hx _ => add_old h p x hx) (fun h => h) hy
  have h0 := hx
  rw [link_added h] at hx
  by_cases hp : p = cs
  · obtain ⟨h1, h2, _, _⟩ := add_eq h
    have hr := hm _ _ h2
    have hs := reach_snoc f' [] cs.dropLast (cs.getLast h1)
    rw [List.dropLast_append_getLast, if_pos hr, List.nil_append, List.dropLast_append_getLast] at hs
    rw [hp, hs, ← hp]
    exact h0
  · rw [if_neg hp] at hx
    exact hm p x (hw p x hx)

theorem find_of_link {f : H5File} (hw : f.WF) {name : Name} (hn : trimBlanks name ≠ []) : f.find name = f.link (h5Components (trimBlanks name)) := by
  unfold H5File.find
  rw [if_neg hn]
  cases h : f.link (h5Components (trimBlanks name)) with
  | some l => exact hw.rooted _ l h
  | none =>
    cases hr : f.reach [] (h5Components (trimBlanks name)) with
    | none => rfl
    | some l =>
      have := reach_link hr
      rw [List.nil_append, h] at this
      simp at this

theorem unlink_wf {f : H5File} (hw : f.WF) {name : Name} {a : Nat} (h : h5dopen f name = some a) : (h5gunlink f name).WF := by
  obtain ⟨h1, h2, h3⟩ := find_link (h5dopen_some.1 h)
  have hc : h5Components (trimBlanks name) ≠ [] := by
    intro hc
    rw [hc] at h3
    simp [H5File.link] at h3
  refine ⟨fun p b hb => ?_, fun p l hl => ?_⟩
  · rw [link_unlink f name p hc] at hb
    split at hb
    · simp at hb
    · exact hw.addr p b hb
  · by_cases hp : p = h5Components (trimBlanks name)
    · rw [link_unlink f name p hc, if_pos hp] at hl
      simp at hl
    · have h0 := hl
      rw [link_unlink f name p hc, if_neg hp] at hl
      have hr := hw.rooted p l hl
      have key : ∀ (q cs : List Name), q ++ cs = p → f.reach q cs = some l → (h5gunlink f name).reach q cs = some l := by
        intro q cs
        induction cs generalizing q with
        | nil =>
          intro hq _
          rw [H5File.reach, ← h0, ← hq, List.append_nil]
        | cons c cs ih =>
          intro hq hx
          rw [H5File.reach] at hx ⊢
          split at hx
          · next hg =>
            rw [if_pos]
            · exact ih _ (by simpa using hq) hx
            · rw [link_unlink f name q hc, if_neg]
              · exact hg
              · intro he
                rw [he, h3] at hg
                simp at hg
          · simp at hx
      exact key [] p rfl hr

/-! ### Groups -/

/-- What creation of groups changes -/
structure Grows (f f' : H5File) : Prop where
  old : ∀ p x, f.link p = some x → f'.link p = some x
  new : ∀ p x, f'.link p = some x → f.link p = some x ∨ x = .group
  heap : f'.heap = f.heap
  attrs : f'.attrs = f.attrs
  writable : f'.writable = f.writable
  rooted : (∀ p l, f.link p = some l → f.reach [] p = some l) → ∀ p l, f'.link p = some l → f'.reach [] p = some l

theorem Grows.refl (f : H5File) : Grows f f := ⟨fun _ _ h => h, fun _ _ h => Or.inl h, rfl, rfl, rfl, fun h => h⟩

theorem Grows.trans {f g h : H5File} (h1 : Grows f g) (h2 : Grows g h) : Grows f h :=
  ⟨fun p x hx => h2.old p x (h1.old p x hx), fun p x hx => (h2.new p x hx).elim (fun hy => h1.new p x hy) Or.inr, h2.heap.trans h1.heap, h2.attrs.trans h1.attrs, h2.writable.trans h1.writable, fun h => h2.rooted (h1.rooted h)⟩

theorem grows_add (f : H5File) (cs : List Name) : Grows f ((f.add cs .group).getD f) := by
  cases h : f.add cs .group with
  | none => exact Grows.refl f
  | some g =>
    obtain ⟨h1, _, h3, rfl⟩ := add_eq h
    refine ⟨fun p x hx => ?_, fun p x hx => ?_, rfl, rfl, rfl, fun hw => add_rooted hw h⟩
    · show ({ f with links := _ } : H5File).link p = _
      rw [link_add h1, if_neg (fun hp => by rw [hp, h3] at hx; simp at hx)]
      exact hx
    · have hx : ({ f with links := (cs, .group) :: f.links } : H5File).link p = some x := hx
      rw [link_add h1] at hx
      split at hx
      · exact Or.inr (Option.some.inj hx).symm
      · exact Or.inl hx

theorem groupLoop_grows {fuel : Nat} {f f' : H5File} {path : List Name} {n : Nat} {s : Name} (h : groupLoop fuel f path n s = .ok f') : Grows f f' := by
  induction fuel generalizing f path n s with
  | zero => rw [groupLoop] at h; rw [← Except.ok.inj h]; exact Grows.refl f
  | succ fuel ih =>
    rw [groupLoop] at h
    split at h
    · rw [← Except.ok.inj h]; exact Grows.refl f
    · next g rest hc =>
      simp only at h
      by_cases hg : trimBlanks g = []
      · rw [if_pos hg] at h; simp at h
      · rw [if_neg hg] at h
        by_cases hl : ((if trimBlanks g = ['.'] then none else f.add (path ++ (if trimBlanks g = ['.'] then [] else [trimBlanks g])) .group).getD f).link (path ++ (if trimBlanks g = ['.'] then [] else [trimBlanks g])) = some .group
        · rw [if_pos hl] at h
          by_cases hn : 10 ≤ n
          · rw [if_pos hn] at h; simp at h
          · rw [if_neg hn] at h
            refine Grows.trans ?_ (ih h)
            by_cases hd : trimBlanks g = ['.']
            · rw [if_pos hd]; exact Grows.refl f
            · rw [if_neg hd]; exact grows_add f _
        · rw [if_neg hl] at h; simp at h

theorem createGroup_grows {f f' : H5File} {name : Name} (h : createGroup f name = .ok f') : Grows f f' := by
  unfold createGroup at h
  split at h
  · simp at h
  · exact groupLoop_grows h

theorem Grows.wf {f f' : H5File} (h : Grows f f') (hw : f.WF) : f'.WF := by
  refine ⟨fun p a ha => ?_, h.rooted hw.rooted⟩
  rcases h.new p _ ha with h1 | h1
  · rw [h.heap]; exact hw.addr p a h1
  · simp at h1

theorem Grows.find {f f' : H5File} (h : Grows f f') {name : Name} {l : Link} (hf : f.find name = some l) : f'.find name = some l :=
  find_mono (fun _ => False) (fun h => h) (fun p x hx _ => h.old p x hx) (fun h => h) hf

theorem Grows.find_back {f f' : H5File} (h : Grows f f') {name : Name} {a : Nat} (hf : f'.find name = some (.dset a)) : f.link (h5Components (trimBlanks name)) = some (.dset a) := by
  rcases h.new _ _ (find_link hf).2.2 with h1 | h1
  · exact h1
  · simp at h1


/-! ### Datasets -/

theorem parentGroups_grows {f f' : H5File} {name : Name} (h : parentGroups f name = .ok f') : Grows f f' := by
  unfold parentGroups at h
  simp only at h
  split at h
  · exact createGroup_grows h
  · rw [← Except.ok.inj h]; exact Grows.refl f

/-- A new dataset in a file -/
structure NewDset (f f' : H5File) (cs : List Name) (ds : Dset) : Prop where
  absent : f.link cs = none
  here : f'.link cs = some (.dset f.heap.length)
  old : ∀ p x, f.link p = some x → f'.link p = some x
  new : ∀ p x, f'.link p = some x → f.link p = some x ∨ x = .group ∨ p = cs
  heap : f'.heap = f.heap ++ [ds]
  attrs : f'.attrs = f.attrs
  wf : f.WF → f'.WF

theorem newDset_eq {f f' : H5File} {name : Name} {w : WriteArgs} (h : newDset f name w = .ok f') :
    ∃ ds, writeNew w.options w.memtype w.region w.arr = .ok ds ∧ NewDset f f' (h5Components (trimBlanks name)) ds := by
  unfold newDset at h
  cases h1 : parentGroups f name with
  | error e => rw [h1] at h; simp [bind, Except.bind] at h
  | ok f2 =>
    have hg := parentGroups_grows h1
    cases h2 : createDset w.options w.memtype w.region w.arr.dims with
    | error e => rw [h1, h2] at h; simp [bind, Except.bind] at h
    | ok ds0 =>
      cases h3 : f2.add (h5Components (trimBlanks name)) (.dset f2.heap.length) with
      | none => rw [h1, h2] at h; simp [bind, Except.bind, h3] at h
      | some f3 =>
        cases h4 : putData ds0 w.memtype w.region w.arr with
        | error e => rw [h1, h2] at h; simp [bind, Except.bind, h3, h4] at h
        | ok ds =>
          rw [h1, h2] at h
          simp [bind, Except.bind, h3, h4] at h
          refine ⟨ds, by unfold writeNew; rw [h2]; exact h4, ?_⟩
          have hf3 := add_eq h3
          have hlink : ∀ p, f'.link p = f3.link p := by
            intro p; rw [← h]; rfl
          have hreach : ∀ q p, f'.reach q p = f3.reach q p := by
            intro q p
            induction p generalizing q with
            | nil => exact hlink q
            | cons c p ih => rw [H5File.reach, H5File.reach, hlink, ih]
          have habs : f.link (h5Components (trimBlanks name)) = none := by
            cases hx : f.link (h5Components (trimBlanks name)) with
            | none => rfl
            | some l => have := hg.old _ _ hx; rw [hf3.2.2.1] at this; simp at this
          refine ⟨habs, ?_, fun p x hx => ?_, fun p x hx => ?_, ?_, ?_, fun hw => ⟨fun p a ha => ?_, fun p l hl => ?_⟩⟩
          · rw [hlink, link_added h3, if_pos rfl, hg.heap]
          · rw [hlink]; exact add_old h3 p x (hg.old p x hx)
          · rw [hlink, link_added h3] at hx
            split at hx
            · next hp => exact Or.inr (Or.inr hp)
            · exact (hg.new p x hx).elim Or.inl (fun h => Or.inr (Or.inl h))
          · rw [← h, ← hg.heap]
          · rw [← h, ← hg.attrs, hf3.2.2.2]
          · have hl : f'.heap.length = f2.heap.length + 1 := by rw [← h]; simp
            rw [hlink, link_added h3] at ha
            split at ha
            · simp at ha; omega
            · have := (hg.wf hw).addr p a ha; omega
          · rw [hreach]
            rw [hlink] at hl
            exact add_rooted (hg.wf hw).rooted h3 p l hl

theorem writeFile_cases {f f' : H5File} {name : Name} {w : WriteArgs} (h : writeFile f name w = .ok f') :
    (∃ a ds, w.overwrite = false ∧ h5dopen f name = some a ∧ writeOld (f.heap.getD a ⟨w.memtype, [], [], []⟩) w.memtype w.region w.arr = .ok ds ∧ f' = { f with heap := f.heap.set a ds }) ∨
      (∃ ds, (w.overwrite = true ∨ h5dopen f name = none) ∧ writeNew w.options w.memtype w.region w.arr = .ok ds ∧
        NewDset (if (h5dopen f name).isSome then h5gunlink f name else f) f' (h5Components (trimBlanks name)) ds) := by
  unfold writeFile at h
  split at h
  · simp at h
  · cases ho : h5dopen f name with
    | none =>
      rw [ho] at h
      obtain ⟨ds, h1, h2⟩ := newDset_eq h
      exact Or.inr ⟨ds, Or.inr rfl, h1, by simpa using h2⟩
    | some a =>
      rw [ho] at h
      simp only at h
      by_cases hw : w.overwrite = true
      · rw [if_pos hw] at h
        obtain ⟨ds, h1, h2⟩ := newDset_eq h
        exact Or.inr ⟨ds, Or.inl hw, h1, by simpa using h2⟩
      · rw [if_neg hw] at h
        cases h1 : writeOld (f.heap.getD a ⟨w.memtype, [], [], []⟩) w.memtype w.region w.arr with
        | error e => rw [h1] at h; simp [bind, Except.bind] at h
        | ok ds =>
          rw [h1] at h
          simp [bind, Except.bind] at h
          exact Or.inl ⟨a, ds, by simpa using hw, rfl, h1, h.symm⟩

theorem setHeap_find (f : H5File) (heap : List Dset) (name : Name) : ({ f with heap := heap } : H5File).find name = f.find name := by
  have hreach : ∀ q p, ({ f with heap := heap } : H5File).reach q p = f.reach q p := by
    intro q p
    induction p generalizing q with
    | nil => rfl
    | cons c p ih =>
      rw [H5File.reach, H5File.reach, ih]
      rfl
  unfold H5File.find
  rw [hreach]

theorem h5dopen_find {f g : H5File} {n m : Name} (h : f.find n = g.find m) : h5dopen f n = h5dopen g m := by
  unfold h5dopen; rw [h]

theorem h5gopen_iff {f : H5File} {n : Name} : h5gopen f n = true ↔ f.find n = some .group := by
  unfold h5gopen; exact decide_eq_true_iff

theorem wf_setHeap {f : H5File} (hw : f.WF) (heap : List Dset) (hl : heap.length = f.heap.length) : ({ f with heap := heap } : H5File).WF := by
  refine ⟨fun p a ha => ?_, fun p l h => ?_⟩
  · show a < heap.length
    rw [hl]; exact hw.addr p a ha
  · have hreach : ∀ q p, ({ f with heap := heap } : H5File).reach q p = f.reach q p := by
      intro q p
      induction p generalizing q with
      | nil => rfl
      | cons c p ih =>
        rw [H5File.reach, H5File.reach, ih]
        rfl
    rw [hreach]
    exact hw.rooted p l h

theorem writeFile_wf {f f' : H5File} {name : Name} {w : WriteArgs} (hw : f.WF) (h : writeFile f name w = .ok f') : f'.WF := by
  rcases writeFile_cases h with ⟨a, ds, _, _, _, rfl⟩ | ⟨ds, _, _, h3⟩
  · exact wf_setHeap hw _ (by simp)
  · refine h3.wf ?_
    cases ho : h5dopen f name with
    | none => exact hw
    | some a => exact unlink_wf hw ho

theorem dset_name_ne {f : H5File} {name : Name} {a : Nat} (h : f.find name = some (.dset a)) : h5Components (trimBlanks name) ≠ [] := by
  intro hc
  have := (find_link h).2.2
  rw [hc] at this
  simp [H5File.link] at this

/-- Objects which are not the dataset keep their links. -/
theorem unlink_keeps {f : H5File} (name : Name) (p : List Name) (x : Link) (hp : p ≠ h5Components (trimBlanks name)) (hx : f.link p = some x) :
    (if (h5dopen f name).isSome then h5gunlink f name else f).link p = some x := by
  cases ho : h5dopen f name with
  | none => exact hx
  | some a =>
    show (h5gunlink f name).link p = some x
    rw [link_unlink f name p (dset_name_ne (h5dopen_some.1 ho)), if_neg hp, hx]

theorem unlink_new {f : H5File} (name : Name) (p : List Name) (x : Link) (hx : (if (h5dopen f name).isSome then h5gunlink f name else f).link p = some x) : f.link p = some x := by
  cases ho : h5dopen f name with
  | none => rw [ho] at hx; exact hx
  | some a =>
    rw [ho] at hx
    have hx : (h5gunlink f name).link p = some x := hx
    rw [link_unlink f name p (dset_name_ne (h5dopen_some.1 ho))] at hx
    split at hx
    · simp at hx
    · exact hx

theorem writeFile_written {f f' : H5File} {name : Name} {w : WriteArgs} (hw : f.WF) (h : writeFile f name w = .ok f') (hn : trimBlanks name ≠ []) :
    ∃ ds, (if w.overwrite = true ∨ h5dopen f name = none then writeNew w.options w.memtype w.region w.arr = .ok ds
      else ∃ old, f.dset name = some old ∧ writeOld old w.memtype w.region w.arr = .ok ds) ∧ Written f f' name ds := by
  have hw' := writeFile_wf hw h
  rcases writeFile_cases h with ⟨a, ds, h1, h2, h3, rfl⟩ | ⟨ds, h1, h2, h3⟩
  · have ha : a < f.heap.length := hw.addr _ a (find_link (h5dopen_some.1 h2)).2.2
    refine ⟨ds, ?_, ?_, fun n b hb hne => ⟨?_, ?_⟩, fun n hg => ?_, fun n ds' hd hne => ?_, rfl⟩
    · rw [if_neg (by rw [h1, h2]; simp)]
      refine ⟨f.heap[a], ?_, ?_⟩
      · unfold H5File.dset
        rw [h2]
        exact List.getElem?_eq_getElem ha
      · rwa [List.getD_eq_getElem?_getD, List.getElem?_eq_getElem ha] at h3
    · unfold H5File.dset
      rw [h5dopen_find (setHeap_find f _ name), h2]
      show (f.heap.set a ds)[a]? = _
      rw [List.getElem?_set_self ha]
    · rw [h5dopen_find (setHeap_find f _ n), hb]
    · show (f.heap.set a ds)[b]? = _
      rw [List.getElem?_set_ne]
      intro he
      rw [he] at h2
      exact hne h2
    · rw [h5gopen_iff, setHeap_find]
      exact h5gopen_iff.1 hg
    · unfold H5File.dset at hd ⊢
      rw [h5dopen_find (setHeap_find f _ n)] at hd
      rw [setHeap_find f _ n, setHeap_find f _ name] at hne
      cases hb : h5dopen f n with
      | none => rw [hb] at hd; simp at hd
      | some b =>
        rw [hb] at hd
        rw [← hd]
        show f.heap[b]? = (f.heap.set a ds)[b]?
        rw [List.getElem?_set_ne]
        intro he
        apply hne
        rw [h5dopen_some.1 hb, h5dopen_some.1 h2, he]
  · have hheap : (if (h5dopen f name).isSome then h5gunlink f name else f).heap = f.heap := by
      split <;> rfl
    have hattr : (if (h5dopen f name).isSome then h5gunlink f name else f).attrs = f.attrs := by
      split <;> rfl
    have hfind : f'.find name = some (.dset f.heap.length) := by
      rw [find_of_link hw' hn, h3.here, hheap]
    refine ⟨ds, by rw [if_pos h1]; exact h2, ?_, fun n b hb hne => ⟨?_, ?_⟩, fun n hg => ?_, fun n ds' hd hne => ?_, h3.attrs.trans hattr⟩
    · unfold H5File.dset
      rw [h5dopen_some.2 hfind]
      show f'.heap[f.heap.length]? = some ds
      rw [h3.heap, hheap]
      simp
    · obtain ⟨hb1, _, hb3⟩ := find_link (h5dopen_some.1 hb)
      rw [h5dopen_some, find_of_link hw' hb1]
      refine h3.old _ _ (unlink_keeps name _ _ ?_ hb3)
      intro hp
      apply hne
      rw [h5dopen_some, find_of_link hw hn, ← hp, hb3]
    · have hbl : b < f.heap.length := hw.addr _ b (find_link (h5dopen_some.1 hb)).2.2
      rw [h3.heap, hheap, List.getElem?_append_left hbl]
    · obtain ⟨hb1, _, hb3⟩ := find_link (h5gopen_iff.1 hg)
      rw [h5gopen_iff, find_of_link hw' hb1]
      by_cases hp : h5Components (trimBlanks n) = h5Components (trimBlanks name)
      · exfalso
        have habs := h3.absent
        rw [← hp] at habs
        cases ho : h5dopen f name with
        | none => rw [ho] at habs; simp [hb3] at habs
        | some a =>
          have := (find_link (h5dopen_some.1 ho)).2.2
          rw [← hp, hb3] at this
          simp at this
      · exact h3.old _ _ (unlink_keeps name _ _ hp hb3)
    · unfold H5File.dset at hd ⊢
      cases hb : h5dopen f' n with
      | none => rw [hb] at hd; simp at hd
      | some b =>
        rw [hb] at hd
        have hd : f'.heap[b]? = some ds' := hd
        have hbf := h5dopen_some.1 hb
        obtain ⟨hb1, _, hb3⟩ := find_link hbf
        rcases h3.new _ _ hb3 with hx | hx | hx
        · have hx := unlink_new name _ _ hx
          have hbl : b < f.heap.length := hw.addr _ b hx
          rw [h5dopen_some.2 ((find_of_link hw hb1).trans hx)]
          rw [h3.heap, hheap, List.getElem?_append_left hbl] at hd
          exact hd
        · simp at hx
        · exfalso
          apply hne
          rw [find_of_link hw' hb1, find_of_link hw' hn, hx]

end Verif.Hdf5
