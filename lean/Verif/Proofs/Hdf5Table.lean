import Verif.Proofs.Hdf5Files

/-!
Proofs about the table of open files and the dataset which is left open
-/

namespace Verif.Hdf5

open FortranReaders

/-- What is true after any sequence of calls -/
structure Inv (w : World) : Prop where
  files : ∀ n f, w.disk n = some f → f.WF
  handle : ∀ h, some h ∈ w.entries → h.fname = h.file ∧ h.file.head? ≠ some ' ' ∧ trimBlanks h.file = h.file ∧ (w.disk h.file).isSome ∧ (w.shared h.file).isSome
  dset : ∀ d, w.dset = some d → w.open_file_name = d.file ∧ (∃ h, some h ∈ w.entries ∧ h.file = d.file) ∧ w.open_dset_name.head? ≠ some ' ' ∧
    ∃ f, w.disk d.file = some f ∧ h5dopen f w.open_dset_name = some d.addr

theorem Initial.inv {w : World} (h : Initial w) : Inv w := by
  refine ⟨h.files, fun g hg => ?_, fun d hd => ?_⟩
  · unfold World.entries at hg
    rw [h.table] at hg
    have := List.eq_of_mem_replicate (a := none) (n := nfilemax) hg
    simp at this
  · rw [h.dset] at hd
    simp at hd

theorem newHandle_mem {h : Handle} {t t' : List (Option Handle)} {i k : Nat} (e : newHandle h t i = .ok (k, t')) (g : Handle) : some g ∈ t' ↔ g = h ∨ some g ∈ t := by
  induction t generalizing i k t' with
  | nil => simp [newHandle] at e
  | cons x t ih =>
    cases x with
    | none =>
      simp only [newHandle, Except.ok.injEq, Prod.mk.injEq] at e
      rw [← e.2]
      simp
    | some x =>
      rw [newHandle] at e
      cases hr : newHandle h t (i + 1) with
      | error e' => rw [hr] at e; simp [bind, Except.bind] at e
      | ok r =>
        obtain ⟨k', t''⟩ := r
        rw [hr] at e
        simp only [bind, Except.bind, Except.ok.injEq, Prod.mk.injEq] at e
        rw [← e.2]
        simp only [List.mem_cons, Option.some.injEq, ih hr]
        tauto

theorem handle_mem {w : World} {ifile : Int} {h : Handle} (e : w.handle ifile = .ok h) : ∃ t, w.table = some t ∧ t.getD (ifile - 1).toNat none = some h ∧ some h ∈ w.entries := by
  unfold World.handle at e
  split at e
  · simp at e
  · cases ht : w.table with
    | none => rw [ht] at e; simp at e
    | some t =>
      rw [ht] at e
      simp only at e
      cases hg : t.getD (ifile - 1).toNat none with
      | none => rw [hg] at e; simp at e
      | some g =>
        rw [hg] at e
        have : g = h := Except.ok.inj e
        rw [this] at hg
        refine ⟨t, rfl, hg, ?_⟩
        unfold World.entries
        rw [ht, Option.getD_some]
        rw [List.getD_eq_getElem?_getD] at hg
        cases hx : t[(ifile - 1).toNat]? with
        | none => rw [hx] at hg; simp at hg
        | some y =>
          rw [hx] at hg
          simp only [Option.getD_some] at hg
          rw [← hg]
          exact List.mem_of_getElem? hx

theorem except_bind_ok {α β : Type} {x : Except Err α} {g : α → Except Err β} {b : β} (h : (x >>= g) = .ok b) : ∃ a, x = .ok a ∧ g a = .ok b := by
  cases x with
  | error e => simp [bind, Except.bind] at h
  | ok a => exact ⟨a, rfl, h⟩

theorem except_map_ok {α β : Type} {x : Except Err α} {g : α → β} {b : β} (h : x.map g = .ok b) : ∃ a, x = .ok a ∧ g a = b := by
  cases x with
  | error e => simp [Except.map] at h
  | ok a => exact ⟨a, rfl, by simpa [Except.map] using h⟩

theorem openFile_inv {w w' : World} {fname : Name} {readonly : Bool} {k : Nat} (hi : Inv w) (hp : Plain fname) (e : openFile w fname readonly = .ok (k, w')) : Inv w' := by
  unfold openFile at e
  simp only at e
  cases hd : w.disk (trimBlanks fname) with
  | none => rw [hd] at e; simp at e
  | some f =>
    rw [hd] at e
    simp only at e
    split at e
    · simp at e
    · obtain ⟨⟨k', t⟩, hr, e⟩ := except_bind_ok e
      simp only [Except.ok.injEq, Prod.mk.injEq] at e
      have hm := newHandle_mem hr
      rw [← e.2]
      refine ⟨hi.files, fun g hg => ?_, fun d hdd => ?_⟩
      · have hg : some g ∈ t := hg
        have hs : ∀ n, (w.shared n).isSome → (setKey w.shared (trimBlanks fname) (some ((w.shared (trimBlanks fname)).getD (!readonly))) n).isSome := by
          intro n hn
          unfold setKey
          split
          · rfl
          · exact hn
        rcases (hm g).1 hg with rfl | hg
        · refine ⟨?_, trimBlanks_head hp.1, trimBlanks_idem _, ?_, ?_⟩
          · show trimBlanks (fname.take 1000) = trimBlanks fname
            rw [List.take_of_length_le hp.2]
          · show (w.disk (trimBlanks fname)).isSome
            rw [hd]; rfl
          · show (setKey w.shared (trimBlanks fname) _ (trimBlanks fname)).isSome
            unfold setKey
            rw [if_pos rfl]
            rfl
        · obtain ⟨h1, h2, h3, h4, h5⟩ := hi.handle g hg
          exact ⟨h1, h2, h3, h4, hs _ h5⟩
      · obtain ⟨h1, ⟨h, hh, h2⟩, h3⟩ := hi.dset d hdd
        exact ⟨h1, ⟨h, (hm h).2 (Or.inr hh), h2⟩, h3⟩

theorem empty_wf : ({} : H5File).WF := by
  refine ⟨fun p a h => ?_, fun p l h => ?_⟩
  · unfold H5File.link at h
    split at h
    · simp at h
    · simp [assoc] at h
  · unfold H5File.link at h
    split at h
    · next hp =>
      rw [hp, ← h]
      rfl
    · simp [assoc] at h

theorem createFile_inv {w w' : World} {fname : Name} {k : Nat} (hi : Inv w) (hp : Plain fname) (e : createFile w fname = .ok (k, w')) : Inv w' := by
  unfold createFile at e
  simp only at e
  split at e
  · simp at e
  · next hc =>
    obtain ⟨⟨k', t⟩, hr, e⟩ := except_bind_ok e
    simp only [Except.ok.injEq, Prod.mk.injEq] at e
    have hm := newHandle_mem hr
    have hne : ∀ g, some g ∈ w.entries → g.file ≠ trimBlanks fname := by
      intro g hg he
      apply hc
      left
      rw [← he]
      exact (hi.handle g hg).2.2.2.2
    rw [← e.2]
    refine ⟨fun n f hn => ?_, fun g hg => ?_, fun d hdd => ?_⟩
    · have hn : setKey w.disk (trimBlanks fname) (some {}) n = some f := hn
      unfold setKey at hn
      split at hn
      · rw [← Option.some.inj hn]; exact empty_wf
      · exact hi.files n f hn
    · have hg : some g ∈ t := hg
      rcases (hm g).1 hg with rfl | hg
      · refine ⟨?_, trimBlanks_head hp.1, trimBlanks_idem _, ?_, ?_⟩
        · show trimBlanks (fname.take 1000) = trimBlanks fname
          rw [List.take_of_length_le hp.2]
        · show (setKey w.disk (trimBlanks fname) _ (trimBlanks fname)).isSome
          unfold setKey
          rw [if_pos rfl]
          rfl
        · show (setKey w.shared (trimBlanks fname) _ (trimBlanks fname)).isSome
          unfold setKey
          rw [if_pos rfl]
          rfl
      · obtain ⟨h1, h2, h3, h4, h5⟩ := hi.handle g hg
        refine ⟨h1, h2, h3, ?_, ?_⟩
        · show (setKey w.disk (trimBlanks fname) _ g.file).isSome
          unfold setKey
          rw [if_neg (hne g hg)]
          exact h4
        · show (setKey w.shared (trimBlanks fname) _ g.file).isSome
          unfold setKey
          rw [if_neg (hne g hg)]
          exact h5
    · obtain ⟨h1, ⟨h, hh, h2⟩, h3, f, h4, h5⟩ := hi.dset d hdd
      refine ⟨h1, ⟨h, (hm h).2 (Or.inr hh), h2⟩, h3, f, ?_, h5⟩
      show setKey w.disk (trimBlanks fname) _ d.file = some f
      unfold setKey
      rw [if_neg (by rw [← h2]; exact hne h hh)]
      exact h4

theorem mem_set_none {t : List (Option Handle)} {i : Nat} {g : Handle} (h : some g ∈ t.set i none) : some g ∈ t := by
  rcases List.mem_or_eq_of_mem_set h with h | h
  · exact h
  · simp at h

theorem mem_set_other {t : List (Option Handle)} {i : Nat} {g h : Handle} (hg : some g ∈ t) (hi : t.getD i none = some h) (hne : g ≠ h) : some g ∈ t.set i none := by
  obtain ⟨k, hk⟩ := List.mem_iff_getElem?.1 hg
  refine List.mem_iff_getElem?.2 ⟨k, ?_⟩
  rw [List.getElem?_set_ne, hk]
  intro he
  rw [List.getD_eq_getElem?_getD, he, hk] at hi
  exact hne (Option.some.inj hi)

theorem closeFile_inv {w w' : World} {ifile : Int} (hi : Inv w) (e : closeFile w ifile = .ok w') : Inv w' := by
  unfold closeFile at e
  obtain ⟨h, hh, e⟩ := except_bind_ok e
  obtain ⟨t, ht, hg, hm⟩ := handle_mem hh
  have hent : w.entries = t := by unfold World.entries; rw [ht]; rfl
  simp only [Except.ok.injEq] at e
  rw [← e]
  refine ⟨hi.files, fun g hg' => ?_, fun d hdd => ?_⟩
  · have hg' : some g ∈ w.entries.set (ifile - 1).toNat none := hg'
    obtain ⟨h1, h2, h3, h4, h5⟩ := hi.handle g (mem_set_none hg')
    refine ⟨h1, h2, h3, h4, ?_⟩
    show ((if _ then w.shared else setKey w.shared h.file none) g.file).isSome
    split
    · exact h5
    · next hc =>
      unfold setKey
      rw [if_neg]
      · exact h5
      · intro hf
        apply hc
        rw [List.any_eq_true]
        exact ⟨some g, hg', by simpa using hf⟩
  · have hdd : (if w.dset.isSome ∧ charEq h.fname w.open_file_name then none else w.dset) = some d := hdd
    split at hdd
    · simp at hdd
    · next hc =>
      obtain ⟨h1, ⟨g, hgm, h2⟩, h3⟩ := hi.dset d hdd
      refine ⟨h1, ⟨g, ?_, h2⟩, h3⟩
      show some g ∈ w.entries.set (ifile - 1).toNat none
      rw [hent] at hgm ⊢
      refine mem_set_other hgm hg ?_
      intro he
      apply hc
      refine ⟨by rw [hdd]; rfl, ?_⟩
      rw [charEq_iff, h1, ← h2, he, (hi.handle h hm).1]

theorem openDset_inv {w w' : World} {h : Handle} {name : Name} {d : OpenDset} (hi : Inv w) (hh : some h ∈ w.entries) (hp : Plain name) (e : openDset w h name = .ok (d, w')) :
    Inv w' ∧ d.file = h.file ∧ w'.disk = w.disk ∧ ∃ f, w.disk h.file = some f ∧ h5dopen f name = some d.addr := by
  obtain ⟨g1, g2, g3, g4, g5⟩ := hi.handle h hh
  unfold openDset at e
  split at e
  · next d' hd =>
    simp only [Except.ok.injEq, Prod.mk.injEq] at e
    obtain ⟨rfl, rfl⟩ := e
    split at hd
    · next hc =>
      obtain ⟨h1, ⟨g, hgm, h2⟩, h3, f, h4, h5⟩ := hi.dset d' hd
      obtain ⟨k1, k2, k3, _, _⟩ := hi.handle g hgm
      have hf : d'.file = h.file := by
        have := (charEq_iff _ _).1 hc.1
        rw [h1, g1, adjustl_plain g2, ← h2, adjustl_plain k2, g3, k3] at this
        rw [← h2, this]
      refine ⟨hi, hf, rfl, f, by rw [← hf]; exact h4, ?_⟩
      have := (charEq_iff _ _).1 hc.2
      rw [adjustl_plain hp.1, adjustl_plain h3] at this
      rw [← h5, ← h5dopen_trim f name, this, h5dopen_trim]
    · simp at hd
  · obtain ⟨f, hf⟩ := Option.isSome_iff_exists.1 g4
    rw [hf] at e
    simp only [Option.bind_some] at e
    cases ha : h5dopen f name with
    | none => rw [ha] at e; simp at e
    | some a =>
      rw [ha] at e
      simp only [Except.ok.injEq, Prod.mk.injEq] at e
      obtain ⟨rfl, rfl⟩ := e
      refine ⟨⟨hi.files, hi.handle, fun d' hd' => ?_⟩, rfl, rfl, f, hf, ha⟩
      have hd' : some (⟨h.file, a⟩ : OpenDset) = some d' := hd'
      rw [← Option.some.inj hd']
      refine ⟨?_, ⟨h, hh, rfl⟩, ?_, f, hf, ?_⟩
      · show trimBlanks h.fname = h.file
        rw [g1, g3]
      · show (trimBlanks (name.take 1000)).head? ≠ some ' '
        rw [List.take_of_length_le hp.2]
        exact trimBlanks_head hp.1
      · show h5dopen f (trimBlanks (name.take 1000)) = some a
        rw [List.take_of_length_le hp.2, h5dopen_trim, ha]

theorem onFile_inv {w w' : World} {ifile : Int} {g : H5File → Except Err H5File} (hi : Inv w)
    (hg : ∀ h f f', w.handle ifile = .ok h → w.disk h.file = some f → g f = .ok f' → f'.WF ∧ ∀ d, w.dset = some d → d.file = h.file → h5dopen f w.open_dset_name = some d.addr → h5dopen f' w.open_dset_name = some d.addr)
    (e : onFile w ifile g = .ok w') : Inv w' := by
  unfold onFile at e
  obtain ⟨h, hh, e⟩ := except_bind_ok e
  split at e
  · simp at e
  · cases hd : w.disk h.file with
    | none => rw [hd] at e; simp at e
    | some f =>
      rw [hd] at e
      simp only at e
      obtain ⟨f', hf', e⟩ := except_bind_ok e
      simp only [Except.ok.injEq] at e
      obtain ⟨hwf, hcache⟩ := hg h f f' hh hd hf'
      rw [← e]
      refine ⟨fun n x hx => ?_, fun k hk => ?_, fun d hdd => ?_⟩
      · have hx : setKey w.disk h.file (some f') n = some x := hx
        unfold setKey at hx
        split at hx
        · rw [← Option.some.inj hx]; exact hwf
        · exact hi.files n x hx
      · obtain ⟨h1, h2, h3, h4, h5⟩ := hi.handle k hk
        refine ⟨h1, h2, h3, ?_, h5⟩
        show (setKey w.disk h.file (some f') k.file).isSome
        unfold setKey
        split
        · rfl
        · exact h4
      · obtain ⟨h1, h2, h3, x, h4, h5⟩ := hi.dset d hdd
        refine ⟨h1, h2, h3, ?_⟩
        show ∃ x, setKey w.disk h.file (some f') d.file = some x ∧ _
        unfold setKey
        by_cases hf : d.file = h.file
        · rw [if_pos hf]
          refine ⟨f', rfl, hcache d hdd hf ?_⟩
          rw [hf, hd] at h4
          rw [Option.some.inj h4]
          exact h5
        · rw [if_neg hf]
          exact ⟨x, h4, h5⟩

theorem writeFile_name {f f' : H5File} {name : Name} {a : WriteArgs} (h : writeFile f name a = .ok f') : trimBlanks name ≠ [] := by
  intro hn
  rcases writeFile_cases h with ⟨b, ds, _, h2, _, _⟩ | ⟨ds, _, _, h3⟩
  · exact (find_link (h5dopen_some.1 h2)).1 hn
  · have := h3.absent
    rw [hn, show h5Components [] = [] from by decide] at this
    simp [H5File.link] at this

end Verif.Hdf5
