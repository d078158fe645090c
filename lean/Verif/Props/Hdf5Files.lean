import Verif.Proofs.Hdf5Table

/-!
C96: files and datasets of the Fortran wrapper of HDF5
-/

namespace Verif.Hdf5

open FortranReaders

theorem step_inv {w w' : World} {op : Op} (hi : Inv w) (hp : op.Plain) (hr : ∀ d, w.dset = some d → ¬ Replaces w op d.file d.addr) (e : step w op = .ok w') : Inv w' := by
  cases op with
  | «open» fname ro =>
    obtain ⟨⟨k, x⟩, h1, h2⟩ := except_map_ok e
    rw [← h2]; exact openFile_inv hi hp h1
  | create fname =>
    obtain ⟨⟨k, x⟩, h1, h2⟩ := except_map_ok e
    rw [← h2]; exact createFile_inv hi hp h1
  | close i => exact closeFile_inv hi e
  | read i name r =>
    obtain ⟨⟨a, x⟩, h1, h2⟩ := except_map_ok e
    rw [← h2]
    unfold readDset at h1
    obtain ⟨h, hh, h1⟩ := except_bind_ok h1
    obtain ⟨⟨d, w1⟩, hd, h1⟩ := except_bind_ok h1
    obtain ⟨_, _, _, hm⟩ := handle_mem hh
    have h3 := (openDset_inv hi hm hp hd).1
    simp only at h1
    cases hx : w1.dsetAt d with
    | none => rw [hx] at h1; simp at h1
    | some ds =>
      rw [hx] at h1
      simp only at h1
      obtain ⟨b, _, h1⟩ := except_bind_ok h1
      simp only [Except.ok.injEq, Prod.mk.injEq] at h1
      rw [← h1.2]
      exact h3
  | write i name a =>
    refine onFile_inv hi (fun h f f' hh hf hw => ⟨writeFile_wf (hi.files _ _ hf) hw, fun d hd hdf hx => ?_⟩) e
    have hwf := hi.files _ _ hf
    obtain ⟨ds, h1, h2⟩ := writeFile_written hwf hw (writeFile_name hw)
    by_cases ho : h5dopen f name = some d.addr
    · rcases writeFile_cases hw with ⟨b, ds', _, _, _, rfl⟩ | ⟨ds', h3, _, _⟩
      · rw [h5dopen_find (setHeap_find f _ w.open_dset_name), hx]
      · exfalso
        rcases h3 with h3 | h3
        · exact hr d hd ⟨i, name, a, h, f, rfl, h3, hh, hdf.symm, by rw [hdf]; exact hf, ho⟩
        · rw [ho] at h3; simp at h3
    · exact (h2.others _ _ hx ho).1
  | group i name =>
    refine onFile_inv hi (fun h f f' _ hf hw => ⟨(createGroup_grows hw).wf (hi.files _ _ hf), fun d _ _ hx => ?_⟩) e
    rw [h5dopen_some] at hx ⊢
    exact (createGroup_grows hw).find hx
  | attr i name o t arr =>
    refine onFile_inv hi (fun h f f' _ hf hw => ?_) e
    unfold writeAttrFile at hw
    obtain ⟨k, _, hw⟩ := except_bind_ok hw
    simp only at hw
    by_cases hc : k.2 = [] ∨ (assoc k (if o then f.attrs.filter (fun x => decide (x.1 ≠ k)) else f.attrs)).isSome
    · rw [if_pos hc] at hw; simp at hw
    · rw [if_neg hc, Except.ok.injEq] at hw
      have hreach : ∀ q p, f'.reach q p = f.reach q p := by
        intro q p
        induction p generalizing q with
        | nil => rw [← hw]; rfl
        | cons c p ih =>
          rw [H5File.reach, H5File.reach, ih]
          rw [← hw]; rfl
      have hw0 := hi.files _ _ hf
      refine ⟨⟨fun p a ha => ?_, fun p l hl => ?_⟩, fun d _ _ hx => ?_⟩
      · rw [← hw] at ha ⊢
        exact hw0.addr p a ha
      · rw [hreach]
        rw [← hw] at hl
        exact hw0.rooted p l hl
      · rw [← hx]
        refine h5dopen_find ?_
        unfold H5File.find
        rw [hreach]

theorem runs_inv {w w' : World} {ops : List Op} (hi : Inv w) (h : Runs w ops w') : Inv w' := by
  induction h with
  | nil => exact hi
  | cons h hp hr _ ih => exact ih (step_inv hi hp hr h)

/-- **C96** (main statement): after any sequence of calls (with names which do not start with a blank, and at most 1000 characters long), none of which replaces the dataset which was read last,
reading a dataset gives the data which the file of the handle has under its name at this time, or fails if there is none, although the dataset of an earlier call is kept open. -/
theorem C96_cached_read {w0 w : World} {ops : List Op} (h0 : Initial w0) (h : Runs w0 ops w) (ifile : Int) (name : Name) (r : ReadArgs) (hp : Plain name) :
    (readDset w ifile name r).map (·.1) = uncachedRead w ifile name r := by
  have hi := runs_inv h0.inv h
  unfold readDset uncachedRead
  cases hh : w.handle ifile with
  | error e => rfl
  | ok g =>
    obtain ⟨_, _, _, hm⟩ := handle_mem hh
    obtain ⟨g1, g2, g3, g4, g5⟩ := hi.handle g hm
    obtain ⟨f, hf⟩ := Option.isSome_iff_exists.1 g4
    have hwf := hi.files _ _ hf
    simp only [bind, Except.bind]
    cases hd : openDset w g name with
    | ok x =>
      obtain ⟨d, w'⟩ := x
      obtain ⟨_, h2, h3, f', h4, h5⟩ := openDset_inv hi hm hp hd
      rw [hf] at h4
      have h4 := Option.some.inj h4
      subst h4
      have ha : d.addr < f.heap.length := hwf.addr _ _ (find_link (h5dopen_some.1 h5)).2.2
      have h6 : w'.dsetAt d = some f.heap[d.addr] := by
        unfold World.dsetAt
        rw [h3, h2, hf]
        exact List.getElem?_eq_getElem ha
      have h7 : f.dset name = some f.heap[d.addr] := by
        unfold H5File.dset
        rw [h5]
        exact List.getElem?_eq_getElem ha
      simp only [h6, hf, Option.bind_some, h7]
      cases readData f.heap[d.addr] r.memtype r.region r.arr <;> rfl
    | error e =>
      unfold openDset at hd
      split at hd
      · simp at hd
      · rw [hf] at hd
        simp only [Option.bind_some] at hd
        cases ha : h5dopen f name with
        | some a => rw [ha] at hd; simp at hd
        | none =>
          rw [ha] at hd
          have hd := Except.error.inj hd
          have h7 : f.dset name = none := by unfold H5File.dset; rw [ha]; rfl
          simp only [hf, Option.bind_some, h7]
          rw [← hd]; rfl

/-- **C96**: what writing a dataset does. A new dataset is created if there was none or it is to be replaced, and otherwise a part of the old one is written; nothing else in the file changes, but
groups with the new dataset may be created. -/
theorem C96_write_effect {f f' : H5File} {name : Name} {a : WriteArgs} (hw : f.WF) (h : writeFile f name a = .ok f') :
    ∃ ds, (if a.overwrite = true ∨ h5dopen f name = none then writeNew a.options a.memtype a.region a.arr = .ok ds
      else ∃ old, f.dset name = some old ∧ writeOld old a.memtype a.region a.arr = .ok ds) ∧ Written f f' name ds ∧ f'.WF := by
  obtain ⟨ds, h1, h2⟩ := writeFile_written hw h (writeFile_name h)
  exact ⟨ds, h1, h2, writeFile_wf hw h⟩

/-! ### Handles -/

theorem newHandle_spec {h : Handle} {t t' : List (Option Handle)} {i k : Nat} (e : newHandle h t i = .ok (k, t')) :
    ∃ j, k = i + j ∧ j < t.length ∧ t[j]? = some none ∧ (∀ m < j, ∃ g, t[m]? = some (some g)) ∧ t' = t.set j (some h) := by
  induction t generalizing i k t' with
  | nil => simp [newHandle] at e
  | cons x t ih =>
    cases x with
    | none =>
      simp only [newHandle, Except.ok.injEq, Prod.mk.injEq] at e
      exact ⟨0, by omega, by simp, rfl, fun m hm => by omega, by rw [← e.2]; rfl⟩
    | some x =>
      rw [newHandle] at e
      obtain ⟨⟨k', t''⟩, hr, e⟩ := except_bind_ok e
      simp only [Except.ok.injEq, Prod.mk.injEq] at e
      obtain ⟨j, h1, h2, h3, h4, h5⟩ := ih hr
      refine ⟨j + 1, by omega, by simpa using h2, by simpa using h3, fun m hm => ?_, by rw [← e.2, h5]; rfl⟩
      rcases m with _ | m
      · exact ⟨x, rfl⟩
      · simpa using h4 m (by omega)

theorem newHandle_error {h : Handle} {t : List (Option Handle)} {i : Nat} : (∃ r, newHandle h t i = .ok r) ∨ (newHandle h t i = .error .abort ∧ ∀ e ∈ t, e ≠ none) := by
  induction t generalizing i with
  | nil => exact Or.inr ⟨rfl, by simp⟩
  | cons x t ih =>
    cases x with
    | none => exact Or.inl ⟨_, rfl⟩
    | some x =>
      rcases ih (i := i + 1) with ⟨r, hr⟩ | ⟨hr, ha⟩
      · left
        rw [newHandle, hr]
        exact ⟨_, rfl⟩
      · right
        rw [newHandle, hr]
        refine ⟨rfl, fun e he => ?_⟩
        rcases List.mem_cons.1 he with rfl | he
        · simp
        · exact ha e he

theorem step_size {w w' : World} {op : Op} (hs : w.entries.length = 1000) (e : step w op = .ok w') : w'.entries.length = 1000 := by
  have hon : ∀ i g, onFile w i g = .ok w' → w'.entries.length = 1000 := by
    intro i g e
    unfold onFile at e
    obtain ⟨h, hh, e⟩ := except_bind_ok e
    split at e
    · simp at e
    · cases hd : w.disk h.file with
      | none => rw [hd] at e; simp at e
      | some f =>
        rw [hd] at e
        simp only at e
        obtain ⟨f', hf', e⟩ := except_bind_ok e
        simp only [Except.ok.injEq] at e
        rw [← e]; exact hs
  have hset : ∀ h i k t, newHandle h w.entries i = .ok (k, t) → t.length = 1000 := by
    intro h i k t e
    obtain ⟨j, _, _, _, _, h5⟩ := newHandle_spec e
    rw [h5, List.length_set, hs]
  cases op with
  | «open» fname ro =>
    obtain ⟨⟨k, x⟩, h1, h2⟩ := except_map_ok e
    rw [← h2]
    unfold openFile at h1
    simp only at h1
    cases hd : w.disk (trimBlanks fname) with
    | none => rw [hd] at h1; simp at h1
    | some f =>
      rw [hd] at h1
      simp only at h1
      split at h1
      · simp at h1
      · obtain ⟨⟨k', t⟩, hr, h1⟩ := except_bind_ok h1
        simp only [Except.ok.injEq, Prod.mk.injEq] at h1
        rw [← h1.2]
        exact hset _ _ _ _ hr
  | create fname =>
    obtain ⟨⟨k, x⟩, h1, h2⟩ := except_map_ok e
    rw [← h2]
    unfold createFile at h1
    simp only at h1
    split at h1
    · simp at h1
    · obtain ⟨⟨k', t⟩, hr, h1⟩ := except_bind_ok h1
      simp only [Except.ok.injEq, Prod.mk.injEq] at h1
      rw [← h1.2]
      exact hset _ _ _ _ hr
  | close i =>
    have e : closeFile w i = .ok w' := e
    unfold closeFile at e
    obtain ⟨h, hh, e⟩ := except_bind_ok e
    simp only [Except.ok.injEq] at e
    rw [← e]
    show (w.entries.set _ none).length = 1000
    rw [List.length_set, hs]
  | read i name r =>
    obtain ⟨⟨a, x⟩, h1, h2⟩ := except_map_ok e
    rw [← h2]
    unfold readDset at h1
    obtain ⟨h, hh, h1⟩ := except_bind_ok h1
    obtain ⟨⟨d, w1⟩, hd, h1⟩ := except_bind_ok h1
    have h3 : w1.entries.length = 1000 := by
      unfold openDset at hd
      split at hd
      · simp only [Except.ok.injEq, Prod.mk.injEq] at hd
        rw [← hd.2]; exact hs
      · split at hd
        · simp at hd
        · simp only [Except.ok.injEq, Prod.mk.injEq] at hd
          rw [← hd.2]; exact hs
    simp only at h1
    cases hx : w1.dsetAt d with
    | none => rw [hx] at h1; simp at h1
    | some ds =>
      rw [hx] at h1
      simp only at h1
      obtain ⟨b, _, h1⟩ := except_bind_ok h1
      simp only [Except.ok.injEq, Prod.mk.injEq] at h1
      rw [← h1.2]
      exact h3
  | write i name a => exact hon i _ e
  | group i name => exact hon i _ e
  | attr i name o t arr => exact hon i _ e

theorem calls_size {w w' : World} {ops : List Op} (hs : w.entries.length = 1000) (h : Calls w ops w') : w'.entries.length = 1000 := by
  induction h with
  | nil => exact hs
  | cons h _ ih => exact ih (step_size hs h)

theorem Initial.size {w : World} (h : Initial w) : w.entries.length = 1000 := by
  unfold World.entries
  rw [h.table]
  show (List.replicate nfilemax none).length = 1000
  rw [List.length_replicate]; rfl

theorem opened_of_new {w w' : World} {t : List (Option Handle)} {k : Nat} {file fname : Name} {ro : Bool} (hs : w.entries.length = 1000) (h : newHandle ⟨file, ro, fname⟩ w.entries 1 = .ok (k, t))
    (ht : w'.table = some t) : Opened w w' k file ro := by
  obtain ⟨j, h1, h2, h3, h4, h5⟩ := newHandle_spec h
  rw [hs] at h2
  have hent : w'.entries = t := by unfold World.entries; rw [ht]; rfl
  have hk : k - 1 = j := by omega
  refine ⟨⟨by omega, by omega, ?_⟩, fun m hm => ?_, ⟨fname, ?_⟩, fun m hm hne => ?_⟩
  · unfold World.entry
    rw [hk, List.getD_eq_getElem?_getD, h3]; rfl
  · by_contra hlt
    obtain ⟨g, hg⟩ := h4 (m - 1) (by have := hm.1; omega)
    have := hm.2.2
    unfold World.entry at this
    rw [List.getD_eq_getElem?_getD, hg] at this
    simp at this
  · unfold World.handle
    rw [if_neg (show ¬ ((k : Int) < 1 ∨ (nfilemax : Int) < k) by unfold nfilemax; omega), ht]
    simp only
    rw [show ((k : Int) - 1).toNat = j by omega, h5, List.getD_eq_getElem?_getD, List.getElem?_set_self (by omega)]
    rfl
  · unfold World.entry
    rw [hent, h5, List.getD_eq_getElem?_getD, List.getElem?_set_ne (by omega), List.getD_eq_getElem?_getD]

open Classical in
/-- **C96**: opening a file returns the smallest handle which is not used, which then stands for this file, and no other handle changes. It ends the program if and only if there is no such file, or it
cannot be written although it has to be, or 1000 files are open. -/
theorem C96_open {w0 w : World} {ops : List Op} (h0 : Initial w0) (h : Calls w0 ops w) (fname : Name) (ro : Bool) :
    if w.disk (trimBlanks fname) = none ∨ (ro = false ∧ ((w.disk (trimBlanks fname)).map (·.writable) = some false ∨ w.shared (trimBlanks fname) = some false)) ∨ ∀ k, ¬ w.Free k then
      openFile w fname ro = .error .abort
    else ∃ k w', openFile w fname ro = .ok (k, w') ∧ Opened w w' k (trimBlanks fname) ro ∧ w'.disk = w.disk := by
  have hs := calls_size h0.size h
  suffices H : (∃ k w', openFile w fname ro = .ok (k, w') ∧ Opened w w' k (trimBlanks fname) ro ∧ w'.disk = w.disk ∧ (∃ f, w.disk (trimBlanks fname) = some f ∧ (ro = false → f.writable = true ∧ w.shared (trimBlanks fname) ≠ some false))) ∨
      (openFile w fname ro = .error .abort ∧ (w.disk (trimBlanks fname) = none ∨ (ro = false ∧ ((w.disk (trimBlanks fname)).map (·.writable) = some false ∨ w.shared (trimBlanks fname) = some false)) ∨ ∀ k, ¬ w.Free k)) by
    rcases H with ⟨k, w', h1, h2, h3, f, h4, h5⟩ | ⟨h1, h2⟩
    · rw [if_neg]
      · exact ⟨k, w', h1, h2, h3⟩
      · rintro (h6 | ⟨h6, h7⟩ | h6)
        · rw [h4] at h6; simp at h6
        · obtain ⟨h8, h9⟩ := h5 h6
          rcases h7 with h7 | h7
          · rw [h4] at h7; simp [h8] at h7
          · exact h9 h7
        · exact h6 k h2.free
    · rw [if_pos h2]
      exact h1
  unfold openFile
  simp only
  cases hd : w.disk (trimBlanks fname) with
  | none => exact Or.inr ⟨rfl, Or.inl rfl⟩
  | some f =>
    simp only
    by_cases hc : ¬ ro = true ∧ ¬ (f.writable = true ∧ w.shared (trimBlanks fname) ≠ some false)
    · rw [if_pos hc]
      refine Or.inr ⟨rfl, Or.inr (Or.inl ⟨by simpa using hc.1, ?_⟩)⟩
      by_cases hw : f.writable = true
      · right
        by_contra hx
        exact hc.2 ⟨hw, hx⟩
      · left
        simpa using hw
    · rw [if_neg hc]
      rcases newHandle_error (h := ⟨trimBlanks fname, ro, trimBlanks (fname.take 1000)⟩) (t := w.entries) (i := 1) with ⟨⟨k, t⟩, hr⟩ | ⟨hr, ha⟩
      · left
        rw [hr]
        refine ⟨k, _, rfl, opened_of_new hs hr rfl, rfl, f, rfl, fun hro => ?_⟩
        by_contra hx
        exact hc ⟨by simp [hro], hx⟩
      · right
        rw [hr]
        refine ⟨rfl, Or.inr (Or.inr ?_)⟩
        rintro k ⟨h1, h2, h3⟩
        unfold World.entry at h3
        have hl : k - 1 < w.entries.length := by omega
        rw [List.getD_eq_getElem?_getD, List.getElem?_eq_getElem hl] at h3
        exact ha _ (List.getElem_mem hl) h3

open Classical in
/-- **C96**: creating a file makes an empty one, whatever was there, and returns the smallest handle which is not used. It ends the program if and only if the file is open or cannot be written, or
1000 files are open. -/
theorem C96_create {w0 w : World} {ops : List Op} (h0 : Initial w0) (h : Calls w0 ops w) (fname : Name) :
    if (w.disk (trimBlanks fname)).map (·.writable) = some false ∨ (w.shared (trimBlanks fname)).isSome = true ∨ ∀ k, ¬ w.Free k then createFile w fname = .error .abort
    else ∃ k w' f, createFile w fname = .ok (k, w') ∧ Opened w w' k (trimBlanks fname) false ∧ w'.disk (trimBlanks fname) = some f ∧ f.links = [] ∧ f.attrs = [] ∧ ∀ n ≠ trimBlanks fname, w'.disk n = w.disk n := by
  have hs := calls_size h0.size h
  suffices H : ((∃ k w' f, createFile w fname = .ok (k, w') ∧ Opened w w' k (trimBlanks fname) false ∧ w'.disk (trimBlanks fname) = some f ∧ f.links = [] ∧ f.attrs = [] ∧ ∀ n ≠ trimBlanks fname, w'.disk n = w.disk n) ∧
        ¬ ((w.shared (trimBlanks fname)).isSome ∨ (w.disk (trimBlanks fname)).map (·.writable) = some false)) ∨
      (createFile w fname = .error .abort ∧ ((w.disk (trimBlanks fname)).map (·.writable) = some false ∨ (w.shared (trimBlanks fname)).isSome ∨ ∀ k, ¬ w.Free k)) by
    rcases H with ⟨⟨k, w', f, h1, h2, h3⟩, h4⟩ | ⟨h1, h2⟩
    · rw [if_neg]
      · exact ⟨k, w', f, h1, h2, h3⟩
      · rintro (h6 | h6 | h6)
        · exact h4 (Or.inr h6)
        · exact h4 (Or.inl h6)
        · exact h6 k h2.free
    · rw [if_pos h2]
      exact h1
  unfold createFile
  simp only
  by_cases hc : (w.shared (trimBlanks fname)).isSome ∨ (w.disk (trimBlanks fname)).map (·.writable) = some false
  · rw [if_pos hc]
    exact Or.inr ⟨rfl, hc.elim (fun h => Or.inr (Or.inl h)) Or.inl⟩
  · rw [if_neg hc]
    rcases newHandle_error (h := ⟨trimBlanks fname, false, trimBlanks (fname.take 1000)⟩) (t := w.entries) (i := 1) with ⟨⟨k, t⟩, hr⟩ | ⟨hr, ha⟩
    · left
      rw [hr]
      refine ⟨?_, hc⟩
      refine ⟨k, _, {}, rfl, opened_of_new hs hr rfl, ?_, rfl, rfl, fun n hn => ?_⟩
      · show setKey w.disk _ _ _ = _
        unfold setKey
        rw [if_pos rfl]
      · show setKey w.disk _ _ _ = _
        unfold setKey
        rw [if_neg hn]
    · right
      rw [hr]
      refine ⟨rfl, Or.inr (Or.inr ?_)⟩
      rintro k ⟨h1, h2, h3⟩
      unfold World.entry at h3
      have hl : k - 1 < w.entries.length := by omega
      rw [List.getD_eq_getElem?_getD, List.getElem?_eq_getElem hl] at h3
      exact ha _ (List.getElem_mem hl) h3

/-- **C96**: after a file was closed its handle is not used, and all others are unchanged, as are the files. -/
theorem C96_close {w0 w w' : World} {ops : List Op} (h0 : Initial w0) (h : Calls w0 ops w) {k : Nat} (e : closeFile w k = .ok w') :
    (∃ g, w.entry k = some g) ∧ w'.Free k ∧ (∀ j, 1 ≤ j → j ≠ k → w'.entry j = w.entry j) ∧ w'.disk = w.disk ∧ w'.handle k = .error .abort := by
  have hs := calls_size h0.size h
  unfold closeFile at e
  obtain ⟨g, hg, e⟩ := except_bind_ok e
  simp only [Except.ok.injEq] at e
  obtain ⟨t, ht, hx, _⟩ := handle_mem hg
  have hent : w.entries = t := by unfold World.entries; rw [ht]; rfl
  have hent' : w'.entries = t.set (k - 1) none := by
    rw [← e]
    show (some (w.entries.set ((k : Int) - 1).toNat none)).getD _ = _
    rw [hent, show ((k : Int) - 1).toNat = k - 1 by omega]; rfl
  have hrange : ¬ ((k : Int) < 1 ∨ (nfilemax : Int) < k) := by
    intro hr
    unfold World.handle at hg
    rw [if_pos hr] at hg
    simp at hg
  have hr2 : 1 ≤ k ∧ k ≤ 1000 := by unfold nfilemax at hrange; omega
  have hlen : (k - 1) < t.length := by rw [← hent, hs]; omega
  have hnone : w'.entry k = none := by
    unfold World.entry
    rw [hent', List.getD_eq_getElem?_getD, List.getElem?_set_self hlen]; rfl
  refine ⟨⟨g, ?_⟩, ⟨hr2.1, hr2.2, hnone⟩, fun j hj hne => ?_, by rw [← e], ?_⟩
  · unfold World.entry
    rw [hent, show k - 1 = ((k : Int) - 1).toNat by omega, hx]
  · unfold World.entry
    rw [hent', hent, List.getD_eq_getElem?_getD, List.getElem?_set_ne (by omega), List.getD_eq_getElem?_getD]
  · unfold World.handle
    rw [if_neg hrange]
    have htab : w'.table = some w'.entries := by
      rw [hent', ← e, ← hent, show k - 1 = ((k : Int) - 1).toNat by omega]
    rw [htab]
    simp only
    have : w'.entries.getD ((k : Int) - 1).toNat none = none := by
      rw [show ((k : Int) - 1).toNat = k - 1 by omega]
      exact hnone
    rw [this]

/-- **C96**: the contents of a file change only when it is created, or by a call with a handle which stands for it and was not opened for reading only. -/
theorem C96_read_only {w w' : World} {op : Op} (e : step w op = .ok w') (n : Name) (hn : w'.disk n ≠ w.disk n) :
    (∃ fname, op = .create fname ∧ trimBlanks fname = n ∧ w.shared n = none) ∨ ∃ ifile h, op.Changes ifile ∧ w.handle ifile = .ok h ∧ h.file = n ∧ h.readOnly = false := by
  have hon : ∀ i g, onFile w i g = .ok w' → ∃ h, w.handle i = .ok h ∧ h.file = n ∧ h.readOnly = false := by
    intro i g e
    unfold onFile at e
    obtain ⟨h, hh, e⟩ := except_bind_ok e
    split at e
    · simp at e
    · next hro =>
      refine ⟨h, hh, ?_, by simpa using hro⟩
      cases hd : w.disk h.file with
      | none => rw [hd] at e; simp at e
      | some f =>
        rw [hd] at e
        simp only at e
        obtain ⟨f', hf', e⟩ := except_bind_ok e
        simp only [Except.ok.injEq] at e
        by_contra hne
        apply hn
        rw [← e]
        show setKey w.disk h.file (some f') n = w.disk n
        unfold setKey
        rw [if_neg (fun h => hne h.symm)]
  cases op with
  | «open» fname ro =>
    exfalso
    apply hn
    obtain ⟨⟨k, x⟩, h1, h2⟩ := except_map_ok e
    rw [← h2]
    unfold openFile at h1
    simp only at h1
    cases hd : w.disk (trimBlanks fname) with
    | none => rw [hd] at h1; simp at h1
    | some f =>
      rw [hd] at h1
      simp only at h1
      split at h1
      · simp at h1
      · obtain ⟨⟨k', t⟩, hr, h1⟩ := except_bind_ok h1
        simp only [Except.ok.injEq, Prod.mk.injEq] at h1
        rw [← h1.2]
  | create fname =>
    left
    obtain ⟨⟨k, x⟩, h1, h2⟩ := except_map_ok e
    unfold createFile at h1
    simp only at h1
    split at h1
    · simp at h1
    · next hc =>
      obtain ⟨⟨k', t⟩, hr, h1⟩ := except_bind_ok h1
      simp only [Except.ok.injEq, Prod.mk.injEq] at h1
      have hx : trimBlanks fname = n := by
        by_contra hne
        apply hn
        rw [← h2, ← h1.2]
        show setKey w.disk (trimBlanks fname) (some {}) n = w.disk n
        unfold setKey
        rw [if_neg (fun h => hne h.symm)]
      refine ⟨fname, rfl, hx, ?_⟩
      rw [← hx]
      cases hsh : w.shared (trimBlanks fname) with
      | none => rfl
      | some b => exact absurd (Or.inl (by rw [hsh]; rfl)) hc
  | close i =>
    exfalso
    apply hn
    have e : closeFile w i = .ok w' := e
    unfold closeFile at e
    obtain ⟨h, hh, e⟩ := except_bind_ok e
    simp only [Except.ok.injEq] at e
    rw [← e]
  | read i name r =>
    exfalso
    apply hn
    obtain ⟨⟨a, x⟩, h1, h2⟩ := except_map_ok e
    rw [← h2]
    unfold readDset at h1
    obtain ⟨h, hh, h1⟩ := except_bind_ok h1
    obtain ⟨⟨d, w1⟩, hd, h1⟩ := except_bind_ok h1
    have h3 : w1.disk = w.disk := by
      unfold openDset at hd
      split at hd
      · simp only [Except.ok.injEq, Prod.mk.injEq] at hd
        rw [← hd.2]
      · split at hd
        · simp at hd
        · simp only [Except.ok.injEq, Prod.mk.injEq] at hd
          rw [← hd.2]
    simp only at h1
    cases hx : w1.dsetAt d with
    | none => rw [hx] at h1; simp at h1
    | some ds =>
      rw [hx] at h1
      simp only at h1
      obtain ⟨b, _, h1⟩ := except_bind_ok h1
      simp only [Except.ok.injEq, Prod.mk.injEq] at h1
      rw [← h1.2, h3]
  | write i name a =>
    obtain ⟨h, hh⟩ := hon i _ e
    exact Or.inr ⟨i, h, Or.inl ⟨name, a, rfl⟩, hh⟩
  | group i name =>
    obtain ⟨h, hh⟩ := hon i _ e
    exact Or.inr ⟨i, h, Or.inr (Or.inl ⟨name, rfl⟩), hh⟩
  | attr i name o t arr =>
    obtain ⟨h, hh⟩ := hon i _ e
    exact Or.inr ⟨i, h, Or.inr (Or.inr ⟨name, o, t, arr, rfl⟩), hh⟩

/-! ### Defects -/

theorem openDset_again {w w1 : World} {h : Handle} {name : Name} {d : OpenDset} (hp : Plain name) (hf : trimBlanks h.fname = h.fname) (e : openDset w h name = .ok (d, w1)) :
    w1.dset = some d ∧ charEq (adjustl h.fname) (adjustl w1.open_file_name) = true ∧ charEq (adjustl name) (adjustl w1.open_dset_name) = true := by
  unfold openDset at e
  split at e
  · next d' hd =>
    simp only [Except.ok.injEq, Prod.mk.injEq] at e
    obtain ⟨rfl, rfl⟩ := e
    split at hd
    · next hc => exact ⟨hd, hc.1, hc.2⟩
    · simp at hd
  · split at e
    · simp at e
    · simp only [Except.ok.injEq, Prod.mk.injEq] at e
      obtain ⟨rfl, rfl⟩ := e
      refine ⟨rfl, ?_, ?_⟩
      · show charEq (adjustl h.fname) (adjustl (trimBlanks h.fname)) = true
        rw [hf, charEq_iff]
      · show charEq (adjustl name) (adjustl (trimBlanks (name.take 1000))) = true
        rw [List.take_of_length_le hp.2, adjustl_plain hp.1, adjustl_plain (trimBlanks_head hp.1), charEq_iff, trimBlanks_idem]

theorem readDset_eq {w w1 : World} {ifile : Int} {h : Handle} {name : Name} {d : OpenDset} {ds : Dset} (hh : w.handle ifile = .ok h) (hd : openDset w h name = .ok (d, w1)) (hs : w1.dsetAt d = some ds) (r : ReadArgs) :
    (readDset w ifile name r).map (·.1) = readData ds r.memtype r.region r.arr := by
  unfold readDset
  rw [hh]
  simp only [bind, Except.bind, hd, hs]
  cases readData ds r.memtype r.region r.arr <;> rfl

/-- Reading after a dataset with this name was read -/
theorem read_again {w w1 : World} {ops : List Op} {w0 : World} (h0 : Initial w0) (h : Runs w0 ops w) {ifile : Int} {name : Name} {r : ReadArgs} {x : FArray} (hp : Plain name)
    (e : readDset w ifile name r = .ok (x, w1)) :
    ∃ g f a ds, w.handle ifile = .ok g ∧ w.disk g.file = some f ∧ h5dopen f name = some a ∧ f.heap[a]? = some ds ∧ Inv w1 ∧ w1.disk = w.disk ∧ w1.handle ifile = .ok g ∧
      w1.dset = some ⟨g.file, a⟩ ∧ charEq (adjustl g.fname) (adjustl w1.open_file_name) = true ∧ charEq (adjustl name) (adjustl w1.open_dset_name) = true := by
  have hi := runs_inv h0.inv h
  unfold readDset at e
  obtain ⟨g, hg, e⟩ := except_bind_ok e
  obtain ⟨⟨d, w2⟩, hd, e⟩ := except_bind_ok e
  obtain ⟨_, _, _, hm⟩ := handle_mem hg
  obtain ⟨g1, g2, g3, _, _⟩ := hi.handle g hm
  simp only at e
  cases hx : w2.dsetAt d with
  | none => rw [hx] at e; simp at e
  | some ds =>
    rw [hx] at e
    simp only at e
    obtain ⟨b, _, e⟩ := except_bind_ok e
    simp only [Except.ok.injEq, Prod.mk.injEq] at e
    obtain ⟨rfl, rfl⟩ := e
    obtain ⟨h1, h2, h3, f, h4, h5⟩ := openDset_inv hi hm hp hd
    obtain ⟨k1, k2, k3⟩ := openDset_again hp (by rw [g1, g3]) hd
    have ht : w2.table = w.table := by
      unfold openDset at hd
      split at hd
      · simp only [Except.ok.injEq, Prod.mk.injEq] at hd
        rw [← hd.2]
      · split at hd
        · simp at hd
        · simp only [Except.ok.injEq, Prod.mk.injEq] at hd
          rw [← hd.2]
    refine ⟨g, f, d.addr, ds, hg, h4, h5, ?_, h1, h3, ?_, ?_, k2, k3⟩
    · unfold World.dsetAt at hx
      rw [h3, h2, h4] at hx
      exact hx
    · unfold World.handle at hg ⊢
      rw [ht]
      exact hg
    · rw [k1, ← h2]

/-- Defect: after a dataset was read and then replaced (`overwrite=.true.`), reading it again gives the data which it had before, from the dataset which is still open. -/
theorem C96_stale_defect {w0 w w1 w2 : World} {ops : List Op} (h0 : Initial w0) (h : Runs w0 ops w) {ifile : Int} {name : Name} {r r' : ReadArgs} {x : FArray} {a : WriteArgs} (hp : Plain name)
    (hr : readDset w ifile name r = .ok (x, w1)) (ho : a.overwrite = true) (hw : writeDset w1 ifile name a = .ok w2) :
    ∃ g f f' old new, w.handle ifile = .ok g ∧ w.disk g.file = some f ∧ f.dset name = some old ∧ w2.disk g.file = some f' ∧ f'.dset name = some new ∧
      writeNew a.options a.memtype a.region a.arr = .ok new ∧ (readDset w2 ifile name r').map (·.1) = readData old r'.memtype r'.region r'.arr := by
  obtain ⟨g, f, b, ds, hg, hf, hb, hds, hi1, hdisk, hg1, hc1, hc2, hc3⟩ := read_again h0 h hp hr
  unfold writeDset onFile at hw
  rw [hg1] at hw
  obtain ⟨_, hgg, hw⟩ := except_bind_ok hw
  obtain rfl := Except.ok.inj hgg
  split at hw
  · simp at hw
  · rw [hdisk, hf] at hw
    simp only at hw
    obtain ⟨f', hf', hw⟩ := except_bind_ok hw
    simp only [Except.ok.injEq] at hw
    have hwf := hi1.files _ _ (by rw [hdisk]; exact hf)
    obtain ⟨new, hn1, hn2⟩ := writeFile_written hwf hf' (writeFile_name hf')
    rw [if_pos (Or.inl ho)] at hn1
    have hd2 : w2.disk g.file = some f' := by
      rw [← hw]
      show setKey w.disk g.file (some f') g.file = some f'
      unfold setKey
      rw [if_pos rfl]
    have hopen : openDset w2 g name = .ok (⟨g.file, b⟩, w2) := by
      have e1 : w2.open_file_name = w1.open_file_name := by rw [← hw]
      have e2 : w2.open_dset_name = w1.open_dset_name := by rw [← hw]
      have e3 : w2.dset = w1.dset := by rw [← hw]
      unfold openDset
      rw [e1, e2, e3, if_pos ⟨hc2, hc3⟩, hc1]
    have hbl : b < f.heap.length := (List.getElem?_eq_some_iff.1 hds).1
    have hheap : f'.heap[b]? = some ds := by
      rcases writeFile_cases hf' with ⟨_, _, hno, _⟩ | ⟨ds', _, _, h3⟩
      · rw [ho] at hno; simp at hno
      · have hheap : (if (h5dopen f name).isSome then h5gunlink f name else f).heap = f.heap := by
          split <;> rfl
        rw [h3.heap, hheap, List.getElem?_append_left hbl, hds]
    refine ⟨g, f, f', ds, new, hg, hf, ?_, hd2, hn2.written, hn1, ?_⟩
    · unfold H5File.dset
      rw [hb]
      exact hds
    · refine readDset_eq (h := g) ?_ hopen ?_ r'
      · rw [← hw]
        exact hg1
      · unfold World.dsetAt
        rw [hd2]
        exact hheap

/-- Defect: blanks at the beginning of names are part of them, but not when names are compared with that of the dataset which is open. So after the dataset `name` was read, reading the dataset with a
blank before this name gives the data of `name`, whether there is such a dataset or not. -/
theorem C96_leading_blank_defect {w0 w w1 : World} {ops : List Op} (h0 : Initial w0) (h : Runs w0 ops w) {ifile : Int} {name : Name} {r r' : ReadArgs} {x : FArray} (hp : Plain name)
    (hr : readDset w ifile name r = .ok (x, w1)) :
    ∃ g f ds, w.handle ifile = .ok g ∧ w.disk g.file = some f ∧ f.dset name = some ds ∧ (readDset w1 ifile (' ' :: name) r').map (·.1) = readData ds r'.memtype r'.region r'.arr := by
  obtain ⟨g, f, b, ds, hg, hf, hb, hds, hi1, hdisk, hg1, hc1, hc2, hc3⟩ := read_again h0 h hp hr
  refine ⟨g, f, ds, hg, hf, ?_, ?_⟩
  · unfold H5File.dset
    rw [hb]
    exact hds
  · refine readDset_eq (h := g) (d := ⟨g.file, b⟩) (w1 := w1) hg1 ?_ ?_ r'
    · unfold openDset
      rw [show adjustl (' ' :: name) = adjustl name from rfl, if_pos ⟨hc2, hc3⟩, hc1]
    · unfold World.dsetAt
      rw [hdisk, hf]
      exact hds

namespace ExHdf5Files

/-- A file with a dataset of two numbers of one byte in a group -/
def t : DType := ⟨.integer true, 1⟩
def old : Dset := ⟨t, [2], [some 2], [[3], [4]]⟩
def f : H5File := { links := [("g".toList :: ["a".toList], .dset 0), (["g".toList], .group)], heap := [old] }
def w0 : World := { disk := fun n => if n = "x.hdf5".toList then some f else none }
def r : ReadArgs := { memtype := t, arr := ⟨[2], [[0], [0]]⟩ }
def new : WriteArgs := { overwrite := true, memtype := t, arr := ⟨[2], [[5], [6]]⟩ }
def part : WriteArgs := { memtype := t, region := some ([2], [1]), arr := ⟨[], [[9]]⟩ }

example : Initial w0 := by
  refine ⟨rfl, rfl, rfl, fun n g h => ?_⟩
  unfold w0 at h
  simp only at h
  split at h
  · rw [← Option.some.inj h]
    refine ⟨fun p a hp => ?_, fun p l hp => ?_⟩
    · unfold H5File.link f at hp
      simp only [assoc] at hp
      split at hp
      · simp at hp
      · split at hp
        · have := Link.dset.inj (Option.some.inj hp)
          rw [← this]; decide
        · split at hp <;> simp at hp
    · unfold H5File.link f at hp
      simp only [assoc] at hp
      split at hp
      · next h0 => rw [h0, ← hp]; decide
      · split at hp
        · next h0 => rw [← h0, ← hp]; decide
        · split at hp
          · next h0 => rw [← h0, ← hp]; decide
          · simp at hp
  · simp at h

/-- Read it, write another number, and read it again with another handle: the dataset stays open, and the new number is found. -/
def run (ops : List Op) (i : Int) (name : String) : Except Err FArray := do
  let w ← ops.foldlM step w0
  (readDset w i name.toList r).map (·.1)

example : run [.open "x.hdf5".toList false, .open "x.hdf5 ".toList true, .read 1 "g/a".toList r, .write 1 "/g/a".toList part] 2 "g/a " = .ok ⟨[2], [[3], [9]]⟩ := by decide +kernel

/-- Replaced before it is read -/
example : run [.open "x.hdf5".toList false, .write 1 "/g/a".toList new] 1 "g/a" = .ok ⟨[2], [[5], [6]]⟩ := by decide +kernel

/-- The defects: replaced after it was read, and a blank before the name -/
example : run [.open "x.hdf5".toList false, .read 1 "g/a".toList r, .write 1 "/g/a".toList new] 1 "g/a" = .ok ⟨[2], [[3], [4]]⟩ := by decide +kernel
example : run [.open "x.hdf5".toList false, .read 1 "g/a".toList r] 1 " g/a" = .ok ⟨[2], [[3], [4]]⟩ := by decide +kernel
example : run [.open "x.hdf5".toList false] 1 " g/a" = .error .abort := by decide +kernel

/-- With a slash at the beginning it is another name, and closing the file helps. -/
example : run [.open "x.hdf5".toList false, .read 1 "g/a".toList r, .write 1 "/g/a".toList new] 1 "/g/a" = .ok ⟨[2], [[5], [6]]⟩ := by decide +kernel
example : run [.open "x.hdf5".toList false, .read 1 "g/a".toList r, .write 1 "/g/a".toList new, .close 1, .open "x.hdf5".toList true] 1 "g/a" = .ok ⟨[2], [[5], [6]]⟩ := by decide +kernel

/-- Files which cannot be written, and handles -/
example : run [.open "x.hdf5".toList true, .write 1 "/g/a".toList new] 1 "g/a" = .error .abort := by decide +kernel
example : run [.open "x.hdf5".toList true, .create "y".toList, .close 1, .open "x.hdf5".toList true] 1 "g/a" = .ok ⟨[2], [[3], [4]]⟩ := by decide +kernel
example : run [.open "x.hdf5".toList true, .create "y".toList, .close 1, .open "x.hdf5".toList true, .write 2 "b/c/d".toList new] 2 "b/c/d" = .ok ⟨[2], [[5], [6]]⟩ := by decide +kernel
example : run [.open "x.hdf5".toList true, .create "x.hdf5".toList] 2 "b/c/d" = .error .abort := by decide +kernel

/-- A sequence of calls as in C96 -/
example : ∃ w, Runs w0 [.open "x.hdf5".toList false, .read 1 "g/a".toList r, .write 1 "/g/a".toList part] w := by
  refine ⟨_, Runs.cons (w1 := ((step w0 (.open "x.hdf5".toList false)).toOption).getD w0) rfl ⟨by decide, by decide⟩ (fun d h => by cases h) (Runs.cons rfl ⟨by decide, by decide⟩ (fun d h => by cases h) (Runs.cons rfl trivial ?_ (Runs.nil _)))⟩
  rintro d _ ⟨i, n, a, _, _, h, ho, _⟩
  cases h
  cases ho

end ExHdf5Files

end Verif.Hdf5
