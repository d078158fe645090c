import Verif.Spec.Hdf5Persist
import Verif.Props.Hdf5Files

/-! Datasets and attributes are kept by calls which do not touch them. -/

namespace Verif.Hdf5

open FortranReaders

theorem onFile_ok {w w' : World} {ifile : Int} {g : H5File → Except Err H5File} (e : onFile w ifile g = .ok w') :
    ∃ h f f', w.handle ifile = .ok h ∧ h.readOnly = false ∧ w.disk h.file = some f ∧ g f = .ok f' ∧ w' = { w with disk := setKey w.disk h.file (some f') } := by
  unfold onFile at e
  obtain ⟨h, hh, e⟩ := except_bind_ok e
  split at e
  · simp at e
  · next hro =>
    cases hd : w.disk h.file with
    | none => rw [hd] at e; simp at e
    | some f =>
      rw [hd] at e
      simp only at e
      obtain ⟨f', hf', e⟩ := except_bind_ok e
      rw [Except.ok.injEq] at e
      exact ⟨h, f, f', hh, by simpa using hro, hd, hf', e.symm⟩

/-- Another attribute: all names and datasets are the same. -/
theorem writeAttrFile_ok {f f' : H5File} {name : Name} {o : Bool} {t : DType} {arr : FArray} (h : writeAttrFile f name o t arr = .ok f') :
    ∃ k, attrKey f name = .ok k ∧ f' = { f with attrs := (k, ⟨t, arr.dims, arr.elems⟩) :: (if o then f.attrs.filter (fun x => decide (x.1 ≠ k)) else f.attrs) } := by
  unfold writeAttrFile at h
  obtain ⟨k, hk, h⟩ := except_bind_ok h
  simp only at h
  by_cases hc : k.2 = [] ∨ (assoc k (if o then f.attrs.filter (fun x => decide (x.1 ≠ k)) else f.attrs)).isSome
  · rw [if_pos hc] at h; simp at h
  · rw [if_neg hc, Except.ok.injEq] at h
    exact ⟨k, hk, h.symm⟩

theorem reach_links {f f' : H5File} (h : f'.links = f.links) (q p : List Name) : f'.reach q p = f.reach q p := by
  have hl : ∀ p, f'.link p = f.link p := fun p => by unfold H5File.link; rw [h]
  induction p generalizing q with
  | nil => rw [H5File.reach, H5File.reach, hl]
  | cons c p ih => rw [H5File.reach, H5File.reach, ih, hl]

theorem find_links {f f' : H5File} (h : f'.links = f.links) (name : Name) : f'.find name = f.find name := by
  unfold H5File.find
  rw [reach_links h]

theorem find_attrs (f : H5File) (attrs : List ((Owner × Name) × Attr)) (name : Name) : ({ f with attrs := attrs } : H5File).find name = f.find name := find_links (f := f) (f' := { f with attrs := attrs }) rfl name

theorem wf_links {f f' : H5File} (h : f'.links = f.links) (hh : f'.heap = f.heap) (hw : f.WF) : f'.WF := by
  have hl : ∀ p, f'.link p = f.link p := fun p => by unfold H5File.link; rw [h]
  refine ⟨fun p a ha => ?_, fun p l hp => ?_⟩
  · rw [hh]; rw [hl] at ha; exact hw.addr p a ha
  · rw [reach_links h]; rw [hl] at hp; exact hw.rooted p l hp

theorem attrKey_find {f f' : H5File} {name : Name} (h : ∀ l, f.find (trimBlanks ((name.take (lastSlash name - 1)).take 256)) = some l → f'.find (trimBlanks ((name.take (lastSlash name - 1)).take 256)) = some l)
    {k : Owner × Name} (hk : attrKey f name = .ok k) : attrKey f' name = .ok k := by
  unfold attrKey at hk ⊢
  simp only at hk ⊢
  split at hk
  · simp at hk
  · next hn =>
    rw [if_neg hn]
    cases hl : f.find (trimBlanks ((name.take (lastSlash name - 1)).take 256)) with
    | none => rw [hl] at hk; simp at hk
    | some l =>
      rw [hl] at hk
      rw [h l hl]
      exact hk

theorem assoc_filter_ne {α β : Type} [DecidableEq α] {k j : α} (h : k ≠ j) (l : List (α × β)) : assoc k (l.filter (fun x => decide (x.1 ≠ j))) = assoc k l := by
  induction l with
  | nil => rfl
  | cons x l ih =>
    obtain ⟨a, b⟩ := x
    rw [List.filter_cons]
    by_cases ha : a = j
    · rw [if_neg (by simp [ha]), ih, assoc, if_neg (fun hx : a = k => h (hx.symm.trans ha))]
    · rw [if_pos (by simp [ha]), assoc, assoc, ih]

/-- What a call does to one file: nothing, or it makes it anew, or it is one of the three which change files. -/
theorem step_disk {w w' : World} {op : Op} (e : step w op = .ok w') (n : Name) {f : H5File} (hf : w.disk n = some f) :
    w'.disk n = some f ∨ (∃ fname, op = .create fname ∧ trimBlanks fname = n) ∨
      ∃ ifile h f', w.handle ifile = .ok h ∧ h.file = n ∧ w'.disk n = some f' ∧
        ((∃ name a, op = .write ifile name a ∧ writeFile f name a = .ok f') ∨ (∃ name, op = .group ifile name ∧ createGroup f name = .ok f') ∨
          ∃ name o t arr, op = .attr ifile name o t arr ∧ writeAttrFile f name o t arr = .ok f') := by
  by_cases hn : w'.disk n = w.disk n
  · exact Or.inl (hn.trans hf)
  rcases C96_read_only e n hn with ⟨fname, h1, h2, _⟩ | ⟨ifile, h, hc, hh, hfile, _⟩
  · exact Or.inr (Or.inl ⟨fname, h1, h2⟩)
  refine Or.inr (Or.inr ⟨ifile, h, ?_⟩)
  have hon : ∀ g, onFile w ifile g = .ok w' → ∃ f', g f = .ok f' ∧ w'.disk n = some f' := by
    intro g eg
    obtain ⟨h', f1, f', hh', _, hf1, hg, hw'⟩ := onFile_ok eg
    rw [hh] at hh'
    obtain rfl := Except.ok.inj hh'
    rw [hfile, hf] at hf1
    obtain rfl := Option.some.inj hf1
    refine ⟨f', hg, ?_⟩
    rw [hw']
    show setKey w.disk h.file (some f') n = some f'
    unfold setKey
    rw [if_pos hfile.symm]
  rcases hc with ⟨name, a, rfl⟩ | ⟨name, rfl⟩ | ⟨name, o, t, arr, rfl⟩
  · obtain ⟨f', h1, h2⟩ := hon _ e
    exact ⟨f', hh, hfile, h2, Or.inl ⟨name, a, rfl, h1⟩⟩
  · obtain ⟨f', h1, h2⟩ := hon _ e
    exact ⟨f', hh, hfile, h2, Or.inr (Or.inl ⟨name, rfl, h1⟩)⟩
  · obtain ⟨f', h1, h2⟩ := hon _ e
    exact ⟨f', hh, hfile, h2, Or.inr (Or.inr ⟨name, o, t, arr, rfl, h1⟩)⟩

theorem step_keeps {w w' : World} {op : Op} {file name : Name} {f : H5File} {x : Nat} {ds : Dset} (hw : f.WF) (hf : w.disk file = some f) (hx : h5dopen f name = some x) (hds : f.heap[x]? = some ds)
    (ht : ¬ Touches w op file name) (e : step w op = .ok w') : ∃ f', w'.disk file = some f' ∧ f'.WF ∧ h5dopen f' name = some x ∧ f'.heap[x]? = some ds := by
  rcases step_disk e file hf with h | h | ⟨ifile, h, f', hh, hfile, hf', hc⟩
  · exact ⟨f, h, hw, hx, hds⟩
  · exact absurd (Or.inl h) ht
  refine ⟨f', hf', ?_⟩
  rcases hc with ⟨name', a, rfl, hc⟩ | ⟨name', rfl, hc⟩ | ⟨name', o, t, arr, rfl, hc⟩
  · obtain ⟨ds', _, h2⟩ := writeFile_written hw hc (writeFile_name hc)
    have hne : h5dopen f name' ≠ some x := fun h3 => ht (Or.inr ⟨ifile, name', a, h, f, x, rfl, hh, hfile, hf, h3, hx⟩)
    obtain ⟨h3, h4⟩ := h2.others _ _ hx hne
    exact ⟨writeFile_wf hw hc, h3, h4.trans hds⟩
  · have hg := createGroup_grows hc
    refine ⟨hg.wf hw, ?_, by rw [hg.heap]; exact hds⟩
    rw [h5dopen_some] at hx ⊢
    exact hg.find hx
  · obtain ⟨k, _, rfl⟩ := writeAttrFile_ok hc
    exact ⟨wf_links (f := f) rfl rfl hw, by rw [← hx]; exact h5dopen_find (find_attrs f _ name), hds⟩

theorem calls_keep {w w' : World} {ops : List Op} {file name : Name} {f : H5File} {x : Nat} {ds : Dset} (hw : f.WF) (hf : w.disk file = some f) (hx : h5dopen f name = some x) (hds : f.heap[x]? = some ds)
    (hk : Keeps file name w ops) (h : Calls w ops w') : ∃ f', w'.disk file = some f' ∧ f'.WF ∧ h5dopen f' name = some x ∧ f'.heap[x]? = some ds := by
  induction h generalizing f with
  | nil => exact ⟨f, hf, hw, hx, hds⟩
  | cons h _ ih =>
    obtain ⟨f', h1, h2, h3, h4⟩ := step_keeps hw hf hx hds hk.1 h
    exact ih h2 h1 h3 h4 (hk.2 _ h)

theorem step_keeps_attr {w w' : World} {op : Op} {file name : Name} {f : H5File} {k : Owner × Name} {v : Attr} (hw : f.WF) (hf : w.disk file = some f) (hx : attrKey f name = .ok k) (hv : assoc k f.attrs = some v)
    (ht : ¬ TouchesAttr w op file name) (e : step w op = .ok w') : ∃ f', w'.disk file = some f' ∧ f'.WF ∧ attrKey f' name = .ok k ∧ assoc k f'.attrs = some v := by
  rcases step_disk e file hf with h | h | ⟨ifile, h, f', hh, hfile, hf', hc⟩
  · exact ⟨f, h, hw, hx, hv⟩
  · exact absurd (Or.inl h) ht
  refine ⟨f', hf', ?_⟩
  rcases hc with ⟨name', a, rfl, hc⟩ | ⟨name', rfl, hc⟩ | ⟨name', o, t, arr, rfl, hc⟩
  · obtain ⟨ds', _, h2⟩ := writeFile_written hw hc (writeFile_name hc)
    refine ⟨writeFile_wf hw hc, attrKey_find (f := f) (fun l hl => ?_) hx, by rw [h2.attrs]; exact hv⟩
    cases l with
    | group => exact h5gopen_iff.1 (h2.groups _ (h5gopen_iff.2 hl))
    | dset y =>
      have hy := h5dopen_some.2 hl
      by_cases ho : h5dopen f name' = some y
      · rcases writeFile_cases hc with ⟨b, ds', _, _, _, rfl⟩ | ⟨ds', h3, _, _⟩
        · rw [setHeap_find]; exact hl
        · exfalso
          rcases h3 with h3 | h3
          · have hkey : ∃ attr, k = (.dset y, attr) := by
              unfold attrKey at hx
              simp only at hx
              split at hx
              · simp at hx
              · rw [hl] at hx
                simp only [Except.ok.injEq] at hx
                exact ⟨_, hx.symm⟩
            obtain ⟨attr, rfl⟩ := hkey
            exact ht (Or.inr (Or.inr ⟨ifile, name', a, h, f, y, attr, rfl, h3, hh, hfile, hf, ho, hx⟩))
          · rw [ho] at h3; simp at h3
      · exact h5dopen_some.1 (h2.others _ _ hy ho).1
  · have hg := createGroup_grows hc
    exact ⟨hg.wf hw, attrKey_find (f := f) (fun l hl => hg.find hl) hx, by rw [hg.attrs]; exact hv⟩
  · obtain ⟨k', hk', rfl⟩ := writeAttrFile_ok hc
    have hne : k ≠ k' := by
      rintro rfl
      exact ht (Or.inr (Or.inl ⟨ifile, name', o, t, arr, h, f, k, rfl, hh, hfile, hf, hk', hx⟩))
    refine ⟨wf_links (f := f) rfl rfl hw, attrKey_find (f := f) (fun l hl => by rw [find_attrs]; exact hl) hx, ?_⟩
    show assoc k ((k', _) :: _) = some v
    rw [assoc, if_neg (fun hx => hne hx.symm)]
    split
    · rw [assoc_filter_ne hne]; exact hv
    · exact hv

theorem calls_keep_attr {w w' : World} {ops : List Op} {file name : Name} {f : H5File} {k : Owner × Name} {v : Attr} (hw : f.WF) (hf : w.disk file = some f) (hx : attrKey f name = .ok k) (hv : assoc k f.attrs = some v)
    (hk : KeepsAttr file name w ops) (h : Calls w ops w') : ∃ f', w'.disk file = some f' ∧ f'.WF ∧ attrKey f' name = .ok k ∧ assoc k f'.attrs = some v := by
  induction h generalizing f with
  | nil => exact ⟨f, hf, hw, hx, hv⟩
  | cons h _ ih =>
    obtain ⟨f', h1, h2, h3, h4⟩ := step_keeps_attr hw hf hx hv hk.1 h
    exact ih h2 h1 h3 h4 (hk.2 _ h)

theorem Runs.calls {w w' : World} {ops : List Op} (h : Runs w ops w') : Calls w ops w' := by
  induction h with
  | nil => exact Calls.nil _
  | cons h _ _ _ ih => exact Calls.cons h ih

theorem Runs.append {w w1 w2 : World} {a b : List Op} (h : Runs w a w1) (h' : Runs w1 b w2) : Runs w (a ++ b) w2 := by
  induction h with
  | nil => exact h'
  | cons h hp hr _ ih => exact Runs.cons h hp hr (ih h')

end Verif.Hdf5
