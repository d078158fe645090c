import Verif.Proofs.Hdf5Persist
import Verif.Props.Hdf5Write

/-!
C133: what was written with the Fortran wrapper of HDF5 is read again later, whatever the program does in between, as in fortran/hdf5_wrapper/test/test_write.f90 and test_read.f90
-/

namespace Verif.Hdf5

open FortranReaders

/-- **C133**: a dataset of a file is the same after any sequence of calls which do not write to it or make the file anew: calls for other files, other datasets, groups, attributes, and closing and opening the file again. -/
theorem C133_dataset_kept {w0 w w' : World} {ops ops' : List Op} (h0 : Initial w0) (h : Runs w0 ops w) {file name : Name} {f : H5File} {ds : Dset} (hf : w.disk file = some f) (hd : f.dset name = some ds)
    (h' : Calls w ops' w') (hk : Keeps file name w ops') : ∃ f', w'.disk file = some f' ∧ f'.dset name = some ds := by
  obtain ⟨x, hx, hds⟩ := Option.bind_eq_some_iff.1 hd
  obtain ⟨f', h1, _, h3, h4⟩ := calls_keep ((runs_inv h0.inv h).files _ _ hf) hf hx hds hk h'
  exact ⟨f', h1, by unfold H5File.dset; rw [h3]; exact h4⟩

/-- **C133** (main statement): an array which was written as a new dataset, or in place of an old one, is read again after any sequence of calls which do not write to this dataset or make the file anew (and, as in C96, do not replace
the dataset which was read last). It does not matter which handle of the file is used, and what was in the array before. -/
theorem C133_round_trip {w0 w w1 w2 : World} {ops ops' : List Op} (h0 : Initial w0) (h : Runs w0 ops w) {i j : Int} {g g' : Handle} {name : Name} {a : WriteArgs} {b : FArray} (hp : Plain name)
    (hr : ∀ d, w.dset = some d → ¬ Replaces w (.write i name a) d.file d.addr) (hg : w.handle i = .ok g) (hnew : a.overwrite = true ∨ ∀ f, w.disk g.file = some f → h5dopen f name = none)
    (ho : a.options = {}) (hreg : a.region = none) (hrk : a.arr.dims.length ≤ 7) (hwa : a.arr.WF) (hta : a.arr.HasType a.memtype) (hz : 0 ∉ a.arr.dims) (hwb : b.WF) (hb : b.dims = a.arr.dims)
    (e : writeDset w i name a = .ok w1) (h2 : Runs w1 ops' w2) (hk : Keeps g.file name w1 ops') (hg' : w2.handle j = .ok g') (hfile : g'.file = g.file) :
    ∃ w3, readDset w2 j name ⟨a.memtype, none, b⟩ = .ok (a.arr, w3) := by
  have hall : Runs w0 (ops ++ .write i name a :: ops') w2 := h.append (Runs.cons e trivial hr h2)
  obtain ⟨h', f, f', hh', _, hf, hwr, hw1⟩ := onFile_ok (show onFile w i (fun f => writeFile f name a) = .ok w1 from e)
  rw [hg] at hh'
  obtain rfl := Except.ok.inj hh'
  have hwf := (runs_inv h0.inv h).files _ _ hf
  obtain ⟨ds, hds, hwt⟩ := writeFile_written hwf hwr (writeFile_name hwr)
  rw [if_pos (hnew.imp id (fun h => h f hf)), ho, hreg] at hds
  obtain ⟨ds', h3, _, _, h4⟩ := C95_round_trip (b := b) hrk hwa hta hwb hb hz
  rw [hds] at h3
  obtain rfl := Except.ok.inj h3
  have hf1 : w1.disk g.file = some f' := by
    rw [hw1]
    show setKey w.disk g.file (some f') g.file = some f'
    unfold setKey
    rw [if_pos rfl]
  obtain ⟨x, hx, hxs⟩ := Option.bind_eq_some_iff.1 hwt.written
  obtain ⟨f2, h5, _, h6, h7⟩ := calls_keep (writeFile_wf hwf hwr) hf1 hx hxs hk h2.calls
  have hfin := C96_cached_read h0 hall j name ⟨a.memtype, none, b⟩ hp
  have hd2 : f2.dset name = some ds := by unfold H5File.dset; rw [h6]; exact h7
  unfold uncachedRead at hfin
  rw [hg'] at hfin
  simp only [hfile, h5, Option.bind_some, hd2] at hfin
  rw [h4] at hfin
  obtain ⟨⟨y, w3⟩, h8, h9⟩ := except_map_ok hfin
  exact ⟨w3, by rw [h8]; exact congrArg (fun z => Except.ok (z, w3)) h9⟩

/-- **C133** (attributes): an attribute which was written is read again after any sequence of calls which do not write this attribute, replace the dataset which it belongs to, or make the file anew. Here names can have any form, and the dataset which was left open does not matter. -/
theorem C133_attribute_round_trip {w0 w w1 w2 : World} {ops ops' : List Op} (h0 : Initial w0) (h : Runs w0 ops w) {i j : Int} {g g' : Handle} {name : Name} {overwrite : Bool} {t : DType} {arr b : FArray}
    (hg : w.handle i = .ok g) (hwa : arr.WF) (hta : arr.HasType t) (hwb : b.WF) (hb : b.dims = arr.dims)
    (e : writeAttr w i name overwrite t arr = .ok w1) (h2 : Calls w1 ops' w2) (hk : KeepsAttr g.file name w1 ops') (hg' : w2.handle j = .ok g') (hfile : g'.file = g.file) :
    readAttr w2 j name t b = .ok arr := by
  obtain ⟨h', f, f', hh', _, hf, hwr, hw1⟩ := onFile_ok (show onFile w i (fun f => writeAttrFile f name overwrite t arr) = .ok w1 from e)
  rw [hg] at hh'
  obtain rfl := Except.ok.inj hh'
  have hwf := (runs_inv h0.inv h).files _ _ hf
  obtain ⟨k, hkey, hf'⟩ := writeAttrFile_ok hwr
  obtain ⟨f2, h5, _, h6, h7⟩ := calls_keep_attr (name := name) (file := g.file) (f := f') (k := k) (v := ⟨t, arr.dims, arr.elems⟩) (wf_links (f := f) (by rw [hf']) (by rw [hf']) hwf)
    (by rw [hw1]; show setKey w.disk g.file _ g.file = _; unfold setKey; rw [if_pos rfl])
    (attrKey_find (f := f) (fun l hl => by rw [hf', find_attrs]; exact hl) hkey)
    (by rw [hf']; show assoc k ((k, _) :: _) = _; rw [assoc, if_pos rfl]) hk h2
  unfold readAttr
  rw [hg']
  simp only [bind, Except.bind]
  rw [hfile, h5]
  simp only
  rw [h6]
  simp only
  rw [h7]
  simp only
  have hl : b.elems.length = arr.elems.length := by
    have h1 : b.elems.length = b.dims.prod := hwb
    have h2 : arr.elems.length = arr.dims.prod := hwa
    rw [h1, h2, hb]
  have hself : t.cls.sameClass t.cls = true := by
    cases t.cls <;> rfl
  rw [if_neg, if_neg (by omega)]
  · congr 1
    have hc : arr.elems.map (convert t t) = arr.elems := by
      conv_rhs => rw [← List.map_id arr.elems]
      exact List.map_congr_left (fun v hv => convert_self t v (hta.elems v hv))
    rw [hc, hb]
    obtain ⟨d, es⟩ := arr
    congr 1
    unfold overlay
    rw [List.take_zero, List.nil_append, Nat.zero_add, ← hl, List.drop_length, List.append_nil]
  · rintro (h1 | h1)
    · rw [hself] at h1; simp at h1
    · split at h1
      · omega
      · exact h1 rfl

namespace ExHdf5Persist

open ExHdf5Files

def b : WriteArgs := { memtype := t, arr := ⟨[], [[7]]⟩ }
def at3 : FArray := ⟨[3], [[1], [2], [3]]⟩
/-- As in the test programs: new datasets, groups and attributes, closing and opening the file again, replacing another dataset and an attribute, and reading -/
def prog : List Op := [.create "y".toList, .write 1 "/g/h/a".toList new, .write 1 "b".toList b, .attr 1 "/g/h/u".toList true t at3, .attr 1 "/g/v".toList false t b.arr, .group 1 "k/l".toList, .close 1,
  .open "y ".toList false, .attr 1 "/g/v".toList true t ⟨[], [[8]]⟩, .write 1 "b".toList { b with overwrite := true, arr := ⟨[], [[9]]⟩ }, .close 1, .open "x.hdf5".toList true, .open "y".toList true]

example : run prog 2 "/g/h/a" = .ok ⟨[2], [[5], [6]]⟩ ∧ run prog 2 "g/h/a" = .ok ⟨[2], [[5], [6]]⟩ ∧ run prog 1 "g/a" = .ok ⟨[2], [[3], [4]]⟩ := by decide +kernel
example : (do let w ← prog.foldlM step w0; readAttr w 2 "/g/h/u".toList t ⟨[3], [[0], [0], [0]]⟩) = .ok at3 ∧ (do let w ← prog.foldlM step w0; readAttr w 2 "g/v".toList t ⟨[], [[0]]⟩) = .ok ⟨[], [[8]]⟩ := by decide +kernel

/-- A write to the dataset itself, under another name, touches it, and one to another dataset does not. -/
def w1 : World := ((step w0 (.open "x.hdf5".toList false)).toOption).getD w0
example : Touches w1 (.write 1 "g//a".toList part) "x.hdf5".toList "/g/a".toList :=
  .inr ⟨1, _, part, ⟨"x.hdf5".toList, false, "x.hdf5".toList⟩, f, 0, rfl, rfl, rfl, rfl, by decide +kernel, by decide +kernel⟩
example : run [.open "x.hdf5".toList false, .write 1 "g//a".toList part] 1 "/g/a" = .ok ⟨[2], [[3], [9]]⟩ := by decide +kernel

example : Keeps "x.hdf5".toList "/g/a".toList w1 [.write 1 "g/b".toList new, .group 1 "k".toList, .close 1, .open "x.hdf5".toList true] := by
  refine ⟨?_, fun _ _ => ⟨?_, fun _ _ => ⟨?_, fun _ _ => ⟨?_, fun _ _ => trivial⟩⟩⟩⟩
  · rintro (⟨_, h, _⟩ | ⟨_, _, _, h, g, x, hop, hh, _, hf, hx, _⟩)
    · cases h
    · cases hop
      have h1 : w1.disk "x.hdf5".toList = some f := rfl
      rw [h1] at hf
      cases hf
      have h2 : h5dopen f "g/b".toList = none := by decide +kernel
      rw [h2] at hx
      cases hx
  all_goals
    rintro (⟨_, h, _⟩ | ⟨_, _, _, _, _, _, h, _⟩) <;> cases h

end ExHdf5Persist

end Verif.Hdf5
