import Verif.Spec.SnapshotProgramsHdf5
import Verif.Proofs.SnapshotPrograms
import Verif.Props.Hdf5Read
import Verif.Props.Hdf5Files
import Verif.Props.Hdf5Groups
import Verif.Props.MakeDtreesTable

/-! Proofs for the programs which read Millennium-WMAP7 snapshots. -/

namespace Verif.SnapshotPrograms

open CPeano FortranReaders Hdf5

/-! ### Numbers -/

theorem bytes_inj {v w : List Byte} (h : v.length = w.length) (h2 : leNat v = leNat w) : v = w := by rw [← leBytes_leNat v, ← leBytes_leNat w, h, h2]

/-- An integer which is not too large for a type with a sign is the same after conversion. -/
theorem converted_small {s : Bool} {k : Nat} {v w : List Byte} (hv : v.length = k) (hlt : leNat v < 256 ^ k / 2) (hc : Converted ⟨.integer s, k⟩ ⟨.integer true, k⟩ v w) : w = v := by
  obtain ⟨h1, h2⟩ : w.length = k ∧ intOf true w = max (intMin true k) (min (intMax true k) (intOf s v)) := hc
  have hs : intOf s v = leNat v := by
    unfold intOf
    rw [if_neg (by rw [hv]; rintro ⟨_, h⟩; omega)]
  rw [hs] at h2
  have hmin : intMin true k = -((256 ^ k / 2 : Nat) : Int) := by unfold intMin; rw [if_pos rfl]; push_cast; ring
  have hmax : intMax true k = ((256 ^ k / 2 : Nat) : Int) - 1 := by unfold intMax; rw [if_pos rfl]; push_cast; ring
  have hval : intOf true w = leNat v := by rw [h2, hmin, hmax]; omega
  have hw := leNat_lt w
  unfold intOf at hval
  rw [h1] at hval
  rw [h1] at hw
  refine bytes_inj (by rw [h1, hv]) ?_
  split at hval
  · have : (leNat w : Int) < (256 : Int) ^ k := by exact_mod_cast hw
    omega
  · omega

theorem converted_large {v w : List Byte} (hv : v.length = 8) (hlt : 2 ^ 63 ≤ leNat v) (hc : Converted ⟨.integer false, 8⟩ ⟨.integer true, 8⟩ v w) : leNat w = 2 ^ 63 - 1 := by
  obtain ⟨h1, h2⟩ : w.length = 8 ∧ intOf true w = max (intMin true 8) (min (intMax true 8) (intOf false v)) := hc
  have hs : intOf false v = leNat v := by
    unfold intOf
    rw [if_neg (by simp)]
  have hmin : intMin true 8 = -2 ^ 63 := by decide
  have hmax : intMax true 8 = 2 ^ 63 - 1 := by decide
  have hw := leNat_lt w
  rw [hs, hmin, hmax] at h2
  unfold intOf at h2
  rw [h1] at h2 hw
  simp only [true_and, show (256 : Nat) ^ 8 / 2 = 2 ^ 63 by decide, show (256 : Int) ^ 8 = 2 ^ 64 by decide] at h2
  split at h2 <;> omega

/-! ### Reading of whole datasets -/

theorem holds_self (dims : List Nat) : Hdf5.Holds dims dims := by
  unfold Hdf5.Holds
  induction squeezed dims dims with
  | nil => exact List.Forall₂.nil
  | cons x l ih => exact List.Forall₂.cons (le_refl _) ih

theorem zero_add (l : List Nat) : List.zipWith (· + ·) (List.replicate l.length 0) l = l := by
  induction l with
  | nil => rfl
  | cons x l ih => simpa [List.replicate_succ] using ih

theorem read_whole {ds : Dset} {t : Hdf5.DType} {a : FArray} (hr : ds.dims.length ≤ 7) (hwd : ds.WF) (hwa : a.WF) (hc : Compatible ds.dtype t) (hd : a.dims = ds.dims) (hz : 0 ∉ ds.dims) :
    ∃ a', readData ds t none a = .ok a' ∧ a'.elems.length = ds.data.length ∧ ∀ (i : Nat) (v : List Byte), ds.data[i]? = some v → ∃ w, a'.elems[i]? = some w ∧ Converted ds.dtype t v w := by
  obtain ⟨a', h1, h2⟩ := (C94_read_iff (memtype := t) hr hwd hwa IsRegion.whole (fun _ => rfl) hz (by rw [hd]; exact hz)).1 ⟨hc, inside_whole _, by rw [hd]; exact holds_self _⟩
  have hl : a'.elems.length = ds.data.length := by rw [h2.wf, h2.dims, hd, hwd.data]
  refine ⟨a', h1, hl, ?_⟩
  intro i v hv
  have hi := (List.getElem?_eq_some_iff.1 hv).1
  rw [hwd.data] at hi
  obtain ⟨idx, hidx, rfl⟩ := exists_colIndex hi
  obtain ⟨v', w, e1, e2, e3⟩ := h2.values idx idx hidx (by rw [hd]; exact hidx) (by rw [hd]; rfl)
  have hlen := inShape_length hidx
  rw [← hlen, zero_add] at e1
  unfold Dset.at at e1
  unfold FArray.at at e2
  rw [colIndex_offset _ _ hlen] at hv ⊢
  rw [e1] at hv
  obtain rfl := Option.some.inj hv
  rw [h2.dims, hd] at e2
  exact ⟨w, e2, e3⟩

/-- Data which need not be converted -/
theorem read_same {ds : Dset} {t : Hdf5.DType} {a : FArray} (hr : ds.dims.length ≤ 7) (hwd : ds.WF) (hwa : a.WF) (hc : Compatible ds.dtype t) (hd : a.dims = ds.dims) (hz : 0 ∉ ds.dims)
    (h : ∀ v ∈ ds.data, ∀ w, Converted ds.dtype t v w → w = v) : ∃ a', readData ds t none a = .ok a' ∧ a'.elems = ds.data := by
  obtain ⟨a', h1, h2, h3⟩ := read_whole hr hwd hwa hc hd hz
  refine ⟨a', h1, List.ext_getElem? (fun i => ?_)⟩
  by_cases hi : i < ds.data.length
  · obtain ⟨w, e1, e2⟩ := h3 i _ (List.getElem?_eq_getElem hi)
    rw [e1, List.getElem?_eq_getElem hi, h _ (List.getElem_mem hi) w e2]
  · rw [List.getElem?_eq_none (by omega), List.getElem?_eq_none (by omega)]

/-! ### Sequences of calls -/

theorem runs_snoc {w0 w w' : World} {ops : List Op} {op : Op} (h : Runs w0 ops w) (hs : step w op = .ok w') (hp : op.Plain) (hr : ∀ d, w.dset = some d → ¬ Replaces w op d.file d.addr) : Runs w0 (ops ++ [op]) w' := by
  induction h with
  | nil w => exact .cons hs hp hr (.nil _)
  | cons h1 h2 h3 _ ih => exact .cons h1 h2 h3 (ih hs hr)

theorem runs_calls {w0 w : World} {ops : List Op} (h : Runs w0 ops w) : Calls w0 ops w := by
  induction h with
  | nil w => exact .nil _
  | cons h1 _ _ _ ih => exact .cons h1 ih

/-- One dataset is read. -/
theorem read_step {w0 w : World} {ops : List Op} (h0 : Initial w0) (h : Runs w0 ops w) {i : Int} {g : Handle} {f : H5File} {name : Name} {ds : Dset} {r : ReadArgs} {a : FArray}
    (hg : w.handle i = .ok g) (hd : w.disk g.file = some f) (hds : f.dset name = some ds) (hp : Hdf5.Plain name) (hread : readData ds r.memtype r.region r.arr = .ok a) :
    ∃ w', readDset w i name r = .ok (a, w') ∧ Runs w0 (ops ++ [.read i name r]) w' ∧ w'.disk = w.disk ∧ w'.handle i = .ok g := by
  have h1 := C96_cached_read h0 h i name r hp
  unfold uncachedRead at h1
  rw [hg] at h1
  simp only [hd, Option.bind_some, hds, hread] at h1
  cases e : readDset w i name r with
  | error _ => rw [e] at h1; simp [Except.map] at h1
  | ok x =>
    obtain ⟨a', w'⟩ := x
    rw [e] at h1
    simp only [Except.map, Except.ok.injEq] at h1
    subst h1
    obtain ⟨g', _, _, _, hg', _, _, _, _, hdisk, hh, _⟩ := read_again h0 h hp e
    rw [hg] at hg'
    obtain rfl := Except.ok.inj hg'
    refine ⟨w', rfl, runs_snoc h ?_ hp ?_, hdisk, hh⟩
    · show (readDset w i name r).map (·.2) = .ok w'
      rw [e]; rfl
    · rintro d _ ⟨_, _, _, _, _, hc, _⟩
      cases hc

theorem read_step_error {w0 w : World} {ops : List Op} (h0 : Initial w0) (h : Runs w0 ops w) {i : Int} {g : Handle} {f : H5File} {name : Name} {ds : Dset} {r : ReadArgs} {e : Err}
    (hg : w.handle i = .ok g) (hd : w.disk g.file = some f) (hds : f.dset name = some ds) (hp : Hdf5.Plain name) (hread : readData ds r.memtype r.region r.arr = .error e) : readDset w i name r = .error e := by
  have h1 := C96_cached_read h0 h i name r hp
  unfold uncachedRead at h1
  rw [hg] at h1
  simp only [hd, Option.bind_some, hds, hread] at h1
  cases e' : readDset w i name r with
  | error _ => rw [e'] at h1; simpa [Except.map] using h1
  | ok x => rw [e'] at h1; simp [Except.map] at h1

/-! ### The Fortran program -/

variable {f : H5File} {n : Nat} {signed : Bool} {pos vel ids : List (List Byte)}

theorem arg_trim {arg : Name} (h : FileArg arg) : trimBlanks (assignChar 500 arg) = arg := by
  unfold assignChar
  rw [List.take_of_length_le (by have := h.length; omega), trim_append h.last]

theorem arg_plain {arg : Name} (h : FileArg arg) : Hdf5.Plain (assignChar 500 arg) := by
  obtain ⟨c, l, hc⟩ := List.exists_cons_of_ne_nil h.ne
  have h1 := h.first
  have h2 := h.length
  constructor
  · unfold assignChar
    rw [hc] at h1 ⊢
    simpa using h1
  · unfold assignChar
    rw [List.length_append, List.length_take, List.length_replicate]
    omega

theorem header_part : Part "Header".toList := by constructor <;> decide

theorem attr_names : AttrName "NumPart_ThisFile".toList ∧ AttrName "BoxSize".toList := by
  constructor <;> constructor <;> decide

/-- Opening the file and reading the number of particles -/
theorem mr7_open (h : Mr7File f n signed pos vel ids) {w : World} (h0 : Initial w) {arg : Name} (ha : FileArg arg) (hd : w.disk arg = some f) (junk : List Byte) :
    ∃ k w1 g npfile ops, openFile w (assignChar 500 arg) true = .ok (k, w1) ∧ Runs w ops w1 ∧ w1.disk = w.disk ∧ w1.handle k = .ok g ∧ g.file = arg ∧
      readAttr w1 k "Header/NumPart_ThisFile".toList ⟨.integer true, 4⟩ ⟨[6], List.replicate 6 junk⟩ = .ok npfile ∧ int32Value (npfile.elems.getD 1 []) = n := by
  have hfree : w.Free 1 := by
    refine ⟨le_refl _, by decide, ?_⟩
    unfold World.entry World.entries
    rw [h0.table]
    rfl
  have hopen := C96_open h0 (.nil w) (assignChar 500 arg) true
  rw [arg_trim ha, hd, if_neg (by rintro (h1 | ⟨h1, _⟩ | h1) <;> first | exact h1 1 hfree | exact absurd h1 (by simp))] at hopen
  obtain ⟨k, w1, h1, h2, h3⟩ := hopen
  obtain ⟨fname, hh⟩ := h2.here
  obtain ⟨s, counts, ha1, ha2, ha3⟩ := h.numbers
  have hread := (C97_read_attribute (w := w1) (ifile := k) hh (by rw [h3]; exact hd) h.wf (cs := ["Header".toList]) (attr := "NumPart_ThisFile".toList) (by simp)
    (by intro c hc; rw [List.mem_singleton.1 hc]; exact header_part) attr_names.1 false (by decide) ⟨.integer true, 4⟩ ⟨[6], List.replicate 6 junk⟩).2 _ ha1 rfl ha2.2 (show 0 < 4 by decide) (by rw [ha2.1]; simp)
  obtain ⟨b', e1, e2, e3, e4, e5⟩ := hread
  have hc1 : counts[1]? = some (counts.getD 1 []) := by
    rw [List.getD_eq_getElem _ _ (by rw [ha2.1]; omega), List.getElem?_eq_getElem]
  obtain ⟨v', f1, f2⟩ := e4 1 _ hc1
  have hv : v' = counts.getD 1 [] := by
    refine converted_small (k := 4) (ha2.2 _ (List.mem_of_getElem? hc1)) ?_ f2
    rw [ha3]
    have := h.size
    have e : (256 : Nat) ^ 4 / 2 = 2 ^ 31 := by decide
    omega
  refine ⟨k, w1, _, b', _, h1, .cons (op := .open (assignChar 500 arg) true) ?_ (arg_plain ha) ?_ (.nil _), h3, hh, rfl, e1, ?_⟩
  · show (openFile w (assignChar 500 arg) true).map (·.2) = .ok w1
    rw [h1]; rfl
  · intro d hd'
    rw [h0.dset] at hd'
    cases hd'
  · have hsz := h.size
    rw [List.getD_eq_getElem?_getD, f1, Option.getD_some, hv]
    unfold int32Value
    rw [if_neg (by rw [ha3]; omega), ha3]

theorem names_plain : Hdf5.Plain "PartType1/Coordinates".toList ∧ Hdf5.Plain "PartType1/Velocities".toList ∧ Hdf5.Plain "PartType1/ParticleIDs".toList := by
  refine ⟨⟨?_, ?_⟩, ⟨?_, ?_⟩, ⟨?_, ?_⟩⟩ <;> decide

/-- Data which the Fortran program reads for the IDs -/
theorem mr7Fortran_eq (h : Mr7File f n signed pos vel ids) (hn : n ≠ 0) {w : World} (h0 : Initial w) {arg : Name} (ha : FileArg arg) (hd : w.disk arg = some f) (junk : List Byte) :
    ∃ w' idvals, mr7Fortran junk w arg = .ok (printLines fortranId n pos vel idvals, w') ∧ w'.disk = w.disk ∧ idvals.length = n ∧
      ∀ (i : Nat) (v : List Byte), ids[i]? = some v → ∃ u, idvals[i]? = some u ∧ Converted ⟨.integer signed, 8⟩ ⟨.integer true, 8⟩ v u := by
  obtain ⟨k, w1, g, npfile, ops, h1, h2, h3, h4, h5, h6, h7⟩ := mr7_open h h0 ha hd junk
  obtain ⟨m1, p1, p2⟩ := h.positions
  obtain ⟨m2, v1, v2⟩ := h.velocities
  obtain ⟨m3, i1, i2⟩ := h.ids
  have hz2 : (0 : Nat) ∉ [3, n] := by simp; omega
  have hz1 : (0 : Nat) ∉ [n] := by simp; omega
  have hfloat : ∀ v w : List Byte, Converted ⟨.float, 4⟩ ⟨.float, 4⟩ v w → w = v := fun v w h => h
  have hw2 : FArray.WF ⟨[3, n], List.replicate (3 * n) junk⟩ := by show (List.replicate (3 * n) junk).length = [3, n].prod; simp
  have hw1 : FArray.WF ⟨[n], List.replicate n junk⟩ := by show (List.replicate n junk).length = [n].prod; simp
  obtain ⟨pa, pa1, pa2⟩ := read_same (t := ⟨.float, 4⟩) (a := ⟨[3, n], List.replicate (3 * n) junk⟩) (by show 2 ≤ 7; decide) p2 hw2 rfl rfl hz2 (fun v _ w => hfloat v w)
  obtain ⟨va, va1, va2⟩ := read_same (t := ⟨.float, 4⟩) (a := ⟨[3, n], List.replicate (3 * n) junk⟩) (by show 2 ≤ 7; decide) v2 hw2 rfl rfl hz2 (fun v _ w => hfloat v w)
  obtain ⟨ia, ia1, ia2, ia3⟩ := read_whole (t := ⟨.integer true, 8⟩) (a := ⟨[n], List.replicate n junk⟩) (by show 1 ≤ 7; decide) i2 hw1 rfl rfl hz1
  have hf : w1.disk g.file = some f := by rw [h3, h5, hd]
  obtain ⟨w2, r1, r2, r3, r4⟩ := read_step (r := { memtype := ⟨.float, 4⟩, arr := ⟨[3, n], List.replicate (3 * n) junk⟩ }) h0 h2 h4 hf p1 names_plain.1 pa1
  obtain ⟨w3, s1, s2, s3, s4⟩ := read_step (r := { memtype := ⟨.float, 4⟩, arr := ⟨[3, n], List.replicate (3 * n) junk⟩ }) h0 r2 r4 (by rw [r3]; exact hf) v1 names_plain.2.1 va1
  obtain ⟨w4, t1, t2, t3, t4⟩ := read_step (r := { memtype := ⟨.integer true, 8⟩, arr := ⟨[n], List.replicate n junk⟩ }) h0 s2 s4 (by rw [s3, r3]; exact hf) i1 names_plain.2.2 ia1
  have hclose : ∃ w5, closeFile w4 k = .ok w5 := by
    unfold closeFile
    rw [t4]
    exact ⟨_, rfl⟩
  obtain ⟨w5, hc⟩ := hclose
  refine ⟨w5, ia.elems, ?_, ?_, ?_, ia3⟩
  · unfold mr7Fortran
    simp only [bind, Except.bind, h1, h6, h7, Int.toNat_natCast, r1, s1, t1, hc, pa2, va2]
  · rw [(C96_close h0 (runs_calls t2) hc).2.2.2.1, t3, s3, r3, h3]
  · rw [ia2, i2.data]; simp

/-! ### The C program -/

theorem ltAttribute_eq (hw : f.WF) {attr : Name} {t : Hdf5.DType} {a : Attr} (ha : f.attr ["Header".toList] attr = some a) :
    ltAttribute f "Header".toList attr t = if a.dtype.cls.sameClass t.cls = false ∨ a.dtype.size ≠ t.size then .error .other else .ok (a.data.map (convert a.dtype t)) := by
  have hc : h5Components "Header".toList = ["Header".toList] := by decide +kernel
  have ht : trimBlanks "Header".toList = "Header".toList := by decide +kernel
  have hfind : f.find "Header".toList = f.link ["Header".toList] := by
    rw [find_of_link hw (by rw [ht]; decide), ht, hc]
  unfold ltAttribute
  rw [hfind]
  unfold H5File.attr H5File.owner at ha
  cases hl : f.link ["Header".toList] with
  | none => rw [hl] at ha; cases ha
  | some l =>
    rw [hl] at ha
    cases l with
    | group =>
      simp only [Option.bind_some] at ha
      simp only [hc, ha]
    | dset b =>
      simp only [Option.bind_some] at ha
      simp only [ha]

theorem ltRead_eq {name : Name} {ds : Dset} (h : f.dset name = some ds) (t : Hdf5.DType) (hs : ds.dtype.cls.sameClass t.cls = true) (hz : ds.dtype.size = t.size) (room : Nat) :
    ltRead f name t room = if room < ds.data.length then .error .other else .ok (ds.data.map (convert ds.dtype t)) := by
  unfold ltRead
  unfold H5File.dset at h
  rw [h]
  simp only
  rw [if_neg (by rw [hs, hz]; simp)]

theorem convert_small {s t : Bool} {k : Nat} {v : List Byte} (h : leNat v < 256 ^ k / 2 ∨ s = t) : convert ⟨.integer s, k⟩ ⟨.integer t, k⟩ v = v := by
  unfold convert
  cases s <;> cases t <;> simp_all
  all_goals intro h1
  all_goals omega

theorem mr7C_eq (h : Mr7File f n signed pos vel ids) {disk : Name → Option H5File} {arg : Name} (hl : arg.length < 500) (hd : disk arg = some f)
    (hi : signed = true → IdsBelow (2 ^ 63) ids) : mr7C disk arg = if 3 * n ≤ 2 ^ 31 then .ok (printLines cId n pos vel ids) else .error .other := by
  obtain ⟨s, counts, a1, a2, a3⟩ := h.numbers
  obtain ⟨d, bv, b1, b2⟩ := h.box
  obtain ⟨m1, p1, p2⟩ := h.positions
  obtain ⟨m2, v1, v2⟩ := h.velocities
  obtain ⟨m3, i1, i2⟩ := h.ids
  have hsz := h.size
  have hpl : pos.length = 3 * n := by have := p2.data; simpa using this
  have hvl : vel.length = 3 * n := by have := v2.data; simpa using this
  have hil : ids.length = n := by have := i2.data; simpa using this
  have hfl : ∀ l : List (List Byte), l.map (convert ⟨.float, 4⟩ ⟨.float, 4⟩) = l := fun l => List.map_id l
  have hids : ids.map (convert ⟨.integer signed, 8⟩ ⟨.integer false, 8⟩) = ids := by
    conv_rhs => rw [← List.map_id ids]
    refine List.map_congr_left (fun v hv => ?_)
    refine convert_small ?_
    cases signed with
    | false => exact Or.inr rfl
    | true =>
      left
      have := hi rfl v hv
      have e : (256 : Nat) ^ 8 / 2 = 2 ^ 63 := by decide
      omega
  have hcount : (counts.map (convert ⟨.integer s, 4⟩ ⟨.integer false, 4⟩))[1]? = some (counts.getD 1 []) := by
    rw [List.getElem?_map, List.getD_eq_getElem _ _ (by rw [a2.1]; omega), List.getElem?_eq_getElem (by rw [a2.1]; omega), Option.map_some, convert_small]
    left
    rw [List.getD_eq_getElem _ _ (by rw [a2.1]; omega)] at a3
    rw [a3]
    have e : (256 : Nat) ^ 4 / 2 = 2 ^ 31 := by decide
    omega
  unfold mr7C
  rw [if_neg (by omega), hd]
  simp only [bind, Except.bind]
  rw [ltAttribute_eq h.wf a1, if_neg (by simp [TypeClass.sameClass])]
  simp only
  rw [if_neg (by rw [List.length_map, a2.1]; omega), hcount]
  simp only [a3]
  rw [ltAttribute_eq h.wf b1, if_neg (by simp [TypeClass.sameClass])]
  simp only
  rw [if_neg (by simp), ltRead_eq p1 ⟨.float, 4⟩ rfl rfl]
  by_cases hroom : 3 * n % 2 ^ 32 < 3 * n
  · rw [if_pos (by rw [hpl]; exact hroom), if_neg (by omega)]
  rw [if_neg (by rw [hpl]; exact hroom)]
  simp only [hfl]
  rw [ltRead_eq v1 ⟨.float, 4⟩ rfl rfl, if_neg (by rw [hvl]; exact hroom)]
  simp only [hfl]
  rw [ltRead_eq i1 ⟨.integer false, 8⟩ rfl rfl, if_neg (by rw [hil]; omega)]
  simp only [hids]
  unfold cInt
  by_cases h3 : 3 * n ≤ 2 ^ 31
  · rw [if_pos (by omega), if_pos h3]
    simp only
    rw [if_neg (by omega)]
  · rw [if_neg (by omega), if_neg h3]

end Verif.SnapshotPrograms
