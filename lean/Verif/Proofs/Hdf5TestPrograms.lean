import Verif.Spec.Hdf5TestPrograms
import Verif.Proofs.Hdf5Persist
import Verif.Props.Hdf5Write
import Verif.Props.Hdf5Instances

/-!
Lemmas for C134
-/

namespace Verif.Hdf5

open FortranReaders

/-! ### Datasets as they are kept -/

/-- A dataset with the elements of an array -/
def kept (t : DType) (a : FArray) : Dset := ⟨t, a.dims, a.dims.map some, a.elems⟩

theorem converted_self {t : DType} {x y : List Byte} (ht : 0 < t.size) (hx : x.length = t.size) (h : Converted t t x y) : y = x := by
  have hc : Compatible t t := by
    obtain ⟨cl, n⟩ := t
    cases cl <;> simp [Compatible]
  have := convert_converted hc hx ht
  rw [convert_self t x hx] at this
  exact converted_unique h this

theorem holds_self (dims : List Nat) : Holds dims dims := by
  unfold Holds
  induction squeezed dims dims with
  | nil => exact List.Forall₂.nil
  | cons x l ih => exact List.Forall₂.cons (le_refl _) ih

theorem ext_at {dims : List Nat} {xs ys : List (List Byte)} (h1 : xs.length = dims.prod) (h2 : ys.length = dims.prod) (h : ∀ j, InShape dims j → xs[offset dims j]? = ys[offset dims j]?) : xs = ys := by
  apply List.ext_getElem?
  intro k
  by_cases hk : k < dims.prod
  · obtain ⟨j, hj, rfl⟩ := exists_colIndex hk
    rw [colIndex_offset _ _ (inShape_length hj)]
    exact h j hj
  · rw [List.getElem?_eq_none (by omega), List.getElem?_eq_none (by omega)]

theorem zipWith_zero {j : List Nat} : List.zipWith (· + ·) (List.replicate j.length 0) j = j := by
  induction j with
  | nil => rfl
  | cons x l ih => simp [List.replicate_succ, ih]

theorem writeNew_kept {t : DType} {a : FArray} (hr : a.dims.length ≤ 7) (hwa : a.WF) (hta : a.HasType t) (hz : 0 ∉ a.dims) : writeNew {} t none a = .ok (kept t a) := by
  obtain ⟨ds, h1, h2, h3⟩ := (C95_write_new (o := {}) hr (by simp) hwa hta NewSize.whole (Or.inl ⟨by unfold Compressed; decide, rfl, rfl⟩) IsRegion.whole hz hz).1 ⟨inside_whole _, holds_self _⟩
  rw [h1]
  obtain ⟨dt, dm, mx, da⟩ := ds
  have e1 : dt = t := h3.dtype
  have e2 : dm = a.dims := h2
  have e3 : mx = a.dims.map some := h3.maxdims
  subst e1 e2 e3
  have e4 : da = a.elems := by
    refine ext_at (dims := a.dims) h3.wf.data hwa (fun j hj => ?_)
    obtain ⟨v, w, g1, g2, g3⟩ := h3.values j j hj hj rfl
    rw [← inShape_length hj, zipWith_zero] at g2
    have g3 : w = v := converted_self hta.size (hta.elems v (List.mem_iff_getElem?.2 ⟨_, g1⟩)) g3
    rw [g3] at g2
    exact g2.trans g1.symm
  subst e4
  rfl

theorem kept_wf {t : DType} {a : FArray} (hwa : a.WF) (hta : a.HasType t) : (kept t a).WF := by
  refine ⟨hwa, by simp [kept], fun i hi m hm => ?_, hta.size, hta.elems⟩
  simp only [kept] at hi hm ⊢
  rw [List.getElem?_map, List.getElem?_eq_getElem hi] at hm
  simp only [Option.map_some, Option.some.injEq] at hm
  rw [List.getD_eq_getElem?_getD, List.getElem?_eq_getElem hi, ← hm]
  simp

/-- Reading of a part into an array -/
theorem read_kept {t : DType} {a b : FArray} {region : Option (List Int × List Int)} {start count : List Nat} (hr : a.dims.length ≤ 7) (hwa : a.WF) (hta : a.HasType t) (hwb : b.WF)
    (hreg : IsRegion a.dims region start count) (hsc : a.dims = [] → region = none) (hpos : 0 ∉ count) (hz : 0 ∉ b.dims) (hin : Inside a.dims start count) (hh : Holds b.dims count) :
    ∃ b', readData (kept t a) t region b = .ok b' ∧ b'.dims = b.dims ∧ b'.WF ∧
      (∀ idx j : List Nat, InShape count idx → InShape b.dims j → SamePlace count idx b.dims j → b'.at j = a.at (List.zipWith (· + ·) start idx)) ∧
      ∀ j : List Nat, InShape b.dims j → (∀ idx, InShape count idx → ¬ SamePlace count idx b.dims j) → b'.at j = b.at j := by
  have hc : Compatible (kept t a).dtype t := by
    obtain ⟨cl, n⟩ := t
    cases cl <;> simp [Compatible, kept]
  obtain ⟨b', h1, h2⟩ := (C94_read_iff (ds := kept t a) (memtype := t) hr (kept_wf hwa hta) hwb hreg hsc hpos hz).1 ⟨hc, hin, hh⟩
  refine ⟨b', h1, h2.dims, h2.wf, fun idx j hi hj hs => ?_, h2.others⟩
  obtain ⟨v, w, g1, g2, g3⟩ := h2.values idx j hi hj hs
  have : (kept t a).at (List.zipWith (· + ·) start idx) = a.at (List.zipWith (· + ·) start idx) := rfl
  rw [this] at g1
  have g3 : w = v := converted_self hta.size (hta.elems v (List.mem_iff_getElem?.2 ⟨_, g1⟩)) g3
  rw [g2, g3, g1]

/-! ### Names in files depend on the links only -/

/-- A file with the same links -/
abbrev lk (links : List (List Name × Link)) : H5File := { links := links }

theorem link_lk (f : H5File) (p : List Name) : f.link p = (lk f.links).link p := rfl

theorem reach_lk (f : H5File) (q p : List Name) : f.reach q p = (lk f.links).reach q p := reach_links (f := lk f.links) (f' := f) rfl q p

theorem find_lk (f : H5File) (name : Name) : f.find name = (lk f.links).find name := find_links (f := lk f.links) (f' := f) rfl name

theorem h5dopen_lk (f : H5File) (name : Name) : h5dopen f name = h5dopen (lk f.links) name := by
  unfold h5dopen
  rw [find_lk]

theorem h5gopen_lk (f : H5File) (name : Name) : h5gopen f name = h5gopen (lk f.links) name := by
  unfold h5gopen
  rw [find_lk]

theorem attrKey_lk (f : H5File) (name : Name) : attrKey f name = attrKey (lk f.links) name := by
  unfold attrKey
  simp only
  rw [find_lk]

theorem add_lk (f : H5File) (cs : List Name) (l : Link) : f.add cs l = ((lk f.links).add cs l).map (fun g => { f with links := g.links }) := by
  unfold H5File.add
  rw [reach_lk, link_lk]
  split
  · rfl
  · split <;> rfl

theorem groupLoop_lk (fuel : Nat) (f : H5File) (path : List Name) (n : Nat) (s : Name) :
    groupLoop fuel f path n s = (groupLoop fuel (lk f.links) path n s).map (fun g => { f with links := g.links }) := by
  induction fuel generalizing f path n s with
  | zero => rfl
  | succ fuel ih =>
    rw [groupLoop, groupLoop]
    cases hc : cutSlash s with
    | none => rfl
    | some p =>
      obtain ⟨c, rest⟩ := p
      simp only
      by_cases hg : trimBlanks c = []
      · rw [if_pos hg, if_pos hg]; rfl
      · rw [if_neg hg, if_neg hg]
        by_cases hd : trimBlanks c = ['.']
        · simp only [if_pos hd, Option.getD_none]
          rw [link_lk f, ih]
          split
          · split <;> rfl
          · rfl
        · simp only [if_neg hd]
          rw [add_lk f]
          cases (lk f.links).add (path ++ [trimBlanks c]) .group with
          | none =>
            simp only [Option.map_none, Option.getD_none]
            rw [link_lk f, ih]
            split
            · split <;> rfl
            · rfl
          | some g =>
            simp only [Option.map_some, Option.getD_some]
            rw [ih { f with links := g.links }, ih g, show ({ f with links := g.links } : H5File).link (path ++ [trimBlanks c]) = g.link (path ++ [trimBlanks c]) from rfl]
            split
            · split
              · rfl
              · show Except.map _ (groupLoop fuel (lk g.links) _ _ _) = Except.map _ (Except.map _ (groupLoop fuel (lk g.links) _ _ _))
                cases groupLoop fuel (lk g.links) (path ++ [trimBlanks c]) (n + 1) rest <;> rfl
            · rfl

theorem createGroup_lk (f : H5File) (name : Name) : createGroup f name = (createGroup (lk f.links) name).map (fun g => { f with links := g.links }) := by
  unfold createGroup
  cases groupString name with
  | error e => rfl
  | ok s => exact groupLoop_lk _ _ _ _ _

theorem createGroup_links {f : H5File} {name : Name} {L : List (List Name × Link)} (h : (createGroup (lk f.links) name).map (·.links) = .ok L) : createGroup f name = .ok { f with links := L } := by
  rw [createGroup_lk]
  obtain ⟨g, h1, rfl⟩ := except_map_ok h
  rw [h1]
  rfl

/-- The links after a new dataset with the address `n` was added -/
def newLinks (L : List (List Name × Link)) (name : Name) (n : Nat) : Except Err (List (List Name × Link)) := do
  let f ← parentGroups (lk L) name
  match f.add (h5Components (trimBlanks name)) (.dset n) with
  | none => .error .abort
  | some g => .ok g.links

theorem parentGroups_lk (f : H5File) (name : Name) : parentGroups f name = (parentGroups (lk f.links) name).map (fun g => { f with links := g.links }) := by
  unfold parentGroups
  simp only
  rw [h5gopen_lk]
  split
  · exact createGroup_lk _ _
  · rfl

theorem newDset_links {f : H5File} {name : Name} {t : DType} {a : FArray} {o : Bool} {L : List (List Name × Link)} (hr : a.dims.length ≤ 7) (hwa : a.WF) (hta : a.HasType t) (hz : 0 ∉ a.dims)
    (h : newLinks f.links name f.heap.length = .ok L) : newDset f name { overwrite := o, memtype := t, arr := a } = .ok { f with links := L, heap := f.heap ++ [kept t a] } := by
  unfold newLinks at h
  obtain ⟨g, h1, h⟩ := except_bind_ok h
  unfold newDset
  rw [parentGroups_lk, h1]
  simp only [Except.map, bind, Except.bind]
  have hw := writeNew_kept hr hwa hta hz
  unfold writeNew at hw
  obtain ⟨ds, h2, h3⟩ := except_bind_ok hw
  rw [h2]
  simp only
  have hadd : ({ f with links := g.links } : H5File).add (h5Components (trimBlanks name)) (.dset f.heap.length) = (g.add (h5Components (trimBlanks name)) (.dset f.heap.length)).map (fun x => { f with links := x.links }) := by
    unfold H5File.add
    rw [reach_links (f := g) (f' := { f with links := g.links }) rfl, show ({ f with links := g.links } : H5File).link (h5Components (trimBlanks name)) = g.link (h5Components (trimBlanks name)) from rfl]
    split
    · rfl
    · split <;> rfl
  rw [hadd]
  cases hc : g.add (h5Components (trimBlanks name)) (.dset f.heap.length) with
  | none => rw [hc] at h; cases h
  | some x =>
    rw [hc] at h
    simp only [Option.map_some]
    rw [h3]
    simp only [Except.ok.injEq] at h ⊢
    rw [← h]

theorem writeFile_new {f : H5File} {name : Name} {t : DType} {a : FArray} {o : Bool} {L : List (List Name × Link)} (hr : a.dims.length ≤ 7) (hwa : a.WF) (hta : a.HasType t) (hz : 0 ∉ a.dims)
    (hd : h5dopen (lk f.links) name = none) (h : newLinks f.links name f.heap.length = .ok L) :
    writeFile f name { overwrite := o, memtype := t, arr := a } = .ok { f with links := L, heap := f.heap ++ [kept t a] } := by
  unfold writeFile
  rw [if_neg (fun h => absurd h.1 (by show ¬ ((0 : Int) < 0); decide)), h5dopen_lk, hd]
  exact newDset_links hr hwa hta hz h

theorem writeFile_over {f : H5File} {name : Name} {t : DType} {a : FArray} {x : Nat} {L : List (List Name × Link)} (hr : a.dims.length ≤ 7) (hwa : a.WF) (hta : a.HasType t) (hz : 0 ∉ a.dims)
    (hd : h5dopen (lk f.links) name = some x) (h : newLinks (h5gunlink (lk f.links) name).links name f.heap.length = .ok L) :
    writeFile f name { overwrite := true, memtype := t, arr := a } = .ok { f with links := L, heap := f.heap ++ [kept t a] } := by
  unfold writeFile
  rw [if_neg (fun h => absurd h.1 (by show ¬ ((0 : Int) < 0); decide)), h5dopen_lk, hd]
  exact newDset_links (f := h5gunlink f name) hr hwa hta hz h

theorem assoc_none {α β : Type} [DecidableEq α] {k : α} {l : List (α × β)} (h : k ∉ l.map Prod.fst) : assoc k l = none := by
  induction l with
  | nil => rfl
  | cons x l ih =>
    simp only [List.map_cons, List.mem_cons, not_or] at h
    rw [assoc, if_neg (fun e => h.1 e.symm), ih h.2]

theorem writeAttrFile_new {f : H5File} {name : Name} {t : DType} {a : FArray} {o : Bool} {k : Owner × Name} (hk : attrKey (lk f.links) name = .ok k) (hn : k.2 ≠ [])
    (h : k ∉ f.attrs.map Prod.fst) : writeAttrFile f name o t a = .ok { f with attrs := (k, ⟨t, a.dims, a.elems⟩) :: f.attrs } := by
  unfold writeAttrFile
  rw [attrKey_lk, hk]
  simp only [bind, Except.bind]
  have hf : (if o then f.attrs.filter (fun x => decide (x.1 ≠ k)) else f.attrs) = f.attrs := by
    split
    · rw [List.filter_eq_self]
      intro x hx
      simp only [decide_eq_true_eq]
      rintro rfl
      exact h (List.mem_map.2 ⟨x, hx, rfl⟩)
    · rfl
  rw [hf, if_neg]
  rintro (h1 | h1)
  · exact hn h1
  · rw [assoc_none h] at h1; cases h1

theorem writeAttrFile_over {f : H5File} {name : Name} {t : DType} {a : FArray} {k : Owner × Name} {v : Attr} {rest : List ((Owner × Name) × Attr)} (hk : attrKey (lk f.links) name = .ok k) (hn : k.2 ≠ [])
    (hr : f.attrs = (k, v) :: rest) (h : k ∉ rest.map Prod.fst) : writeAttrFile f name true t a = .ok { f with attrs := (k, ⟨t, a.dims, a.elems⟩) :: rest } := by
  unfold writeAttrFile
  rw [attrKey_lk, hk]
  simp only [bind, Except.bind]
  have hf : f.attrs.filter (fun x => decide (x.1 ≠ k)) = rest := by
    rw [hr, List.filter_cons_of_neg (by simp), List.filter_eq_self]
    intro x hx
    simp only [decide_eq_true_eq]
    rintro rfl
    exact h (List.mem_map.2 ⟨x, hx, rfl⟩)
  rw [if_pos trivial, hf, if_neg]
  rintro (h1 | h1)
  · exact hn h1
  · rw [assoc_none h] at h1; cases h1

/-! ### One file which is open -/

/-- The file `n` is open as the first one. -/
def opened (w : World) (n fn : Name) (ro : Bool) (f : H5File) : World :=
  { w with disk := setKey w.disk n (some f), shared := setKey (fun _ => none) n (some (!ro)), table := some (some ⟨n, ro, fn⟩ :: List.replicate 999 none) }

/-- No file is open. -/
structure Idle (w : World) : Prop where
  entries : w.entries = List.replicate 1000 none
  shared : w.shared = fun _ => none
  dset : w.dset = none

theorem setKey_setKey {β : Type} (m : Name → β) (k : Name) (b c : β) : setKey (setKey m k b) k c = setKey m k c := by
  funext x
  unfold setKey
  split <;> rfl

theorem setKey_self {β : Type} (m : Name → β) (k : Name) (b : β) : setKey m k b k = b := by unfold setKey; rw [if_pos rfl]

theorem setKey_same {β : Type} (m : Name → β) (k : Name) : setKey m k (m k) = m := by
  funext x
  unfold setKey
  split
  · next h => rw [h]
  · rfl

theorem create_opened {w : World} (h : Idle w) {fname : Name} (hw : (w.disk (trimBlanks fname)).map (·.writable) ≠ some false) :
    createFile w fname = .ok (1, opened w (trimBlanks fname) (trimBlanks (fname.take 1000)) false {}) := by
  unfold createFile
  simp only
  rw [if_neg (by rw [h.shared]; rintro (h1 | h1); cases h1; exact hw h1), h.entries, List.replicate_succ, newHandle]
  simp only [bind, Except.bind, h.shared]
  rfl

theorem open_opened {w : World} (h : Idle w) {fname : Name} {f : H5File} (hf : w.disk (trimBlanks fname) = some f) (hw : f.writable = true) (ro : Bool) :
    openFile w fname ro = .ok (1, opened w (trimBlanks fname) (trimBlanks (fname.take 1000)) ro f) := by
  unfold openFile
  simp only [bind, Except.bind]
  rw [hf]
  simp only
  rw [if_neg (by rw [h.shared, hw]; simp), h.entries, List.replicate_succ, newHandle]
  simp only [h.shared, Option.getD_none]
  unfold opened
  rw [← hf, setKey_same]

theorem handle_opened (w : World) (n fn : Name) (ro : Bool) (f : H5File) : (opened w n fn ro f).handle ((1 : Nat) : Int) = .ok ⟨n, ro, fn⟩ := by
  unfold World.handle opened
  rw [if_neg (by unfold nfilemax; decide)]
  rfl

theorem on_opened {w : World} {n fn : Name} {f f' : H5File} {g : H5File → Except Err H5File} (h : g f = .ok f') : onFile (opened w n fn false f) ((1 : Nat) : Int) g = .ok (opened w n fn false f') := by
  unfold onFile
  rw [handle_opened]
  simp only [bind, Except.bind]
  rw [if_neg (by decide), show (opened w n fn false f).disk n = some f from setKey_self _ _ _]
  simp only
  rw [h]
  simp only
  unfold opened
  simp only
  rw [setKey_setKey]

theorem close_table {w : World} {h : Handle} (ht : w.table = some (some h :: List.replicate 999 none)) (hs : ∀ x, x ≠ h.file → w.shared x = none) :
    ∃ w', closeFile w ((1 : Nat) : Int) = .ok w' ∧ w'.disk = w.disk ∧ w'.entries = List.replicate 1000 none ∧ (w'.shared = fun _ => none) ∧ (w.dset = none → w'.dset = none) := by
  have hh : w.handle ((1 : Nat) : Int) = .ok h := by
    unfold World.handle
    rw [if_neg (by unfold nfilemax; decide), ht]
    rfl
  unfold closeFile
  rw [hh]
  have he : w.entries.set (((1 : Nat) : Int) - 1).toNat none = List.replicate 1000 none := by
    unfold World.entries
    rw [ht, List.replicate_succ]
    rfl
  refine ⟨_, rfl, rfl, ?_, ?_, fun hd => ?_⟩
  · unfold World.entries
    simp only [Option.getD_some]
    exact he
  · simp only
    rw [he, if_neg]
    · funext x
      unfold setKey
      split
      · rfl
      · next hx => exact hs x hx
    · rw [List.any_replicate]
      simp
  · simp only [hd]
    split <;> rfl

theorem close_opened {w : World} {n fn : Name} {ro : Bool} {f : H5File} (hd : w.dset = none) :
    ∃ w', closeFile (opened w n fn ro f) ((1 : Nat) : Int) = .ok w' ∧ w'.disk = setKey w.disk n (some f) ∧ Idle w' := by
  obtain ⟨w', h1, h2, h3, h4, h5⟩ := close_table (w := opened w n fn ro f) (h := ⟨n, ro, fn⟩) rfl (fun x hx => by show setKey (fun _ => none) n (some (!ro)) x = none; unfold setKey; rw [if_neg hx])
  exact ⟨w', h1, h2, ⟨h3, h4, h5 hd⟩⟩

/-! ### The file of the test -/

theorem Shaped.hasType {a : FArray} {dims : List Nat} {size : Nat} (h : Shaped a dims size) {t : DType} (hs : t.size = size) (h0 : 0 < size) : a.HasType t := ⟨by omega, fun v hv => by rw [h.size v hv, hs]⟩

theorem put_new {w : World} {n fn : Name} {L L' : List (List Name × Link)} {hp : List Dset} {ats : List ((Owner × Name) × Attr)} {name : String} {ty : ElemType} {len : Nat} {a : FArray} {o : Bool} {dims : List Nat} {k : Nat}
    (hs : Shaped a dims (ty.memtype len).size) (h0 : 0 < (ty.memtype len).size) (hz : 0 ∉ dims) (hr : dims.length < 7) (hk : hp.length = k) (hd : h5dopen (lk L) name.toList = none) (h : newLinks L name.toList k = .ok L') :
    putArray (opened w n fn false ⟨L, hp, ats, true⟩) ((1 : Nat) : Int) name ty len a o = .ok (opened w n fn false ⟨L', hp ++ [kept (ty.memtype len) a], ats, true⟩) := by
  subst hk
  unfold putArray
  have h1 := hs.dims
  rw [C124_write _ _ _ _ (by show a.dims.length ≤ 7; rw [h1]; omega) (by rintro ⟨_, h⟩; have h : a.dims.length = 7 := h; rw [h1] at h; omega)]
  exact on_opened (writeFile_new (f := ⟨L, hp, ats, true⟩) (by rw [h1]; omega) hs.wf (hs.hasType rfl h0) (by rw [h1]; exact hz) hd h)

theorem put_over {w : World} {n fn : Name} {L L' : List (List Name × Link)} {hp : List Dset} {ats : List ((Owner × Name) × Attr)} {name : String} {ty : ElemType} {len : Nat} {a : FArray} {dims : List Nat} {k x : Nat}
    (hs : Shaped a dims (ty.memtype len).size) (h0 : 0 < (ty.memtype len).size) (hz : 0 ∉ dims) (hr : dims.length < 7) (hk : hp.length = k) (hd : h5dopen (lk L) name.toList = some x)
    (h : newLinks (h5gunlink (lk L) name.toList).links name.toList k = .ok L') :
    putArray (opened w n fn false ⟨L, hp, ats, true⟩) ((1 : Nat) : Int) name ty len a true = .ok (opened w n fn false ⟨L', hp ++ [kept (ty.memtype len) a], ats, true⟩) := by
  subst hk
  unfold putArray
  have h1 := hs.dims
  rw [C124_write _ _ _ _ (by show a.dims.length ≤ 7; rw [h1]; omega) (by rintro ⟨_, h⟩; have h : a.dims.length = 7 := h; rw [h1] at h; omega)]
  exact on_opened (writeFile_over (f := ⟨L, hp, ats, true⟩) (by rw [h1]; omega) hs.wf (hs.hasType rfl h0) (by rw [h1]; exact hz) hd h)

theorem attr_new {w : World} {n fn : Name} {L : List (List Name × Link)} {hp : List Dset} {ats : List ((Owner × Name) × Attr)} {name : Name} {ty : ElemType} {a : FArray} {o : Bool} {dims : List Nat} {K : List (Owner × Name)} {k : Owner × Name}
    {size : Nat} (hs : Shaped a dims size) (hr : dims.length < 7) (hk : attrKey (lk L) name = .ok k) (hn : k.2 ≠ []) (hK : ats.map Prod.fst = K) (h : k ∉ K) :
    hdf5WriteAttribute (opened w n fn false ⟨L, hp, ats, true⟩) ((1 : Nat) : Int) name o ty 0 a = .ok (opened w n fn false ⟨L, hp, (k, ⟨ty.memtype 0, a.dims, a.elems⟩) :: ats, true⟩) := by
  rw [(C124_attributes _ _ _ _ _ _ (by rw [hs.dims]; omega)).1]
  exact on_opened (writeAttrFile_new (f := ⟨L, hp, ats, true⟩) hk hn (by rw [hK]; exact h))

theorem attr_over {w : World} {n fn : Name} {L : List (List Name × Link)} {hp : List Dset} {ats : List ((Owner × Name) × Attr)} {name : Name} {ty : ElemType} {a : FArray} {dims : List Nat} {K : List (Owner × Name)} {k : Owner × Name}
    {size : Nat} {v : Attr} (hs : Shaped a dims size) (hr : dims.length < 7) (hk : attrKey (lk L) name = .ok k) (hn : k.2 ≠ []) (hK : ats.map Prod.fst = K) (h : k ∉ K) :
    hdf5WriteAttribute (opened w n fn false ⟨L, hp, (k, v) :: ats, true⟩) ((1 : Nat) : Int) name true ty 0 a = .ok (opened w n fn false ⟨L, hp, (k, ⟨ty.memtype 0, a.dims, a.elems⟩) :: ats, true⟩) := by
  rw [(C124_attributes _ _ _ _ _ _ (by rw [hs.dims]; omega)).1]
  exact on_opened (writeAttrFile_over (f := ⟨L, hp, (k, v) :: ats, true⟩) hk hn rfl (by rw [hK]; exact h))

theorem group_new {w : World} {n fn : Name} {L L' : List (List Name × Link)} {hp : List Dset} {ats : List ((Owner × Name) × Attr)} {name : Name} (h : (createGroup (lk L) name).map (·.links) = .ok L') :
    makeGroup (opened w n fn false ⟨L, hp, ats, true⟩) ((1 : Nat) : Int) name = .ok (opened w n fn false ⟨L', hp, ats, true⟩) :=
  on_opened (createGroup_links (f := ⟨L, hp, ats, true⟩) h)

/-- Objects in the file after each call -/
def afterNew (L : List (List Name × Link)) (name : String) (n : Nat) : List (List Name × Link) := ((newLinks L name.toList n).toOption).getD []
def afterGroup (L : List (List Name × Link)) (name : String) : List (List Name × Link) := (((createGroup (lk L) name.toList).map (·.links)).toOption).getD []
def tl1 := afterNew [] "Pi" 0
def tl2 := afterNew tl1 "Dozen" 1
def tl3 := afterNew tl2 "/Arrays/I4_Array" 2
def tl4 := afterNew tl3 "/Arrays/I8_Array" 3
def tl5 := afterNew tl4 "/Arrays/Real/R8_Array" 4
def tl6 := afterNew tl5 "/Arrays/Real/R4_Array" 5
def tl7 := afterNew tl6 "/Arrays/Test-String" 6
def tl8 := afterGroup tl7 "Group1/Group2"
def tl9 := afterGroup tl8 "Group1/Group2/GroupA"
def tl10 := afterGroup tl9 "Group1/Group2/GroupB"
def tl11 := afterNew (h5gunlink (lk tl10) "/Arrays/Real/R4_Array".toList).links "/Arrays/Real/R4_Array" 7

def arrKey (name : String) : Owner × Name := (.group ["Arrays".toList], name.toList)

/-- The file at the end -/
def testFile (d : TestData) : H5File :=
  ⟨tl11, [kept ⟨.float, 4⟩ d.rscalar, kept ⟨.integer true, 4⟩ d.dozen, kept ⟨.integer true, 4⟩ d.iarr, kept ⟨.integer true, 8⟩ d.i8arr, kept ⟨.float, 8⟩ d.r8arr, kept ⟨.float, 4⟩ d.r4arr, kept ⟨.string, 20⟩ d.str,
      kept ⟨.float, 4⟩ d.sixteen],
    [(arrKey "I4_Scalar", ⟨⟨.integer true, 4⟩, d.twenty.dims, d.twenty.elems⟩), (arrKey "R8_Attribute", ⟨⟨.float, 8⟩, d.r8attr.dims, d.r8attr.elems⟩), (arrKey "R4_Attribute", ⟨⟨.float, 4⟩, d.r4attr.dims, d.r4attr.elems⟩),
      (arrKey "I8_Attribute", ⟨⟨.integer true, 8⟩, d.i8attr.dims, d.i8attr.elems⟩), (arrKey "I4_Attribute", ⟨⟨.integer true, 4⟩, d.i4attr.dims, d.i4attr.elems⟩)], true⟩

theorem testWrite_file {w : World} {fname : Name} {d : TestData} {n : Nat} (hi : Idle w) (hw : (w.disk (trimBlanks fname)).map (·.writable) ≠ some false) (hs : d.Shapes n) (hn : 0 < n) :
    ∃ w', testWrite fname d w = .ok w' ∧ Idle w' ∧ w'.disk = setKey w.disk (trimBlanks fname) (some (testFile d)) := by
  unfold testWrite
  rw [create_opened hi hw]
  simp only [bind, Except.bind]
  rw [put_new (L' := tl1) (k := 0) hs.rscalar (by decide) (by decide) (by decide) rfl (by decide +kernel) (by decide +kernel)]
  simp only
  rw [put_new (L' := tl2) (k := 1) hs.dozen (by decide) (by decide) (by decide) rfl (by decide +kernel) (by decide +kernel)]
  simp only
  rw [put_new (L' := tl3) (k := 2) hs.iarr (by decide) (by decide) (by decide) rfl (by decide +kernel) (by decide +kernel)]
  simp only
  rw [put_new (L' := tl4) (k := 3) hs.i8arr (by decide) (by decide) (by decide) rfl (by decide +kernel) (by decide +kernel)]
  simp only
  rw [put_new (L' := tl5) (k := 4) hs.r8arr (by decide) (by simp; omega) (by simp) rfl (by decide +kernel) (by decide +kernel)]
  simp only
  rw [put_new (L' := tl6) (k := 5) hs.r4arr (by decide) (by decide) (by decide) rfl (by decide +kernel) (by decide +kernel)]
  simp only
  rw [put_new (L' := tl7) (k := 6) hs.str (by decide) (by decide) (by decide) rfl (by decide +kernel) (by decide +kernel)]
  simp only
  rw [attr_new (k := arrKey "I4_Attribute") (K := []) hs.i4attr (by decide) (by decide +kernel) (by decide) rfl (by decide)]
  simp only
  rw [attr_new (k := arrKey "I8_Attribute") (K := [arrKey "I4_Attribute"]) hs.i8attr (by decide) (by decide +kernel) (by decide) rfl (by decide +kernel)]
  simp only
  rw [attr_new (k := arrKey "R4_Attribute") (K := [arrKey "I8_Attribute", arrKey "I4_Attribute"]) hs.r4attr (by decide) (by decide +kernel) (by decide) rfl (by decide +kernel)]
  simp only
  rw [attr_new (k := arrKey "R8_Attribute") (K := [arrKey "R4_Attribute", arrKey "I8_Attribute", arrKey "I4_Attribute"]) hs.r8attr (by decide) (by decide +kernel) (by decide) rfl (by decide +kernel)]
  simp only
  rw [attr_new (k := arrKey "I4_Scalar") (K := [arrKey "R8_Attribute", arrKey "R4_Attribute", arrKey "I8_Attribute", arrKey "I4_Attribute"]) hs.i4scalarattr (by decide) (by decide +kernel) (by decide) rfl (by decide +kernel)]
  simp only
  rw [group_new (L' := tl8) (by decide +kernel)]
  simp only
  rw [group_new (L' := tl9) (by decide +kernel)]
  simp only
  rw [group_new (L' := tl10) (by decide +kernel)]
  simp only
  obtain ⟨w1, h1, h2, h3⟩ := close_opened (w := w) (n := trimBlanks fname) (fn := trimBlanks (fname.take 1000)) (ro := false) hi.dset
  rw [h1]
  simp only
  rw [open_opened h3 (by rw [h2]; exact setKey_self _ _ _) rfl]
  simp only
  rw [attr_over (k := arrKey "I4_Scalar") (K := [arrKey "R8_Attribute", arrKey "R4_Attribute", arrKey "I8_Attribute", arrKey "I4_Attribute"]) hs.twenty (by decide) (by decide +kernel) (by decide) rfl (by decide +kernel)]
  simp only
  rw [put_over (L' := tl11) (k := 7) (x := 5) hs.sixteen (by decide) (by decide) (by decide) rfl (by decide +kernel) (by decide +kernel)]
  simp only
  obtain ⟨w2, h4, h5, h6⟩ := close_opened (w := w1) (n := trimBlanks fname) (fn := trimBlanks (fname.take 1000)) (ro := false) (f := testFile d) h3.dset
  refine ⟨w2, h4, h6, ?_⟩
  rw [h5, h2, setKey_setKey]

end Verif.Hdf5
