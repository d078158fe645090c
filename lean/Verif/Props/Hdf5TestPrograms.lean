import Verif.Proofs.Hdf5TestPrograms

/-!
C134: the test programs of the Fortran wrapper of HDF5
-/

namespace Verif.Hdf5

open FortranReaders

theorem assoc_mem {α β : Type} [DecidableEq α] {k : α} {b : β} {l : List (α × β)} (h : assoc k l = some b) : (k, b) ∈ l := by
  induction l with
  | nil => cases h
  | cons x l ih =>
    obtain ⟨a, c⟩ := x
    rw [assoc] at h
    split at h
    · next e => rw [Option.some.inj h, e]; exact List.mem_cons_self
    · exact List.mem_cons_of_mem _ (ih h)

theorem tl11_ok : ∀ x ∈ tl11, (match x.2 with | .dset a => decide (a < 8) | .group => true) = true ∧ (lk tl11).reach [] x.1 = some x.2 := by decide +kernel

attribute [local irreducible] tl11

theorem tlinks (d : TestData) : (testFile d).links = tl11 := rfl

theorem testFile_wf (d : TestData) : (testFile d).WF := by
  have key : ∀ p l, (testFile d).link p = some l → (p = [] ∧ l = .group) ∨ (p, l) ∈ tl11 := by
    intro p l h
    unfold H5File.link at h
    split at h
    · next e => exact .inl ⟨e, (Option.some.inj h).symm⟩
    · exact .inr (assoc_mem h)
  refine ⟨fun p a h => ?_, fun p l h => ?_⟩
  · rcases key p _ h with ⟨_, h⟩ | h
    · cases h
    · exact of_decide_eq_true (tl11_ok _ h).1
  · rcases key p _ h with ⟨rfl, rfl⟩ | h
    · rfl
    · rw [reach_lk]
      exact (tl11_ok _ h).2

/-! ### Reading -/

/-- The program has opened the file and read datasets. -/
structure Reading (w0 w : World) (n fn : Name) (f : H5File) : Prop where
  runs : ∃ ops, Runs w0 ops w
  table : w.table = some (some ⟨n, true, fn⟩ :: List.replicate 999 none)
  shared : ∀ x, x ≠ n → w.shared x = none
  disk : w.disk n = some f
  same : w.disk = w0.disk

theorem Reading.handle {w0 w : World} {n fn : Name} {f : H5File} (h : Reading w0 w n fn f) : w.handle ((1 : Nat) : Int) = .ok ⟨n, true, fn⟩ := by
  unfold World.handle
  rw [if_neg (by unfold nfilemax; decide), h.table]
  rfl

theorem readDset_world {w w' : World} {ifile : Int} {name : Name} {r : ReadArgs} {a : FArray} (h : readDset w ifile name r = .ok (a, w')) : w'.table = w.table ∧ w'.shared = w.shared ∧ w'.disk = w.disk := by
  unfold readDset at h
  obtain ⟨g, _, h⟩ := except_bind_ok h
  obtain ⟨⟨d, w1⟩, h2, h⟩ := except_bind_ok h
  have h3 : w1.table = w.table ∧ w1.shared = w.shared ∧ w1.disk = w.disk := by
    unfold openDset at h2
    split at h2
    · cases h2; exact ⟨rfl, rfl, rfl⟩
    · split at h2
      · cases h2
      · cases h2; exact ⟨rfl, rfl, rfl⟩
  simp only at h
  split at h
  · cases h
  · obtain ⟨x, _, h⟩ := except_bind_ok h
    cases h
    exact h3

theorem read_get {w0 w : World} {n fn : Name} {f : H5File} (h0 : Initial w0) (h : Reading w0 w n fn f) {name : String} {ty : ElemType} {len : Nat} {a b : FArray} {region : Option (List Int × List Int)} {k : Nat} {ds : Dset}
    (hr : a.dims.length ≤ 7) (hp : Plain name.toList) (hk : h5dopen (lk f.links) name.toList = some k) (hd : f.heap[k]? = some ds) (e : readData ds (ty.memtype len) region a = .ok b) :
    ∃ w', hdf5ReadData w ((1 : Nat) : Int) name.toList ty len { memtype := ty.memtype len, region := region, arr := a } = .ok (b, w') ∧ Reading w0 w' n fn f := by
  obtain ⟨ops, hops⟩ := h.runs
  rw [C124_read _ _ _ _ _ (by exact hr)]
  have h1 := C96_cached_read h0 hops ((1 : Nat) : Int) name.toList ⟨ty.memtype len, region, a⟩ hp
  unfold uncachedRead at h1
  rw [h.handle] at h1
  simp only at h1
  rw [h.disk] at h1
  simp only [Option.bind_some] at h1
  unfold H5File.dset at h1
  rw [h5dopen_lk, hk] at h1
  simp only [Option.bind_some] at h1
  rw [hd] at h1
  simp only at h1
  rw [e] at h1
  obtain ⟨⟨b', w'⟩, h2, h3⟩ := except_map_ok h1
  simp only at h3
  subst h3
  obtain ⟨g1, g2, g3⟩ := readDset_world h2
  exact ⟨w', h2, ⟨_, hops.append (Runs.cons (op := .read _ _ _) (by show Except.map _ (readDset _ _ _ _) = _; rw [h2]; rfl) hp (fun d _ hrep => by obtain ⟨_, _, _, _, _, h, _⟩ := hrep; cases h) (Runs.nil _))⟩,
    g1.trans h.table, fun x hx => by rw [g2]; exact h.shared x hx, by rw [g3]; exact h.disk, g3.trans h.same⟩

theorem read_attr {w0 w : World} {n fn : Name} {f : H5File} (h : Reading w0 w n fn f) {name : Name} {ty : ElemType} {a b : FArray} {dims : List Nat} {k : Owner × Name} (ha : Shaped a dims (ty.memtype 0).size) (hb : Shaped b dims (ty.memtype 0).size)
    (hr : dims.length ≤ 7) (hs : ty ≠ .string) (hk : attrKey (lk f.links) name = .ok k) (hv : assoc k f.attrs = some ⟨ty.memtype 0, a.dims, a.elems⟩) : hdf5ReadAttribute w ((1 : Nat) : Int) name ty 0 b = .ok a := by
  rw [(C124_attributes w _ _ false _ _ (by rw [hb.dims]; exact hr)).2]
  unfold readAttr
  rw [h.handle]
  simp only [bind, Except.bind]
  rw [h.disk]
  simp only
  rw [attrKey_lk, hk]
  simp only
  rw [hv]
  simp only
  have hl : b.elems.length = a.elems.length := by
    have h1 : b.elems.length = b.dims.prod := hb.wf
    have h2 : a.elems.length = a.dims.prod := ha.wf
    rw [h1, h2, hb.dims, ha.dims]
  rw [if_neg (by cases ty <;> first | decide | exact absurd rfl hs), if_neg (by omega)]
  have hc : a.elems.map (convert (ty.memtype 0) (ty.memtype 0)) = a.elems := by
    conv_rhs => rw [← List.map_id a.elems]
    exact List.map_congr_left (fun v hv => convert_self _ v (ha.size v hv))
  rw [hc]
  show Except.ok (⟨b.dims, overlay b.elems 0 a.elems⟩ : FArray) = _
  congr 1
  obtain ⟨ad, ae⟩ := a
  have e1 : ad = dims := ha.dims
  rw [hb.dims, ← e1]
  congr 1
  simp only at hl ⊢
  unfold overlay
  rw [List.take_zero, List.nil_append, Nat.zero_add, ← hl, List.drop_length, List.append_nil]

/-- A part of the rows and columns of an array is read into the first ones of another array. -/
theorem read_part2 {t : DType} {a b : FArray} {r c p q s u m l : Nat} {region : Option (List Int × List Int)} (ht : 0 < t.size) (ha : Shaped a [r, c] t.size) (hb : Shaped b [m, l] t.size) (hreg : IsRegion [r, c] region [s, u] [p, q])
    (hp : 1 < p) (hq : 1 < q) (hsp : s + p ≤ r) (huq : u + q ≤ c) (hm : p ≤ m) (hl : q ≤ l) : ∃ b', readData (kept t a) t region b = .ok b' ∧ Part2 a s u p q b b' := by
  obtain ⟨b', h1, h2, _, h3, h4⟩ := read_kept (t := t) (a := a) (b := b) (region := region) (start := [s, u]) (count := [p, q]) (by rw [ha.dims]; simp) ha.wf (ha.hasType rfl ht) hb.wf (by rw [ha.dims]; exact hreg)
    (by rw [ha.dims]; intro h; cases h) (by simp; omega) (by rw [hb.dims]; simp; omega) (by
      rw [ha.dims]
      intro i hi
      match i with
      | 0 => exact hsp
      | 1 => exact huq
      | i + 2 => simp at hi) (by
      rw [hb.dims]
      unfold Holds squeezed
      simp [hp, hq, show 1 < m by omega, show 1 < l by omega, hm, hl])
  have hsq : ∀ i j, squeezed [p, q] [i, j] = [i, j] := by intro i j; unfold squeezed; simp [hp, hq]
  have hsq' : ∀ i j, squeezed [m, l] [i, j] = [i, j] := by intro i j; unfold squeezed; simp [show 1 < m by omega, show 1 < l by omega]
  refine ⟨b', h1, h2, fun i hi j hj => ?_, fun i j hi hj hn => ?_⟩
  · exact h3 [i, j] [i, j] ⟨hi, hj, trivial⟩ (by rw [hb.dims]; exact ⟨by omega, by omega, trivial⟩) (by unfold SamePlace; rw [hb.dims, hsq, hsq'])
  · rw [hb.dims] at hi hj
    refine h4 [i, j] (by rw [hb.dims]; exact ⟨hi, hj, trivial⟩) ?_
    intro idx hidx hsame
    match idx, hidx with
    | [x, y], ⟨hx, hy, _⟩ =>
      unfold SamePlace at hsame
      rw [hb.dims, hsq, hsq'] at hsame
      simp only [List.cons.injEq, and_true] at hsame
      exact hn ⟨by omega, by omega⟩

/-! ### Lists of names -/

theorem list_objects {w0 w : World} {n fn : Name} {f : H5File} (h : Reading w0 w n fn f) {order : List Name → List Name} (ho : ∀ l, (order l).Perm l) {wanted : Option Link → Bool} {name : Name} {M P : List Name}
    (hg : h5gopen (lk f.links) name = true)
    (hM : ((lk f.links).members (h5Components (trimBlanks name))).filter (fun c => wanted ((lk f.links).link (h5Components (trimBlanks name) ++ [c]))) = M) (hl : M.length ≤ 100)
    (hP : M.map (fun c => trimBlanks (assignChar 200 (trimBlanks (assignChar 500 c)))) = P) :
    ∃ r, listObjects order wanted w ((1 : Nat) : Int) name (some setName) = .ok r ∧ (printNames r).Perm P := by
  unfold listObjects
  rw [h.handle]
  simp only [bind, Except.bind]
  rw [h.disk]
  simp only
  rw [if_neg (by rw [h5gopen_lk, hg]; simp)]
  have hperm : ((order (f.members (h5Components (trimBlanks name)))).filter (fun c => wanted (f.link (h5Components (trimBlanks name) ++ [c])))).Perm M := by
    rw [← hM]
    exact (ho _).filter _
  have hlen : ((order (f.members (h5Components (trimBlanks name)))).filter (fun c => wanted (f.link (h5Components (trimBlanks name) ++ [c])))).length ≤ 100 := by rw [hperm.length_eq]; exact hl
  generalize (order (f.members (h5Components (trimBlanks name)))).filter (fun c => wanted (f.link (h5Components (trimBlanks name) ++ [c]))) = found at hperm hlen
  have hst : storeAll (some setName) (found.map (fun c => trimBlanks (assignChar 500 c))) = .ok ((found.map (fun c => trimBlanks (assignChar 500 c))).map (assignChar 200)) := by
    unfold storeAll
    simp only
    rw [if_neg (by rw [List.length_map]; show ¬ 100 < found.length; omega)]
    rfl
  rw [hst]
  refine ⟨_, rfl, ?_⟩
  unfold printNames
  simp only
  rw [List.take_of_length_le (by simp), List.map_map, List.map_map, ← hP]
  exact hperm.map _

theorem attrNames_keys (f : H5File) (o : Owner) : f.attrNames o = (((f.attrs.map Prod.fst).filter (fun k => decide (k.1 = o))).map Prod.snd).dedup := by
  unfold H5File.attrNames
  congr 1
  induction f.attrs with
  | nil => rfl
  | cons x l ih =>
    rw [List.map_cons, List.filter_cons, List.filter_cons]
    split
    · rw [List.map_cons, List.map_cons, ih]
    · exact ih

theorem list_attributes {w0 w : World} {n fn : Name} {f : H5File} (h : Reading w0 w n fn f) {order : List Name → List Name} (ho : ∀ l, (order l).Perm l) {name : Name} {K : List (Owner × Name)} {M P : List Name}
    (hg : (lk f.links).find name = some .group) (hK : f.attrs.map Prod.fst = K)
    (hM : ((K.filter (fun k => decide (k.1 = Owner.group (h5Components (trimBlanks name))))).map Prod.snd).dedup = M) (hl : M.length ≤ 100) (hP : M.map (fun c => trimBlanks (assignChar 200 c)) = P) :
    ∃ r, listAttributes order w ((1 : Nat) : Int) name (some setName) = .ok r ∧ (printNames r).Perm P := by
  unfold listAttributes
  rw [h.handle]
  simp only [bind, Except.bind]
  rw [h.disk]
  simp only
  rw [find_lk, hg]
  simp only
  rw [attrNames_keys, hK, hM]
  have hperm := ho M
  have hst : storeAll (some setName) (order M) = .ok ((order M).map (assignChar 200)) := by
    unfold storeAll
    simp only
    rw [if_neg (by rw [hperm.length_eq]; show ¬ 100 < M.length; omega)]
    rfl
  rw [hst]
  refine ⟨_, rfl, ?_⟩
  unfold printNames
  simp only
  rw [List.take_of_length_le (by simp), List.map_map, ← hP]
  exact hperm.map _

theorem read_whole {t : DType} {a b : FArray} {dims : List Nat} (ht : 0 < t.size) (ha : Shaped a dims t.size) (hb : Shaped b dims t.size) (hr : dims.length ≤ 7) (hz : 0 ∉ dims) : readData (kept t a) t none b = .ok a := by
  obtain ⟨ds, h1, _, _, h2⟩ := C95_round_trip (t := t) (a := a) (b := b) (by rw [ha.dims]; exact hr) ha.wf (ha.hasType rfl ht) hb.wf (by rw [ha.dims, hb.dims]) (by rw [ha.dims]; exact hz)
  rw [writeNew_kept (by rw [ha.dims]; exact hr) ha.wf (ha.hasType rfl ht) (by rw [ha.dims]; exact hz)] at h1
  rw [Except.ok.inj h1]
  exact h2

/-- One dimension is read into an array with another one of size one. -/
theorem read_column {t : DType} {a b : FArray} {n : Nat} (ht : 0 < t.size) (ha : Shaped a [n] t.size) (hb : Shaped b [1, n] t.size) (hn : 0 < n) : readData (kept t a) t none b = .ok ⟨b.dims, a.elems⟩ := by
  obtain ⟨b', h1, h2, h3, h4, _⟩ := read_kept (t := t) (a := a) (b := b) (region := none) (start := [0]) (count := [n]) (by rw [ha.dims]; simp) ha.wf (ha.hasType rfl ht) hb.wf (by rw [ha.dims]; exact IsRegion.whole)
    (fun _ => rfl) (by simp; omega) (by rw [hb.dims]; simp; omega) (by rw [ha.dims]; intro i hi; match i with | 0 => simp | i + 1 => simp at hi) (by
      rw [hb.dims]
      unfold Holds squeezed
      by_cases h : 1 < n <;> simp [h])
  rw [h1]
  obtain ⟨bd, be⟩ := b'
  have e1 : bd = b.dims := h2
  subst e1
  congr 2
  have hl1 : be.length = n := by have : be.length = b.dims.prod := h3; rw [this, hb.dims]; simp
  have hl2 : a.elems.length = n := by have : a.elems.length = a.dims.prod := ha.wf; rw [this, ha.dims]; simp
  apply List.ext_getElem?
  intro k
  by_cases hk : k < n
  · have := h4 [k] [0, k] ⟨hk, trivial⟩ (by rw [hb.dims]; exact ⟨by omega, hk, trivial⟩) (by
      unfold SamePlace squeezed
      rw [hb.dims]
      by_cases h : 1 < n <;> simp [h])
    unfold FArray.at at this
    rw [ha.dims, hb.dims] at this
    simpa [offset, List.range_succ] using this
  · rw [List.getElem?_eq_none (by omega), List.getElem?_eq_none (by omega)]

/-- One element is read into a scalar. -/
theorem read_one {t : DType} {a b : FArray} {r c s u : Nat} {region : Option (List Int × List Int)} (ht : 0 < t.size) (ha : Shaped a [r, c] t.size) (hb : Shaped b [] t.size) (hreg : IsRegion [r, c] region [s, u] [1, 1]) (hs : s < r) (hu : u < c) :
    ∃ b', readData (kept t a) t region b = .ok b' ∧ b'.at [] = a.at [s, u] := by
  obtain ⟨b', h1, h2, _, h4, _⟩ := read_kept (t := t) (a := a) (b := b) (region := region) (start := [s, u]) (count := [1, 1]) (by rw [ha.dims]; simp) ha.wf (ha.hasType rfl ht) hb.wf (by rw [ha.dims]; exact hreg)
    (by rw [ha.dims]; intro h; cases h) (by simp) (by rw [hb.dims]; simp) (by rw [ha.dims]; intro i hi; match i with | 0 => exact hs | 1 => exact hu | i + 2 => simp at hi) (by rw [hb.dims]; exact List.Forall₂.nil)
  exact ⟨b', h1, h4 [0, 0] [] ⟨by omega, by omega, trivial⟩ (by rw [hb.dims]; trivial) (by rw [hb.dims]; rfl)⟩

/-- Elements with the same second index are read into an array with one dimension. -/
theorem read_row {t : DType} {a b : FArray} {r c s u p : Nat} {region : Option (List Int × List Int)} (ht : 0 < t.size) (ha : Shaped a [r, c] t.size) (hb : Shaped b [p] t.size) (hreg : IsRegion [r, c] region [s, u] [p, 1]) (hp : 1 < p) (hs : s + p ≤ r)
    (hu : u < c) : ∃ b', readData (kept t a) t region b = .ok b' ∧ b'.dims = [p] ∧ ∀ i < p, b'.at [i] = a.at [s + i, u] := by
  obtain ⟨b', h1, h2, _, h4, _⟩ := read_kept (t := t) (a := a) (b := b) (region := region) (start := [s, u]) (count := [p, 1]) (by rw [ha.dims]; simp) ha.wf (ha.hasType rfl ht) hb.wf (by rw [ha.dims]; exact hreg)
    (by rw [ha.dims]; intro h; cases h) (by simp; omega) (by rw [hb.dims]; simp; omega) (by rw [ha.dims]; intro i hi; match i with | 0 => exact hs | 1 => exact hu | i + 2 => simp at hi) (by
      rw [hb.dims]
      unfold Holds squeezed
      simp [hp])
  exact ⟨b', h1, h2.trans hb.dims, fun i hi => h4 [i, 0] [i] ⟨hi, by omega, trivial⟩ (by rw [hb.dims]; exact ⟨hi, trivial⟩) (by rw [hb.dims]; unfold SamePlace squeezed; simp [hp])⟩

/-- Elements with the same first index are read into an array with one dimension. -/
theorem read_col {t : DType} {a b : FArray} {r c s u q : Nat} {region : Option (List Int × List Int)} (ht : 0 < t.size) (ha : Shaped a [r, c] t.size) (hb : Shaped b [q] t.size) (hreg : IsRegion [r, c] region [s, u] [1, q]) (hq : 1 < q) (hs : s < r)
    (hu : u + q ≤ c) : ∃ b', readData (kept t a) t region b = .ok b' ∧ b'.dims = [q] ∧ ∀ i < q, b'.at [i] = a.at [s, u + i] := by
  obtain ⟨b', h1, h2, _, h4, _⟩ := read_kept (t := t) (a := a) (b := b) (region := region) (start := [s, u]) (count := [1, q]) (by rw [ha.dims]; simp) ha.wf (ha.hasType rfl ht) hb.wf (by rw [ha.dims]; exact hreg)
    (by rw [ha.dims]; intro h; cases h) (by simp; omega) (by rw [hb.dims]; simp; omega) (by rw [ha.dims]; intro i hi; match i with | 0 => exact hs | 1 => exact hu | i + 2 => simp at hi) (by
      rw [hb.dims]
      unfold Holds squeezed
      simp [hq])
  exact ⟨b', h1, h2.trans hb.dims, fun i hi => h4 [0, i] [i] ⟨by omega, hi, trivial⟩ (by rw [hb.dims]; exact ⟨hi, trivial⟩) (by rw [hb.dims]; unfold SamePlace squeezed; simp [hq])⟩

theorem isRegion2 {r c s u p q : Nat} {s1 s2 c1 c2 : Int} {sr cr : List Int} (h1 : s1 = s + 1) (h2 : s2 = u + 1) (h3 : c1 = p) (h4 : c2 = q) : IsRegion [r, c] (some (s1 :: s2 :: sr, c1 :: c2 :: cr)) [s, u] [p, q] := by
  refine IsRegion.part _ _ _ _ rfl rfl (fun i hi => ?_)
  match i with
  | 0 => exact ⟨by simp [h1], by simp [h3]⟩
  | 1 => exact ⟨by simp [h2], by simp [h4]⟩
  | i + 2 => simp at hi

theorem initial_idle {w : World} (h : Initial w) : Idle w := by
  refine ⟨?_, h.shared, h.dset⟩
  unfold World.entries
  rw [h.table]
  rfl

theorem info_of {w0 w : World} {n fn : Name} {f : H5File} (h : Reading w0 w n fn f) {name : Name} {k : Nat} {ds : Dset} (hk : h5dopen (lk f.links) name = some k) (hd : f.heap[k]? = some ds) :
    getInfo w ((1 : Nat) : Int) name = .ok (ds.dtype, ds.dims) := by
  unfold getInfo
  rw [h.handle]
  simp only [bind, Except.bind]
  rw [h.disk]
  simp only
  rw [h5dopen_lk, hk]
  simp only
  rw [hd]

theorem plain_of {name : String} (h : (decide (name.toList.head? ≠ some ' ') && decide (name.toList.length ≤ 1000)) = true) : Plain name.toList := by
  simp only [Bool.and_eq_true, decide_eq_true_eq] at h
  exact h

theorem testRead_right {w0 : World} {fname : Name} {d : TestData} {m : TestMemory} {n : Nat} {order : List Name → List Name} {srest crest : List Int} (h0 : Initial w0) (hp : Plain fname) (hf : w0.disk (trimBlanks fname) = some (testFile d))
    (hs : d.Shapes n) (hm : m.Shapes n) (hn : 0 < n) (ho : ∀ l, (order l).Perm l) : ∃ o w', testRead order srest crest fname m w0 = .ok (o, w') ∧ o.Right d m ∧ w'.disk = w0.disk := by
  have hidle := initial_idle h0
  have hopen := open_opened hidle hf rfl true
  unfold testRead
  rw [hopen]
  simp only [bind, Except.bind]
  have hdisk : setKey w0.disk (trimBlanks fname) (some (testFile d)) = w0.disk := by rw [← hf, setKey_same]
  have R0 : Reading w0 (opened w0 (trimBlanks fname) (trimBlanks (fname.take 1000)) true (testFile d)) (trimBlanks fname) (trimBlanks (fname.take 1000)) (testFile d) :=
    ⟨⟨_, Runs.cons (op := .open fname true) (by show Except.map _ (openFile _ _ _) = _; rw [hopen]; rfl) hp (fun d _ hrep => by obtain ⟨_, _, _, _, _, h, _⟩ := hrep; cases h) (Runs.nil _)⟩, rfl,
      fun x hx => by show setKey (fun _ => none) _ (some (!true)) x = none; unfold setKey; rw [if_neg hx], setKey_self _ _ _, hdisk⟩
  obtain ⟨w1, e1, R1⟩ := read_get h0 R0 (name := "Dozen") (ty := .integer4) (len := 0) (k := 1) (by rw [hm.dozen.dims]; simp) (plain_of (by decide)) (by rw [tlinks]; decide +kernel) rfl
    (read_whole (t := ⟨.integer true, 4⟩) (by decide) hs.dozen hm.dozen (by decide) (by decide))
  rw [e1]
  simp only
  obtain ⟨w2, e2, R2⟩ := read_get h0 R1 (name := "/Arrays/Real/R8_Array") (ty := .double) (len := 0) (k := 4) (by rw [hm.r8arr.dims]; simp) (plain_of (by decide)) (by rw [tlinks]; decide +kernel) rfl
    (read_column (t := ⟨.float, 8⟩) (by decide) hs.r8arr hm.r8arr hn)
  rw [e2]
  simp only
  rw [read_attr R2 (ty := .integer4) (k := arrKey "I4_Attribute") (a := d.i4attr) hs.i4attr hm.i4attr (by decide) (by decide) (by rw [tlinks]; decide +kernel) (by
    show assoc _ [_, _, _, _, _] = _
    rw [assoc, if_neg (by decide +kernel), assoc, if_neg (by decide +kernel), assoc, if_neg (by decide +kernel), assoc, if_neg (by decide +kernel), assoc, if_pos rfl]
    rfl)]
  simp only
  rw [read_attr R2 (ty := .integer4) (k := arrKey "I4_Scalar") (a := d.twenty) hs.twenty hm.intattr (by decide) (by decide) (by rw [tlinks]; decide +kernel) (by
    show assoc _ [_, _, _, _, _] = _
    rw [assoc, if_pos rfl]
    rfl)]
  simp only
  rw [read_attr R2 (ty := .real) (k := arrKey "R4_Attribute") (a := d.r4attr) hs.r4attr hm.r4attr (by decide) (by decide) (by rw [tlinks]; decide +kernel) (by
    show assoc _ [_, _, _, _, _] = _
    rw [assoc, if_neg (by decide +kernel), assoc, if_neg (by decide +kernel), assoc, if_pos rfl]
    rfl)]
  simp only
  obtain ⟨str, s1, s2⟩ := read_part2 (t := ⟨.string, 20⟩) (region := none) (s := 0) (u := 0) (by decide) hs.str hm.str IsRegion.whole (by decide) (by decide) (by decide) (by decide) (by decide) (by decide)
  obtain ⟨w3, e3, R3⟩ := read_get h0 R2 (name := "Arrays/Test-String") (ty := .string) (len := 20) (k := 6) (by rw [hm.str.dims]; simp) (plain_of (by decide)) (by rw [tlinks]; decide +kernel) rfl s1
  rw [e3]
  simp only
  have hI : h5dopen (lk (testFile d).links) "/Arrays/I4_Array".toList = some 2 := by
    show h5dopen (lk tl11) "/Arrays/I4_Array".toList = some 2
    decide +kernel
  obtain ⟨i4arr, a1, a2⟩ := read_part2 (t := ⟨.integer true, 4⟩) (region := none) (s := 0) (u := 0) (by decide) hs.iarr hm.i4arr IsRegion.whole (by decide) (by decide) (by decide) (by decide) (by decide) (by decide)
  obtain ⟨w4, e4, R4⟩ := read_get h0 R3 (name := "/Arrays/I4_Array") (ty := .integer4) (len := 0) (k := 2) (by rw [hm.i4arr.dims]; simp) (plain_of (by decide)) hI rfl a1
  rw [e4]
  simp only
  obtain ⟨part, b1, b2⟩ := read_part2 (t := ⟨.integer true, 4⟩) (region := some (3 :: 2 :: srest, 3 :: 2 :: crest)) (s := 2) (u := 1) (p := 3) (q := 2) (by decide) hs.iarr hm.zero (isRegion2 (by rfl) (by rfl) (by rfl) (by rfl))
    (by decide) (by decide) (by decide) (by decide) (by decide) (by decide)
  obtain ⟨w5, e5, R5⟩ := read_get h0 R4 (name := "/Arrays/I4_Array") (ty := .integer4) (len := 0) (k := 2) (by rw [hm.zero.dims]; simp) (plain_of (by decide)) hI rfl b1
  rw [e5]
  simp only
  obtain ⟨one, c1, c2⟩ := read_one (t := ⟨.integer true, 4⟩) (region := some (4 :: 2 :: srest, 1 :: 1 :: crest)) (s := 3) (u := 1) (by decide) hs.iarr hm.i (isRegion2 (by rfl) (by rfl) (by rfl) (by rfl)) (by decide) (by decide)
  obtain ⟨w6, e6, R6⟩ := read_get h0 R5 (name := "/Arrays/I4_Array") (ty := .integer4) (len := 0) (k := 2) (by rw [hm.i.dims]; simp) (plain_of (by decide)) hI rfl c1
  rw [e6]
  simp only
  obtain ⟨row, d1, d2⟩ := read_row (t := ⟨.integer true, 4⟩) (region := some (2 :: 2 :: srest, 3 :: 1 :: crest)) (s := 1) (u := 1) (by decide) hs.iarr hm.row (isRegion2 (by rfl) (by rfl) (by rfl) (by rfl)) (by decide) (by decide) (by decide)
  obtain ⟨w7, e7, R7⟩ := read_get h0 R6 (name := "/Arrays/I4_Array") (ty := .integer4) (len := 0) (k := 2) (by rw [hm.row.dims]; simp) (plain_of (by decide)) hI rfl d1
  rw [e7]
  simp only
  obtain ⟨col, f1, f2⟩ := read_col (t := ⟨.integer true, 4⟩) (region := some (2 :: 1 :: srest, 1 :: 3 :: crest)) (s := 1) (u := 0) (by decide) hs.iarr hm.column (isRegion2 (by rfl) (by rfl) (by rfl) (by rfl)) (by decide) (by decide) (by decide)
  obtain ⟨w8, e8, R8⟩ := read_get h0 R7 (name := "/Arrays/I4_Array") (ty := .integer4) (len := 0) (k := 2) (by rw [hm.column.dims]; simp) (plain_of (by decide)) hI rfl f1
  rw [e8]
  simp only
  rw [info_of R8 (name := "Dozen".toList) (k := 1) (by rw [tlinks]; decide +kernel) rfl]
  simp only
  rw [info_of R8 (name := "/Arrays/Real/R8_Array".toList) (k := 4) (by rw [tlinks]; decide +kernel) rfl]
  simp only
  obtain ⟨n1, g1, p1⟩ := list_objects R8 ho (wanted := isDset) (name := "/".toList) (M := ["Dozen".toList, "Pi".toList]) (P := ["Dozen".toList, "Pi".toList]) (by rw [tlinks]; decide +kernel) (by rw [tlinks]; decide +kernel) (by decide) (by decide +kernel)
  obtain ⟨n2, g2, p2⟩ := list_objects R8 ho (wanted := isDset) (name := "/Arrays".toList) (M := ["Test-String".toList, "I8_Array".toList, "I4_Array".toList]) (P := ["Test-String".toList, "I8_Array".toList, "I4_Array".toList])
    (by rw [tlinks]; decide +kernel) (by rw [tlinks]; decide +kernel) (by decide) (by decide +kernel)
  obtain ⟨n3, g3, p3⟩ := list_objects R8 ho (wanted := fun l => decide (l = some .group)) (name := "/".toList) (M := ["Group1".toList, "Arrays".toList]) (P := ["Group1".toList, "Arrays".toList])
    (by rw [tlinks]; decide +kernel) (by rw [tlinks]; decide +kernel) (by decide) (by decide +kernel)
  obtain ⟨n4, g4, p4⟩ := list_attributes R8 ho (name := "/Arrays".toList) (K := [arrKey "I4_Scalar", arrKey "R8_Attribute", arrKey "R4_Attribute", arrKey "I8_Attribute", arrKey "I4_Attribute"])
    (M := ["I4_Scalar".toList, "R8_Attribute".toList, "R4_Attribute".toList, "I8_Attribute".toList, "I4_Attribute".toList]) (P := ["I4_Scalar".toList, "R8_Attribute".toList, "R4_Attribute".toList, "I8_Attribute".toList, "I4_Attribute".toList])
    (by rw [tlinks]; decide +kernel) rfl (by decide +kernel) (by decide) (by decide +kernel)
  rw [show listDatasets order w8 ((1 : Nat) : Int) "/".toList (some setName) = .ok n1 from g1]
  simp only
  rw [show listDatasets order w8 ((1 : Nat) : Int) "/Arrays".toList (some setName) = .ok n2 from g2]
  simp only
  rw [show listGroups order w8 ((1 : Nat) : Int) "/".toList (some setName) = .ok n3 from g3]
  simp only
  rw [g4]
  simp only
  obtain ⟨w9, e9, k1, _⟩ := close_table R8.table R8.shared
  rw [e9]
  refine ⟨_, _, rfl, ⟨rfl, rfl, rfl, rfl, rfl, s2, a2, b2, c2, ⟨d2.1, d2.2⟩, ⟨f2.1, fun i hi => by rw [f2.2 i hi, Nat.zero_add]⟩, rfl, rfl, ?_, ?_, ?_, ?_⟩, k1.trans R8.same⟩
  · exact p1.trans (by decide +kernel)
  · exact p2.trans (by decide +kernel)
  · exact p3.trans (by decide +kernel)
  · exact p4.trans (by decide +kernel)

/-- **C134**: whatever numbers and strings test_write.f90 writes, and whatever is in the memory and in the file before, test_read.f90 finds them in the file: scalars, the array with 100000 elements (here `n`), parts of an array, attributes
(with the new value of the one which was overwritten), types, and the lists of datasets, groups and attributes. Neither of the programs fails, and reading leaves the file as it is. -/
theorem C134_tests {w : World} {fname : Name} {d : TestData} {m : TestMemory} {n : Nat} {order : List Name → List Name} {srest crest : List Int} (h0 : Initial w) (hp : Plain fname)
    (hw : (w.disk (trimBlanks fname)).map (·.writable) ≠ some false) (hs : d.Shapes n) (hm : m.Shapes n) (hn : 0 < n) (ho : ∀ l, (order l).Perm l) :
    ∃ w1, testWrite fname d w = .ok w1 ∧ (∀ file ≠ trimBlanks fname, w1.disk file = w.disk file) ∧
      ∃ o w2, testRead order srest crest fname m { disk := w1.disk } = .ok (o, w2) ∧ o.Right d m ∧ w2.disk = w1.disk := by
  obtain ⟨w1, h1, _, h2⟩ := testWrite_file (initial_idle h0) hw hs hn
  refine ⟨w1, h1, fun file hne => by rw [h2]; unfold setKey; rw [if_neg hne], ?_⟩
  refine testRead_right ⟨rfl, rfl, rfl, fun x f hx => ?_⟩ hp (by rw [h2]; exact setKey_self _ _ _) hs hm hn ho
  simp only at hx
  rw [h2] at hx
  unfold setKey at hx
  split at hx
  · rw [← Option.some.inj hx]; exact testFile_wf d
  · exact h0.files x f hx

namespace ExHdf5TestPrograms

/-- An array with the numbers from `x` on -/
def numbers (dims : List Nat) (size x : Nat) : FArray := ⟨dims, (List.range dims.prod).map (fun i => Fin.ofNat 256 (x + i) :: List.replicate (size - 1) 0)⟩

theorem numbers_shaped (dims : List Nat) {size : Nat} (h : 0 < size) (x : Nat) : Shaped (numbers dims size x) dims size := by
  refine ⟨rfl, by unfold FArray.WF numbers; simp, fun v hv => ?_⟩
  obtain ⟨i, _, rfl⟩ := List.mem_map.1 hv
  simp
  omega

def d : TestData := ⟨numbers [] 4 1, numbers [] 4 12, numbers [5, 3] 4 20, numbers [2, 6] 8 3, numbers [2] 8 4, numbers [2, 2, 2] 4 5, numbers [2, 2] 20 65, numbers [5, 3] 4 60, numbers [3, 3, 3] 8 7, numbers [5, 3] 4 80, numbers [5, 3] 8 9,
  numbers [] 4 10, numbers [] 4 20, numbers [2, 2, 2] 4 16⟩
def m : TestMemory := ⟨numbers [] 4 0, numbers [1, 2] 8 0, numbers [5, 3] 4 0, numbers [] 4 0, numbers [5, 3] 4 0, numbers [5, 5] 20 0, numbers [10, 20] 4 0, numbers [10, 20] 4 0, numbers [] 4 0, numbers [3] 4 0, numbers [3] 4 0⟩

theorem d_shapes : d.Shapes 2 := by constructor <;> exact numbers_shaped _ (by decide) _
theorem m_shapes : m.Shapes 2 := by constructor <;> exact numbers_shaped _ (by decide) _

/-- The programs with these numbers, and no file before -/
def run : Except Err (TestOutput × World) := do
  let w ← testWrite "test.hdf5".toList d { disk := fun _ => none }
  testRead List.reverse [0, 0, 0, 0, 0] [7, 7, 7, 7, 7] "test.hdf5".toList m { disk := w.disk }

example : (run.map (fun r => ((r.1.intattr, r.1.r8arr), (r.1.i, r.1.row, r.1.column), (r.1.rootDatasets, r.1.rootGroups)))) =
    .ok ((⟨[], [[20, 0, 0, 0]]⟩, ⟨[1, 2], [[4, 0, 0, 0, 0, 0, 0, 0], [5, 0, 0, 0, 0, 0, 0, 0]]⟩),
      (⟨[], [[28, 0, 0, 0]]⟩, ⟨[3], [[26, 0, 0, 0], [27, 0, 0, 0], [28, 0, 0, 0]]⟩, ⟨[3], [[21, 0, 0, 0], [26, 0, 0, 0], [31, 0, 0, 0]]⟩), (["Pi".toList, "Dozen".toList], ["Arrays".toList, "Group1".toList])) := by decide +kernel

/-- The hypotheses of C134 -/
example := C134_tests (w := { disk := fun _ => none }) (fname := "test.hdf5".toList) (order := List.reverse) (srest := [0, 0, 0, 0, 0]) (crest := [7, 7, 7, 7, 7]) ⟨rfl, rfl, rfl, fun _ _ h => by cases h⟩ ⟨by decide, by decide⟩ (by simp)
  d_shapes m_shapes (by decide) (fun l => List.reverse_perm l)

end ExHdf5TestPrograms

end Verif.Hdf5
