import Verif.Model.FileCache
import Mathlib.Data.List.Induction
import Mathlib.Data.List.Nodup
import Mathlib.Data.List.Perm.Subperm

/-! C50: the cache of open files. -/

set_option linter.unusedSectionVars false

namespace Verif

variable {φ : Type*} [DecidableEq φ]

/-- Number of files which are open -/
def openFiles (s : CacheState φ) : Nat := s.objs.countP (fun o => !o.closed)

/-- What holds at all times -/
structure CacheInv (s : CacheState φ) : Prop where
  keys : (s.cache.map Prod.fst).Nodup
  bound : s.cache.length ≤ maxFiles
  entry : ∀ e ∈ s.cache, ∃ o : MapObj φ, s.objs[e.2]? = some o ∧ o.fname = e.1
  cached : ∀ (id : Nat) (o : MapObj φ), s.objs[id]? = some o → o.closed = false → (o.fname, id) ∈ s.cache
  dead : ∀ (id : Nat) (o : MapObj φ), s.objs[id]? = some o → o.closed = false → o.alive = true
  own : ∀ (d : Nat) (x : CacheDs φ) (id : Nat), s.datasets[d]? = some x → x.file = some id → ∃ o : MapObj φ, s.objs[id]? = some o ∧ o.fname = x.fname

/-- Objects after some were closed -/
structure ObjsLe (a b : List (MapObj φ)) : Prop where
  length : b.length = a.length
  name : ∀ (id : Nat) (o : MapObj φ), a[id]? = some o → ∃ o' : MapObj φ, b[id]? = some o' ∧ o'.fname = o.fname
  back : ∀ (id : Nat) (o : MapObj φ), b[id]? = some o → o.closed = false → a[id]? = some o

theorem ObjsLe.refl (a : List (MapObj φ)) : ObjsLe a a := ⟨rfl, fun _ o h => ⟨o, h, rfl⟩, fun _ _ h _ => h⟩

theorem ObjsLe.trans {a b c : List (MapObj φ)} (h : ObjsLe a b) (g : ObjsLe b c) : ObjsLe a c := by
  refine ⟨g.length.trans h.length, ?_, fun id o ho hc => h.back id o (g.back id o ho hc) hc⟩
  intro id o ho
  obtain ⟨o', h1, h2⟩ := h.name id o ho
  obtain ⟨o'', h3, h4⟩ := g.name id o' h1
  exact ⟨o'', h3, h4.trans h2⟩

theorem modify_objsLe (a : List (MapObj φ)) (id : Nat) (f : MapObj φ → MapObj φ) (h1 : ∀ o, (f o).fname = o.fname) (h2 : ∀ o, (f o).closed = true) : ObjsLe a (a.modify id f) := by
  refine ⟨by simp, ?_, ?_⟩
  · intro j o ho
    rw [List.getElem?_modify, ho]
    by_cases hj : id = j <;> simp [hj, h1]
  · intro j o ho hc
    rw [List.getElem?_modify] at ho
    cases hq : a[j]? with
    | none => rw [hq] at ho; simp at ho
    | some x =>
      rw [hq] at ho
      by_cases hj : id = j
      · simp [hj] at ho; rw [← ho, h2] at hc; cases hc
      · simp [hj] at ho; rw [ho]

theorem modify_objs_closed (a : List (MapObj φ)) (id : Nat) (f : MapObj φ → MapObj φ) (h2 : ∀ o, (f o).closed = true) : ∀ o : MapObj φ, (a.modify id f)[id]? = some o → o.closed = true := by
  intro o ho
  rw [List.getElem?_modify] at ho
  cases hq : a[id]? with
  | none => rw [hq] at ho; simp at ho
  | some x => rw [hq] at ho; simp at ho; rw [← ho, h2]

/-- Closing files keeps the invariant. -/
theorem CacheInv.close {s : CacheState φ} (h : CacheInv s) {objs : List (MapObj φ)} (hle : ObjsLe s.objs objs) : CacheInv { s with objs := objs } := by
  refine ⟨h.keys, h.bound, ?_, ?_, ?_, ?_⟩
  · intro e he
    obtain ⟨o, h1, h2⟩ := h.entry e he
    obtain ⟨o', h3, h4⟩ := hle.name _ o h1
    exact ⟨o', h3, h4.trans h2⟩
  · intro id o ho hc; exact h.cached id o (hle.back id o ho hc) hc
  · intro id o ho hc; exact h.dead id o (hle.back id o ho hc) hc
  · intro d x id hx hf
    obtain ⟨o, h1, h2⟩ := h.own d x id hx hf
    obtain ⟨o', h3, h4⟩ := hle.name _ o h1
    exact ⟨o', h3, h4.trans h2⟩

theorem evict_spec (objs : List (MapObj φ)) (cache : List (φ × Nat)) (hd : ∀ (id : Nat) (o : MapObj φ), objs[id]? = some o → o.closed = false → o.alive = true) :
    ∃ gone, cache = gone ++ (evict objs cache).2 ∧ (evict objs cache).2.length < maxFiles ∧ ObjsLe objs (evict objs cache).1 ∧
      ∀ e ∈ gone, ∀ o : MapObj φ, (evict objs cache).1[e.2]? = some o → o.closed = true := by
  induction cache generalizing objs with
  | nil => exact ⟨[], rfl, by simp [evict, maxFiles], ObjsLe.refl _, by simp⟩
  | cons e rest ih =>
    obtain ⟨f, id⟩ := e
    by_cases hlen : ((f, id) :: rest).length ≥ maxFiles
    · -- the objects after the oldest was closed
      obtain ⟨objs', hstep, hle, hclosed⟩ : ∃ objs', evict objs ((f, id) :: rest) = evict objs' rest ∧ ObjsLe objs objs' ∧ ∀ o : MapObj φ, objs'[id]? = some o → o.closed = true := by
        cases ho : objs[id]? with
        | none => exact ⟨objs, by rw [evict, if_pos hlen]; simp only [ho], ObjsLe.refl _, by rw [ho]; simp⟩
        | some o =>
          by_cases ha : o.alive = true
          · exact ⟨closeObj objs id, by rw [evict, if_pos hlen]; simp only [ho, ha, if_true], modify_objsLe _ _ _ (fun _ => rfl) (fun _ => rfl), modify_objs_closed _ _ _ (fun _ => rfl)⟩
          · refine ⟨objs, by rw [evict, if_pos hlen]; simp only [ho, ha]; rfl, ObjsLe.refl _, ?_⟩
            rw [ho]
            intro o' ho'
            simp only [Option.some.injEq] at ho'
            by_contra hc
            exact ha (by rw [ho']; exact hd id o' (by rw [ho, ho']) (by simpa using hc))
      rw [hstep]
      obtain ⟨gone, h1, h2, h3, h4⟩ := ih objs' (fun i o ho hc => hd i o (hle.back i o ho hc) hc)
      refine ⟨(f, id) :: gone, by rw [List.cons_append, ← h1], h2, hle.trans h3, ?_⟩
      intro e he o ho
      rcases List.mem_cons.1 he with rfl | he
      · by_contra hc
        have := hclosed o (h3.back _ _ ho (by simpa using hc))
        exact hc this
      · exact h4 e he o ho
    · rw [evict, if_neg hlen]
      exact ⟨[], rfl, Nat.lt_of_not_le hlen, ObjsLe.refl _, by simp⟩

theorem setFile_get {ds : List (CacheDs φ)} {d id j : Nat} {x : CacheDs φ} (h : (setFile ds d id)[j]? = some x) :
    ∃ y : CacheDs φ, ds[j]? = some y ∧ x.fname = y.fname ∧ (x.file = y.file ∨ (j = d ∧ x.file = some id)) := by
  rw [setFile, List.getElem?_modify] at h
  cases hq : ds[j]? with
  | none => rw [hq] at h; simp at h
  | some y =>
    rw [hq] at h
    by_cases hj : d = j
    · simp [hj] at h; exact ⟨y, rfl, by rw [← h], Or.inr ⟨hj.symm, by rw [← h]⟩⟩
    · simp [hj] at h; exact ⟨y, rfl, by rw [h], Or.inl (by rw [h])⟩

theorem setFile_self {ds : List (CacheDs φ)} {d id : Nat} {x : CacheDs φ} (h : ds[d]? = some x) : (setFile ds d id)[d]? = some { x with file := some id } := by
  rw [setFile, List.getElem?_modify, h]; simp

/-- After a successful access the dataset has an open file, its own. -/
def Ready (s : CacheState φ) (d : Nat) (fname : φ) : Prop :=
  ∃ (x : CacheDs φ) (id : Nat) (o : MapObj φ), s.datasets[d]? = some x ∧ x.file = some id ∧ s.objs[id]? = some o ∧ o.closed = false ∧ o.fname = fname

theorem openNew_inv (disk : φ → Option (List Byte)) {s : CacheState φ} (h : CacheInv s) {d : Nat} {x : CacheDs φ} (hx : s.datasets[d]? = some x) (hnew : ∀ e ∈ s.cache, e.1 ≠ x.fname) :
    CacheInv (openNew disk s d x.fname).1 ∧ ((openNew disk s d x.fname).2 = openError disk x.fname) ∧
    (openError disk x.fname = none → Ready (openNew disk s d x.fname).1 d x.fname) := by
  obtain ⟨gone, h1, h2, h3, h4⟩ := evict_spec s.objs s.cache h.dead
  rcases hev : evict s.objs s.cache with ⟨objs, cache⟩
  rw [hev] at h1 h2 h3 h4
  simp only at h1 h2 h3 h4
  have hsub : ∀ e ∈ cache, e ∈ s.cache := by intro e he; rw [h1]; simp [he]
  have hinv : CacheInv (⟨objs, s.datasets, cache⟩ : CacheState φ) := by
    have hc := h.close h3
    refine ⟨?_, by simp only; omega, fun e he => hc.entry e (hsub e he), ?_, hc.dead, hc.own⟩
    · have := h.keys
      rw [h1, List.map_append] at this
      exact (List.nodup_append.1 this).2.1
    · intro id o ho hcl
      have := hc.cached id o ho hcl
      change (o.fname, id) ∈ s.cache at this
      rw [h1] at this
      rcases List.mem_append.1 this with hg | hg
      · have := h4 _ hg o ho; rw [hcl] at this; cases this
      · exact hg
  unfold openNew
  simp only [hev]
  cases hcan : openError disk x.fname with
  | none =>
    simp only
    have hlast : ∀ (o : MapObj φ), (objs ++ [o])[objs.length]? = some o := by intro o; simp
    have hold : ∀ (id : Nat) (o o' : MapObj φ), objs[id]? = some o → (objs ++ [o'])[id]? = some o := by
      intro id o o' ho
      obtain ⟨hlt, -⟩ := List.getElem?_eq_some_iff.1 ho
      rw [List.getElem?_append_left hlt]; exact ho
    have hcases : ∀ (id : Nat) (o o' : MapObj φ), (objs ++ [o'])[id]? = some o → objs[id]? = some o ∨ (id = objs.length ∧ o = o') := by
      intro id o o' ho
      by_cases hlt : id < objs.length
      · rw [List.getElem?_append_left hlt] at ho; exact Or.inl ho
      · rw [List.getElem?_append_right (by omega)] at ho
        right
        have hz : id - objs.length = 0 := by
          by_contra hne
          rw [List.getElem?_eq_none (by simp; omega)] at ho
          cases ho
        rw [hz] at ho
        simp at ho
        exact ⟨by omega, ho.symm⟩
    refine ⟨⟨?_, ?_, ?_, ?_, ?_, ?_⟩, trivial, ?_⟩
    · simp only [List.map_append, List.map_cons, List.map_nil]
      rw [List.nodup_append]
      refine ⟨hinv.keys, by simp, ?_⟩
      intro a ha b hb hab
      obtain ⟨e, he, rfl⟩ := List.mem_map.1 ha
      simp only [List.mem_singleton] at hb
      exact hnew e (hsub e he) (hab.trans hb)
    · simp only [List.length_append, List.length_singleton]; omega
    · intro e he
      rcases List.mem_append.1 he with he | he
      · obtain ⟨o, ho, hn⟩ := hinv.entry e he
        exact ⟨o, hold _ _ _ ho, hn⟩
      · simp only [List.mem_singleton] at he
        rw [he]
        exact ⟨_, hlast _, rfl⟩
    · intro id o ho hc
      rcases hcases _ _ _ ho with ho | ⟨rfl, rfl⟩
      · exact List.mem_append_left _ (hinv.cached id o ho hc)
      · simp
    · intro id o ho hc
      rcases hcases _ _ _ ho with ho | ⟨rfl, rfl⟩
      · exact hinv.dead id o ho hc
      · rfl
    · intro j y id hy hf
      obtain ⟨z, hz, hn, hfile⟩ := setFile_get hy
      rcases hfile with hfile | ⟨rfl, hfile⟩
      · obtain ⟨o, ho, hon⟩ := hinv.own j z id hz (by rw [← hfile]; exact hf)
        exact ⟨o, hold _ _ _ ho, hon.trans hn.symm⟩
      · rw [hfile] at hf
        simp only [Option.some.injEq] at hf
        rw [hx] at hz
        simp only [Option.some.injEq] at hz
        exact ⟨_, by rw [← hf]; exact hlast _, by rw [hn, ← hz]⟩
    · intro _
      exact ⟨_, objs.length, _, setFile_self hx, rfl, hlast _, rfl, rfl⟩
  | some e => exact ⟨hinv, rfl, fun hc => by cases hc⟩

theorem mmapFile_inv (disk : φ → Option (List Byte)) {s : CacheState φ} (h : CacheInv s) {d : Nat} {x : CacheDs φ} (hx : s.datasets[d]? = some x) :
    CacheInv (mmapFile disk s d).1 ∧ ((mmapFile disk s d).2 = none → Ready (mmapFile disk s d).1 d x.fname) ∧
    (openError disk x.fname = none → (mmapFile disk s d).2 = none) := by
  unfold mmapFile
  simp only [hx]
  by_cases hopen : hasOpenFile s.objs x.file = true
  · rw [if_pos hopen]
    refine ⟨h, fun _ => ?_, fun _ => rfl⟩
    unfold hasOpenFile at hopen
    cases hf : x.file with
    | none => rw [hf] at hopen; simp at hopen
    | some id =>
      obtain ⟨o, ho, hn⟩ := h.own d x id hx hf
      rw [hf] at hopen
      simp only [ho, Bool.not_eq_true'] at hopen
      exact ⟨x, id, o, hx, hf, ho, hopen, hn⟩
  · rw [if_neg hopen]
    cases hfind : s.cache.find? (fun e => decide (e.1 = x.fname)) with
    | none =>
      have hnew : ∀ e ∈ s.cache, e.1 ≠ x.fname := by
        intro e he
        have := List.find?_eq_none.1 hfind e he
        simpa using this
      obtain ⟨h1, h2, h3⟩ := openNew_inv disk h hx hnew
      exact ⟨h1, fun hok => h3 (h2.symm.trans hok), fun hc => h2.trans hc⟩
    | some e =>
      obtain ⟨f, id⟩ := e
      have hmem := List.mem_of_find?_eq_some hfind
      have hfn : f = x.fname := by simpa using List.find?_some hfind
      obtain ⟨o, ho, hon⟩ := h.entry _ hmem
      simp only at ho hon ⊢
      simp only [ho]
      by_cases hbad : (!o.alive) = true ∨ o.closed = true
      · rw [if_pos hbad]
        -- the entry is removed first
        have hclosed : o.closed = true := by
          rcases hbad with hb | hb
          · by_contra hc
            have := h.dead id o ho (by simpa using hc)
            rw [this] at hb; cases hb
          · exact hb
        have hinv : CacheInv { s with cache := s.cache.filter (fun e => decide (e.1 ≠ x.fname)) } := by
          refine ⟨?_, ?_, ?_, ?_, h.dead, h.own⟩
          · exact h.keys.sublist ((List.filter_sublist).map _)
          · exact Nat.le_trans (List.length_filter_le _ _) h.bound
          · intro e he; exact h.entry e (List.mem_filter.1 he).1
          · intro j o' ho' hc'
            refine List.mem_filter.2 ⟨h.cached j o' ho' hc', ?_⟩
            simp only [ne_eq, decide_not, Bool.not_eq_true', decide_eq_false_iff_not]
            intro hne
            -- only one entry has this name
            have hj := h.cached j o' ho' hc'
            have : (o'.fname, j) = (f, id) := List.inj_on_of_nodup_map h.keys hj hmem (by rw [hne, hfn])
            simp only [Prod.mk.injEq] at this
            rw [this.2, ho] at ho'
            simp only [Option.some.injEq] at ho'
            rw [← ho', hclosed] at hc'; cases hc'
        have hnew : ∀ e ∈ s.cache.filter (fun e => decide (e.1 ≠ x.fname)), e.1 ≠ x.fname := by
          intro e he; simpa using (List.mem_filter.1 he).2
        obtain ⟨h1, h2, h3⟩ := openNew_inv disk hinv (d := d) hx hnew
        exact ⟨h1, fun hok => h3 (h2.symm.trans hok), fun hc => h2.trans hc⟩
      · rw [if_neg hbad]
        simp only [not_or, Bool.not_eq_true', Bool.not_eq_false, Bool.not_eq_true] at hbad
        refine ⟨⟨h.keys, h.bound, h.entry, h.cached, h.dead, ?_⟩, fun _ => ?_, fun _ => rfl⟩
        · intro j y k hy hf
          obtain ⟨z, hz, hn, hfile⟩ := setFile_get hy
          rcases hfile with hfile | ⟨rfl, hfile⟩
          · obtain ⟨o', ho', hon'⟩ := h.own j z k hz (by rw [← hfile]; exact hf)
            exact ⟨o', ho', hon'.trans hn.symm⟩
          · rw [hfile] at hf
            simp only [Option.some.injEq] at hf
            rw [hx] at hz
            simp only [Option.some.injEq] at hz
            exact ⟨o, by rw [← hf]; exact ho, by rw [hn, ← hz, hon, hfn]⟩
        · exact ⟨_, id, o, setFile_self hx, rfl, ho, hbad.2, by rw [hon, hfn]⟩

theorem cacheStep_inv (disk : φ → Option (List Byte)) {s : CacheState φ} (h : CacheInv s) (op : CacheOp φ) : CacheInv (cacheStep disk s op).1 := by
  cases op with
  | create fname =>
    refine ⟨h.keys, h.bound, h.entry, h.cached, h.dead, ?_⟩
    intro d x id hx hf
    simp only [cacheStep] at hx
    by_cases hlt : d < s.datasets.length
    · rw [List.getElem?_append_left hlt] at hx; exact h.own d x id hx hf
    · have hm := List.mem_of_getElem? (l := s.datasets ++ [⟨fname, none, true⟩]) hx
      rw [List.getElem?_append_right (by omega)] at hx
      have := List.mem_of_getElem? hx
      simp only [List.mem_singleton] at this
      rw [this] at hf; cases hf
  | access d =>
    cases hx : s.datasets[d]? with
    | none => simp only [cacheStep, mmapFile, hx]; exact h
    | some x => exact (mmapFile_inv disk h hx).1
  | close d =>
    simp only [cacheStep]
    split
    · exact h
    · split
      · exact h
      · split
        · exact h.close (modify_objsLe _ _ _ (fun _ => rfl) (fun _ => rfl))
        · exact h
  | drop d =>
    refine ⟨h.keys, h.bound, h.entry, h.cached, h.dead, ?_⟩
    intro j x id hx hf
    simp only [cacheStep, List.getElem?_modify] at hx
    cases hq : s.datasets[j]? with
    | none => rw [hq] at hx; simp at hx
    | some y =>
      rw [hq] at hx
      by_cases hj : d = j
      · simp [hj] at hx; rw [← hx] at hf ⊢; exact h.own j y id hq hf
      · simp [hj] at hx; rw [← hx] at hf ⊢; exact h.own j y id hq hf
  | collect id =>
    simp only [cacheStep]
    split
    · exact h
    · exact h.close (modify_objsLe _ _ _ (fun _ => rfl) (fun _ => rfl))

theorem cacheRun_inv (disk : φ → Option (List Byte)) (ops : List (CacheOp φ)) : CacheInv (cacheRun disk ops) := by
  induction ops using List.reverseRecOn with
  | nil => exact ⟨by simp [cacheRun, CacheState.new], by simp [cacheRun, CacheState.new], by simp [cacheRun, CacheState.new], by simp [cacheRun, CacheState.new], by simp [cacheRun, CacheState.new], by simp [cacheRun, CacheState.new]⟩
  | append_singleton ops op ih =>
    simp only [cacheRun, List.foldl_append, List.foldl_cons, List.foldl_nil] at ih ⊢
    exact cacheStep_inv disk ih op

/-- Positions of the objects with a property -/
theorem countP_eq_positions {β : Type*} (p : β → Bool) (l : List β) : l.countP p = ((List.range l.length).filter (fun i => (l[i]?).any p)).length := by
  induction l using List.reverseRecOn with
  | nil => rfl
  | append_singleton l x ih =>
    rw [List.countP_append, ih, List.length_append, List.length_singleton, List.range_succ, List.filter_append, List.length_append]
    congr 1
    · congr 1
      apply List.filter_congr
      intro i hi
      rw [List.getElem?_append_left (List.mem_range.1 hi)]
    · by_cases hx : p x = true <;> simp [hx]

theorem count_le_cache {s : CacheState φ} (h : CacheInv s) : openFiles s ≤ s.cache.length := by
  unfold openFiles
  rw [countP_eq_positions]
  have hsub : ((List.range s.objs.length).filter (fun i => (s.objs[i]?).any (fun o => !o.closed))) ⊆ s.cache.map Prod.snd := by
    intro i hi
    obtain ⟨-, h2⟩ := List.mem_filter.1 hi
    cases hq : s.objs[i]? with
    | none => rw [hq] at h2; simp at h2
    | some o =>
      rw [hq] at h2
      exact List.mem_map.2 ⟨_, h.cached i o hq (by simpa using h2), rfl⟩
  have := (List.subperm_of_subset (List.nodup_range.filter _) hsub).length_le
  simpa using this

/-- At most 32 files are open after any sequence of events. -/
theorem C50_bounded (disk : φ → Option (List Byte)) (ops : List (CacheOp φ)) : openFiles (cacheRun disk ops) ≤ 32 :=
  Nat.le_trans (count_le_cache (cacheRun_inv disk ops)) (cacheRun_inv disk ops).bound

/-- After any sequence of events, reading a dataset whose file can be opened succeeds, and it uses an open map of its own file. -/
theorem C50_own_file (disk : φ → Option (List Byte)) (ops : List (CacheOp φ)) {d : Nat} {x : CacheDs φ} (hx : (cacheRun disk ops).datasets[d]? = some x) (hc : openError disk x.fname = none) :
    (cacheStep disk (cacheRun disk ops) (.access d)).2 = none ∧ Ready (cacheStep disk (cacheRun disk ops) (.access d)).1 d x.fname := by
  obtain ⟨-, h2, h3⟩ := mmapFile_inv disk (cacheRun_inv disk ops) hx
  exact ⟨h3 hc, h2 (h3 hc)⟩

/-- After any sequence of events, reading from a dataset gives what its own file contains, as if the file had just been opened: the cache can not be seen. -/
theorem C50_transparent (sysLittle : Bool) (disk : φ → Option (List Byte)) (ops : List (CacheOp φ)) {d : Nat} {x : CacheDs φ} (hx : (cacheRun disk ops).datasets[d]? = some x)
    {bytes : List Byte} (hf : disk x.fname = some bytes) (hne : bytes ≠ []) (b : Block) (key : List Nat) :
    (cacheRead sysLittle disk (cacheRun disk ops) d b key).2 = b.read sysLittle bytes key := by
  have hc : openError disk x.fname = none := by
    unfold openError
    rw [hf]
    cases bytes with
    | nil => exact absurd rfl hne
    | cons _ _ => rfl
  obtain ⟨h1, y, id, o, h2, h3, h4, h5, h6⟩ := C50_own_file disk ops hx hc
  simp only [cacheStep] at h1 h2 h4
  unfold cacheRead
  rcases hm : mmapFile disk (cacheRun disk ops) d with ⟨s, e⟩
  rw [hm] at h1 h2 h4
  simp only at h1 h2 h4
  subst h1
  simp only [h2, Option.bind_some, h3, h4, h5, Bool.false_eq_true, if_false, h6, hf]

/-- Whenever an access succeeds, it uses an open map of the file of the dataset. -/
theorem C50_never_other (disk : φ → Option (List Byte)) (ops : List (CacheOp φ)) {d : Nat} {x : CacheDs φ} (hx : (cacheRun disk ops).datasets[d]? = some x)
    (hok : (cacheStep disk (cacheRun disk ops) (.access d)).2 = none) : Ready (cacheStep disk (cacheRun disk ops) (.access d)).1 d x.fname :=
  (mmapFile_inv disk (cacheRun_inv disk ops) hx).2.1 hok

/-- No file is open twice at the same time. -/
theorem C50_open_once (disk : φ → Option (List Byte)) (ops : List (CacheOp φ)) {i j : Nat} {a b : MapObj φ} (ha : (cacheRun disk ops).objs[i]? = some a) (hb : (cacheRun disk ops).objs[j]? = some b)
    (hac : a.closed = false) (hbc : b.closed = false) (hn : a.fname = b.fname) : i = j := by
  have h := cacheRun_inv disk ops
  have := List.inj_on_of_nodup_map h.keys (h.cached i a ha hac) (h.cached j b hb hbc) hn
  exact (Prod.mk.inj this).2

/-- An object which was deallocated is not open, so no file descriptor leaks. -/
theorem C50_no_leak (disk : φ → Option (List Byte)) (ops : List (CacheOp φ)) {i : Nat} {a : MapObj φ} (ha : (cacheRun disk ops).objs[i]? = some a) (hd : a.alive = false) : a.closed = true := by
  by_contra hc
  have := (cacheRun_inv disk ops).dead i a ha (by simpa using hc)
  rw [hd] at this; cases this

/-! ### Cases -/

/-- 40 datasets in 40 files, all read, then the first read again -/
def exCacheOps : List (CacheOp Nat) := (List.range 40).map CacheOp.create ++ (List.range 40).map CacheOp.access ++ [.access 0, .close 39, .drop 38, .collect 38, .access 39]

example : openFiles (cacheRun (fun _ => some [0]) exCacheOps) = 31 ∧ (cacheRun (fun _ => some [0]) exCacheOps).objs.length = 42 := by decide +kernel
example : openFiles (cacheRun (fun _ => some [0]) (exCacheOps.take 80)) = 32 := by decide +kernel
example : (cacheRun (fun n => if n = 5 then none else some [0]) exCacheOps).datasets[5]? = some ⟨5, none, true⟩ := by decide +kernel

/-- File `n` has the bytes `n` and `100 + n`. -/
def exDisk (n : Nat) : Option (List Byte) := some [Fin.ofNat 256 n, Fin.ofNat 256 (100 + n)]

-- file 3 was closed to make room for others, and is read again
example : (cacheRead true exDisk (cacheRun exDisk exCacheOps) 3 ⟨⟨1, '|'⟩, 0, [2], '<'⟩ [0, 1]).2 = .ok [[3], [103]] := by decide +kernel
example : (cacheRun exDisk exCacheOps).objs[3]? = some ⟨3, true, true⟩ := by decide +kernel

end Verif
