import Verif.Props.MultiFile
import Verif.Spec.MultiFileRead

set_option linter.unusedSectionVars false

namespace Verif.MultiFileRead

variable {α β τ γ δ : Type*}

/-! ### Dicts -/

theorem entry_eq (l : List (Name × γ)) (n : Name) : entry l n = dget l n := by
  induction l with
  | nil => rfl
  | cons e l ih =>
    obtain ⟨k, v⟩ := e
    unfold entry dget
    rw [List.find?_cons]
    by_cases h : k = n
    · have : (k == n) = true := by rw [beq_iff_eq]; exact h
      simp [h]
    · have : (k == n) = false := by rw [beq_eq_false_iff_ne]; exact h
      simp only [h, if_false, this]
      rw [ih]; rfl

theorem datasetAt_eq (f : H5 τ α β) (group : Option Name) (name : Name) : datasetAt f group name = (locOf f group).bind (fun loc => dget loc name) := by
  unfold datasetAt locOf
  cases group with
  | none => simp only [entry_eq]; rfl
  | some g =>
    simp only [entry_eq]
    cases dget f.groups g <;> rfl

theorem entry_map (ks : List Name) (h : Name → γ) (m : Name) : entry (ks.map (fun n => (n, h n))) m = if m ∈ ks then some (h m) else none := by
  induction ks with
  | nil => rfl
  | cons k ks ih =>
    rw [List.map_cons, entry, ih]
    by_cases hk : k = m
    · simp [hk]
    · simp only [hk, if_false, List.mem_cons, Ne.symm hk, false_or]

theorem dget_map (ks : List Name) (h : Name → γ) (m : Name) : dget (ks.map (fun n => (n, h n))) m = if m ∈ ks then some (h m) else none := by
  rw [← entry_eq, entry_map]

theorem dset_map (ks : List Name) (hk : ks.Nodup) (h : Name → γ) {m : Name} (hm : m ∈ ks) (v : γ) :
    dset (ks.map (fun n => (n, h n))) m v = ks.map (fun n => (n, if n = m then v else h n)) := by
  induction ks with
  | nil => simp at hm
  | cons k ks ih =>
    rw [List.nodup_cons] at hk
    rw [List.map_cons, List.map_cons, dset]
    by_cases hkm : k = m
    · rw [if_pos hkm, if_pos hkm]
      congr 1
      apply List.map_congr_left
      intro n hn
      rw [if_neg]
      rintro rfl
      exact hk.1 (hkm ▸ hn)
    · rw [if_neg hkm, if_neg hkm, ih hk.2 (by simpa [Ne.symm hkm] using hm)]

theorem dset_new (ks : List Name) (h : Name → γ) {m : Name} (hm : m ∉ ks) (v : γ) : dset (ks.map (fun n => (n, h n))) m v = ks.map (fun n => (n, h n)) ++ [(m, v)] := by
  induction ks with
  | nil => rfl
  | cons k ks ih =>
    simp only [List.mem_cons, not_or] at hm
    rw [List.map_cons, dset, if_neg (Ne.symm hm.1), ih hm.2]; rfl

/-- A key which is added if it is new -/
def addKey (ks : List Name) (m : Name) : List Name := if m ∈ ks then ks else ks ++ [m]

/-- Names without repetitions -/
def firsts (names : List Name) : List Name := names.foldl addKey []

theorem addKey_nodup {ks : List Name} (h : ks.Nodup) (m : Name) : (addKey ks m).Nodup := by
  unfold addKey
  split
  · exact h
  · rename_i hm
    rw [List.nodup_append]
    refine ⟨h, by simp, ?_⟩
    intro a ha b hb
    rw [List.mem_singleton] at hb
    rintro rfl
    exact hm (hb ▸ ha)

theorem mem_addKey {ks : List Name} {m n : Name} : n ∈ addKey ks m ↔ n ∈ ks ∨ n = m := by
  unfold addKey
  split
  · rename_i hm
    constructor
    · exact Or.inl
    · rintro (h | rfl)
      · exact h
      · exact hm
  · simp

theorem foldl_addKey (names ks : List Name) (h : ks.Nodup) : (names.foldl addKey ks).Nodup ∧ ∀ n, n ∈ names.foldl addKey ks ↔ n ∈ ks ∨ n ∈ names := by
  induction names generalizing ks with
  | nil => simp [h]
  | cons m names ih =>
    rw [List.foldl_cons]
    obtain ⟨h1, h2⟩ := ih (addKey ks m) (addKey_nodup h m)
    refine ⟨h1, fun n => ?_⟩
    rw [h2, mem_addKey, List.mem_cons, or_assoc]

theorem firsts_nodup (names : List Name) : (firsts names).Nodup := (foldl_addKey names [] List.nodup_nil).1

theorem mem_firsts {names : List Name} {n : Name} : n ∈ firsts names ↔ n ∈ names := by
  unfold firsts
  rw [(foldl_addKey names [] List.nodup_nil).2]
  simp

theorem dset_addKey (ks : List Name) (hk : ks.Nodup) (h : Name → γ) (m : Name) : dset (ks.map (fun n => (n, h n))) m (h m) = (addKey ks m).map (fun n => (n, h n)) := by
  unfold addKey
  split
  · rename_i hm
    rw [dset_map ks hk h hm]
    apply List.map_congr_left
    intro n _
    by_cases hn : n = m <;> simp [hn]
  · rename_i hm
    rw [dset_new ks h hm]; simp

theorem emptyDict_eq (names : List Name) : (emptyDict names : List (Name × List γ)) = (firsts names).map (fun n => (n, [])) := by
  unfold emptyDict firsts
  have : ∀ ks : List Name, ks.Nodup → names.foldl (fun d name => dset d name []) (ks.map (fun n => (n, ([] : List γ)))) = (names.foldl addKey ks).map (fun n => (n, [])) := by
    induction names with
    | nil => intro ks _; rfl
    | cons m names ih =>
      intro ks hk
      rw [List.foldl_cons, List.foldl_cons, dset_addKey ks hk (fun _ => []) m, ih _ (addKey_nodup hk m)]
  exact this [] List.nodup_nil

/-! ### Independent reads -/

/-- What the state of the loop over files is -/
def stateOf (ks : List Name) (h : Name → List (AArr τ α β)) (ro : Option (List Name)) (g : Name → List (List Nat)) : Parts τ α β :=
  ⟨ks.map (fun n => (n, h n)), ro.map (fun rk => rk.map (fun n => (n, g n)))⟩

theorem stateOf_congr {ks : List Name} {h h' : Name → List (AArr τ α β)} {ro : Option (List Name)} {g g' : Name → List (List Nat)} (h1 : ∀ n ∈ ks, h n = h' n) (h2 : ∀ n, g n = g' n) :
    stateOf ks h ro g = stateOf ks h' ro g' := by
  unfold stateOf
  have : g = g' := funext h2
  subst this
  congr 1
  apply List.map_congr_left
  intro n hn
  rw [h1 n hn]

theorem addName_eq {ks : List Name} (hk : ks.Nodup) (h : Name → List (AArr τ α β)) {ro : Option (List Name)} (hro : ∀ rk, ro = some rk → rk.Nodup) (g : Name → List (List Nat)) (ra : Bool)
    (fi : Nat) (loc : List (Name × Dset τ α β)) {m : Name} (hm : m ∈ ks) :
    addName ra fi loc (stateOf ks h ro g) m = stateOf ks (fun n => if n = m then h n ++ ((dget loc n).map (readDset ra)).toList else h n) ro
      (fun n => if n = m then g n ++ ((dget loc n).map (fun d => List.replicate d.arr.rows.length fi)).toList else g n) := by
  unfold addName
  cases hd : dget loc m with
  | none =>
    apply stateOf_congr
    · intro n _
      by_cases hn : n = m
      · subst hn; simp [hd]
      · simp [hn]
    · intro n
      by_cases hn : n = m
      · subst hn; simp [hd]
      · simp [hn]
  | some d =>
    unfold stateOf
    simp only
    congr 1
    · rw [dget_map, if_pos hm, Option.getD_some, dset_map ks hk h hm]
      apply List.map_congr_left
      intro n _
      by_cases hn : n = m
      · subst hn; simp [hd]
      · simp [hn]
    · cases ro with
      | none => rfl
      | some rk =>
        simp only [Option.map_some]
        rw [dget_map]
        by_cases hmr : m ∈ rk
        · rw [if_pos hmr]
          simp only
          rw [dset_map rk (hro rk rfl) g hmr]
          congr 1
          apply List.map_congr_left
          intro n _
          by_cases hn : n = m
          · subst hn; simp [hd]
          · simp [hn]
        · rw [if_neg hmr]
          simp only
          congr 1
          apply List.map_congr_left
          intro n hn
          rw [if_neg]
          rintro rfl
          exact hmr hn

theorem addNames_eq {ks : List Name} (hk : ks.Nodup) {ro : Option (List Name)} (hro : ∀ rk, ro = some rk → rk.Nodup) (ra : Bool) (fi : Nat) (loc : List (Name × Dset τ α β)) (l : List Name)
    (hl : l.Nodup) (hs : ∀ n ∈ l, n ∈ ks) (h : Name → List (AArr τ α β)) (g : Name → List (List Nat)) :
    l.foldl (addName ra fi loc) (stateOf ks h ro g) = stateOf ks (fun n => if n ∈ l then h n ++ ((dget loc n).map (readDset ra)).toList else h n) ro
      (fun n => if n ∈ l then g n ++ ((dget loc n).map (fun d => List.replicate d.arr.rows.length fi)).toList else g n) := by
  induction l generalizing h g with
  | nil => simp
  | cons m l ih =>
    rw [List.nodup_cons] at hl
    rw [List.foldl_cons, addName_eq hk h hro g ra fi loc (hs m (by simp)), ih hl.2 (fun n hn => hs n (by simp [hn]))]
    apply stateOf_congr
    · intro n _
      by_cases hn : n = m
      · subst hn; simp [hl.1]
      · simp [hn]
    · intro n
      by_cases hn : n = m
      · subst hn; simp [hl.1]
      · simp [hn]

theorem filterMap_cons_toList {ι : Type*} (i : ι) (l : List ι) (f : ι → Option γ) : (i :: l).filterMap f = (f i).toList ++ l.filterMap f := by
  rw [List.filterMap_cons]
  cases f i <;> rfl

theorem filesLoop_eq {ks : List Name} (hk : ks.Nodup) {ro : Option (List Name)} (hro : ∀ rk, ro = some rk → rk.Nodup) (ra : Bool) (files : Nat → H5 τ α β) (idx : Nat → Nat)
    (group : Option Name) (fs : List Nat) (h : Name → List (AArr τ α β)) (g : Name → List (List Nat)) :
    fs.foldl (fun st i => match locOf (files i) group with
      | none => st
      | some loc => (st.data.map Prod.fst).foldl (addName ra (idx i) loc) st) (stateOf ks h ro g) =
    stateOf ks (fun n => h n ++ fs.filterMap (fun i => (datasetAt (files i) group n).map (readDset ra))) ro
      (fun n => if n ∈ ks then g n ++ fs.filterMap (fun i => (datasetAt (files i) group n).map (fun d => List.replicate d.arr.rows.length (idx i))) else g n) := by
  induction fs generalizing h g with
  | nil => simp
  | cons i fs ih =>
    rw [List.foldl_cons]
    have hstep : (match locOf (files i) group with
        | none => stateOf ks h ro g
        | some loc => ((stateOf ks h ro g).data.map Prod.fst).foldl (addName ra (idx i) loc) (stateOf ks h ro g)) =
        stateOf ks (fun n => h n ++ ((datasetAt (files i) group n).map (readDset ra)).toList) ro
          (fun n => if n ∈ ks then g n ++ ((datasetAt (files i) group n).map (fun d => List.replicate d.arr.rows.length (idx i))).toList else g n) := by
      cases hl : locOf (files i) group with
      | none =>
        simp only [datasetAt_eq, hl]
        apply stateOf_congr
        · intro n _; simp
        · intro n; simp
      | some loc =>
        simp only
        have e : (stateOf ks h ro g).data.map Prod.fst = ks := by
          unfold stateOf
          rw [List.map_map]
          exact List.map_id' _
        rw [e, addNames_eq hk hro ra (idx i) loc ks hk (fun _ h => h)]
        apply stateOf_congr
        · intro n hn
          simp only [hn, if_true, datasetAt_eq, hl, Option.bind_some]
        · intro n
          simp only [datasetAt_eq, hl, Option.bind_some]
    rw [hstep, ih]
    apply stateOf_congr
    · intro n _
      rw [filterMap_cons_toList, List.append_assoc]
    · intro n
      by_cases hn : n ∈ ks
      · simp only [hn, if_true]
        rw [filterMap_cons_toList, List.append_assoc]
      · simp [hn]

theorem readFiles_eq (files : Nat → H5 τ α β) (idx : Nat → Nat) (group : Option Name) (ds : List Name) (ret : Option NamesArg) (ra : Bool) (first num : Nat) :
    readFiles files idx group ds ret ra first num = stateOf (firsts ds) (fun n => (List.range' first num).filterMap (fun i => (datasetAt (files i) group n).map (readDset ra)))
      (ret.map (fun r => firsts r.iter))
      (fun n => if n ∈ ds then (List.range' first num).filterMap (fun i => (datasetAt (files i) group n).map (fun d => List.replicate d.arr.rows.length (idx i))) else []) := by
  unfold readFiles
  have h0 : (⟨emptyDict ds, ret.map (fun r => emptyDict r.iter)⟩ : Parts τ α β) = stateOf (firsts ds) (fun _ => []) (ret.map (fun r => firsts r.iter)) (fun _ => []) := by
    unfold stateOf
    rw [emptyDict_eq]
    congr 1
    cases ret with
    | none => rfl
    | some r => simp only [Option.map_some, emptyDict_eq]
  rw [h0]
  refine Eq.trans (filesLoop_eq (firsts_nodup ds) (ro := ret.map (fun r => firsts r.iter)) ?_ ra files idx group (List.range' first num) (fun _ => []) (fun _ => [])) ?_
  rotate_left
  · apply stateOf_congr
    · intro n _; rfl
    · intro n
      simp [mem_firsts]
  · intro rk hrk
    cases ret with
    | none => cases hrk
    | some r =>
      simp only [Option.map_some, Option.some.injEq] at hrk
      subst hrk
      exact firsts_nodup _

/-- Attributes of the first of some files which has the dataset -/
def attrOf (files : Nat → H5 τ α β) (group : Option Name) (ra : Bool) (fs : List Nat) (n : Name) : Option (List (Name × β)) :=
  if ra then (fs.filterMap (fun i => datasetAt (files i) group n)).head?.map Dset.attrs else none

/-- The files read by a rank -/
def rankFiles (F P p : Nat) : List Nat :=
  match multiFileLayout F P p with
  | .ok (.independent first num) => List.range' first num
  | .ok (.collective f _ _) => [f]
  | .error _ => []

theorem parts_arr (files : Nat → H5 τ α β) (group : Option Name) (ra : Bool) (fs : List Nat) (n : Name) :
    (fs.filterMap (fun i => (datasetAt (files i) group n).map (readDset ra))).map AArr.arr = fs.filterMap (arrayAt files group n) := by
  rw [List.map_filterMap]
  apply congrArg (fun f => List.filterMap f fs)
  funext i
  rw [Option.map_map]; rfl

theorem parts_attrs (files : Nat → H5 τ α β) (group : Option Name) (ra : Bool) (fs : List Nat) (n : Name) :
    (fs.filterMap (fun i => (datasetAt (files i) group n).map (readDset ra))).head?.bind AArr.attrs = attrOf files group ra fs n := by
  rw [← List.map_filterMap (f := fun i => datasetAt (files i) group n) (g := readDset ra), attrOf, List.head?_map]
  cases (fs.filterMap (fun i => datasetAt (files i) group n)).head? with
  | none => cases ra <;> rfl
  | some d => cases ra <;> rfl

theorem combineName_eq [DecidableEq τ] {files : Nat → H5 τ α β} {idx : Nat → Nat} {group : Option Name} {n : Name} {first num : Nat} {A : Option (TypedArray τ α)} {N : Option (List Nat)}
    (h : readIndependent (arrayAt files group n) idx first num = .ok (A, false, N)) (ra : Bool) :
    combineName ((List.range' first num).filterMap (fun i => (datasetAt (files i) group n).map (readDset ra))) =
      .ok (A.map (fun a => ⟨a, attrOf files group ra (List.range' first num) n⟩), false) := by
  unfold combineName
  rw [parts_arr, parts_attrs]
  unfold readIndependent at h
  simp only at h
  cases hc : concatParts ((List.range' first num).filterMap (arrayAt files group n)) with
  | error e => rw [hc] at h; simp at h
  | ok a =>
    rw [hc] at h
    simp only [Except.ok.injEq, Prod.mk.injEq] at h
    simp only [h.1, h.2.1]

theorem combineNr_eq [DecidableEq τ] {files : Nat → H5 τ α β} {idx : Nat → Nat} {group : Option Name} {n : Name} {first num : Nat} {A : Option (TypedArray τ α)} {b : Bool}
    {N : Option (List Nat)} (h : readIndependent (arrayAt files group n) idx first num = .ok (A, b, N)) :
    (if ((List.range' first num).filterMap (fun i => (datasetAt (files i) group n).map (fun d => List.replicate d.arr.rows.length (idx i)))).isEmpty then none
      else some ((List.range' first num).filterMap (fun i => (datasetAt (files i) group n).map (fun d => List.replicate d.arr.rows.length (idx i)))).flatten) = N := by
  have e : (fun i => (datasetAt (files i) group n).map (fun d => List.replicate d.arr.rows.length (idx i))) =
      (fun i => (arrayAt files group n i).map (fun a => List.replicate a.rows.length (idx i))) := by
    funext i
    unfold arrayAt
    rw [Option.map_map]; rfl
  rw [e]
  unfold readIndependent at h
  simp only at h
  cases hc : concatParts ((List.range' first num).filterMap (arrayAt files group n)) with
  | error e => rw [hc] at h; simp at h
  | ok a =>
    rw [hc] at h
    simp only [Except.ok.injEq, Prod.mk.injEq] at h
    exact h.2.2

theorem mapM_ok {ι : Type*} {l : List ι} {f : ι → Except Err γ} {g : ι → γ} (h : ∀ p ∈ l, f p = .ok (g p)) : l.mapM f = .ok (l.map g) := by
  induction l with
  | nil => rfl
  | cons p l ih =>
    rw [List.mapM_cons, h p (by simp), ih (fun q hq => h q (by simp [hq]))]
    rfl

theorem combineAll_eq [DecidableEq τ] {loc : List (Parts τ α β)} {V : Name → Parts τ α β → Option (AArr τ α β)} (names : List Name)
    (h : ∀ n ∈ names, ∀ l ∈ loc, combineName ((dget l.data n).getD []) = .ok (V n l, false)) :
    combineAll loc names = .ok (names.map (fun n => (n, loc.map (V n)))) := by
  induction names with
  | nil => rfl
  | cons m names ih =>
    rw [combineAll, mapM_ok (g := fun l => (V m l, false)) (h m (by simp))]
    simp only [Except.andThen]
    rw [if_neg (by simp), ih (fun n hn => h n (by simp [hn]))]
    simp only [List.map_map, List.map_cons]
    rfl

/-- Data of a rank with attributes -/
def withAttrs (a : Option (List (Name × β))) (A : Option (TypedArray τ α)) : Option (AArr τ α β) := A.map (fun x => ⟨x, a⟩)

theorem readIndependentAll_eq [DecidableEq τ] [Inhabited α] {P F : Nat} (hP : 0 < P) (hF : P ≤ F) (files : Nat → H5 τ α β) (idx : Nat → Nat) (group : Option Name) (ds : List Name)
    (ret : Option NamesArg) (ra : Bool) {itemsize : τ → Nat} {buffer_size : Nat} {A : Name → Nat → Option (TypedArray τ α)} {N : Name → Nat → Option (List Nat)}
    (hl : ∀ n ∈ ds, ∀ p < P, readLocal P F (arrayAt files group n) idx itemsize buffer_size p = .ok (A n p, false, N n p)) :
    readIndependentAll P F files idx group ds ret ra =
      .ok ((firsts ds).map (fun n => (n, (List.range P).map (fun p => withAttrs (attrOf files group ra (rankFiles F P p) n) (A n p)))),
        ret.map (fun r => (firsts r.iter).map (fun n => (n, (List.range P).map (fun p => if n ∈ ds then N n p else none))))) := by
  obtain ⟨num, h1, h2, h3⟩ := layout_independent hP hF
  have hl' : ∀ n ∈ ds, ∀ p < P, readIndependent (arrayAt files group n) idx (pre num p) (num p) = .ok (A n p, false, N n p) := by
    intro n hn p hp
    have := hl n hn p hp
    unfold readLocal at this
    rw [h3 p hp] at this
    exact this
  unfold readIndependentAll
  rw [allRanks_ok (g := fun p => readFiles files idx group ds ret ra (pre num p) (num p)) (fun p hp => by rw [h3 p hp])]
  simp only [Except.andThen]
  have hhead : ((List.range P).map (fun p => readFiles files idx group ds ret ra (pre num p) (num p))).headD ⟨[], none⟩ = readFiles files idx group ds ret ra (pre num 0) (num 0) := by
    cases P with
    | zero => omega
    | succ P => rw [List.range_succ_eq_map]; rfl
  rw [hhead, readFiles_eq files idx group ds ret ra (pre num 0) (num 0)]
  have hkeys : ∀ (ks : List Name) (h : Name → List (AArr τ α β)) (ro : Option (List Name)) (g : Name → List (List Nat)), (stateOf ks h ro g).data.map Prod.fst = ks := by
    intro ks h ro g
    unfold stateOf
    rw [List.map_map]
    exact List.map_id' _
  rw [hkeys]
  have hcomb : combineAll ((List.range P).map (fun p => readFiles files idx group ds ret ra (pre num p) (num p))) (firsts ds) =
      .ok ((firsts ds).map (fun n => (n, (List.range P).map (fun p => withAttrs (attrOf files group ra (rankFiles F P p) n) (A n p))))) := by
    have hV := combineAll_eq (loc := (List.range P).map (fun p => readFiles files idx group ds ret ra (pre num p) (num p))) (V := fun n l => match combineName ((dget l.data n).getD []) with
      | .ok (v, _) => v
      | .error _ => none) (firsts ds) ?_
    · rw [hV]
      congr 1
      apply List.map_congr_left
      intro n hn
      rw [List.map_map]
      congr 1
      apply List.map_congr_left
      intro p hp
      rw [List.mem_range] at hp
      rw [mem_firsts] at hn
      simp only [Function.comp_apply, readFiles_eq, stateOf]
      rw [dget_map, if_pos (mem_firsts.2 hn), Option.getD_some, combineName_eq (hl' n hn p hp)]
      simp only [withAttrs, rankFiles, h3 p hp]
    · intro n hn l hl2
      obtain ⟨p, hp, rfl⟩ := List.mem_map.1 hl2
      rw [List.mem_range] at hp
      rw [mem_firsts] at hn
      rw [readFiles_eq]
      simp only [stateOf]
      rw [dget_map, if_pos (mem_firsts.2 hn), Option.getD_some, combineName_eq (hl' n hn p hp)]
  rw [hcomb]
  simp only [Except.ok.injEq, Prod.mk.injEq, true_and]
  cases ret with
  | none => rfl
  | some r =>
    simp only [stateOf, Option.map_some, Option.some.injEq]
    rw [List.map_map, List.map_map]
    apply List.map_congr_left
    intro n hn
    simp only [Function.comp_apply, Prod.mk.injEq, true_and]
    rw [List.map_map]
    apply List.map_congr_left
    intro p hp
    rw [List.mem_range] at hp
    simp only [Function.comp_apply, readFiles_eq, combineNr, stateOf, Option.map_some, Option.bind_some]
    rw [dget_map, if_pos hn, Option.getD_some]
    by_cases hnd : n ∈ ds
    · simp only [if_pos hnd]
      exact combineNr_eq (hl' n hnd p hp)
    · simp [if_neg hnd]

/-! ### Collective reads -/

theorem readCollectiveAll_eq [DecidableEq τ] [Inhabited α] {P F : Nat} (hF : 0 < F) (hP : F < P) (files : Nat → H5 τ α β) (idx : Nat → Nat) (group : Option Name) (ds : List Name)
    (ret : Option NamesArg) (ra : Bool) {itemsize : τ → Nat} {buffer_size : Nat} {A : Name → Nat → Option (TypedArray τ α)} {N : Name → Nat → Option (List Nat)}
    (hl : ∀ n ∈ ds, ∀ p < P, readLocal P F (arrayAt files group n) idx itemsize buffer_size p = .ok (A n p, false, N n p)) :
    readCollectiveAll P F files idx group ret ra itemsize buffer_size ds [] (ret.map (fun _ => [])) =
      .ok ((firsts ds).map (fun n => (n, (List.range P).map (fun p => withAttrs (attrOf files group ra (rankFiles F P p) n) (A n p)))),
        ret.map (fun r => (firsts (ds.filter r.contains)).map (fun n => (n, (List.range P).map (N n))))) := by
  have hone : ∀ n ∈ ds, ∀ p < P, collectiveOne P F files idx group ra itemsize buffer_size n p = .ok (withAttrs (attrOf files group ra (rankFiles F P p) n) (A n p), N n p) := by
    intro n hn p hp
    obtain ⟨f, k, m, h1, h2, h3⟩ := C27_collective_total hF hP hp
    have hr := hl n hn p hp
    unfold readLocal at hr
    rw [h1] at hr
    unfold collectiveOne rankFiles
    simp only [h1] at hr ⊢
    have e : (fun i => ((locOf (files i) group).bind (fun loc => dget loc n)).map Dset.arr) = arrayAt files group n := by
      funext i
      rw [← datasetAt_eq]; rfl
    rw [e]
    cases hc : readCollective (arrayAt files group n) idx itemsize buffer_size f k m with
    | error e => rw [hc] at hr; simp at hr
    | ok v =>
      obtain ⟨v1, v2⟩ := v
      rw [hc] at hr
      simp only [Except.ok.injEq, Prod.mk.injEq, true_and] at hr
      obtain ⟨rfl, h5⟩ := hr
      simp only [Except.ok.injEq, Prod.mk.injEq, h5, and_true, withAttrs]
      congr 1
      funext a
      congr 1
      unfold attrOf
      rw [← datasetAt_eq, List.filterMap_cons]
      cases datasetAt (files f) group n <;> rfl
  have key : ∀ (names : List Name), (∀ n ∈ names, n ∈ ds) → ∀ ks : List Name, ks.Nodup → ∀ kr : NamesArg → List Name, (∀ r, (kr r).Nodup) →
      readCollectiveAll P F files idx group ret ra itemsize buffer_size names (ks.map (fun n => (n, (List.range P).map (fun p => withAttrs (attrOf files group ra (rankFiles F P p) n) (A n p)))))
        (ret.map (fun r => (kr r).map (fun n => (n, (List.range P).map (N n))))) =
      .ok ((names.foldl addKey ks).map (fun n => (n, (List.range P).map (fun p => withAttrs (attrOf files group ra (rankFiles F P p) n) (A n p)))),
        ret.map (fun r => ((names.filter r.contains).foldl addKey (kr r)).map (fun n => (n, (List.range P).map (N n))))) := by
    intro names
    induction names with
    | nil => intro _ ks _ kr _; rfl
    | cons m names ih =>
      intro hs ks hks kr hkr
      rw [readCollectiveAll, allRanks_ok (hone m (hs m (by simp)))]
      simp only [Except.andThen, List.map_map]
      have e1 := dset_addKey ks hks (fun n => (List.range P).map (fun p => withAttrs (attrOf files group ra (rankFiles F P p) n) (A n p))) m
      have := ih (fun n hn => hs n (by simp [hn])) (addKey ks m) (addKey_nodup hks m) (fun r => if r.contains m then addKey (kr r) m else kr r) (by
        intro r
        by_cases hc : r.contains m = true
        · simp only [hc, if_true]; exact addKey_nodup (hkr r) m
        · simp only [hc]; exact hkr r)
      rw [← e1] at this
      refine Eq.trans ?_ (this.trans ?_)
      · congr 1
        cases ret with
        | none => rfl
        | some r =>
          simp only [Option.map_some, Option.any_some]
          by_cases hc : r.contains m = true
          · simp only [hc, if_true]
            rw [← dset_addKey (kr r) (hkr r) (fun n => (List.range P).map (N n)) m]
            rfl
          · simp [hc]
      · rw [List.foldl_cons]
        cases ret with
        | none => rfl
        | some r =>
          simp only [Option.map_some, Except.ok.injEq, Prod.mk.injEq, true_and, Option.some.injEq]
          by_cases hc : r.contains m = true
          · simp [hc]
          · simp [hc]
  exact key ds (fun _ h => h) [] List.nodup_nil (fun _ => []) (fun _ => List.nodup_nil)

/-! ### Files of the ranks -/

theorem mem_rankFiles {F P p f : Nat} : f ∈ rankFiles F P p ↔ ReadsFile F P p f := by
  unfold rankFiles ReadsFile
  cases h : multiFileLayout F P p with
  | error e => simp
  | ok l =>
    cases l with
    | independent first num => simp
    | collective g k n => simp [eq_comm]

theorem rankFiles_sorted (F P p : Nat) : (rankFiles F P p).Pairwise (· < ·) := by
  unfold rankFiles
  cases h : multiFileLayout F P p with
  | error e => simp
  | ok l =>
    cases l with
    | independent first num => exact List.pairwise_lt_range'
    | collective g k n => simp

/-- Every file is read, and the files of later ranks are not before those of earlier ones. -/
theorem readsFile_order {F P : Nat} (hP : 0 < P) (hF : 0 < F) : (∀ f < F, ∃ p < P, ReadsFile F P p f) ∧ (∀ p < P, ∀ f, ReadsFile F P p f → f < F) ∧
    ∀ p q, p < q → q < P → ∀ f g, ReadsFile F P p f → ReadsFile F P q g → f ≤ g := by
  by_cases h : F < P
  · obtain ⟨n, h1, h2, h3⟩ := C27_layout_collective hF h
    have hblock : ∀ p < P, ∀ f, ReadsFile F P p f → f < F ∧ pre n f ≤ p ∧ p < pre n f + n f := by
      intro p hp f hr
      obtain ⟨g, hg, h4, h5⟩ := exists_block (f := n) (show p < pre n F by omega)
      have hl := h3 g hg (p - pre n g) (by omega)
      rw [show pre n g + (p - pre n g) = p by omega] at hl
      rcases hr with ⟨first, num, e, -, -⟩ | ⟨k, m, e⟩
      · rw [hl] at e; simp at e
      · rw [hl] at e
        simp only [Except.ok.injEq, FileLayout.collective.injEq] at e
        obtain ⟨rfl, -, -⟩ := e
        exact ⟨hg, h4, h5⟩
    refine ⟨fun f hf => ?_, fun p hp f hr => (hblock p hp f hr).1, fun p q hpq hq f g hf hg => ?_⟩
    · have h4 := pre_lt_total (f := n) hf
      have h5 := h2 f hf
      refine ⟨pre n f + 0, by omega, Or.inr ⟨0, n f, h3 f hf 0 h5⟩⟩
    · obtain ⟨hf1, hf2, hf3⟩ := hblock p (by omega) f hf
      obtain ⟨hg1, hg2, hg3⟩ := hblock q hq g hg
      by_contra hlt
      have := pre_lt_total (f := n) (show g < f by omega)
      omega
  · obtain ⟨num, h1, h2, h3⟩ := layout_independent hP (show P ≤ F by omega)
    have hblock : ∀ p < P, ∀ f, ReadsFile F P p f ↔ pre num p ≤ f ∧ f < pre num p + num p := by
      intro p hp f
      unfold ReadsFile
      rw [h3 p hp]
      constructor
      · rintro (⟨first, m, e, h4, h5⟩ | ⟨k, m, e⟩)
        · simp only [Except.ok.injEq, FileLayout.independent.injEq] at e
          obtain ⟨rfl, rfl⟩ := e
          exact ⟨h4, h5⟩
        · simp at e
      · rintro ⟨h4, h5⟩
        exact Or.inl ⟨_, _, rfl, h4, h5⟩
    refine ⟨fun f hf => ?_, fun p hp f hr => ?_, fun p q hpq hq f g hf hg => ?_⟩
    · obtain ⟨p, hp, h4, h5⟩ := exists_block (f := num) (show f < pre num P by omega)
      exact ⟨p, hp, (hblock p hp f).2 ⟨h4, h5⟩⟩
    · have := (hblock p hp f).1 hr
      have := pre_lt_total (f := num) hp
      omega
    · have h4 := (hblock p (by omega) f).1 hf
      have h5 := (hblock q hq g).1 hg
      have := pre_lt_total (f := num) hpq
      omega

theorem arrayAt_none {files : Nat → H5 τ α β} {group : Option Name} {n : Name} {f : Nat} : arrayAt files group n f = none ↔ datasetAt (files f) group n = none := by
  unfold arrayAt
  rw [Option.map_eq_none_iff]

/-- Something was read if one of the files of the rank has the dataset. -/
theorem readLocal_some [DecidableEq τ] [Inhabited α] {P F : Nat} {files : Nat → Option (TypedArray τ α)} {idx : Nat → Nat} {itemsize : τ → Nat} {buffer_size p : Nat}
    {A : Option (TypedArray τ α)} {b : Bool} {N : Option (List Nat)} (h : readLocal P F files idx itemsize buffer_size p = .ok (A, b, N)) :
    A ≠ none ↔ ∃ f ∈ rankFiles F P p, files f ≠ none := by
  unfold readLocal at h
  unfold rankFiles
  cases hl : multiFileLayout F P p with
  | error e => rw [hl] at h; simp at h
  | ok l =>
    rw [hl] at h
    cases l with
    | independent first num =>
      simp only at h ⊢
      unfold readIndependent at h
      simp only at h
      cases hc : concatParts ((List.range' first num).filterMap files) with
      | error e => rw [hc] at h; simp at h
      | ok a =>
        rw [hc] at h
        simp only [Except.ok.injEq, Prod.mk.injEq] at h
        rw [← h.1]
        have : a ≠ none ↔ (List.range' first num).filterMap files ≠ [] := by
          cases hp : (List.range' first num).filterMap files with
          | nil => rw [hp] at hc; simp [concatParts] at hc; simp [← hc]
          | cons x rest =>
            rw [hp] at hc
            unfold concatParts at hc
            simp only at hc
            split at hc
            · simp only [Except.ok.injEq] at hc
              simp [← hc]
            · simp at hc
        rw [this, ne_eq, List.filterMap_eq_nil_iff]
        push Not
        rfl
    | collective f k m =>
      simp only at h ⊢
      cases hc : readCollective files idx itemsize buffer_size f k m with
      | error e => rw [hc] at h; simp at h
      | ok v =>
        obtain ⟨v1, v2⟩ := v
        rw [hc] at h
        simp only [Except.ok.injEq, Prod.mk.injEq] at h
        rw [← h.1]
        unfold readCollective at hc
        cases hf : files f with
        | none => rw [hf] at hc; simp at hc; simp [← hc.1, hf]
        | some a =>
          rw [hf] at hc
          simp only at hc
          split at hc
          · simp at hc
          · simp only [Except.ok.injEq, Prod.mk.injEq] at hc
            simp [← hc.1, hf]

/-- The attributes of a rank are those of its first file which has the dataset. -/
theorem attrOf_first {F P p : Nat} (hin : ∀ f, ReadsFile F P p f → f < F) {files : Nat → H5 τ α β} {group : Option Name} {n : Name} (h : ∃ f ∈ rankFiles F P p, datasetAt (files f) group n ≠ none) :
    ∃ a, attrOf files group true (rankFiles F P p) n = some a ∧ FirstWith F files group n (ReadsFile F P p) a := by
  have key : ∀ fs : List Nat, fs.Pairwise (· < ·) → (∃ f ∈ fs, datasetAt (files f) group n ≠ none) →
      ∃ f ∈ fs, ∃ d, datasetAt (files f) group n = some d ∧ (fs.filterMap (fun i => datasetAt (files i) group n)).head? = some d ∧ ∀ g ∈ fs, g < f → datasetAt (files g) group n = none := by
    intro fs
    induction fs with
    | nil => rintro - ⟨f, hf, -⟩; cases hf
    | cons i fs ih =>
      rintro hs ⟨f, hf, hne⟩
      rw [List.pairwise_cons] at hs
      cases hd : datasetAt (files i) group n with
      | some d =>
        refine ⟨i, by simp, d, hd, by simp [hd], ?_⟩
        intro g hg hlt
        rcases List.mem_cons.1 hg with rfl | hg
        · omega
        · have := hs.1 g hg; omega
      | none =>
        have hf' : f ∈ fs := by
          rcases List.mem_cons.1 hf with rfl | hf
          · exact absurd hd hne
          · exact hf
        obtain ⟨f', h1, d, h2, h3, h4⟩ := ih hs.2 ⟨f, hf', hne⟩
        refine ⟨f', by simp [h1], d, h2, by simp [hd, h3], ?_⟩
        intro g hg hlt
        rcases List.mem_cons.1 hg with rfl | hg
        · exact hd
        · exact h4 g hg hlt
  obtain ⟨f, h1, d, h2, h3, h4⟩ := key (rankFiles F P p) (rankFiles_sorted F P p) h
  refine ⟨d.attrs, ?_, f, hin f (mem_rankFiles.1 h1), mem_rankFiles.1 h1, by rw [h2]; rfl, fun g hg hr => h4 g (mem_rankFiles.2 hr) hg⟩
  unfold attrOf
  rw [if_pos rfl, h3]; rfl

/-! ### After reading -/

theorem getElem?_range_map {P p : Nat} (hp : p < P) (V : Nat → Option γ) : ((List.range P).map V)[p]?.bind id = V p := by
  rw [List.getElem?_map, List.getElem?_range hp]; rfl

theorem replaceNone_congr {P : Nat} {f g : Nat → Option (TypedArray τ α)} (h : ∀ p < P, f p = g p) {p : Nat} (hp : p < P) : replaceNone P f p = replaceNone P g p := by
  unfold replaceNone broadcastDtypeAndDims
  have e1 : (List.range P).map (fun p => (f p).map TypedArray.dtype) = (List.range P).map (fun p => (g p).map TypedArray.dtype) :=
    List.map_congr_left (fun q hq => by rw [h q (List.mem_range.1 hq)])
  have e2 : (List.range P).map (fun p => (f p).map TypedArray.dims) = (List.range P).map (fun p => (g p).map TypedArray.dims) :=
    List.map_congr_left (fun q hq => by rw [h q (List.mem_range.1 hq)])
  simp only [e1, e2, h p hp]

theorem replaceNone_has {P : Nat} {has : Nat → Bool} {t : τ} {d : List Nat} {rows : Nat → List α} (hex : ∃ p < P, has p = true) (habs : ∀ p < P, has p = false → rows p = []) {p : Nat} (hp : p < P) :
    replaceNone P (fun p => if has p then some ⟨t, d, rows p⟩ else none) p = .ok (some ⟨t, d, rows p⟩) := by
  by_cases h : has p = true
  · exact replaceNone_some (by simp [h])
  · have hfind := Nat.find_spec hex
    have hmin : ∀ q < Nat.find hex, has q = false := by
      intro q hq
      have := Nat.find_min hex hq
      have hlt := hfind.1
      cases hq' : has q
      · rfl
      · exact absurd ⟨by omega, hq'⟩ this
    have h' : has p = false := by simpa using h
    rw [replaceNone_none (r := Nat.find hex) (a := ⟨t, d, rows (Nat.find hex)⟩) (by simp [h']) hfind.1 (by simp [hfind.2]) (fun q hq => by simp [hmin q hq]), habs p hp h']

theorem replaceAll_has {P : Nat} {has : Nat → Bool} {t : τ} {d : List Nat} {rows : Nat → List α} (at' : Nat → Option (List (Name × β))) (hex : ∃ p < P, has p = true)
    (habs : ∀ p < P, has p = false → rows p = []) :
    replaceAll P ((List.range P).map (fun p => withAttrs (at' p) (if has p then some ⟨t, d, rows p⟩ else none))) =
      .ok ((List.range P).map (fun p => some ⟨⟨t, d, rows p⟩, if has p then at' p else none⟩)) := by
  unfold replaceAll
  rw [allRanks_ok (g := fun p => some ⟨t, d, rows p⟩) ?_]
  · simp only [Except.andThen, List.zip_map', List.map_map]
    congr 1
    apply List.map_congr_left
    intro p _
    cases hh : has p <;> simp [withAttrs, hh]
  · intro p hp
    rw [← replaceNone_has (t := t) (d := d) hex habs hp]
    apply replaceNone_congr _ hp
    intro q hq
    rw [getElem?_range_map hq]
    cases hh : has q <;> simp [withAttrs]

theorem replaceAll_none (P : Nat) : replaceAll P ((List.range P).map (fun _ => (none : Option (AArr τ α β)))) = .ok ((List.range P).map (fun _ => none)) := by
  unfold replaceAll
  rw [allRanks_ok (g := fun _ => none) ?_]
  · simp only [Except.andThen, List.zip_map', List.map_map]
    congr 1
  · intro p hp
    apply replaceNone_all hp
    intro q hq
    rw [getElem?_range_map hq]; rfl

theorem replaceNr_has {P : Nat} {has : Nat → Bool} {nr : Nat → List Nat} (hex : ∃ p < P, has p = true) (habs : ∀ p < P, has p = false → nr p = []) :
    replaceNr P ((List.range P).map (fun p => if has p then some (nr p) else none)) = .ok ((List.range P).map (fun p => some ⟨(), [], nr p⟩)) := by
  unfold replaceNr
  apply allRanks_ok
  intro p hp
  rw [← replaceNone_has (t := ()) (d := []) hex habs hp]
  apply replaceNone_congr _ hp
  intro q hq
  rw [getElem?_range_map hq]
  cases hh : has q <;> simp

theorem replaceNr_none (P : Nat) : replaceNr P ((List.range P).map (fun _ => none)) = .ok ((List.range P).map (fun _ => none)) := by
  unfold replaceNr
  apply allRanks_ok
  intro p hp
  apply replaceNone_all hp
  intro q hq
  rw [getElem?_range_map hq]; rfl

theorem typesOk_some [DecidableEq τ] (P : Nat) (t : τ) (d : List Nat) (rows : Nat → List α) (at' : Nat → Option (List (Name × β))) :
    typesOk ((List.range P).map (fun p => some (⟨⟨t, d, rows p⟩, at' p⟩ : AArr τ α β))) = true := by
  unfold typesOk
  simp only [List.filterMap_map]
  have : (List.range P).filterMap ((fun a : Option (AArr τ α β) => a.map (fun a => a.arr.dtype)) ∘ fun p => some ⟨⟨t, d, rows p⟩, at' p⟩) = List.replicate P t := by
    have : ((fun a : Option (AArr τ α β) => a.map (fun a => a.arr.dtype)) ∘ fun p => some ⟨⟨t, d, rows p⟩, at' p⟩) = (fun _ : Nat => some t) := by funext p; rfl
    rw [this]
    induction P with
    | zero => rfl
    | succ P ih => rw [List.range_succ, List.filterMap_append, ih, List.replicate_succ']; rfl
  rw [this]
  cases P with
  | zero => rfl
  | succ P => simp [List.replicate_succ]

theorem typesOk_none [DecidableEq τ] (P : Nat) : typesOk ((List.range P).map (fun _ => (none : Option (AArr τ α β)))) = true := by
  unfold typesOk
  simp [List.filterMap_map]

theorem shareAttrs_some {P : Nat} {has : Nat → Bool} (t : τ) (d : List Nat) (rows : Nat → List α) {at' : Nat → Option (List (Name × β))} {r : Nat} (hr : r < P) (hr1 : has r = true)
    (hr2 : ∀ q < r, has q = false) (hat : ∀ p < P, has p = true → (at' p).isSome) :
    shareAttrs ((List.range P).map (fun p => some (⟨⟨t, d, rows p⟩, if has p then at' p else none⟩ : AArr τ α β))) =
      (List.range P).map (fun p => some ⟨⟨t, d, rows p⟩, if has p then at' p else at' r⟩) := by
  unfold shareAttrs
  simp only [List.map_map]
  apply List.map_congr_left
  intro p hp
  rw [List.mem_range] at hp
  simp only [Function.comp_apply, Option.map_some, Option.some.injEq]
  cases hh : has p with
  | true =>
    simp only [if_true]
    obtain ⟨a, ha⟩ := Option.isSome_iff_exists.1 (hat p hp hh)
    simp only [ha]
  | false =>
    simp only [Bool.false_eq_true, if_false, AArr.mk.injEq, true_and]
    obtain ⟨a, ha⟩ := Option.isSome_iff_exists.1 (hat r hr hr1)
    rw [ha]
    refine findSome?_range hr ?_ ?_
    · simp [hr1, ha]
    · intro q hq
      simp [hr2 q hq]

theorem mapDict_map {f : List (Option γ) → Except Err (List (Option δ))} (ks : List Name) {h : Name → List (Option γ)} {g : Name → List (Option δ)} (hf : ∀ n ∈ ks, f (h n) = .ok (g n)) :
    mapDict f (ks.map (fun n => (n, h n))) = .ok (ks.map (fun n => (n, g n))) := by
  induction ks with
  | nil => rfl
  | cons k ks ih =>
    rw [List.map_cons, mapDict, hf k (by simp), ih (fun n hn => hf n (by simp [hn]))]
    rfl

/-- The keys of the dict of file numbers -/
def nrKeys (P F : Nat) (names : List Name) (r : NamesArg) : List Name := if P ≤ F then firsts r.iter else firsts (names.filter r.contains)

/-- One dataset -/
theorem perName [DecidableEq τ] [Inhabited α] {P F : Nat} (hP : 0 < P) (hF : 0 < F) {files : Nat → H5 τ α β} {idx : Nat → Nat} {group : Option Name} {n : Name} {itemsize : τ → Nat}
    {buffer_size : Nat} (native : τ → τ) {t : τ} {d : List Nat} {has : Nat → Bool} {rows : Nat → List α} {nr : Nat → List Nat} (ra : Bool)
    (h1 : ReadLocalOk P F (arrayAt files group n) idx t d has rows nr)
    (h2 : ∀ p < P, readLocal P F (arrayAt files group n) idx itemsize buffer_size p = .ok (if has p then some ⟨t, d, rows p⟩ else none, false, if has p then some (nr p) else none)) :
    ∃ V out nr', replaceAll P (((List.range P).map (fun p => withAttrs (attrOf files group ra (rankFiles F P p) n) (if has p then some (⟨t, d, rows p⟩ : TypedArray τ α) else none))).map
        (fun a => a.map (fun a => { a with arr := { a.arr with dtype := native a.arr.dtype } }))) = .ok V ∧ typesOk V = true ∧
      (if ra then shareAttrs V else V) = (List.range P).map out ∧ replaceNr P ((List.range P).map (fun p => if has p then some (nr p) else none)) = .ok ((List.range P).map nr') ∧
      Expected P F files idx group ra n (native t) d out nr' := by
  have hnat : ((List.range P).map (fun p => withAttrs (attrOf files group ra (rankFiles F P p) n) (if has p then some (⟨t, d, rows p⟩ : TypedArray τ α) else none))).map
      (fun a => a.map (fun a => { a with arr := { a.arr with dtype := native a.arr.dtype } })) =
      (List.range P).map (fun p => withAttrs (attrOf files group ra (rankFiles F P p) n) (if has p then some (⟨native t, d, rows p⟩ : TypedArray τ α) else none)) := by
    rw [List.map_map]
    apply List.map_congr_left
    intro p _
    cases hh : has p <;> simp [withAttrs, hh]
  rw [hnat]
  have hhas : ∀ p < P, has p = true ↔ ∃ f ∈ rankFiles F P p, datasetAt (files f) group n ≠ none := by
    intro p hp
    have := readLocal_some (h2 p hp)
    simp only [ne_eq, arrayAt_none] at this
    rw [← this]
    cases hh : has p <;> simp
  obtain ⟨ho1, ho2, ho3⟩ := readsFile_order hP hF
  by_cases hex : ∃ p < P, has p = true
  · have hr := Nat.find_spec hex
    have hmin : ∀ q < Nat.find hex, has q = false := by
      intro q hq
      have := Nat.find_min hex hq
      have hlt := hr.1
      cases hq' : has q
      · rfl
      · exact absurd ⟨by omega, hq'⟩ this
    generalize Nat.find hex = r at hr hmin
    refine ⟨_, fun p => some ⟨⟨native t, d, rows p⟩, if ra then (if has p then attrOf files group ra (rankFiles F P p) n else attrOf files group ra (rankFiles F P r) n) else none⟩,
      fun p => some ⟨(), [], nr p⟩, replaceAll_has _ hex (fun p hp hh => (h1.absent p hp hh).1), typesOk_some _ _ _ _ _, ?_,
      replaceNr_has hex (fun p hp hh => (h1.absent p hp hh).2), ?_⟩
    · cases ra with
      | true =>
        simp only [if_true]
        refine shareAttrs_some _ _ _ hr.1 hr.2 hmin ?_
        intro p hp hh
        obtain ⟨a, ha, -⟩ := attrOf_first (ho2 p hp) ((hhas p hp).1 hh)
        rw [ha]; rfl
      | false =>
        simp only [Bool.false_eq_true, if_false]
        apply List.map_congr_left
        intro p _
        cases has p <;> rfl
    · right
      refine ⟨?_, rows, nr, fun p => if ra then (if has p then attrOf files group ra (rankFiles F P p) n else attrOf files group ra (rankFiles F P r) n) else none,
        fun p hp => ⟨rfl, rfl, h1.len_eq p hp⟩, h1.rows_eq, ?_, h1.epf, ?_, ?_⟩
      · obtain ⟨f, hf, hne⟩ := h1.some_has.1 hex
        exact ⟨f, hf, fun h => hne (arrayAt_none.2 h)⟩
      · rw [← zip_gcat (fun p hp => (h1.len_eq p hp).symm), h1.rows_eq, h1.nr_eq, zip_gcat (fun p hp => by simp [fileNrs])]
        unfold filesWithNr
        rw [← gcat_eq_flatMap]
        apply gcat_congr
        intro f hf
        unfold fileNrs
        generalize fileRows (arrayAt files group n) f = l
        induction l with
        | nil => rfl
        | cons x l ih => rw [List.length_cons, List.replicate_succ, List.zip_cons_cons, ih]; rfl
      · intro hra p _
        subst hra
        rfl
      · intro hra p hp
        subst hra
        simp only [if_true]
        cases hh : has p with
        | true =>
          obtain ⟨a, ha, hfw⟩ := attrOf_first (ho2 p hp) ((hhas p hp).1 hh)
          exact ⟨a, by simp [ha], Or.inl hfw⟩
        | false =>
          obtain ⟨a, ha, f, hf, hrf, hat, hbef⟩ := attrOf_first (ho2 r hr.1) ((hhas r hr.1).1 hr.2)
          refine ⟨a, by simp [ha], Or.inr ⟨?_, f, hf, trivial, hat, ?_⟩⟩
          · intro g hg hrg
            by_contra hne
            have := (hhas p hp).2 ⟨g, mem_rankFiles.2 hrg, hne⟩
            rw [hh] at this
            cases this
          · intro g hg _
            obtain ⟨q, hq, hrq⟩ := ho1 g (by omega)
            by_contra hne
            have hq' : has q = true := (hhas q hq).2 ⟨g, mem_rankFiles.2 hrq, hne⟩
            rcases Nat.lt_trichotomy q r with hqr | rfl | hqr
            · rw [hmin q hqr] at hq'; cases hq'
            · exact hne (hbef g hg hrq)
            · have := ho3 r q hqr hq f g hrf hrq
              omega
  · have hno : ∀ p < P, has p = false := by
      intro p hp
      cases hh : has p
      · rfl
      · exact absurd ⟨p, hp, hh⟩ hex
    have e1 : (List.range P).map (fun p => withAttrs (attrOf files group ra (rankFiles F P p) n) (if has p then some (⟨native t, d, rows p⟩ : TypedArray τ α) else none)) =
        (List.range P).map (fun _ => none) := by
      apply List.map_congr_left
      intro p hp
      rw [hno p (List.mem_range.1 hp)]; rfl
    have e2 : (List.range P).map (fun p => if has p then some (nr p) else none) = (List.range P).map (fun _ => none) := by
      apply List.map_congr_left
      intro p hp
      rw [hno p (List.mem_range.1 hp)]; rfl
    rw [e1, e2]
    refine ⟨_, fun _ => none, fun _ => none, replaceAll_none P, typesOk_none P, ?_, replaceNr_none P, Or.inl ⟨?_, fun p _ => ⟨rfl, rfl⟩⟩⟩
    · cases ra
      · rfl
      · simp [shareAttrs]
    · intro f hf
      by_contra hne
      exact hex (h1.some_has.2 ⟨f, hf, fun h => hne (arrayAt_none.1 h)⟩)

/-- What is returned in terms of the values expected on each rank -/
theorem multiRead_core [DecidableEq τ] [Inhabited α] {P F : Nat} (hP : 0 < P) (hF : 0 < F) (files : Nat → H5 τ α β) (idx : Nat → Nat) (itemsize : τ → Nat) (native : τ → τ)
    (buffer_size : Nat) (group : Option Name) (ra : Bool) (names : List Name) (t : Name → τ) (d : Name → List Nat)
    (hok : ∀ n ∈ names, SameType F (arrayAt files group n) (t n) (d n) ∧ (F < P → 0 < elementSize (itemsize (t n)) (d n) ∧ elementSize (itemsize (t n)) (d n) ≤ buffer_size)) :
    ∃ out : Name → Nat → Option (AArr τ α β), ∃ nr : Name → Nat → Option (TypedArray Unit Nat), (∀ n ∈ names, Expected P F files idx group ra n (native (t n)) (d n) (out n) (nr n)) ∧ (∀ n, n ∉ names → ∀ p, nr n p = none) ∧
      ∀ (datasets : NamesArg) (ret : Option NamesArg) (unpack : Bool), datasets.names = names →
        multiRead P F files idx itemsize native buffer_size datasets group ret ra unpack =
          allRanks P (returned datasets unpack ((firsts names).map (fun n => (n, (List.range P).map (out n))))
            (ret.map (fun r => (nrKeys P F names r).map (fun n => (n, (List.range P).map (nr n)))))) := by
  have hper : ∀ n, ∃ has rows nr, n ∈ names → ReadLocalOk P F (arrayAt files group n) idx (t n) (d n) has rows nr ∧
      ∀ p < P, readLocal P F (arrayAt files group n) idx itemsize buffer_size p = .ok (if has p then some ⟨t n, d n, rows p⟩ else none, false, if has p then some (nr p) else none) := by
    intro n
    by_cases hn : n ∈ names
    · obtain ⟨has, rows, nr, h⟩ := readLocal_ok hP hF idx (hok n hn).1 (hok n hn).2
      exact ⟨has, rows, nr, fun _ => h⟩
    · exact ⟨fun _ => false, fun _ => [], fun _ => [], fun h => absurd h hn⟩
  choose has rows nr0 hloc using hper
  have hper2 : ∀ n, ∃ (V : List (Option (AArr τ α β))) (out : Nat → Option (AArr τ α β)) (nr' : Nat → Option (TypedArray Unit Nat)), n ∈ names →
      replaceAll P (((List.range P).map (fun p => withAttrs (attrOf files group ra (rankFiles F P p) n) (if has n p then some (⟨t n, d n, rows n p⟩ : TypedArray τ α) else none))).map
        (fun a => a.map (fun a => { a with arr := { a.arr with dtype := native a.arr.dtype } }))) = .ok V ∧ typesOk V = true ∧
      (if ra then shareAttrs V else V) = (List.range P).map out ∧ replaceNr P ((List.range P).map (fun p => if has n p then some (nr0 n p) else none)) = .ok ((List.range P).map nr') ∧
      Expected P F files idx group ra n (native (t n)) (d n) out nr' := fun n => by
    by_cases hn : n ∈ names
    · obtain ⟨V, out, nr', h⟩ := perName hP hF native ra (hloc n hn).1 (hloc n hn).2
      exact ⟨V, out, nr', fun _ => h⟩
    · exact ⟨[], fun _ => none, fun _ => none, fun h => absurd h hn⟩
  choose V out nr' hper3 using hper2
  refine ⟨out, fun n p => if n ∈ names then nr' n p else none, fun n hn => ?_, fun n hn p => if_neg hn, ?_⟩
  · have := (hper3 n hn).2.2.2.2
    simpa only [if_pos hn] using this
  · intro datasets ret unpack hnames
    unfold multiRead
    rw [hnames]
    have hread : ∃ N : Name → Nat → Option (List Nat), (∀ n, replaceNr P ((List.range P).map (N n)) = .ok ((List.range P).map (fun p => if n ∈ names then nr' n p else none))) ∧
        (if F ≥ P then readIndependentAll P F files idx group names ret ra
          else readCollectiveAll P F files idx group ret ra itemsize buffer_size names [] (ret.map (fun _ => []))) =
        .ok ((firsts names).map (fun n => (n, (List.range P).map (fun p => withAttrs (attrOf files group ra (rankFiles F P p) n) (if has n p then some ⟨t n, d n, rows n p⟩ else none)))),
          ret.map (fun r => (nrKeys P F names r).map (fun n => (n, (List.range P).map (N n))))) := by
      refine ⟨fun n p => if n ∈ names then (if has n p then some (nr0 n p) else none) else none, ?_, ?_⟩
      · intro n
        by_cases hn : n ∈ names
        · simp only [if_pos hn]
          exact (hper3 n hn).2.2.2.1
        · simp only [if_neg hn]
          exact replaceNr_none P
      · by_cases h : P ≤ F
        · rw [if_pos h, readIndependentAll_eq hP h files idx group names ret ra (itemsize := itemsize) (buffer_size := buffer_size) (A := fun n p => if has n p then some ⟨t n, d n, rows n p⟩ else none)
            (N := fun n p => if has n p then some (nr0 n p) else none) (fun n hn => (hloc n hn).2)]
          simp only [nrKeys, if_pos h]
        · rw [if_neg h, readCollectiveAll_eq hF (by omega) files idx group names ret ra (itemsize := itemsize) (buffer_size := buffer_size)
            (A := fun n p => if has n p then some ⟨t n, d n, rows n p⟩ else none) (N := fun n p => if has n p then some (nr0 n p) else none) (fun n hn => (hloc n hn).2)]
          simp only [nrKeys, if_neg h, Except.ok.injEq, Prod.mk.injEq, true_and]
          cases ret with
          | none => rfl
          | some r =>
            simp only [Option.map_some, Option.some.injEq]
            apply List.map_congr_left
            intro n hn
            rw [mem_firsts, List.mem_filter] at hn
            simp only [if_pos hn.1]
    obtain ⟨N, hN, hread⟩ := hread
    rw [hread]
    simp only [Except.andThen]
    have hdata : mapDict (replaceAll P) (nativeDict native ((firsts names).map (fun n => (n, (List.range P).map (fun p =>
        withAttrs (attrOf files group ra (rankFiles F P p) n) (if has n p then some (⟨t n, d n, rows n p⟩ : TypedArray τ α) else none)))))) = .ok ((firsts names).map (fun n => (n, V n))) := by
      unfold nativeDict
      rw [List.map_map]
      exact mapDict_map (firsts names) (fun n hn => (hper3 n (mem_firsts.1 hn)).1)
    rw [hdata]
    have hnrs : replaceNrs P (ret.map (fun r => (nrKeys P F names r).map (fun n => (n, (List.range P).map (N n))))) =
        .ok (ret.map (fun r => (nrKeys P F names r).map (fun n => (n, (List.range P).map (fun p => if n ∈ names then nr' n p else none))))) := by
      cases ret with
      | none => rfl
      | some r =>
        simp only [Option.map_some, replaceNrs]
        rw [mapDict_map _ (fun n _ => hN n)]
        rfl
    rw [hnrs]
    simp only
    rw [if_neg]
    · congr 1
      congr 1
      cases hra : ra with
      | false =>
        simp only [Bool.false_eq_true, if_false]
        apply List.map_congr_left
        intro n hn
        have := (hper3 n (mem_firsts.1 hn)).2.2.1
        rw [hra] at this
        simp only [Bool.false_eq_true, if_false] at this
        rw [this]
      | true =>
        simp only [if_true, List.map_map]
        apply List.map_congr_left
        intro n hn
        have := (hper3 n (mem_firsts.1 hn)).2.2.1
        rw [hra] at this
        simp only [if_true] at this
        simp only [Function.comp_apply, this]
    · simp only [List.any_map, List.any_eq_true, Function.comp_apply, not_exists, not_and]
      intro n hn
      rw [(hper3 n (mem_firsts.1 hn)).2.1]
      simp

/-! ### What is returned -/

theorem onRank_map {P p : Nat} (hp : p < P) (ks : List Name) (h : Name → Nat → Option γ) :
    onRank (ks.map (fun n => (n, (List.range P).map (h n)))) p = ks.map (fun n => (n, h n p)) := by
  unfold onRank
  rw [List.map_map]
  apply List.map_congr_left
  intro n _
  simp only [Function.comp_apply, getElem?_range_map hp]

theorem lookup_map (ks : List Name) (h : Name → Option γ) (m : Name) : lookup (ks.map (fun n => (n, h n))) m = if m ∈ ks then .ok (h m) else .error .keyError := by
  unfold lookup
  rw [dget_map]
  by_cases hm : m ∈ ks <;> simp [hm]

theorem mapM_error {ι : Type*} {l : List ι} {f : ι → Except Err γ} {e : Err} (h : ∃ p ∈ l, f p = .error e) (h' : ∀ p ∈ l, f p = .error e ∨ ∃ v, f p = .ok v) : l.mapM f = .error e := by
  induction l with
  | nil => obtain ⟨p, hp, -⟩ := h; cases hp
  | cons p l ih =>
    rw [List.mapM_cons]
    rcases h' p (by simp) with hp | ⟨v, hv⟩
    · rw [hp]; rfl
    · rw [hv]
      have : l.mapM f = .error e := by
        apply ih
        · obtain ⟨q, hq, hqe⟩ := h
          rcases List.mem_cons.1 hq with rfl | hq
          · rw [hv] at hqe; cases hqe
          · exact ⟨q, hq, hqe⟩
        · exact fun q hq => h' q (by simp [hq])
      rw [this]; rfl

end Verif.MultiFileRead
