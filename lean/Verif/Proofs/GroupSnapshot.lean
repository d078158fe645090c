import Verif.Spec.GroupSnapshot
import Mathlib.Data.List.GetD
import Verif.Proofs.Ranges
import Verif.Lib.Mpi
import Mathlib.Tactic.Ring

/-! Windows of concatenated lists, and the loops over files. -/

namespace Verif

variable {α : Type*}

theorem between_nil (a b : Int) : between ([] : List α) a b = [] := rfl

theorem between_append (x y : List α) (a b : Int) : between (x ++ y) a b = between x a b ++ between y (a - x.length) (b - x.length) := by
  unfold between
  rw [List.zipIdx_append, List.filter_append, List.map_append]
  congr 1
  rw [List.zipIdx_eq_map_add (i := 0 + x.length), List.filter_map, List.map_map]
  change List.map Prod.fst _ = _
  congr 1
  apply List.filter_congr
  intro e _
  simp only [Function.comp_apply, decide_eq_decide]
  push_cast
  omega

theorem between_cons (v : α) (l : List α) (a b : Int) : between (v :: l) a b = (if a ≤ 0 ∧ 0 < b then [v] else []) ++ between l (a - 1) (b - 1) := by
  have := between_append [v] l a b
  simp only [List.singleton_append, List.length_singleton, Nat.cast_one] at this
  rw [this]
  congr 1
  unfold between
  by_cases h : a ≤ 0 ∧ 0 < b
  · simp [h]
  · simp [h]

theorem between_eq_slice (l : List α) (a b : Int) : between l a b = slice l a.toNat (b.toNat - a.toNat) := by
  induction l generalizing a b with
  | nil => simp [between_nil, slice]
  | cons v l ih =>
    rw [between_cons, ih]
    by_cases ha : a ≤ 0
    · have h1 : a.toNat = 0 := by omega
      have h2 : (a - 1).toNat = 0 := by omega
      rw [h1, h2]
      by_cases hb : 0 < b
      · rw [if_pos ⟨ha, hb⟩]
        have : b.toNat = (b - 1).toNat + 1 := by omega
        rw [this]
        simp [slice]
      · rw [if_neg (by tauto)]
        have h3 : b.toNat = 0 := by omega
        have h4 : (b - 1).toNat = 0 := by omega
        rw [h3, h4]
        simp [slice]
    · rw [if_neg (by tauto)]
      have h1 : a.toNat = (a - 1).toNat + 1 := by omega
      have h2 : b.toNat - a.toNat = (b - 1).toNat - (a - 1).toNat := by omega
      rw [h2, h1]
      simp [slice]

theorem length_between (l : List α) (a b : Int) : ((between l a b).length : Int) = max 0 (min b l.length - max a 0) := by
  rw [between_eq_slice]
  simp only [slice, List.length_take, List.length_drop]
  omega

theorem between_eq_nil (l : List α) (a b : Int) : between l a b = [] ↔ min b l.length ≤ max a 0 := by
  rw [← List.length_eq_zero_iff]
  have := length_between l a b
  omega

/-- Which particles are read from a file -/
theorem rowsToRead_spec (x : List α) {n fis lis fp lp : Int} (hn : n = x.length) (hl : 0 < n → lis ≥ fis) :
    match rowsToRead n fis lis fp lp with
    | none => between x (fp - fis) (lp + 1 - fis) = []
    | some (f, l) => slice x f.toNat (l + 1 - f).toNat = between x (fp - fis) (lp + 1 - fis) ∧ between x (fp - fis) (lp + 1 - fis) ≠ [] := by
  unfold rowsToRead
  by_cases h0 : 0 < n
  · rw [if_pos (hl h0)]
    simp only
    by_cases hc : (if lp - fis ≥ n then n - 1 else lp - fis) ≥ (if fp - fis < 0 then 0 else fp - fis) ∧ n > 0
    · rw [if_pos hc]
      simp only
      constructor
      · rw [between_eq_slice]
        have hc := hc.1
        split at hc <;> split at hc
        all_goals (rename_i h1 h2)
        · rw [if_pos h1, if_pos h2]
          have : (fp - fis).toNat = 0 := by omega
          rw [this]
          simp only [slice, Int.toNat_zero, List.drop_zero]
          rw [List.take_of_length_le (by omega), List.take_of_length_le (by omega)]
        · rw [if_pos h1, if_neg h2]
          simp only [slice]
          rw [List.take_of_length_le (by simp; omega), List.take_of_length_le (by simp; omega)]
        · rw [if_neg h1, if_pos h2]
          have : (fp - fis).toNat = 0 := by omega
          rw [this]
          simp only [slice, Int.toNat_zero, List.drop_zero]
          congr 1
          omega
        · rw [if_neg h1, if_neg h2]
          simp only [slice]
          congr 1
          omega
      · rw [Ne, between_eq_nil]
        have hc := hc.1
        split at hc <;> split at hc <;> omega
    · rw [if_neg hc]
      simp only
      rw [between_eq_nil]
      have hc : ¬ ((if lp - fis ≥ n then n - 1 else lp - fis) ≥ (if fp - fis < 0 then 0 else fp - fis)) := fun h => hc ⟨h, h0⟩
      split at hc <;> split at hc <;> omega
  · have hx : x = [] := by rw [← List.length_eq_zero_iff]; omega
    subst hx
    by_cases hlf : lis ≥ fis
    · rw [if_pos hlf]
      simp only
      rw [if_neg (by tauto)]
      exact between_nil _ _
    · rw [if_neg hlf]
      exact between_nil _ _

/-! ### Dictionaries -/

theorem dget_map {β : Type*} (ds : List Name) (h : Name → β) {m : Name} (hm : m ∈ ds) : dget (ds.map (fun n => (n, h n))) m = some (h m) := by
  induction ds with
  | nil => simp at hm
  | cons d ds ih =>
    by_cases hd : d = m
    · subst hd; simp [dget]
    · have hm' : m ∈ ds := by simpa [Ne.symm hd] using hm
      have := ih hm'
      simp only [dget, List.map_cons] at this ⊢
      rw [List.find?_cons_of_neg (by simpa using hd)]
      exact this

theorem dset_map {β : Type*} (ds : List Name) (hd : ds.Nodup) (h : Name → β) {m : Name} (hm : m ∈ ds) (v : β) :
    dset (ds.map (fun n => (n, h n))) m v = ds.map (fun n => (n, if n = m then v else h n)) := by
  induction ds with
  | nil => simp at hm
  | cons d ds ih =>
    rw [List.nodup_cons] at hd
    simp only [List.map_cons, dset]
    by_cases hdm : d = m
    · subst hdm
      rw [if_pos rfl, if_pos rfl]
      congr 1
      apply List.map_congr_left
      intro n hn
      rw [if_neg]
      rintro rfl
      exact hd.1 hn
    · rw [if_neg hdm, if_neg hdm, ih hd.2 (by simpa [Ne.symm hdm] using hm)]

theorem dset_new {β : Type*} (ds : List Name) (h : Name → β) {m : Name} (hm : m ∉ ds) (v : β) : dset (ds.map (fun n => (n, h n))) m v = ds.map (fun n => (n, h n)) ++ [(m, v)] := by
  induction ds with
  | nil => rfl
  | cons d ds ih =>
    simp only [List.mem_cons, not_or] at hm
    simp only [List.map_cons, dset, if_neg (Ne.symm hm.1), ih hm.2, List.cons_append]

theorem init_dict {β : Type*} (v : β) (ds : List Name) (hd : ds.Nodup) : ds.foldl (fun d name => dset d name v) ([] : List (Name × β)) = ds.map (fun n => (n, v)) := by
  have : ∀ (todo done : List Name), (done ++ todo).Nodup → todo.foldl (fun d name => dset d name v) (done.map (fun n => (n, v))) = (done ++ todo).map (fun n => (n, v)) := by
    intro todo
    induction todo with
    | nil => intro done _; simp
    | cons t todo ih =>
      intro done h
      rw [List.foldl_cons, dset_new done (fun _ => v) (by
        intro hc
        rw [List.nodup_append] at h
        exact h.2.2 t hc t (by simp) rfl)]
      have h2 := ih (done ++ [t]) (by simpa using h)
      simpa using h2
  simpa using this ds [] (by simpa using hd)

theorem appendRows_spec (snap : SnapData α) (f l : Int) (c : Name → List α) (ds : List Name) (hd : ds.Nodup) (todo : List Name) (ht : todo.Nodup) (hsub : ∀ n ∈ todo, n ∈ ds)
    (hc : ∀ n ∈ todo, snap.rows 1 n f l = .ok (c n)) (h : Name → List (List α)) :
    appendRows snap f l todo (ds.map (fun n => (n, h n))) = .ok (ds.map (fun n => (n, if n ∈ todo then h n ++ [c n] else h n))) := by
  induction todo generalizing h with
  | nil => simp [appendRows]
  | cons t todo ih =>
    rw [List.nodup_cons] at ht
    simp only [appendRows, hc t (by simp), dget_map ds h (hsub t (by simp))]
    rw [dset_map ds hd h (hsub t (by simp)), ih ht.2 (fun n hn => hsub n (by simp [hn])) (fun n hn => hc n (by simp [hn]))]
    congr 1
    apply List.map_congr_left
    intro n _
    by_cases hnt : n = t
    · subst hnt; simp [ht.1]
    · simp [hnt]

theorem concatChunks_spec (ds : List Name) (g : Name → List (List α)) :
    concatChunks (ds.map (fun n => (n, g n))) = if ∀ n ∈ ds, g n ≠ [] then .ok (ds.map (fun n => (n, (g n).flatten))) else .error .valueError := by
  induction ds with
  | nil => simp [concatChunks]
  | cons d ds ih =>
    simp only [List.map_cons, concatChunks]
    by_cases h : g d = []
    · rw [if_pos h, if_neg (by simp [h])]
    · rw [if_neg h, ih]
      by_cases h2 : ∀ n ∈ ds, g n ≠ []
      · rw [if_pos h2, if_pos (by simpa [h] using h2)]
      · rw [if_neg h2, if_neg (by simp only [List.forall_mem_cons]; tauto)]

/-! ### P-Gadget3 -/

/-- The numbers of particles which are known are right. -/
def CacheOk (files : Nat → SnapData α) (num : Nat) (cache : List Int) : Prop := cache.length = num ∧ ∀ i < num, cache.getD i 0 = -1 ∨ cache.getD i 0 = (files i).npart.getD 1 0

theorem cacheNpart_ok {files : Nat → SnapData α} {num : Nat} {cache : List Int} (h : CacheOk files num cache) {i : Nat} (hi : i < num) :
    CacheOk files num (cacheNpart files cache i) ∧ (cacheNpart files cache i).getD i 0 = (files i).npart.getD 1 0 := by
  unfold cacheNpart
  by_cases hc : cache.getD i 0 = -1
  · rw [if_pos hc]
    have hset : ∀ j, (cache.set i ((files i).npart.getD 1 0)).getD j 0 = if i = j ∧ i < num then (files i).npart.getD 1 0 else cache.getD j 0 := by
      intro j
      simp only [List.getD_eq_getElem?_getD, List.getElem?_set, h.1]
      by_cases hij : i = j
      · subst hij; simp [hi]
      · simp [hij]
    refine ⟨⟨by simp [h.1], ?_⟩, ?_⟩
    · intro j hj
      rw [hset]
      by_cases hij : i = j
      · subst hij; rw [if_pos ⟨rfl, hi⟩]; right; rfl
      · rw [if_neg (by tauto)]; exact h.2 j hj
    · rw [hset, if_pos ⟨rfl, hi⟩]
  · rw [if_neg hc]
    exact ⟨h, (h.2 i hi).resolve_left hc⟩

theorem rangeLoop_cache (files : Nat → SnapData α) (num : Nat) (ds : List Name) (fp lp : Int) (is : List Nat) (his : ∀ i ∈ is, i < num) (cache : List Int) (hc : CacheOk files num cache) (fis : Int) (res : Chunks α) :
    CacheOk files num (rangeLoop files ds fp lp is cache fis res).1 := by
  induction is generalizing cache fis res with
  | nil => exact hc
  | cons i is ih =>
    have hc' := (cacheNpart_ok hc (his i (by simp))).1
    simp only [rangeLoop]
    split
    · exact hc'
    · split
      · exact hc'
      · exact ih (fun j hj => his j (by simp [hj])) _ hc' _ _

theorem rangeLoop_spec {files : Nat → SnapData α} {num : Nat} {ds : List Name} (hd : ds.Nodup) (hhas : ∀ n ∈ ds, ∀ i < num, (files i).Has 1 n) (fp lp : Int) (is : List Nat) (his : ∀ i ∈ is, i < num)
    {cache : List Int} (hc : CacheOk files num cache) (fis : Int) (g : Name → List (List α)) :
    ∃ e : Name → List (List α), (rangeLoop files ds fp lp is cache fis (ds.map (fun n => (n, g n)))).2 = .ok (ds.map (fun n => (n, g n ++ e n))) ∧
      ∀ n ∈ ds, (e n).flatten = between (is.flatMap (fun i => ((files i).data 1 n).getD [])) (fp - fis) (lp + 1 - fis) ∧
        (e n = [] ↔ between (is.flatMap (fun i => ((files i).data 1 n).getD [])) (fp - fis) (lp + 1 - fis) = []) := by
  induction is generalizing cache fis g with
  | nil => exact ⟨fun _ => [], by simp [rangeLoop], fun n _ => by simp [between_nil]⟩
  | cons i is ih =>
    have hi := his i (by simp)
    obtain ⟨hc', hn⟩ := cacheNpart_ok hc hi
    simp only [rangeLoop, hn]
    set n := (files i).npart.getD 1 0 with hndef
    -- what is read from this file
    have hread : ∃ e : Name → List (List α), rangeRead (files i) ds n fis (fis + n - 1) fp lp (ds.map (fun m => (m, g m))) = .ok (ds.map (fun m => (m, g m ++ e m))) ∧
        ∀ m ∈ ds, (e m).flatten = between (((files i).data 1 m).getD []) (fp - fis) (lp + 1 - fis) ∧ (e m = [] ↔ between (((files i).data 1 m).getD []) (fp - fis) (lp + 1 - fis) = []) := by
      unfold rangeRead
      rcases hr : rowsToRead n fis (fis + n - 1) fp lp with _ | ⟨f, l⟩
      · refine ⟨fun _ => [], by simp, ?_⟩
        intro m hm
        have := rowsToRead_spec (((files i).data 1 m).getD []) (n := n) (fis := fis) (lis := fis + n - 1) (fp := fp) (lp := lp) (hhas m hm i hi).1 (by omega)
        rw [hr] at this
        simp only at this
        simp [this]
      · have hspec : ∀ m ∈ ds, slice (((files i).data 1 m).getD []) f.toNat (l + 1 - f).toNat = between (((files i).data 1 m).getD []) (fp - fis) (lp + 1 - fis) ∧
            between (((files i).data 1 m).getD []) (fp - fis) (lp + 1 - fis) ≠ [] := by
          intro m hm
          have := rowsToRead_spec (((files i).data 1 m).getD []) (n := n) (fis := fis) (lis := fis + n - 1) (fp := fp) (lp := lp) (hhas m hm i hi).1 (by omega)
          rw [hr] at this
          exact this
        have hrows : ∀ m ∈ ds, (files i).rows 1 m f l = .ok (between (((files i).data 1 m).getD []) (fp - fis) (lp + 1 - fis)) := by
          intro m hm
          obtain ⟨h1, h2⟩ := hspec m hm
          unfold SnapData.rows
          rcases hdat : (files i).data 1 m with _ | x
          · rw [hdat] at h2; simp [between_nil] at h2
          · rw [hdat] at h1; simp only [Option.getD_some] at h1 ⊢; rw [h1]
        refine ⟨fun m => [between (((files i).data 1 m).getD []) (fp - fis) (lp + 1 - fis)], ?_, ?_⟩
        · simp only
          rw [appendRows_spec (files i) f l _ ds hd ds hd (fun _ h => h) hrows g]
          congr 1
          apply List.map_congr_left
          intro m hm
          rw [if_pos hm]
        · intro m hm
          simp [(hspec m hm).2]
    obtain ⟨e, he1, he2⟩ := hread
    rw [he1]
    simp only [List.flatMap_cons]
    by_cases hstop : fis + n - 1 ≥ lp
    · rw [if_pos hstop]
      refine ⟨e, rfl, ?_⟩
      intro m hm
      have hlen := (hhas m hm i hi).1
      have hz : between (is.flatMap (fun i => ((files i).data 1 m).getD [])) (fp - fis - (((files i).data 1 m).getD []).length) (lp + 1 - fis - (((files i).data 1 m).getD []).length) = [] := by
        rw [between_eq_nil]; omega
      rw [between_append, hz, List.append_nil]
      exact he2 m hm
    · rw [if_neg hstop]
      obtain ⟨e', h1, h2⟩ := ih (fun j hj => his j (by simp [hj])) hc' (fis + n) (fun m => g m ++ e m)
      refine ⟨fun m => e m ++ e' m, by rw [h1]; simp, ?_⟩
      intro m hm
      have hlen := (hhas m hm i hi).1
      have ha : fp - fis - ((((files i).data 1 m).getD []).length : Int) = fp - (fis + n) := by omega
      have hb : lp + 1 - fis - ((((files i).data 1 m).getD []).length : Int) = lp + 1 - (fis + n) := by omega
      rw [between_append, ha, hb]
      obtain ⟨k1, k2⟩ := he2 m hm
      obtain ⟨k3, k4⟩ := h2 m hm
      refine ⟨by rw [List.flatten_append, k1, k3], ?_⟩
      rw [List.append_eq_nil_iff, List.append_eq_nil_iff, k2, k4]

/-! ### Gadget-4 -/

/-- `result[itype]` when arrays of the files in `k` have been read -/
def packed (k : List (Name → List α)) : Chunks α := if k = [] then [] else fofDatasets.map (fun n => (n, k.map (fun f => f n)))

/-- One array more, if there is something -/
def addChunk (r : Chunks α) (d : Name) (w : List α) : Chunks α := if w = [] then r else dset r d ((dget r d).getD [] ++ [w])

theorem fofAppend_spec (snap : SnapData α) (n fis lis fp lp : Nat → Int) (d : Name) (t : Nat) (h : snap.Has t d) (hn : n t = snap.npart.getD t 0) (hl : 0 < n t → lis t ≥ fis t) (result : Nat → Chunks α) :
    fofAppend snap n fis lis fp lp d t result = .ok (fun u => if u = t then addChunk (result u) d (between ((snap.data u d).getD []) (fp u - fis u) (lp u + 1 - fis u)) else result u) := by
  have hs := rowsToRead_spec ((snap.data t d).getD []) (n := n t) (fis := fis t) (lis := lis t) (fp := fp t) (lp := lp t) (hn.trans h.1) hl
  unfold fofAppend
  rcases hr : rowsToRead (n t) (fis t) (lis t) (fp t) (lp t) with _ | ⟨f, l⟩
  · rw [hr] at hs
    simp only at hs ⊢
    congr 1
    funext u
    by_cases hu : u = t
    · subst hu; rw [if_pos rfl, addChunk, if_pos hs]
    · rw [if_neg hu]
  · rw [hr] at hs
    simp only at hs ⊢
    have hrows : snap.rows t d f l = .ok (between ((snap.data t d).getD []) (fp t - fis t) (lp t + 1 - fis t)) := by
      unfold SnapData.rows
      rcases hdat : snap.data t d with _ | x
      · rw [hdat] at hs; simp [between_nil] at hs
      · rw [hdat] at hs; simp only [Option.getD_some] at hs ⊢; rw [hs.1]
    rw [hrows]
    simp only
    congr 1
    funext u
    by_cases hu : u = t
    · subst hu; rw [if_pos rfl, if_pos rfl, addChunk, if_neg hs.2]
    · rw [if_neg hu, if_neg hu]

theorem fofAppendAll_spec (snap : SnapData α) (n fis lis fp lp : Nat → Int) (pairs : List (Name × Nat)) (h : ∀ p ∈ pairs, snap.Has p.2 p.1) (hn : ∀ p ∈ pairs, n p.2 = snap.npart.getD p.2 0)
    (hl : ∀ p ∈ pairs, 0 < n p.2 → lis p.2 ≥ fis p.2) (result : Nat → Chunks α) :
    fofAppendAll snap n fis lis fp lp pairs result = .ok (fun u => (pairs.filter (fun p => p.2 = u)).foldl (fun r p => addChunk r p.1 (between ((snap.data u p.1).getD []) (fp u - fis u) (lp u + 1 - fis u))) (result u)) := by
  induction pairs generalizing result with
  | nil => simp [fofAppendAll]
  | cons p pairs ih =>
    obtain ⟨d, t⟩ := p
    simp only [fofAppendAll]
    rw [fofAppend_spec snap n fis lis fp lp d t (h (d, t) (by simp)) (hn (d, t) (by simp)) (hl (d, t) (by simp))]
    simp only
    rw [ih (fun p hp => h p (by simp [hp])) (fun p hp => hn p (by simp [hp])) (fun p hp => hl p (by simp [hp]))]
    congr 1
    funext u
    by_cases hu : u = t
    · subst hu
      rw [List.filter_cons_of_pos (by simp), List.foldl_cons, if_pos rfl]
    · rw [List.filter_cons_of_neg (by simpa using Ne.symm hu), if_neg hu]

theorem fofPairs_filter {t : Nat} (ht : t < 6) : fofPairs.filter (fun p => p.2 = t) = fofDatasets.map (fun d => (d, t)) := by
  have : ∀ u : Fin 6, fofPairs.filter (fun p => p.2 = u.val) = fofDatasets.map (fun d => (d, u.val)) := by decide +kernel
  exact this ⟨t, ht⟩

theorem fofPairs_mem {p : Name × Nat} (hp : p ∈ fofPairs) : p.1 ∈ fofDatasets ∧ p.2 < 6 := by
  unfold fofPairs at hp
  rw [List.mem_flatMap] at hp
  obtain ⟨d, hd, hp⟩ := hp
  rw [List.mem_map] at hp
  obtain ⟨t, ht, rfl⟩ := hp
  exact ⟨hd, List.mem_range.1 ht⟩

theorem packed_add (k : List (Name → List α)) (w : Name → List α) (hw : ∀ a ∈ fofDatasets, ∀ b ∈ fofDatasets, w a = [] → w b = []) :
    fofDatasets.foldl (fun r d => addChunk r d (w d)) (packed k) = packed (if w "ParticleIDs".toList = [] then k else k ++ [w]) := by
  have hnd : fofDatasets.Nodup := by decide +kernel
  by_cases h : w "ParticleIDs".toList = []
  · have hall : ∀ b ∈ fofDatasets, w b = [] := fun b hb => hw _ (by decide +kernel) b hb h
    rw [if_pos h]
    have : ∀ (l : List Name) (r : Chunks α), (∀ b ∈ l, w b = []) → l.foldl (fun r d => addChunk r d (w d)) r = r := by
      intro l
      induction l with
      | nil => intros; rfl
      | cons d l ih =>
        intro r hl
        rw [List.foldl_cons, addChunk, if_pos (hl d (by simp)), ih r (fun b hb => hl b (by simp [hb]))]
    exact this _ _ hall
  · have hall : ∀ b ∈ fofDatasets, w b ≠ [] := fun b hb hc => h (hw b hb _ (by decide +kernel) hc)
    rw [if_neg h]
    by_cases hk : k = []
    · subst hk
      -- new entries
      have : ∀ (todo done : List Name), (done ++ todo).Nodup → (∀ b ∈ todo, w b ≠ []) → todo.foldl (fun r d => addChunk r d (w d)) (done.map (fun n => (n, [w n]))) = (done ++ todo).map (fun n => (n, [w n])) := by
        intro todo
        induction todo with
        | nil => intro done _ _; simp
        | cons t todo ih =>
          intro done hn hb
          have hnot : t ∉ done := by
            intro hc
            rw [List.nodup_append] at hn
            exact hn.2.2 t hc t (by simp) rfl
          have hget : dget (done.map (fun n => (n, [w n]))) t = none := by
            unfold dget
            rw [Option.map_eq_none_iff, List.find?_eq_none]
            intro e he
            rw [List.mem_map] at he
            obtain ⟨m, hm, rfl⟩ := he
            simp only [beq_iff_eq]
            rintro rfl
            exact hnot hm
          rw [List.foldl_cons, addChunk, if_neg (hb t (by simp)), hget, dset_new done (fun n => [w n]) hnot]
          have h2 := ih (done ++ [t]) (by simpa using hn) (fun b hb' => hb b (by simp [hb']))
          simpa using h2
      have h3 := this fofDatasets [] (by simpa using hnd) hall
      simpa [packed] using h3
    · have : ∀ (todo : List Name) (g : Name → List (List α)), todo.Nodup → (∀ b ∈ todo, b ∈ fofDatasets) → todo.foldl (fun r d => addChunk r d (w d)) (fofDatasets.map (fun n => (n, g n))) = fofDatasets.map (fun n => (n, if n ∈ todo then g n ++ [w n] else g n)) := by
        intro todo
        induction todo with
        | nil => intro g _ _; simp
        | cons t todo ih =>
          intro g hn hb
          rw [List.nodup_cons] at hn
          rw [List.foldl_cons, addChunk, if_neg (hall t (hb t (by simp))), dget_map fofDatasets g (hb t (by simp)), dset_map fofDatasets hnd g (hb t (by simp)), ih _ hn.2 (fun b hb' => hb b (by simp [hb']))]
          apply List.map_congr_left
          intro n _
          by_cases hnt : n = t
          · subst hnt; simp [hn.1]
          · simp [hnt]
      rw [packed, if_neg hk, this _ _ hnd (fun _ h => h), packed, if_neg (by simp)]
      apply List.map_congr_left
      intro n hn
      rw [if_pos hn]
      simp

/-- The numbers of particles which are known are right. -/
def TypesCacheOk (files : Nat → SnapData α) (num : Nat) (cache : List (List Int)) : Prop := cache.length = num ∧ ∀ i < num, (cache.getD i []).getD 0 0 = -1 ∨ cache.getD i [] = (files i).npart

theorem cacheNpartTypes_ok {files : Nat → SnapData α} {num : Nat} {cache : List (List Int)} (h : TypesCacheOk files num cache) {i : Nat} (hi : i < num) :
    TypesCacheOk files num (cacheNpartTypes files cache i) ∧ (cacheNpartTypes files cache i).getD i [] = (files i).npart := by
  unfold cacheNpartTypes
  by_cases hc : (cache.getD i []).getD 0 0 = -1
  · rw [if_pos hc]
    have hset : ∀ j, (cache.set i (files i).npart).getD j [] = if i = j ∧ i < num then (files i).npart else cache.getD j [] := by
      intro j
      simp only [List.getD_eq_getElem?_getD, List.getElem?_set, h.1]
      by_cases hij : i = j
      · subst hij; simp [hi]
      · simp [hij]
    refine ⟨⟨by simp [h.1], ?_⟩, ?_⟩
    · intro j hj
      rw [hset]
      by_cases hij : i = j
      · subst hij; rw [if_pos ⟨rfl, hi⟩]; right; rfl
      · rw [if_neg (by tauto)]; exact h.2 j hj
    · rw [hset, if_pos ⟨rfl, hi⟩]
  · rw [if_neg hc]
    exact ⟨h, (h.2 i hi).resolve_left hc⟩

theorem fofLoop_cache (files : Nat → SnapData α) (num : Nat) (fp lp : Nat → Int) (is : List Nat) (his : ∀ i ∈ is, i < num) (cache : List (List Int)) (hc : TypesCacheOk files num cache) (fis : Nat → Int) (res : Nat → Chunks α) :
    TypesCacheOk files num (fofLoop files fp lp is cache fis res).1 := by
  induction is generalizing cache fis res with
  | nil => exact hc
  | cons i is ih =>
    have hc' := (cacheNpartTypes_ok hc (his i (by simp))).1
    simp only [fofLoop]
    split
    · exact hc'
    · split
      · exact hc'
      · exact ih (fun j hj => his j (by simp [hj])) _ hc' _ _

/-- All arrays of all types are there. -/
def HasAll (files : Nat → SnapData α) (num : Nat) : Prop := ∀ i < num, ∀ t < 6, ∀ n ∈ groupArrays, (files i).Has t n

theorem length_window_eq {files : Nat → SnapData α} {num : Nat} (h : HasAll files num) {t : Nat} (ht : t < 6) {i : Nat} (hi : i < num) {a b : Name} (ha : a ∈ groupArrays) (hb : b ∈ groupArrays) (x y : Int) :
    between (((files i).data t a).getD []) x y = [] → between (((files i).data t b).getD []) x y = [] := by
  have h1 := (h i hi t ht a ha).1
  have h2 := (h i hi t ht b hb).1
  rw [between_eq_nil, between_eq_nil]
  omega

theorem fofLoop_spec {files : Nat → SnapData α} {num : Nat} (hhas : HasAll files num) (fp lp : Nat → Int) (is : List Nat) (his : ∀ i ∈ is, i < num) {cache : List (List Int)} (hc : TypesCacheOk files num cache)
    (fis : Nat → Int) (k : Nat → List (Name → List α)) (result : Nat → Chunks α) (hres : ∀ t < 6, result t = packed (k t)) :
    ∃ m ≤ is.length, ∃ e : Nat → List (Name → List α), ∃ res, (fofLoop files fp lp is cache fis result).2 = .ok res ∧
      (∀ t < 6, res t = packed (k t ++ e t)) ∧
      (∀ t < 6, ∀ n ∈ groupArrays, ((e t).map (fun f => f n)).flatten = between ((is.take m).flatMap (fun i => ((files i).data t n).getD [])) (fp t - fis t) (lp t + 1 - fis t) ∧
        (e t = [] ↔ between ((is.take m).flatMap (fun i => ((files i).data t n).getD [])) (fp t - fis t) (lp t + 1 - fis t) = [])) ∧
      (m = is.length ∨ 0 < m ∧ ∀ t < 6, lp t ≤ fis t + ((is.take m).map (fun i => (files i).npart.getD t 0)).sum) ∧
      ∀ j, 0 < j → j < m → ∃ t < 6, fis t + ((is.take j).map (fun i => (files i).npart.getD t 0)).sum < lp t := by
  induction is generalizing cache fis k result with
  | nil => exact ⟨0, by simp, fun _ => [], result, rfl, by simpa using hres, by simp [between_nil], by simp, by omega⟩
  | cons i is ih =>
    have hi := his i (by simp)
    obtain ⟨hc', hn⟩ := cacheNpartTypes_ok hc hi
    simp only [fofLoop, hn]
    have hnn : ∀ t < 6, 0 ≤ (files i).npart.getD t 0 := by
      intro t ht
      have := (hhas i hi t ht "ParticleIDs".toList (by decide +kernel)).1
      omega
    rw [fofAppendAll_spec (files i) _ _ _ _ _ fofPairs (fun p hp => hhas i hi p.2 (fofPairs_mem hp).2 p.1 (fofPairs_mem hp).1) (fun _ _ => rfl) (fun p hp _ => by have := hnn p.2 (fofPairs_mem hp).2; omega) result]
    simp only
    set W : Nat → Name → List α := fun t n => between (((files i).data t n).getD []) (fp t - fis t) (lp t + 1 - fis t) with hW
    set k' : Nat → List (Name → List α) := fun t => if W t "ParticleIDs".toList = [] then [] else [W t] with hk'
    set res' : Nat → Chunks α := fun u => (fofPairs.filter (fun p => p.2 = u)).foldl (fun r p => addChunk r p.1 (between (((files i).data u p.1).getD []) (fp u - fis u) (lp u + 1 - fis u))) (result u) with hres'
    have hstep : ∀ t < 6, res' t = packed (k t ++ k' t) := by
      intro t ht
      simp only [hres']
      rw [fofPairs_filter ht, List.foldl_map, hres t ht]
      simp only
      rw [packed_add (k t) (W t) (fun a ha b hb => length_window_eq hhas ht hi ha hb _ _)]
      congr 1
      simp only [hk']
      split <;> simp
    have hk'W : ∀ t < 6, ∀ n ∈ groupArrays, ((k' t).map (fun f => f n)).flatten = W t n ∧ (k' t = [] ↔ W t n = []) := by
      intro t ht n hn
      simp only [hk']
      by_cases h0 : W t "ParticleIDs".toList = []
      · have h1 : W t n = [] := length_window_eq hhas ht hi (by decide +kernel) hn _ _ h0
        rw [if_pos h0, h1]
        exact ⟨rfl, fun _ => rfl, fun _ => rfl⟩
      · have h1 : W t n ≠ [] := fun hc => h0 (length_window_eq hhas ht hi hn (by decide +kernel) _ _ hc)
        rw [if_neg h0]
        exact ⟨List.append_nil _, fun hc => absurd hc (List.cons_ne_nil _ _), fun hc => absurd hc h1⟩
    split
    · rename_i hstop
      rw [List.all_eq_true] at hstop
      refine ⟨1, by simp, k', res', rfl, hstep, ?_, Or.inr ⟨by omega, ?_⟩, by omega⟩
      · intro t ht n hn
        simpa using hk'W t ht n hn
      · intro t ht
        have := hstop t (by simpa using ht)
        simpa using this
    · rename_i hstop
      obtain ⟨m, hm, e, res, h1, h2, h3, h4, h5⟩ := ih (fun j hj => his j (by simp [hj])) hc' (fun t => fis t + (files i).npart.getD t 0) (fun t => k t ++ k' t) res' hstep
      refine ⟨m + 1, by simp only [List.length_cons]; omega, fun t => k' t ++ e t, res, h1, ?_, ?_, ?_, ?_⟩
      · intro t ht
        rw [h2 t ht, List.append_assoc]
      · intro t ht n hn
        have hlen := (hhas i hi t ht n hn).1
        rw [List.take_succ_cons, List.flatMap_cons, between_append]
        have ha : fp t - fis t - ((((files i).data t n).getD []).length : Int) = fp t - (fis t + (files i).npart.getD t 0) := by omega
        have hb : lp t + 1 - fis t - ((((files i).data t n).getD []).length : Int) = lp t + 1 - (fis t + (files i).npart.getD t 0) := by omega
        rw [ha, hb]
        obtain ⟨e1, e2⟩ := h3 t ht n hn
        obtain ⟨e3, e4⟩ := hk'W t ht n hn
        refine ⟨by rw [List.map_append, List.flatten_append, e1, e3], ?_⟩
        rw [List.append_eq_nil_iff, List.append_eq_nil_iff, e2, e4]
      · rcases h4 with h4 | h4
        · left; rw [h4]; rfl
        · right
          refine ⟨by omega, ?_⟩
          intro t ht
          have := h4.2 t ht
          rw [List.take_succ_cons, List.map_cons, List.sum_cons]
          omega
      · intro j hj0 hj
        rcases j with _ | j
        · omega
        · rcases Nat.eq_zero_or_pos j with rfl | hj'
          · have hex : ∃ t < 6, fis t + (files i).npart.getD t 0 < lp t := by
              by_contra hcon
              apply hstop
              rw [List.all_eq_true]
              intro t ht
              simp only [decide_eq_true_eq]
              by_contra hlt
              exact hcon ⟨t, by simpa using ht, by omega⟩
            obtain ⟨t, ht, hlt⟩ := hex
            exact ⟨t, ht, by simpa using hlt⟩
          · obtain ⟨t, ht, hlt⟩ := h5 j hj' (by omega)
            refine ⟨t, ht, ?_⟩
            rw [List.take_succ_cons, List.map_cons, List.sum_cons]
            omega

theorem concatChunks_packed (k : List (Name → List α)) : concatChunks (packed k) = .ok (if k = [] then [] else fofDatasets.map (fun n => (n, (k.map (fun f => f n)).flatten))) := by
  unfold packed
  by_cases h : k = []
  · rw [if_pos h, if_pos h]; rfl
  · rw [if_neg h, if_neg h, concatChunks_spec, if_pos]
    intro n _
    simpa using h

/-! ### Subhalo numbers -/

/-- Number `s + k` for each element of part `k` -/
theorem repeated_getElem (lens : List Int) (hl : ∀ x ∈ lens, 0 ≤ x) (s : Nat) :
    ((((List.range' s lens.length).zip lens).flatMap (fun e => List.replicate e.2.toNat e.1)).length : Int) = lens.sum ∧
    ∀ k < lens.length, ∀ p : Nat, (lens.take k).sum ≤ (p : Int) → (p : Int) < (lens.take (k + 1)).sum → (((List.range' s lens.length).zip lens).flatMap (fun e => List.replicate e.2.toNat e.1))[p]? = some (s + k) := by
  induction lens generalizing s with
  | nil => simp
  | cons x lens ih =>
    obtain ⟨h1, h2⟩ := ih (fun y hy => hl y (by simp [hy])) (s + 1)
    have hx := hl x (by simp)
    simp only [List.length_cons, List.range'_succ, List.zip_cons_cons, List.flatMap_cons]
    refine ⟨by rw [List.length_append, List.length_replicate, List.sum_cons]; push_cast; omega, ?_⟩
    intro k hk p hp1 hp2
    rcases k with _ | k
    · simp only [List.take_zero, List.sum_nil, zero_add, List.take_succ_cons, List.sum_cons, add_zero] at hp1 hp2
      rw [List.getElem?_append_left (by simp; omega), List.getElem?_replicate, if_pos (by omega)]
      rfl
    · rw [List.take_succ_cons, List.sum_cons] at hp1 hp2
      have hnn : ∀ l : List Int, (∀ y ∈ l, 0 ≤ y) → 0 ≤ l.sum := by
        intro l hl
        induction l with
        | nil => simp
        | cons a l ih2 =>
          rw [List.sum_cons]
          have := hl a (by simp)
          have := ih2 (fun y hy => hl y (by simp [hy]))
          omega
      have h0 := hnn (lens.take k) (fun y hy => hl y (by simp [List.mem_of_mem_take hy]))
      rw [List.getElem?_append_right (by simp; omega), List.length_replicate]
      have := h2 k (by omega) (p - x.toNat) (by omega) (by omega)
      rw [this]
      congr 1
      omega

/-- Lengths of the subhalos of a group -/
def subLengths (table : GroupTable) (ifof t : Nat) : List Int := (List.range (table.nsubs.getD ifof 0).toNat).map (fun k => (table.sublentype.getD ((table.firstsub.getD ifof 0).toNat + k) []).getD t 0)

/-- The subhalos of a group are in the table and their lengths are not negative. -/
def SubhalosIn (table : GroupTable) (ifof t : Nat) : Prop :=
  0 ≤ table.firstsub.getD ifof 0 ∧ 0 ≤ table.nsubs.getD ifof 0 ∧ table.firstsub.getD ifof 0 + table.nsubs.getD ifof 0 ≤ table.sublentype.length ∧ ∀ x ∈ subLengths table ifof t, 0 ≤ x

theorem fofSubNr_spec (table : GroupTable) (ifof t n : Nat) (h : SubhalosIn table ifof t) :
    if (subLengths table ifof t).sum ≤ (n : Int) then ∃ out, fofSubNr table ifof t n = .ok out ∧ out.length = n ∧ IsSubNr (subLengths table ifof t) (table.firstsub.getD ifof 0) out
    else fofSubNr table ifof t n = .error .valueError := by
  obtain ⟨h1, h2, h3, h4⟩ := h
  have hlens : subLengths table ifof t = (List.range (table.nsubs.getD ifof 0).toNat).map (fun k => (table.sublentype.getD ((table.firstsub.getD ifof 0).toNat + k) []).getD t 0) := rfl
  unfold fofSubNr
  simp only
  generalize hs : table.firstsub.getD ifof 0 = s at *
  generalize hc : table.nsubs.getD ifof 0 = c at *
  by_cases hc0 : c > 0
  · rw [if_pos hc0]
    have ha : sliceBound table.sublentype.length s = s.toNat := by unfold sliceBound; rw [if_neg (by omega)]; omega
    have hb : sliceBound table.sublentype.length (s + c - 1 + 1) = (s + c).toNat := by unfold sliceBound; rw [if_neg (by omega)]; omega
    have hsl : (slice table.sublentype s.toNat ((s + c).toNat - s.toNat)).map (fun r => r.getD t 0) = subLengths table ifof t := by
      rw [hlens]
      apply List.ext_getElem
      · simp only [slice, List.length_map, List.length_take, List.length_drop, List.length_range]; omega
      · intro i hi1 hi2
        simp only [List.length_map, List.length_range] at hi2
        simp only [slice, List.getElem_map, List.getElem_take, List.getElem_drop, List.getElem_range]
        rw [List.getD_eq_getElem table.sublentype [] (by omega : s.toNat + i < _)]
    rw [ha, hb, hsl]
    set lens := subLengths table ifof t with hl
    rw [npRepeat_ok (by simp) h4]
    obtain ⟨r1, r2⟩ := repeated_getElem lens h4 0
    rw [← List.range_eq_range'] at r1 r2
    simp only [List.length_map]
    set R := ((List.range lens.length).zip lens).flatMap (fun e => List.replicate e.2.toNat e.1) with hR
    by_cases hfit : lens.sum ≤ (n : Int)
    · rw [if_pos hfit, if_pos (by omega)]
      refine ⟨_, rfl, ?_, ?_, ?_⟩
      · rw [length_overlay (by simp; omega)]; simp
      · intro k hk p hp1 hp2
        have hget := r2 k hk p hp1 hp2
        have hpR : p < R.length := by
          by_contra hcon
          rw [List.getElem?_eq_none (by omega)] at hget
          simp at hget
        rw [getElem?_overlay (by simp; omega)]
        simp only [List.length_map, Nat.zero_le, zero_add, true_and, if_pos hpR, Nat.sub_zero, List.getElem?_map, hget]
        simp only [Option.map_some, Nat.zero_add]
        congr 1
        omega
      · intro p hp1 hp2
        rw [length_overlay (by simp; omega)] at hp1
        rw [getElem?_overlay (by simp; omega)]
        simp only [List.length_map, Nat.zero_le, zero_add, true_and]
        rw [if_neg (by omega), List.getElem?_replicate, if_pos (by simpa using hp1)]
    · rw [if_neg hfit, if_neg (by omega)]
  · have hz : c = 0 := by omega
    rw [if_neg hc0]
    have hnil : subLengths table ifof t = [] := by rw [hlens, hz]; rfl
    rw [hnil]
    rw [if_pos (by simp)]
    refine ⟨_, rfl, by simp, by simp, ?_⟩
    intro p hp _
    rw [List.getElem?_replicate, if_pos (by simpa using hp)]

/-! ### The whole call -/

theorem particlesIn_eq (files : Nat → SnapData α) {num m : Nat} (hm : m ≤ num) (t : Nat) (n : Name) : ((List.range num).take m).flatMap (fun i => ((files i).data t n).getD []) = particlesIn files m t n := by
  rw [List.take_range, Nat.min_eq_left hm]; rfl

theorem particlesBefore_eq (files : Nat → SnapData α) {num m : Nat} (hm : m ≤ num) (t : Nat) : (((List.range num).take m).map (fun i => (files i).npart.getD t 0)).sum = particlesBefore files t m := by
  rw [List.take_range, Nat.min_eq_left hm]; rfl

theorem length_particlesIn {files : Nat → SnapData α} {num : Nat} {t : Nat} {n : Name} (h : ∀ i < num, (files i).Has t n) {m : Nat} (hm : m ≤ num) : ((particlesIn files m t n).length : Int) = particlesBefore files t m := by
  induction m with
  | zero => rfl
  | succ m ih =>
    have h1 := ih (by omega)
    have h2 := (h m (by omega)).1
    unfold particlesIn particlesBefore at h1 ⊢
    rw [List.range_succ, List.flatMap_append, List.length_append, List.map_append, List.sum_append]
    push_cast
    rw [h1]
    simp only [List.flatMap_cons, List.flatMap_nil, List.append_nil, List.map_cons, List.map_nil, List.sum_cons, List.sum_nil, add_zero]
    rw [h2]

theorem particlesIn_prefix (files : Nat → SnapData α) {m num : Nat} (hm : m ≤ num) (t : Nat) (n : Name) : ∃ rest, particlesIn files num t n = particlesIn files m t n ++ rest := by
  obtain ⟨d, rfl⟩ := Nat.exists_eq_add_of_le hm
  refine ⟨((List.range d).map (fun i => m + i)).flatMap (fun i => ((files i).data t n).getD []), ?_⟩
  unfold particlesIn
  rw [List.range_add, List.flatMap_append]

theorem columnOffset_eq (lens : List (List Int)) (t : Nat) {i : Nat} (hi : i < lens.length) : columnOffset lens t i = lengthsBefore lens t i := by
  unfold columnOffset lengthsBefore
  rw [List.take_add_one, List.getElem?_eq_getElem hi, List.getD_eq_getElem lens [] hi]
  simp only [Option.toList_some, List.map_append, List.map_cons, List.map_nil, List.sum_append, List.sum_cons, List.sum_nil]
  ring

theorem fofFinishAll_spec (table : GroupTable) (ifof : Nat) (result : Nat → Chunks α) (ts : List Nat) :
    (∀ out, fofFinishAll table ifof result ts = .ok out → out.length = ts.length ∧ ∀ j (hj : j < ts.length), ∃ x, out[j]? = some x ∧ fofFinish table ifof ts[j] (result ts[j]) = .ok x) ∧
    ((∀ t ∈ ts, ∃ x, fofFinish table ifof t (result t) = .ok x) → ∃ out, fofFinishAll table ifof result ts = .ok out) := by
  induction ts with
  | nil =>
    constructor
    · intro out h
      simp only [fofFinishAll, Except.ok.injEq] at h
      subst h
      exact ⟨rfl, fun j hj => absurd hj (by simp)⟩
    · intro _; exact ⟨[], rfl⟩
  | cons t ts ih =>
    obtain ⟨ih1, ih2⟩ := ih
    constructor
    · intro out h
      simp only [fofFinishAll] at h
      rcases hf : fofFinish table ifof t (result t) with e | x
      · rw [hf] at h; exact absurd h (by simp)
      · rw [hf] at h
        simp only at h
        rcases hr : fofFinishAll table ifof result ts with e | rest
        · rw [hr] at h; exact absurd h (by simp)
        · rw [hr] at h
          simp only [Except.ok.injEq] at h
          subst h
          obtain ⟨k1, k2⟩ := ih1 rest hr
          refine ⟨by simp [k1], ?_⟩
          intro j hj
          rcases j with _ | j
          · exact ⟨x, rfl, hf⟩
          · exact k2 j (by simpa using hj)
    · intro h
      obtain ⟨x, hx⟩ := h t (by simp)
      obtain ⟨rest, hr⟩ := ih2 (fun u hu => h u (by simp [hu]))
      exact ⟨x :: rest, by simp only [fofFinishAll, hx, hr]⟩

theorem presentArrays_eq {w : Name → List α} (h : ∀ a ∈ groupArrays, ∀ b ∈ groupArrays, w a = [] → w b = []) :
    presentArrays w = if w "ParticleIDs".toList = [] then [] else fofDatasets.map (fun n => (n, w n)) := by
  unfold presentArrays
  by_cases h0 : w "ParticleIDs".toList = []
  · rw [if_pos h0, List.filter_eq_nil_iff.2, List.map_nil]
    intro n hn
    rw [h _ (by decide +kernel) n hn h0]
    simp
  · rw [if_neg h0, List.filter_eq_self.2]
    · rfl
    · intro n hn
      have : w n ≠ [] := fun hc => h0 (h n hn _ (by decide +kernel) hc)
      simpa using this

theorem dget_fofDatasets (w : Name → List α) : dget (fofDatasets.map (fun n => (n, w n))) "ParticleIDs".toList = some (w "ParticleIDs".toList) := dget_map fofDatasets w (by decide +kernel)

theorem fofFinish_packed (table : GroupTable) (ifof t : Nat) (k : List (Name → List α)) (w : Name → List α) (hw : ∀ n ∈ groupArrays, (k.map (fun f => f n)).flatten = w n ∧ (k = [] ↔ w n = [])) :
    fofFinish table ifof t (packed k) = if w "ParticleIDs".toList = [] then .ok ⟨presentArrays w, none⟩ else
      match fofSubNr table ifof t (w "ParticleIDs".toList).length with
      | .error e => .error e
      | .ok subnr => .ok ⟨presentArrays w, some subnr⟩ := by
  have hp := presentArrays_eq (w := w) (fun a ha b hb h => (hw b hb).2.1 ((hw a ha).2.2 h))
  have hid := hw "ParticleIDs".toList (by decide +kernel)
  unfold fofFinish
  rw [concatChunks_packed, hp]
  simp only
  by_cases h0 : w "ParticleIDs".toList = []
  · rw [if_pos (hid.2.2 h0), if_pos h0, if_pos h0]
    rfl
  · have hk : k ≠ [] := fun hc => h0 (hid.2.1 hc)
    have he : fofDatasets.map (fun n => (n, (k.map (fun f => f n)).flatten)) = fofDatasets.map (fun n => (n, w n)) := by
      apply List.map_congr_left
      intro n hn
      rw [(hw n hn).1]
    rw [if_neg hk, if_neg h0, if_neg h0, he, dget_fofDatasets]
    rfl

/-- The first and last particle of a group in the particles of one type -/
def groupFirst (table : GroupTable) (ifof t : Nat) : Int := lengthsBefore table.foflentype t ifof

def groupLen (table : GroupTable) (ifof t : Nat) : Int := (table.foflentype.getD ifof []).getD t 0

def groupLast (table : GroupTable) (ifof t : Nat) : Int := groupFirst table ifof t + groupLen table ifof t - 1

theorem readFofGroup_spec {files : Nat → SnapData α} {num : Nat} (hhas : HasAll files num) (table : GroupTable) {cache : List (List Int)} (hc : TypesCacheOk files num cache) {ifof : Nat} (hi : ifof < table.foflentype.length) :
    ∃ m, StopsAfter files (groupLast table ifof) num m ∧ ∃ res : Nat → Chunks α, (readFofGroup files num table cache ifof).2 = fofFinishAll table ifof res (List.range 6) ∧
      ∀ t < 6, fofFinish table ifof t (res t) =
        if between (particlesIn files m t "ParticleIDs".toList) (groupFirst table ifof t) (groupLast table ifof t + 1) = [] then .ok ⟨presentArrays (fun n => between (particlesIn files m t n) (groupFirst table ifof t) (groupLast table ifof t + 1)), none⟩ else
        match fofSubNr table ifof t (between (particlesIn files m t "ParticleIDs".toList) (groupFirst table ifof t) (groupLast table ifof t + 1)).length with
        | .error e => .error e
        | .ok subnr => .ok ⟨presentArrays (fun n => between (particlesIn files m t n) (groupFirst table ifof t) (groupLast table ifof t + 1)), some subnr⟩ := by
  obtain ⟨m, hm, e, res, h1, h2, h3, h4, h5⟩ := fofLoop_spec hhas (groupFirst table ifof) (groupLast table ifof) (List.range num) (fun i hi => List.mem_range.1 hi) hc (fun _ => 0) (fun _ => []) (fun _ => []) (fun _ _ => rfl)
  rw [List.length_range] at hm h4
  have hpb : ∀ j ≤ num, ∀ t, 0 + (((List.range num).take j).map (fun i => (files i).npart.getD t 0)).sum = particlesBefore files t j := by
    intro j hj t
    rw [particlesBefore_eq files hj, zero_add]
  refine ⟨m, ⟨hm, ?_, ?_⟩, res, ?_, ?_⟩
  · rcases h4 with h4 | ⟨h4, h6⟩
    · exact Or.inl h4
    · right
      refine ⟨h4, fun t ht => ?_⟩
      have := h6 t ht
      rwa [hpb m hm] at this
  · intro j hj0 hj
    obtain ⟨t, ht, hlt⟩ := h5 j hj0 hj
    rw [hpb j (by omega)] at hlt
    exact ⟨t, ht, hlt⟩
  · unfold readFofGroup
    rw [if_neg (by omega)]
    simp only [columnOffset_eq _ _ hi]
    have hg : (fun t => lengthsBefore table.foflentype t ifof) = groupFirst table ifof := rfl
    have hl : (fun t => lengthsBefore table.foflentype t ifof + (table.foflentype.getD ifof []).getD t 0 - 1) = groupLast table ifof := rfl
    rw [hg, hl]
    rcases hloop : fofLoop files (groupFirst table ifof) (groupLast table ifof) (List.range num) cache (fun _ => 0) (fun _ => []) with ⟨c, r⟩
    rw [hloop] at h1
    simp only at h1
    subst h1
    rfl
  · intro t ht
    rw [h2 t ht, List.nil_append]
    refine fofFinish_packed table ifof t (e t) (fun n => between (particlesIn files m t n) (groupFirst table ifof t) (groupLast table ifof t + 1)) ?_
    intro n hn
    have := h3 t ht n hn
    rw [particlesIn_eq files hm, sub_zero, sub_zero] at this
    exact this

/-- Reading the files up to the end of the window or one less gives the window or all but the last. -/
theorem between_prefix {x r : List α} {a b : Int} (h : b ≤ x.length) : between (x ++ r) a b = between x a b := by
  rw [between_append, (between_eq_nil r _ _).2 (by omega), List.append_nil]

theorem between_dropLast (l : List α) {a b : Int} (ha : 0 ≤ a) (hab : a < b) (hb : b ≤ l.length) : (between l a b).dropLast = between l a (b - 1) := by
  rw [between_eq_slice, between_eq_slice]
  unfold slice
  rw [List.dropLast_eq_take, List.length_take, List.length_drop, List.take_take]
  congr 1
  omega

theorem between_clip (l : List α) {a b : Int} (hb : (l.length : Int) ≤ b) : between l a b = between l a l.length := by
  rw [between_eq_slice, between_eq_slice]
  unfold slice
  rw [List.take_of_length_le (by simp; omega), List.take_of_length_le (by simp)]

end Verif
