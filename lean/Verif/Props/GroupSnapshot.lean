import Verif.Proofs.GroupSnapshot
import Mathlib.Data.List.Induction

/-! C54 and C55: reading groups from snapshots which are stored in group order. -/

namespace Verif

variable {α : Type*}

/-! ### C54 -/

/-- `npart_file` after any calls -/
def npartAfter (files : Nat → SnapData α) (num : Nat) (calls : List (Int × Int × List Name)) : List Int :=
  calls.foldl (fun c o => (readParticleRange files num c o.1 o.2.1 o.2.2).1) (npartFresh num)

theorem npartAfter_ok (files : Nat → SnapData α) (num : Nat) (calls : List (Int × Int × List Name)) : CacheOk files num (npartAfter files num calls) := by
  induction calls using List.reverseRecOn with
  | nil =>
    refine ⟨by simp [npartAfter, npartFresh], ?_⟩
    intro i hi
    left
    simp [npartAfter, npartFresh, List.getD_eq_getElem?_getD, hi]
  | append_singleton calls o ih =>
    unfold npartAfter at ih ⊢
    rw [List.foldl_append, List.foldl_cons, List.foldl_nil]
    generalize calls.foldl (fun c o => (readParticleRange files num c o.1 o.2.1 o.2.2).1) (npartFresh num) = c0 at ih ⊢
    have h := rangeLoop_cache files num o.2.2 o.1 (o.1 + o.2.1 - 1) (List.range num) (fun i hi => List.mem_range.1 hi) c0 ih 0 (o.2.2.foldl (fun d name => dset d name []) [])
    unfold readParticleRange
    simp only
    rcases hl : rangeLoop files o.2.2 o.1 (o.1 + o.2.1 - 1) (List.range num) c0 0 (o.2.2.foldl (fun d name => dset d name []) []) with ⟨c, r⟩
    rw [hl] at h
    rcases r with e | r <;> exact h

/-- **C54** After any calls, also ones which failed, `read_particle_range` returns the particles from `offset` to before `offset + count` of all files together, for each of the arrays, and raises `ValueError` if there is no such particle. -/
theorem C54_range {files : Nat → SnapData α} {num : Nat} {datasets : List Name} (hd : datasets.Nodup) (hhas : ∀ n ∈ datasets, ∀ i < num, (files i).Has 1 n) (calls : List (Int × Int × List Name)) (offset count : Int) :
    (readParticleRange files num (npartAfter files num calls) offset count datasets).2 =
      if ∀ n ∈ datasets, between (particlesIn files num 1 n) offset (offset + count) ≠ [] then .ok (datasets.map (fun n => (n, between (particlesIn files num 1 n) offset (offset + count))))
      else .error .valueError := by
  obtain ⟨e, h1, h2⟩ := rangeLoop_spec hd hhas offset (offset + count - 1) (List.range num) (fun i hi => List.mem_range.1 hi) (npartAfter_ok files num calls) 0 (fun _ => [])
  unfold readParticleRange
  simp only
  rw [init_dict [] datasets hd]
  rcases hl : rangeLoop files datasets offset (offset + count - 1) (List.range num) (npartAfter files num calls) 0 (datasets.map (fun n => (n, []))) with ⟨c, r⟩
  rw [hl] at h1
  simp only at h1
  subst h1
  simp only [List.nil_append]
  rw [concatChunks_spec]
  have hb : ∀ n ∈ datasets, (e n).flatten = between (particlesIn files num 1 n) offset (offset + count) ∧ (e n = [] ↔ between (particlesIn files num 1 n) offset (offset + count) = []) := by
    intro n hn
    have := h2 n hn
    rw [sub_zero, sub_zero, show offset + count - 1 + 1 = offset + count by ring] at this
    exact this
  by_cases hall : ∀ n ∈ datasets, between (particlesIn files num 1 n) offset (offset + count) ≠ []
  · rw [if_pos hall, if_pos (fun n hn hc => hall n hn ((hb n hn).2.1 hc))]
    congr 1
    apply List.map_congr_left
    intro n hn
    rw [(hb n hn).1]
  · rw [if_neg hall, if_neg]
    intro hc
    exact hall (fun n hn h => hc n hn ((hb n hn).2.2 h))

/-- **C54** for ranges with at least one particle which are inside the snapshot: all `count` particles are returned. -/
theorem C54_in_bounds {files : Nat → SnapData α} {num : Nat} {datasets : List Name} (hd : datasets.Nodup) (hhas : ∀ n ∈ datasets, ∀ i < num, (files i).Has 1 n) (calls : List (Int × Int × List Name))
    {offset count : Nat} (hc : 0 < count) (hin : (offset + count : Int) ≤ particlesBefore files 1 num) :
    (readParticleRange files num (npartAfter files num calls) offset count datasets).2 = .ok (datasets.map (fun n => (n, slice (particlesIn files num 1 n) offset count))) ∧
      ∀ n ∈ datasets, (slice (particlesIn files num 1 n) offset count).length = count := by
  have hlen : ∀ n ∈ datasets, ((particlesIn files num 1 n).length : Int) = particlesBefore files 1 num := fun n hn => length_particlesIn (hhas n hn) (Nat.le_refl _)
  have hs : ∀ n, between (particlesIn files num 1 n) offset (offset + count) = slice (particlesIn files num 1 n) offset count := by
    intro n
    rw [between_eq_slice]
    congr 1
    omega
  have hcount : ∀ n ∈ datasets, (slice (particlesIn files num 1 n) offset count).length = count := by
    intro n hn
    have := hlen n hn
    simp only [slice, List.length_take, List.length_drop]
    omega
  refine ⟨?_, hcount⟩
  rw [C54_range hd hhas calls, if_pos]
  · simp only [hs]
  · intro n hn h
    have h1 := hcount n hn
    rw [← hs n, h] at h1
    simp at h1
    omega

/-- **C54** Groups of the catalogue: the particles from the offset of the group, as many as its length -/
theorem C54_group {files : Nat → SnapData α} {num : Nat} {datasets : List Name} (hd : datasets.Nodup) (hhas : ∀ n ∈ datasets, ∀ i < num, (files i).Has 1 n) (calls : List (Int × Int × List Name))
    {groupOffset groupLen : List Int} {grnr : Nat} {offset count : Nat} (ho : groupOffset[grnr]? = some (offset : Int)) (hl : groupLen[grnr]? = some (count : Int)) (hc : 0 < count) (hin : (offset + count : Int) ≤ particlesBefore files 1 num) :
    (readGroup files num (npartAfter files num calls) groupOffset groupLen grnr datasets).2 = .ok (datasets.map (fun n => (n, slice (particlesIn files num 1 n) offset count))) := by
  unfold readGroup
  have h1 : pyGet? groupOffset (grnr : Int) = some (offset : Int) := by rw [← ho]; simp [pyGet?]
  have h2 : pyGet? groupLen (grnr : Int) = some (count : Int) := by rw [← hl]; simp [pyGet?]
  rw [h1, h2]
  exact (C54_in_bounds hd hhas calls hc hin).1

/-- **C54** A name given twice doubles its array. -/
theorem C54_duplicate_names : ∃ (files : Nat → SnapData Nat) (num : Nat) (name : Name), (∀ i < num, (files i).Has 1 name) ∧
    (readParticleRange files num (npartFresh num) 0 1 [name]).2 = .ok [(name, [7])] ∧
    (readParticleRange files num (npartFresh num) 0 1 [name, name]).2 = .ok [(name, [7, 7])] := by
  refine ⟨fun _ => ⟨[0, 1], fun t n => if t = 1 ∧ n = ['A'] then some [7] else none⟩, 1, ['A'], ?_, by decide +kernel, by decide +kernel⟩
  intro i _
  unfold SnapData.Has
  simp

/-! ### C55 -/

/-- `npart_file` after any calls -/
def npartTypesAfter (files : Nat → SnapData α) (num : Nat) (table : GroupTable) (calls : List Nat) : List (List Int) :=
  calls.foldl (fun c i => (readFofGroup files num table c i).1) (npartTypesFresh num)

theorem npartTypesAfter_ok (files : Nat → SnapData α) (num : Nat) (table : GroupTable) (calls : List Nat) : TypesCacheOk files num (npartTypesAfter files num table calls) := by
  induction calls using List.reverseRecOn with
  | nil =>
    refine ⟨by simp [npartTypesAfter, npartTypesFresh], ?_⟩
    intro i hi
    left
    simp [npartTypesAfter, npartTypesFresh, List.getD_eq_getElem?_getD, hi]
  | append_singleton calls o ih =>
    unfold npartTypesAfter at ih ⊢
    rw [List.foldl_append, List.foldl_cons, List.foldl_nil]
    generalize calls.foldl (fun c i => (readFofGroup files num table c i).1) (npartTypesFresh num) = c0 at ih ⊢
    unfold readFofGroup
    simp only
    split
    · exact ih
    · have h := fofLoop_cache files num (fun t => columnOffset table.foflentype t o) (fun t => columnOffset table.foflentype t o + (table.foflentype.getD o []).getD t 0 - 1) (List.range num) (fun i hi => List.mem_range.1 hi) c0 ih (fun _ => 0) (fun _ => [])
      rcases hl : fofLoop files (fun t => columnOffset table.foflentype t o) (fun t => columnOffset table.foflentype t o + (table.foflentype.getD o []).getD t 0 - 1) (List.range num) c0 (fun _ => 0) (fun _ => []) with ⟨c, r⟩
      rw [hl] at h
      rcases r with e | r <;> exact h

/-- What is returned for one type if the particles are `w`: the arrays, and the subhalo of each particle if there are particles -/
def IsGroupEntry (table : GroupTable) (ifof t : Nat) (w : Name → List α) (x : FofParticles α) : Prop :=
  x.data = presentArrays w ∧
  if w "ParticleIDs".toList = [] then x.subnr = none
  else ∃ s, x.subnr = some s ∧ s.length = (w "ParticleIDs".toList).length ∧ IsSubNr (subLengths table ifof t) (table.firstsub.getD ifof 0) s

/-- The particles of a group in all files -/
def groupWindow (files : Nat → SnapData α) (num : Nat) (table : GroupTable) (ifof t : Nat) (n : Name) : List α :=
  between (particlesIn files num t n) (groupFirst table ifof t) (groupFirst table ifof t + groupLen table ifof t)

/-- The length and the offset of a group are not negative and its particles are in the snapshot. -/
def GroupIn (files : Nat → SnapData α) (num : Nat) (table : GroupTable) (ifof t : Nat) : Prop :=
  0 ≤ groupFirst table ifof t ∧ 0 ≤ groupLen table ifof t ∧ groupFirst table ifof t + groupLen table ifof t ≤ particlesBefore files t num

theorem length_groupWindow {files : Nat → SnapData α} {num : Nat} (hhas : HasAll files num) {table : GroupTable} {ifof t : Nat} (ht : t < 6) (h : GroupIn files num table ifof t) {n : Name} (hn : n ∈ groupArrays) :
    ((groupWindow files num table ifof t n).length : Int) = groupLen table ifof t := by
  obtain ⟨h1, h2, h3⟩ := h
  have := length_particlesIn (fun i hi => hhas i hi t ht n hn) (Nat.le_refl num)
  unfold groupWindow
  rw [length_between]
  omega

/-- The particles of the files which are read: all of the group, or all but the last -/
theorem window_read {files : Nat → SnapData α} {num : Nat} (hhas : HasAll files num) {table : GroupTable} {ifof t : Nat} (ht : t < 6) (h : GroupIn files num table ifof t) {m : Nat} (hm : StopsAfter files (groupLast table ifof) num m) {n : Name} (hn : n ∈ groupArrays) :
    between (particlesIn files m t n) (groupFirst table ifof t) (groupLast table ifof t + 1) =
      if m < num ∧ 0 < groupLen table ifof t ∧ particlesBefore files t m = groupLast table ifof t then (groupWindow files num table ifof t n).dropLast else groupWindow files num table ifof t n := by
  obtain ⟨h1, h2, h3⟩ := h
  obtain ⟨hm1, hm2, -⟩ := hm
  have hlast : groupLast table ifof t = groupFirst table ifof t + groupLen table ifof t - 1 := rfl
  have e1 : groupLast table ifof t + 1 = groupFirst table ifof t + groupLen table ifof t := by omega
  have hlm := length_particlesIn (fun i hi => hhas i hi t ht n hn) hm1
  have hln := length_particlesIn (fun i hi => hhas i hi t ht n hn) (Nat.le_refl num)
  obtain ⟨rest, hrest⟩ := particlesIn_prefix files hm1 t n
  rw [e1]
  unfold groupWindow
  by_cases hmn : m = num
  · subst hmn
    rw [if_neg (by omega)]
  · have hle := (hm2.resolve_left hmn).2 t ht
    by_cases hz : 0 < groupLen table ifof t
    · by_cases heq : particlesBefore files t m = groupLast table ifof t
      · rw [if_pos ⟨by omega, hz, heq⟩, between_dropLast _ h1 (by omega) (by omega), between_clip _ (by omega)]
        rw [hrest, ← between_prefix (r := rest) (by omega : ((particlesIn files m t n).length : Int) ≤ _)]
        congr 1
        omega
      · rw [if_neg (by tauto), hrest, between_prefix (by omega)]
    · rw [if_neg (by tauto), (between_eq_nil _ _ _).2 (by omega), (between_eq_nil _ _ _).2 (by omega)]

theorem presentArrays_congr {v w : Name → List α} (h : ∀ n ∈ groupArrays, v n = w n) : presentArrays v = presentArrays w := by
  unfold presentArrays
  rw [List.filter_congr (q := fun n => decide ((w n).length ≠ 0)) (fun n hn => by rw [h n hn])]
  apply List.map_congr_left
  intro n hn
  rw [h n (List.mem_of_mem_filter hn)]

/-- No file other than the last ends just before the last particle of type `t` of the group. -/
def NoLossAt (files : Nat → SnapData α) (num : Nat) (table : GroupTable) (ifof t : Nat) : Prop :=
  0 < groupLen table ifof t → ∀ m, 0 < m → m < num → particlesBefore files t m ≠ groupLast table ifof t

/-- **C55** `read_fof_group` returns all particles of the group, of all types, with the subhalo of each one, after any calls, if the last particle of the group is not the first one of a file. -/
theorem C55_complete {files : Nat → SnapData α} {num : Nat} (hhas : HasAll files num) {table : GroupTable} {ifof : Nat} (hi : ifof < table.foflentype.length) (calls : List Nat)
    (hin : ∀ t < 6, GroupIn files num table ifof t) (hsub : ∀ t < 6, SubhalosIn table ifof t) (hfit : ∀ t < 6, (subLengths table ifof t).sum ≤ groupLen table ifof t) (hb : ∀ t < 6, NoLossAt files num table ifof t) :
    ∃ out, (readFofGroup files num table (npartTypesAfter files num table calls) ifof).2 = .ok out ∧ out.length = 6 ∧
      ∀ t < 6, ∃ x, out[t]? = some x ∧ IsGroupEntry table ifof t (groupWindow files num table ifof t) x := by
  obtain ⟨m, hm, res, h1, h2⟩ := readFofGroup_spec hhas table (npartTypesAfter_ok files num table calls) hi
  have hw : ∀ t < 6, ∀ n ∈ groupArrays, between (particlesIn files m t n) (groupFirst table ifof t) (groupLast table ifof t + 1) = groupWindow files num table ifof t n := by
    intro t ht n hn
    rw [window_read hhas ht (hin t ht) hm hn, if_neg]
    rintro ⟨k1, k2, k3⟩
    have hm0 : 0 < m := (hm.2.1.resolve_left (by omega)).1
    exact hb t ht k2 m hm0 k1 k3
  have hpres : ∀ t < 6, presentArrays (fun n => between (particlesIn files m t n) (groupFirst table ifof t) (groupLast table ifof t + 1)) = presentArrays (groupWindow files num table ifof t) := by
    intro t ht
    exact presentArrays_congr (hw t ht)
  have hid : "ParticleIDs".toList ∈ groupArrays := by decide +kernel
  have hfin : ∀ t < 6, ∃ x, fofFinish table ifof t (res t) = .ok x ∧ IsGroupEntry table ifof t (groupWindow files num table ifof t) x := by
    intro t ht
    rw [h2 t ht, hpres t ht, hw t ht _ hid]
    unfold IsGroupEntry
    by_cases h0 : groupWindow files num table ifof t "ParticleIDs".toList = []
    · rw [if_pos h0]
      exact ⟨_, rfl, rfl, by rw [if_pos h0]⟩
    · rw [if_neg h0]
      have hs := fofSubNr_spec table ifof t (groupWindow files num table ifof t "ParticleIDs".toList).length (hsub t ht)
      rw [if_pos (by rw [length_groupWindow hhas ht (hin t ht) hid]; exact hfit t ht)] at hs
      obtain ⟨s, hs1, hs2, hs3⟩ := hs
      rw [hs1]
      exact ⟨_, rfl, rfl, by rw [if_neg h0]; exact ⟨s, rfl, hs2, hs3⟩⟩
  obtain ⟨f1, f2⟩ := fofFinishAll_spec table ifof res (List.range 6)
  obtain ⟨out, hout⟩ := f2 (fun t ht => by
    obtain ⟨x, hx, -⟩ := hfin t (List.mem_range.1 ht)
    exact ⟨x, hx⟩)
  obtain ⟨g1, g2⟩ := f1 out hout
  refine ⟨out, h1.trans hout, by simpa using g1, ?_⟩
  intro t ht
  obtain ⟨x, hx1, hx2⟩ := g2 t (by simpa using ht)
  rw [List.getElem_range] at hx2
  obtain ⟨y, hy1, hy2⟩ := hfin t ht
  rw [hy1] at hx2
  rw [Except.ok.injEq] at hx2
  subst hx2
  exact ⟨_, hx1, hy2⟩

/-- **C55** Whenever `read_fof_group` returns, the arrays of each type are those of the group, or those of the group without its last particle. The last particle is left out exactly if the files read end just before it. -/
theorem C55_returned {files : Nat → SnapData α} {num : Nat} (hhas : HasAll files num) {table : GroupTable} {ifof : Nat} (hi : ifof < table.foflentype.length) (calls : List Nat) (hin : ∀ t < 6, GroupIn files num table ifof t)
    {m : Nat} (hm : StopsAfter files (groupLast table ifof) num m) {out : List (FofParticles α)} (hout : (readFofGroup files num table (npartTypesAfter files num table calls) ifof).2 = .ok out) :
    ∀ t < 6, ∃ x, out[t]? = some x ∧
      x.data = presentArrays (fun n => if m < num ∧ 0 < groupLen table ifof t ∧ particlesBefore files t m = groupLast table ifof t then (groupWindow files num table ifof t n).dropLast else groupWindow files num table ifof t n) := by
  obtain ⟨m', hm', res, h1, h2⟩ := readFofGroup_spec hhas table (npartTypesAfter_ok files num table calls) hi
  -- there is one such number only
  have hmm : m' = m := by
    have key : ∀ a b, StopsAfter files (groupLast table ifof) num a → StopsAfter files (groupLast table ifof) num b → ¬ a < b := by
      intro a b ha hb hlt
      obtain ⟨a1, a2, a3⟩ := ha
      obtain ⟨b1, b2, b3⟩ := hb
      rcases a2 with a2 | ⟨a2, a4⟩
      · omega
      · obtain ⟨t, ht, hlt'⟩ := b3 a a2 hlt
        have := a4 t ht
        omega
    have := key m m' hm hm'
    have := key m' m hm' hm
    omega
  subst hmm
  obtain ⟨f1, -⟩ := fofFinishAll_spec table ifof res (List.range 6)
  obtain ⟨-, g2⟩ := f1 out (h1.symm.trans hout)
  intro t ht
  obtain ⟨x, hx1, hx2⟩ := g2 t (by simpa using ht)
  refine ⟨x, hx1, ?_⟩
  rw [List.getElem_range, h2 t ht] at hx2
  have hd : x.data = presentArrays (fun n => between (particlesIn files m' t n) (groupFirst table ifof t) (groupLast table ifof t + 1)) := by
    split at hx2
    · cases hx2; rfl
    · split at hx2
      · cases hx2
      · cases hx2; rfl
  rw [hd]
  exact presentArrays_congr (fun n hn => window_read hhas ht (hin t ht) hm hn)

/-- **C55** There is always exactly the last particle of a type missing if the files up to some file other than the last end just before it, and hold the other types. -/
theorem C55_lost {files : Nat → SnapData α} {num : Nat} (hhas : HasAll files num) {table : GroupTable} {ifof : Nat} (hi : ifof < table.foflentype.length) (calls : List Nat) (hin : ∀ t < 6, GroupIn files num table ifof t)
    {m t : Nat} (hm : StopsAfter files (groupLast table ifof) num m) (hmn : m < num) (ht : t < 6) (hl : 0 < groupLen table ifof t) (hend : particlesBefore files t m = groupLast table ifof t)
    {out : List (FofParticles α)} (hout : (readFofGroup files num table (npartTypesAfter files num table calls) ifof).2 = .ok out) :
    ∃ x, out[t]? = some x ∧ x.data = presentArrays (fun n => (groupWindow files num table ifof t n).dropLast) ∧ ∀ n ∈ groupArrays, ((groupWindow files num table ifof t n).dropLast.length : Int) + 1 = groupLen table ifof t := by
  obtain ⟨x, hx1, hx2⟩ := C55_returned hhas hi calls hin hm hout t ht
  refine ⟨x, hx1, ?_, ?_⟩
  · rw [hx2]
    simp only [if_pos (⟨hmn, hl, hend⟩ : m < num ∧ 0 < groupLen table ifof t ∧ particlesBefore files t m = groupLast table ifof t)]
  · intro n hn
    have := length_groupWindow hhas ht (hin t ht) hn
    rw [List.length_dropLast]
    omega

/-- **C55** The constructor puts together the groups and subhalos of all files if there is at least one group and one subhalo. -/
theorem C55_table {files : Nat → SubTabData} {num : Nat} (hn : (files 0).nfiles = num) (h1 : ∀ i < num, (files i).nsubs.length = (files i).foflentype.length) (h2 : ∀ i < num, (files i).firstsub.length = (files i).foflentype.length)
    (hg : ∃ i < num, (files i).foflentype ≠ []) (hs : ∃ i < num, (files i).sublentype ≠ []) :
    openGroupTable files = .ok ⟨(List.range num).flatMap (fun i => (files i).foflentype), (List.range num).flatMap (fun i => (files i).nsubs), (List.range num).flatMap (fun i => (files i).firstsub),
      (List.range num).flatMap (fun i => (files i).sublentype), (List.range num).map (fun i => ((files i).foflentype.length : Int))⟩ := by
  have hcat : ∀ {β : Type} (g : SubTabData → List β), (∃ i < num, g (files i) ≠ []) → concatFiles (((List.range num).map files).map g) = .ok ((List.range num).flatMap (fun i => g (files i))) := by
    intro β g hex
    obtain ⟨i, hi, hne⟩ := hex
    unfold concatFiles
    rw [if_neg]
    · rw [List.map_map, ← List.flatMap_def]; rfl
    · rw [List.all_eq_true]
      intro hall
      have := hall (g (files i)) (by simp only [List.mem_map, List.mem_range]; exact ⟨files i, ⟨i, hi, rfl⟩, rfl⟩)
      rw [List.isEmpty_iff] at this
      exact hne this
  have hne : ∀ {β γ : Type} (a : List β) (b : List γ), a.length = b.length → b ≠ [] → a ≠ [] := by
    intro β γ a b hab hb ha
    subst ha
    exact hb (List.length_eq_zero_iff.1 hab.symm)
  obtain ⟨i, hi, hgi⟩ := hg
  unfold openGroupTable
  simp only [hn, Int.toNat_natCast]
  rw [hcat SubTabData.foflentype ⟨i, hi, hgi⟩, hcat SubTabData.nsubs ⟨i, hi, hne _ _ (h1 i hi) hgi⟩, hcat SubTabData.firstsub ⟨i, hi, hne _ _ (h2 i hi) hgi⟩, hcat SubTabData.sublentype hs]
  simp only [List.map_map]
  rfl

/-- **C55** Without any subhalo the snapshot cannot be opened. -/
theorem C55_no_subhalos {files : Nat → SubTabData} (h : ∀ i < (files 0).nfiles.toNat, (files i).sublentype = []) : openGroupTable files = .error .valueError := by
  have hs : concatFiles (((List.range (files 0).nfiles.toNat).map files).map SubTabData.sublentype) = .error .valueError := by
    unfold concatFiles
    rw [if_pos]
    rw [List.all_eq_true]
    intro l hl
    simp only [List.mem_map, List.mem_range] at hl
    obtain ⟨f, ⟨i, hi, rfl⟩, rfl⟩ := hl
    rw [h i hi]
    rfl
  have hv : ∀ {β : Type} (parts : List (List β)), ∀ e, concatFiles parts = .error e → e = .valueError := by
    intro β parts e he
    unfold concatFiles at he
    split at he
    · cases he; rfl
    · cases he
  unfold openGroupTable
  simp only
  rw [hs]
  split
  · rename_i e he; rw [hv _ e he]
  · split
    · rename_i e he; rw [hv _ e he]
    · split
      · rename_i e he; rw [hv _ e he]
      · rfl

/-- **C55** Group `fofnum` of file `filenum` is that group of the whole catalogue. -/
theorem C55_by_file {files : Nat → SubTabData} {num : Nat} {table : GroupTable} (hf : table.nfof_file = (List.range num).map (fun i => ((files i).foflentype.length : Int))) (ht : table.foflentype = (List.range num).flatMap (fun i => (files i).foflentype))
    {filenum fofnum : Nat} (h1 : filenum < num) (h2 : fofnum < (files filenum).foflentype.length) (snaps : Nat → SnapData α) (nsnap : Nat) (cache : List (List Int)) :
    ∃ ifof, table.foflentype[ifof]? = (files filenum).foflentype[fofnum]? ∧ ifof = ((List.range filenum).map (fun i => (files i).foflentype.length)).sum + fofnum ∧
      readFofGroupInFile snaps nsnap table cache filenum fofnum = readFofGroup snaps nsnap table cache ifof := by
  refine ⟨_, ?_, rfl, ?_⟩
  · rw [ht]
    obtain ⟨d, rfl⟩ := Nat.exists_eq_add_of_lt h1
    have hsplit : List.range (filenum + d + 1) = List.range filenum ++ (filenum :: ((List.range d).map (fun i => filenum + (i + 1)))) := by
      rw [show filenum + d + 1 = filenum + (d + 1) by omega, List.range_add, List.range_succ_eq_map, List.map_cons, List.map_map]
      rfl
    have hlen : ((List.range filenum).flatMap (fun i => (files i).foflentype)).length = ((List.range filenum).map (fun i => (files i).foflentype.length)).sum := by
      rw [List.length_flatMap]
    rw [hsplit, List.flatMap_append, List.flatMap_cons, ← hlen, List.getElem?_append_right (by omega), List.getElem?_append_left (by omega)]
    congr 1
    omega
  · unfold readFofGroupInFile
    rw [hf, if_neg (by simp; omega)]
    congr 1
    unfold firstFofInFile
    rw [List.take_add_one, List.getElem?_map, List.getElem?_range h1, ← List.map_take, List.take_range, Nat.min_eq_left h1.le]
    rw [List.getD_eq_getElem _ _ (by simpa using h1), List.getElem_map, List.getElem_range]
    simp only [Option.map_some, Option.toList_some, List.sum_append, List.sum_cons, List.sum_nil]
    have : ((List.range filenum).map (fun i => ((files i).foflentype.length : Int))).sum = (((List.range filenum).map (fun i => (files i).foflentype.length)).sum : Nat) := by
      generalize List.range filenum = l
      induction l with
      | nil => rfl
      | cons a l ih => rw [List.map_cons, List.sum_cons, List.map_cons, List.sum_cons, ih]; push_cast; rfl
    omega

/-! ### Examples -/

namespace ExGroupSnap

/-- Three files with 2, 0 and 3 dark matter particles; a file without particles has no arrays. -/
def parts : List (List Nat) := [[10, 11], [], [12, 13, 14]]

def dmFiles (i : Nat) : SnapData Nat :=
  ⟨[0, (parts.getD i []).length, 0, 0, 0, 0], fun t n => if t = 1 ∧ n ∈ groupArrays ∧ i ≠ 1 then some (parts.getD i []) else none⟩

theorem dm_has : HasAll dmFiles 3 := by
  intro i hi t ht n hn
  have : ∀ i < 3, ∀ t < 6, ∀ n ∈ groupArrays, (dmFiles i).npart.getD t 0 = ((((dmFiles i).data t n).getD []).length : Int) ∧ ((dmFiles i).data t n = none → (dmFiles i).npart.getD t 0 = 0) := by decide +kernel
  exact this i hi t ht n hn

/-- The range spans all files; the call before it fails. -/
example : (readParticleRange dmFiles 3 (npartAfter dmFiles 3 [(3, 0, ["Coordinates".toList])]) 1 3 ["ParticleIDs".toList]).2 = .ok [("ParticleIDs".toList, [11, 12, 13])] := by
  have h := (C54_in_bounds (files := dmFiles) (num := 3) (datasets := ["ParticleIDs".toList]) (by decide +kernel) (fun n hn i hi => dm_has i hi 1 (by omega) n (by
    rw [List.mem_singleton] at hn; subst hn; decide +kernel)) [(3, 0, ["Coordinates".toList])] (offset := 1) (count := 3) (by omega) (by decide +kernel)).1
  exact h.trans (by decide +kernel)

example : (readParticleRange dmFiles 3 (npartFresh 3) 3 0 ["ParticleIDs".toList]).2 = .error .valueError := by decide +kernel

example : (readGroup dmFiles 3 (npartFresh 3) [0, 1] [1, 4] 1 ["ParticleIDs".toList]).2 = .ok [("ParticleIDs".toList, [11, 12, 13, 14])] := by decide +kernel

/-- Groups of 1, 3 and 1 particles; the second one has two subhalos of one particle. -/
def good : GroupTable := ⟨[[0, 1, 0, 0, 0, 0], [0, 3, 0, 0, 0, 0], [0, 1, 0, 0, 0, 0]], [0, 2, 0], [0, 0, 2], [[0, 1, 0, 0, 0, 0], [0, 1, 0, 0, 0, 0]], [2, 1]⟩

/-- The second group spans all files, and all hypotheses hold. -/
example : ∃ out, (readFofGroup dmFiles 3 good (npartTypesAfter dmFiles 3 good [2, 7, 0]) 1).2 = .ok out ∧ out.length = 6 ∧ ∀ t < 6, ∃ x, out[t]? = some x ∧ IsGroupEntry good 1 t (groupWindow dmFiles 3 good 1 t) x := by
  refine C55_complete dm_has (by decide) _ ?_ ?_ ?_ ?_
  · intro t ht
    have : ∀ t < 6, 0 ≤ groupFirst good 1 t ∧ 0 ≤ groupLen good 1 t ∧ groupFirst good 1 t + groupLen good 1 t ≤ particlesBefore dmFiles t 3 := by decide +kernel
    exact this t ht
  · intro t ht
    have : ∀ t < 6, 0 ≤ good.firstsub.getD 1 0 ∧ 0 ≤ good.nsubs.getD 1 0 ∧ good.firstsub.getD 1 0 + good.nsubs.getD 1 0 ≤ good.sublentype.length ∧ ∀ x ∈ subLengths good 1 t, 0 ≤ x := by decide +kernel
    exact this t ht
  · decide +kernel
  · intro t ht
    have : ∀ t < 6, 0 < groupLen good 1 t → ∀ m < 3, 0 < m → particlesBefore dmFiles t m ≠ groupLast good 1 t := by decide +kernel
    exact fun h m h0 hm => this t ht h m hm h0

example : (readFofGroup dmFiles 3 good (npartTypesFresh 3) 1).2.toOption.map (fun out => out.map (fun x => (x.data.map Prod.snd, x.subnr))) =
    some [([], none), ([[11, 12, 13], [11, 12, 13], [11, 12, 13]], some [0, 1, -1]), ([], none), ([], none), ([], none), ([], none)] := by decide +kernel

/-- Groups of 3 and 2 particles: the last particle of the first group is the first one of the third file. -/
def bad : GroupTable := ⟨[[0, 3, 0, 0, 0, 0], [0, 2, 0, 0, 0, 0]], [0, 0], [0, 0], [], [2]⟩

/-- It is missing. -/
example : (readFofGroup dmFiles 3 bad (npartTypesFresh 3) 0).2.toOption.map (fun out => out.map (fun x => (x.data.map Prod.snd, x.subnr))) =
    some [([], none), ([[10, 11], [10, 11], [10, 11]], some [-1, -1]), ([], none), ([], none), ([], none), ([], none)] := by decide +kernel

theorem bad_stops : StopsAfter dmFiles (groupLast bad 0) 3 1 := by
  refine ⟨by omega, Or.inr ⟨by omega, by decide +kernel⟩, ?_⟩
  intro j h1 h2
  omega

example {out : List (FofParticles Nat)} (hout : (readFofGroup dmFiles 3 bad (npartTypesAfter dmFiles 3 bad []) 0).2 = .ok out) :
    ∃ x, out[1]? = some x ∧ x.data = presentArrays (fun n => (groupWindow dmFiles 3 bad 0 1 n).dropLast) := by
  have hin : ∀ t < 6, GroupIn dmFiles 3 bad 0 t := by
    intro t ht
    have : ∀ t < 6, 0 ≤ groupFirst bad 0 t ∧ 0 ≤ groupLen bad 0 t ∧ groupFirst bad 0 t + groupLen bad 0 t ≤ particlesBefore dmFiles t 3 := by decide +kernel
    exact this t ht
  obtain ⟨x, h1, h2, -⟩ := C55_lost dm_has (by decide) [] hin bad_stops (by omega) (by omega : 1 < 6) (by decide +kernel) (by decide +kernel) hout
  exact ⟨x, h1, h2⟩

/-- With subhalos it fails. -/
def bad2 : GroupTable := ⟨[[0, 3, 0, 0, 0, 0], [0, 2, 0, 0, 0, 0]], [1, 0], [0, 1], [[0, 3, 0, 0, 0, 0]], [2]⟩

example : (readFofGroup dmFiles 3 bad2 (npartTypesFresh 3) 0).2.toOption = none := by decide +kernel

/-- Two catalogue files -/
def tabFiles (i : Nat) : SubTabData :=
  if i = 0 then ⟨2, [[0, 1, 0, 0, 0, 0], [0, 3, 0, 0, 0, 0]], [0, 2], [0, 0], []⟩ else ⟨2, [[0, 1, 0, 0, 0, 0]], [0], [2], [[0, 1, 0, 0, 0, 0], [0, 1, 0, 0, 0, 0]]⟩

example : openGroupTable tabFiles = .ok good :=
  (C55_table (files := tabFiles) (num := 2) rfl (by decide) (by decide) ⟨0, by omega, by decide⟩ ⟨1, by omega, by decide⟩).trans (by decide +kernel)

/-- Group 0 of file 1 is group 2. -/
example : readFofGroupInFile dmFiles 3 good (npartTypesFresh 3) 1 0 = readFofGroup dmFiles 3 good (npartTypesFresh 3) 2 := by
  obtain ⟨i, -, hi, h⟩ := C55_by_file (files := tabFiles) (num := 2) (table := good) (by decide +kernel) (by decide +kernel) (filenum := 1) (fofnum := 0) (by omega) (by decide) dmFiles 3 (npartTypesFresh 3)
  rw [h, hi]
  rfl

end ExGroupSnap

end Verif
