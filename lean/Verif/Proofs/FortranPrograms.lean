import Verif.Model.FortranPrograms
import Verif.Spec.FortranPrograms
import Verif.Props.FortranReaders
import Verif.Props.FortranSort
import Verif.Props.ReadRegion
import Verif.Props.CPeano

/-! Proofs about the Fortran programs for Millennium data -/

namespace Verif.FortranPrograms

open CPeano ReadRegion FortranReaders ReadParticles

theorem at1_ok {α : Type} {a : List α} {i : Nat} {v : α} (h : a[i]? = some v) : at1 a ((i : Int) + 1) = .ok v := by
  unfold at1
  rw [if_neg (by omega), show ((i : Int) + 1 - 1).toNat = i by omega, h]

theorem at1_pos {α : Type} {a : List α} {i : Nat} {v : α} (hi : 1 ≤ i) (h : a[i - 1]? = some v) : at1 a (i : Int) = .ok v := by
  have := at1_ok h
  rw [show ((i - 1 : Nat) : Int) + 1 = i by omega] at this
  exact this

/-! ### Sorted indexes -/

/-- What the proof uses of a sorted index -/
structure Sorted (arr : List Int) (idx : List Nat) : Prop where
  length : idx.length = arr.length
  mem : ∀ g, g ∈ idx ↔ 1 ≤ g ∧ g ≤ arr.length
  nodup : idx.Nodup
  sorted : ∀ (i j p q : Nat), i < j → idx[i]? = some p → idx[j]? = some q → arr.getD (p - 1) 0 ≤ arr.getD (q - 1) 0

theorem sorted_of (arr : List Int) : ∃ idx, FSort.sortIndex arr (List.replicate arr.length 0) = .ok idx ∧ Sorted arr idx := by
  obtain ⟨out, h1, h2, h3, -⟩ := C77_sort_index arr (List.replicate arr.length 0) (by simp)
  rw [List.length_replicate] at h2
  rw [List.take_of_length_le (by omega)] at h3
  refine ⟨out, h1, h2, ?_, ?_, ?_⟩
  · intro g
    rw [h3.1.mem_iff, List.mem_range'_1]
    omega
  · rw [h3.1.nodup_iff]
    exact List.nodup_range'
  · intro i j p q hij hp hq
    obtain ⟨x, y, hx, hy, hxy⟩ := h3.2 i j p q hij hp hq
    rw [List.getD_eq_getElem?_getD, List.getD_eq_getElem?_getD, hx, hy]
    exact hxy

/-- Value number `j` in sorted order, from one -/
def nth (ids : List Int) (pidx : List Nat) (j : Nat) : Int := ids.getD (pidx.getD (j - 1) 0 - 1) 0

theorem sorted_at {ids : List Int} {pidx : List Nat} (h : Sorted ids pidx) {j : Nat} (h1 : 1 ≤ j) (h2 : j ≤ ids.length) :
    ∃ k : Nat, at1 pidx j = .ok k ∧ 1 ≤ k ∧ k ≤ ids.length ∧ at1 ids k = .ok (nth ids pidx j) ∧ ids[k - 1]? = some (nth ids pidx j) := by
  have hl : j - 1 < pidx.length := by rw [h.length]; omega
  have hm := (h.mem pidx[j - 1]).1 (List.getElem_mem hl)
  have e : ids[pidx[j - 1] - 1]? = some (nth ids pidx j) := by
    unfold nth
    have e1 : pidx.getD (j - 1) 0 = pidx[j - 1] := by rw [List.getD_eq_getElem?_getD, List.getElem?_eq_getElem hl]; rfl
    rw [e1, List.getD_eq_getElem?_getD, List.getElem?_eq_getElem (by omega)]
    rfl
  exact ⟨pidx[j - 1], at1_pos h1 (List.getElem?_eq_getElem hl), hm.1, hm.2, at1_pos hm.1 e, e⟩

theorem nth_mono {ids : List Int} {pidx : List Nat} (h : Sorted ids pidx) {i j : Nat} (h1 : 1 ≤ i) (hij : i ≤ j) (h2 : j ≤ ids.length) : nth ids pidx i ≤ nth ids pidx j := by
  rcases Nat.lt_or_ge i j with hlt | hge
  · have hi : i - 1 < pidx.length := by rw [h.length]; omega
    have hj : j - 1 < pidx.length := by rw [h.length]; omega
    have := h.sorted (i - 1) (j - 1) _ _ (by omega) (List.getElem?_eq_getElem hi) (List.getElem?_eq_getElem hj)
    unfold nth
    rw [List.getD_eq_getElem?_getD (l := pidx), List.getD_eq_getElem?_getD (l := pidx), List.getElem?_eq_getElem hi, List.getElem?_eq_getElem hj]
    exact this
  · have : i = j := by omega
    subst this
    exact le_refl _

theorem nth_mem {ids : List Int} {pidx : List Nat} (h : Sorted ids pidx) {v : Int} (hv : v ∈ ids) : ∃ j, 1 ≤ j ∧ j ≤ ids.length ∧ nth ids pidx j = v := by
  obtain ⟨i, hi, hiv⟩ := List.getElem_of_mem hv
  obtain ⟨j, hj, hjv⟩ := List.getElem_of_mem ((h.mem (i + 1)).2 ⟨by omega, by omega⟩)
  refine ⟨j + 1, by omega, by rw [← h.length]; omega, ?_⟩
  unfold nth
  rw [Nat.add_sub_cancel, List.getD_eq_getElem?_getD (l := pidx), List.getElem?_eq_getElem hj, Option.getD_some, hjv, Nat.add_sub_cancel, List.getD_eq_getElem?_getD, List.getElem?_eq_getElem hi]
  exact hiv

theorem advance_ok {ids : List Int} {pidx : List Nat} (h : Sorted ids pidx) (id : Int) : ∀ fuel j, 1 ≤ j → j ≤ ids.length → ids.length < fuel + j →
    ∃ j', advance ids pidx id fuel j = .ok j' ∧ j ≤ j' ∧ j' ≤ ids.length ∧ (∀ k, j ≤ k → k < j' → nth ids pidx k < id) ∧ (id ≤ nth ids pidx j' ∨ j' = ids.length) := by
  intro fuel
  induction fuel with
  | zero => intro j h1 h2 h3; omega
  | succ fuel ih =>
    intro j h1 h2 h3
    obtain ⟨k, e1, -, -, e2, -⟩ := sorted_at h h1 h2
    unfold advance
    rw [bindOk _ e1, bindOk _ e2]
    by_cases hc : nth ids pidx j < id ∧ j < ids.length
    · rw [if_pos hc]
      obtain ⟨j', g1, g2, g3, g4, g5⟩ := ih (j + 1) (by omega) (by omega) (by omega)
      refine ⟨j', g1, by omega, g3, ?_, g5⟩
      intro k hk1 hk2
      rcases Nat.lt_or_ge j k with hlt | hge
      · exact g4 k hlt hk2
      · have : k = j := by omega
        subst this
        exact hc.1
    · rw [if_neg hc]
      refine ⟨j, rfl, le_refl _, h2, ?_, ?_⟩
      · intro k hk1 hk2; omega
      · by_cases hl : j < ids.length
        · left
          by_contra hn
          exact hc ⟨by omega, hl⟩
        · right; omega

theorem match_ok (parts : List Particle) {pidx : List Nat} (hP : Sorted (parts.map (fun p => int64Value p.id)) pidx) (hne : parts ≠ []) (gids : List Int) :
    ∀ (L : List Nat) (s : MatchState), L.Pairwise (fun g g' => gids.getD (g - 1) 0 ≤ gids.getD (g' - 1) 0) → L.Nodup → (∀ g ∈ L, 1 ≤ g ∧ g ≤ gids.length) → s.group.length = gids.length →
      1 ≤ s.j → s.j ≤ parts.length → (∀ k, 1 ≤ k → k < s.j → ∀ g ∈ L, nth (parts.map (fun p => int64Value p.id)) pidx k < gids.getD (g - 1) 0) →
      ∃ s', L.foldlM (matchStep parts (parts.map (fun p => int64Value p.id)) pidx gids) s = .ok s' ∧ s'.group.length = gids.length ∧
        s'.nmatched = s.nmatched + (L.filter (fun g => decide (gids.getD (g - 1) 0 ∈ parts.map (fun p => int64Value p.id)))).length ∧
        (∀ g ∈ L, gids.getD (g - 1) 0 ∈ parts.map (fun p => int64Value p.id) → ∃ p ∈ parts, int64Value p.id = gids.getD (g - 1) 0 ∧ s'.group[g - 1]? = some (coordsOf p)) ∧
        ∀ i, (∀ g ∈ L, g - 1 ≠ i) → s'.group[i]? = s.group[i]? := by
  have hlen : (parts.map (fun p => int64Value p.id)).length = parts.length := List.length_map ..
  intro L
  induction L with
  | nil =>
    intro s _ _ _ hg _ _ _
    exact ⟨s, rfl, hg, by simp, by simp, by simp⟩
  | cons g L ih =>
    intro s hpw hnd hr hg h1 h2 hinv
    rw [List.pairwise_cons] at hpw
    rw [List.nodup_cons] at hnd
    obtain ⟨hg1, hg2⟩ := hr g List.mem_cons_self
    have hid : gids[g - 1]? = some (gids.getD (g - 1) 0) := by
      rw [List.getD_eq_getElem?_getD, List.getElem?_eq_getElem (by omega)]
      rfl
    obtain ⟨j', a1, a2, a3, a4, a5⟩ := advance_ok hP (gids.getD (g - 1) 0) ((parts.map (fun p => int64Value p.id)).length + 1) s.j h1 (by omega) (by omega)
    obtain ⟨k, e1, k1, k2, e2, e3⟩ := sorted_at hP (j := j') (by omega) a3
    have hk : k - 1 < parts.length := by omega
    have e4 : int64Value (parts[k - 1]).id = nth (parts.map (fun p => int64Value p.id)) pidx j' := by
      rw [List.getElem?_map, List.getElem?_eq_getElem hk] at e3
      exact Option.some.inj e3
    have step : matchStep parts (parts.map (fun p => int64Value p.id)) pidx gids s g =
        .ok ⟨j', if gids.getD (g - 1) 0 = nth (parts.map (fun p => int64Value p.id)) pidx j' then s.nmatched + 1 else s.nmatched, s.group.set (g - 1) (coordsOf parts[k - 1])⟩ := by
      unfold matchStep
      rw [bindOk _ (at1_pos hg1 hid), bindOk _ a1, bindOk _ e1, bindOk _ e2, bindOk _ (at1_pos k1 (List.getElem?_eq_getElem hk))]
    have found : gids.getD (g - 1) 0 ∈ parts.map (fun p => int64Value p.id) ↔ gids.getD (g - 1) 0 = nth (parts.map (fun p => int64Value p.id)) pidx j' := by
      constructor
      · intro hm
        obtain ⟨i, i1, i2, i3⟩ := nth_mem hP hm
        have hij : j' ≤ i := by
          by_contra hc
          have : nth (parts.map (fun p => int64Value p.id)) pidx i < gids.getD (g - 1) 0 := by
            rcases Nat.lt_or_ge i s.j with hlt | hge
            · exact hinv i i1 hlt g List.mem_cons_self
            · exact a4 i hge (by omega)
          omega
        have := nth_mono hP (show 1 ≤ j' by omega) hij i2
        rcases a5 with h5 | h5
        · omega
        · have : i = j' := by omega
          subst this
          omega
      · intro he
        rw [he, ← e4]
        exact List.mem_map.2 ⟨_, List.getElem_mem hk, rfl⟩
    obtain ⟨s', b1, b2, b3, b4, b5⟩ := ih ⟨j', if gids.getD (g - 1) 0 = nth (parts.map (fun p => int64Value p.id)) pidx j' then s.nmatched + 1 else s.nmatched, s.group.set (g - 1) (coordsOf parts[k - 1])⟩
      hpw.2 hnd.2 (fun g' h => hr g' (List.mem_cons_of_mem _ h)) (by simpa using hg) (by dsimp only; omega) (by dsimp only; omega) (by
        intro i i1 i2 g' hg'
        rcases Nat.lt_or_ge i s.j with hlt | hge
        · exact hinv i i1 hlt g' (List.mem_cons_of_mem _ hg')
        · have := a4 i hge i2
          have := hpw.1 g' hg'
          omega)
    refine ⟨s', ?_, b2, ?_, ?_, ?_⟩
    · rw [List.foldlM_cons, bindOk _ step, b1]
    · rw [b3, List.filter_cons]
      dsimp only
      by_cases hf : gids.getD (g - 1) 0 = nth (parts.map (fun p => int64Value p.id)) pidx j'
      · rw [if_pos hf, if_pos (by simpa using found.2 hf), List.length_cons]
        omega
      · rw [if_neg hf, if_neg (by rw [decide_eq_true_eq, found]; exact hf)]
    · intro g' hg' hm
      rcases List.mem_cons.1 hg' with rfl | hg'
      · refine ⟨_, List.getElem_mem hk, ?_, ?_⟩
        · rw [e4, ← found.1 hm]
        · rw [b5 (g' - 1) ?_]
          · dsimp only
            rw [List.getElem?_set_self (by omega)]
          · intro g'' h'' he
            have := (hr g'' (List.mem_cons_of_mem _ h'')).1
            have : g'' = g' := by omega
            subst this
            exact hnd.1 h''
      · exact b4 g' hg' hm
    · intro i hi
      rw [b5 i (fun g' h => hi g' (List.mem_cons_of_mem _ h))]
      dsimp only
      rw [List.getElem?_set_ne (hi g List.mem_cons_self)]

theorem stripKey_eq {v : List Byte} (hv : v.length = 8) : stripKey v = (leNat v % 2 ^ 34 : Nat) := by
  unfold stripKey
  congr 1
  have e : (2 : Nat) ^ 64 = 2 ^ 34 * 2 ^ 30 := by norm_num
  rw [e, Nat.mul_mod_mul_right, Nat.mul_div_cancel _ (by norm_num)]

/-- All IDs of the groups are found. -/
theorem groupCoords_ok {parts : List Particle} (hne : parts ≠ []) {ids : List (List Byte)} (blank : Particle) (hall : ∀ v ∈ ids, ∃ p ∈ parts, int64Value p.id = stripKey v) :
    ∃ group, groupCoords parts ids blank = .ok group ∧ group.length = ids.length ∧ ∀ (i : Nat) (v : List Byte), ids[i]? = some v → ∃ p ∈ parts, int64Value p.id = stripKey v ∧ group[i]? = some (coordsOf p) := by
  obtain ⟨gidx, g1, hG⟩ := sorted_of (ids.map stripKey)
  obtain ⟨pidx, p1, hP⟩ := sorted_of (parts.map (fun p => int64Value p.id))
  have hpos : 0 < parts.length := List.length_pos_iff.2 hne
  obtain ⟨s', m1, m2, m3, m4, -⟩ := match_ok parts hP hne (ids.map stripKey) gidx ⟨1, 0, List.replicate (ids.map stripKey).length (coordsOf blank)⟩ (by
      rw [List.pairwise_iff_getElem]
      intro i j hi hj hij
      exact hG.sorted i j _ _ hij (List.getElem?_eq_getElem hi) (List.getElem?_eq_getElem hj)) hG.nodup (fun g hg => (hG.mem g).1 hg) (by simp) (by simp) (by dsimp only; omega) (by
      intro k k1 k2; dsimp only at k2; omega)
  have hin : ∀ g ∈ gidx, (ids.map stripKey).getD (g - 1) 0 ∈ parts.map (fun p => int64Value p.id) := by
    intro g hg
    obtain ⟨h1, h2⟩ := (hG.mem g).1 hg
    rw [List.length_map] at h2
    rw [List.getD_eq_getElem?_getD, List.getElem?_map, List.getElem?_eq_getElem (by omega)]
    obtain ⟨p, hp, he⟩ := hall ids[g - 1] (List.getElem_mem _)
    exact List.mem_map.2 ⟨p, hp, he⟩
  have hcount : s'.nmatched = (ids.map stripKey).length := by
    rw [m3, List.filter_eq_self.2 (fun g hg => by simpa using hin g hg), hG.length]
    simp
  refine ⟨s'.group, ?_, by rw [m2, List.length_map], ?_⟩
  · unfold groupCoords
    dsimp only
    rw [bindOk _ g1, bindOk _ p1, bindOk _ m1, if_neg (by omega)]
  · intro i v hi
    have hil := (List.getElem?_eq_some_iff.1 hi).1
    have hmem : i + 1 ∈ gidx := (hG.mem _).2 ⟨by omega, by rw [List.length_map]; omega⟩
    obtain ⟨p, hp, he, hgr⟩ := m4 (i + 1) hmem (hin _ hmem)
    refine ⟨p, hp, ?_, by simpa using hgr⟩
    rw [he, Nat.add_sub_cancel, List.getD_eq_getElem?_getD, List.getElem?_map, hi]
    rfl

/-- An ID is not found. -/
theorem groupCoords_stop {parts : List Particle} (hne : parts ≠ []) {ids : List (List Byte)} (blank : Particle) (hnot : ∃ v ∈ ids, ∀ p ∈ parts, int64Value p.id ≠ stripKey v) :
    groupCoords parts ids blank = .error .abort := by
  obtain ⟨gidx, g1, hG⟩ := sorted_of (ids.map stripKey)
  obtain ⟨pidx, p1, hP⟩ := sorted_of (parts.map (fun p => int64Value p.id))
  have hpos : 0 < parts.length := List.length_pos_iff.2 hne
  obtain ⟨s', m1, m2, m3, m4, -⟩ := match_ok parts hP hne (ids.map stripKey) gidx ⟨1, 0, List.replicate (ids.map stripKey).length (coordsOf blank)⟩ (by
      rw [List.pairwise_iff_getElem]
      intro i j hi hj hij
      exact hG.sorted i j _ _ hij (List.getElem?_eq_getElem hi) (List.getElem?_eq_getElem hj)) hG.nodup (fun g hg => (hG.mem g).1 hg) (by simp) (by simp) (by dsimp only; omega) (by
      intro k k1 k2; dsimp only at k2; omega)
  obtain ⟨v, hv, hno⟩ := hnot
  obtain ⟨i, hi, hiv⟩ := List.getElem_of_mem hv
  have hmem : i + 1 ∈ gidx := (hG.mem _).2 ⟨by omega, by rw [List.length_map]; omega⟩
  have hlt : (gidx.filter (fun g => decide ((ids.map stripKey).getD (g - 1) 0 ∈ parts.map (fun p => int64Value p.id)))).length < gidx.length := by
    refine List.length_filter_lt_length_iff_exists.2 ⟨i + 1, hmem, ?_⟩
    rw [decide_eq_true_eq, Nat.add_sub_cancel, List.getD_eq_getElem?_getD, List.getElem?_map, List.getElem?_eq_getElem hi, hiv]
    intro h
    obtain ⟨p, hp, he⟩ := List.mem_map.1 h
    exact hno p hp he
  unfold groupCoords
  dsimp only
  rw [bindOk _ g1, bindOk _ p1, bindOk _ m1, if_pos (by rw [m3, ← hG.length]; simpa using hlt)]

/-! ### Flags -/

theorem flag_set (nhash c : Nat) (S : Nat → Bool) : ((List.range nhash).map S).set c true = (List.range nhash).map (fun d => decide (d = c) || S d) := by
  apply List.ext_getElem?
  intro i
  rw [List.getElem?_set]
  by_cases hi : i < nhash
  · by_cases hc : c = i
    · subst hc
      simp [hi]
    · rw [if_neg hc]
      have : ¬ i = c := fun h => hc h.symm
      simp [hi, this]
  · by_cases hc : c = i
    · subst hc
      simp [hi]
    · rw [if_neg hc]
      simp [hi]

theorem flag_fold (nhash : Nat) : ∀ (ids : List (List Byte)) (S : Nat → Bool), (∀ v ∈ ids, leNat v / 2 ^ 34 < nhash) →
    ids.foldlM (fun hashmap v => if hashKey v < nhash then Except.ok (hashmap.set (hashKey v) true) else (.error .other : Except Err (List Bool))) ((List.range nhash).map S) =
      .ok ((List.range nhash).map (fun c => decide (∃ v ∈ ids, leNat v / 2 ^ 34 = c) || S c)) := by
  intro ids
  induction ids with
  | nil => intro S _; simp; rfl
  | cons v ids ih =>
    intro S h
    rw [List.foldlM_cons, if_pos (show hashKey v < nhash from h v List.mem_cons_self), flag_set]
    have := ih (fun d => decide (d = hashKey v) || S d) (fun w hw => h w (List.mem_cons_of_mem _ hw))
    rw [show ∀ (x : List Bool) (f : List Bool → Except Err (List Bool)), (Except.ok x >>= f) = f x from fun _ _ => rfl, this]
    congr 1
    apply List.map_congr_left
    intro c _
    rw [Bool.eq_iff_iff]
    simp only [Bool.or_eq_true, decide_eq_true_eq, List.mem_cons, exists_eq_or_imp, hashKey]
    constructor
    · rintro (h | h | h)
      · exact Or.inl (Or.inr h)
      · exact Or.inl (Or.inl (of_decide_eq_true h).symm)
      · exact Or.inr h
    · rintro ((h | h) | h)
      · exact Or.inr (Or.inl (decide_eq_true h.symm))
      · exact Or.inl h
      · exact Or.inr (Or.inr h)

theorem flagCells_ok {nhash : Nat} {ids : List (List Byte)} (h : ∀ v ∈ ids, leNat v / 2 ^ 34 < nhash) : flagCells nhash ids = .ok (wanted nhash ids) := by
  unfold flagCells
  have e : List.replicate nhash false = (List.range nhash).map (fun _ => false) := by simp
  rw [e, flag_fold nhash ids _ h]
  unfold wanted
  simp

theorem flagCells_bad {nhash : Nat} : ∀ {ids : List (List Byte)} (m : List Bool), (∃ v ∈ ids, nhash ≤ leNat v / 2 ^ 34) →
    ids.foldlM (fun hashmap v => if hashKey v < nhash then Except.ok (hashmap.set (hashKey v) true) else (.error .other : Except Err (List Bool))) m = .error .other := by
  intro ids
  induction ids with
  | nil => rintro m ⟨v, hv, _⟩; cases hv
  | cons w ids ih =>
    rintro m ⟨v, hv, hb⟩
    rw [List.foldlM_cons]
    by_cases hw : hashKey w < nhash
    · rw [if_pos hw]
      refine ih _ ?_
      rcases List.mem_cons.1 hv with rfl | hv
      · unfold hashKey at hw; omega
      · exact ⟨v, hv, hb⟩
    · rw [if_neg hw]
      rfl

/-! ### The snapshot -/

section snapshot

variable {Cs : Nat → Content} {n cells : Nat → Nat} {start : Nat → Nat → Nat} {nfile : Nat}

theorem mem_region {hashmap : List Bool} {p : Particle} : p ∈ region Cs n cells start nfile hashmap ↔ ∃ c, hashmap.getD c false = true ∧ InCell Cs n cells start nfile c p := by
  unfold region InCell
  simp only [List.mem_flatMap, List.mem_range]
  constructor
  · rintro ⟨f, hf, j, hj, h⟩
    split_ifs at h with hc
    · exact ⟨_, hc, f, hf, j, hj, rfl, h⟩
    · cases h
  · rintro ⟨c, hc, f, hf, j, hj, rfl, h⟩
    exact ⟨f, hf, j, hj, by rw [if_pos hc]; exact h⟩

theorem wanted_iff {nhash c : Nat} {ids : List (List Byte)} : (wanted nhash ids).getD c false = true ↔ c < nhash ∧ ∃ v ∈ ids, leNat v / 2 ^ 34 = c := by
  unfold wanted
  rw [List.getD_eq_getElem?_getD, List.getElem?_map]
  by_cases hc : c < nhash
  · rw [List.getElem?_range hc]
    simp [hc]
  · rw [List.getElem?_eq_none (by simpa using hc)]
    simp [hc]

theorem inCell_lt {c : Nat} {p : Particle} (h : InCell Cs n cells start nfile c p) : c < pre cells nfile := by
  obtain ⟨f, hf, j, hj, rfl, -⟩ := h
  have := pre_lt_total (f := cells) hf
  omega

theorem snapFiles_ok {fs : ByteFS} {basedir basename : Name} {isnap : Nat} {big : Bool} (H : Stored fs basedir basename isnap Cs n cells nfile big) (blanks : Nat) :
    ∃ rest : Nat → List Byte, ∀ f < nfile, snapFiles fs basedir (basename ++ List.replicate blanks ' ') isnap f = snapshotBytes (Cs f) (n f) (cells f) big (rest f) := by
  have key : ∀ f, ∃ rest : List Byte, f < nfile → snapFiles fs basedir (basename ++ List.replicate blanks ' ') isnap f = snapshotBytes (Cs f) (n f) (cells f) big rest := by
    intro f
    by_cases hf : f < nfile
    · obtain ⟨p, rest, hl, hp⟩ := H.2 f hf
      refine ⟨rest, fun _ => ?_⟩
      obtain ⟨g, h1, h2⟩ := chooseFile_located hl
      unfold snapFiles
      rw [trim_append H.1, show chooseFile 0 "snapdir".toList basename basedir isnap f = .ok g from h1]
      dsimp only
      rw [h2, hp]
      rfl
    · exact ⟨[], fun h => absurd h hf⟩
  choose rest h using key
  exact ⟨rest, h⟩

/-- The IDs of the snapshot are eight bytes. -/
theorem id_length (S : Snapshot Cs n cells start nfile) {c : Nat} {p : Particle} (h : InCell Cs n cells start nfile c p) : p.id.length = 8 := by
  obtain ⟨f, hf, j, hj, rfl, hp⟩ := h
  obtain ⟨i, hi, rfl⟩ := List.mem_map.1 hp
  have hi := List.mem_range'_1.1 hi
  have hb := S.bound f hf j hj
  have hlt : i < n f := by
    by_cases hl : j + 1 < cells f
    · rw [if_pos hl] at hi
      have := S.bound f hf (j + 1) hl
      omega
    · rw [if_neg hl] at hi
      omega
  have ha : (Files.col 8 (n f) "PartType1/ParticleIDs").Fits (Cs f) := (S.file f hf).row (s := sec3 (n f)) (by simp) _ (by simp [sec3])
  have hl : (Cs f "PartType1/ParticleIDs".toList).length = n f := ha.1.trans (by simp [Files.col])
  unfold particleAt
  dsimp only
  rw [List.getD_eq_getElem?_getD, List.getElem?_eq_getElem (by omega)]
  exact ha.2 _ (List.getElem_mem _)

theorem leNat_lt : ∀ (v : List Byte), leNat v < 256 ^ v.length
  | [] => by simp [leNat]
  | b :: v => by
    have := leNat_lt v
    have hb := b.isLt
    rw [leNat, List.length_cons, pow_succ]
    omega

theorem strip_iff {p v : List Byte} (hp : p.length = 8) (hv : v.length = 8) : int64Value p = stripKey v ↔ leNat p = leNat v % 2 ^ 34 := by
  rw [stripKey_eq hv]
  have h1 := leNat_lt p
  rw [hp] at h1
  have h2 := Nat.mod_lt (leNat v) (show 0 < 2 ^ 34 by norm_num)
  norm_num at h1 h2 ⊢
  unfold int64Value
  split_ifs with h <;> constructor <;> intro h' <;> omega

/-- The coordinates of the particles of the groups -/
theorem coords_of (S : Snapshot Cs n cells start nfile) {ids : List (List Byte)} (h8 : ∀ v ∈ ids, v.length = 8) (hne : ids ≠ []) {who : Nat → Particle}
    (hw : ∀ i < ids.length, Meant Cs n cells start nfile (ids.getD i []) (who i)) (hu : UniqueIDs Cs n cells start nfile) (blank : Particle) :
    region Cs n cells start nfile (wanted (pre cells nfile) ids) ≠ [] ∧
      groupCoords (region Cs n cells start nfile (wanted (pre cells nfile) ids)) ids blank = .ok ((List.range ids.length).map (fun i => coordsOf (who i))) := by
  have hmem : ∀ i < ids.length, who i ∈ region Cs n cells start nfile (wanted (pre cells nfile) ids) := by
    intro i hi
    have hm := hw i hi
    refine mem_region.2 ⟨_, wanted_iff.2 ⟨inCell_lt hm.1, _, ?_, rfl⟩, hm.1⟩
    rw [List.getD_eq_getElem?_getD, List.getElem?_eq_getElem hi]
    exact List.getElem_mem hi
  have hR : region Cs n cells start nfile (wanted (pre cells nfile) ids) ≠ [] := List.ne_nil_of_mem (hmem 0 (List.length_pos_iff.2 hne))
  refine ⟨hR, ?_⟩
  have hgetD : ∀ i (hi : i < ids.length), ids.getD i [] = ids[i] := by
    intro i hi
    rw [List.getD_eq_getElem?_getD, List.getElem?_eq_getElem hi]
    rfl
  obtain ⟨group, h1, h2, h3⟩ := groupCoords_ok hR (ids := ids) blank (by
    intro v hv
    obtain ⟨i, hi, rfl⟩ := List.getElem_of_mem hv
    have hm := hw i hi
    rw [hgetD i hi] at hm
    exact ⟨who i, hmem i hi, (strip_iff (id_length S hm.1) (h8 _ hv)).2 hm.2⟩)
  rw [h1]
  refine congrArg Except.ok ?_
  apply List.ext_getElem?
  intro i
  by_cases hi : i < ids.length
  · obtain ⟨p, hp, he, hg⟩ := h3 i ids[i] (List.getElem?_eq_getElem hi)
    obtain ⟨c, -, hc⟩ := mem_region.1 hp
    have hm := hw i hi
    rw [hgetD i hi] at hm
    have : p = who i := hu _ _ _ _ hc hm.1 (by
      rw [(strip_iff (id_length S hc) (h8 _ (List.getElem_mem hi))).1 he, hm.2])
    rw [hg, this]
    simp [hi]
  · rw [List.getElem?_eq_none (by omega), List.getElem?_eq_none (by simpa using hi)]

end snapshot

/-! ### Rows -/

theorem memberRows_ok {ni off len : Nat} (f : Nat → Coord) (h : off + len ≤ ni) (hn : (ni : Int) < 2147483647) :
    memberRows ((List.range ni).map f) off len = .ok ((List.range len).map (fun k => f (off + k))) := by
  unfold memberRows
  rw [bindOk _ (cInt_ok (x := (off : Int) + 1) (by omega) (by omega)), bindOk _ (cInt_ok (x := (off : Int) + len) (by omega) (by omega)),
    show ((off : Int) + len - (off + 1) + 1).toNat = len by omega]
  refine mapM_ok _ _ _ ?_
  intro k hk
  have hk := List.mem_range.1 hk
  rw [show ((off : Int) + 1 + k) = ((off + k : Nat) : Int) + 1 by push_cast; ring]
  apply at1_ok
  rw [List.getElem?_map, List.getElem?_range (by omega)]
  rfl

theorem rows_ok {γ : Type} {ng : Nat} {row : Nat → Except Err (List γ)} {g : Nat → List γ} (h : ∀ i < ng, row i = .ok (g i)) :
    ((List.range ng).mapM row >>= fun rows => (Except.ok rows.flatten : Except Err (List γ))) = .ok ((List.range ng).flatMap g) := by
  have := mapM_ok row g (List.range ng) (fun i hi => h i (List.mem_range.1 hi))
  rw [bindOk _ this, List.flatMap_def]

end Verif.FortranPrograms
