import Verif.Proofs.PythonPrograms
import Verif.Props.HashSnapshot
import Verif.Proofs.ParallelUnique
import Mathlib.Tactic.Linarith

/-! C111, C112: Python programs for Millennium data -/

namespace Verif.PythonPrograms

theorem particleID_eq (v : Nat) : particleID v = v % 2 ^ 34 := by
  unfold particleID
  omega

theorem bind_inv {α β : Type} {x : Except Err α} {f : α → Except Err β} {r : β} (h : (x >>= f) = .ok r) : ∃ v, x = .ok v ∧ f v = .ok r := by
  cases x with
  | error e => cases h
  | ok v => exact ⟨v, rfl, h⟩

theorem items_inv {α : Type} {l : List α} {idx : List Int} {out : List α} (h : items l idx = .ok out) :
    out.length = idx.length ∧ ∀ (k : Nat) (x : Int), idx[k]? = some x → ∃ v, out[k]? = some v ∧ item l x = .ok v := by
  induction idx generalizing out with
  | nil =>
    cases h
    exact ⟨rfl, fun k x hx => by simp at hx⟩
  | cons i idx ih =>
    unfold items at h ih
    rw [List.mapM_cons] at h
    obtain ⟨v, h1, h⟩ := bind_inv h
    obtain ⟨rest, h2, h⟩ := bind_inv h
    cases h
    obtain ⟨h3, h4⟩ := ih h2
    refine ⟨by simp [h3], fun k x hx => ?_⟩
    rcases k with _ | k
    · simp only [List.getElem?_cons_zero, Option.some.injEq] at hx
      exact ⟨v, rfl, hx ▸ h1⟩
    · simp only [List.getElem?_cons_succ] at hx ⊢
      exact h4 k x hx

theorem item_inv {α : Type} {l : List α} {j : Nat} {v : α} (h : item l (j : Int) = .ok v) : l[j]? = some v := by
  unfold item pyGet? at h
  rw [if_pos (by omega), Int.toNat_natCast] at h
  cases hj : l[j]? with
  | none => rw [hj] at h; cases h
  | some w => rw [hj] at h; cases h; rfl

theorem unpack {c n : Nat} (hn : n < 2 ^ 34) : hashKey (c * 2 ^ 34 + n) = c ∧ particleID (c * 2 ^ 34 + n) = n := by
  unfold hashKey particleID
  constructor <;> omega

theorem map_range_map (f : Nat → Nat) {g h : Nat → Nat} {len : Nat} (hf : ∀ k < len, f (g k) = h k) : ((List.range len).map g).map f = (List.range len).map h := by
  rw [List.map_map]
  exact List.map_congr_left (fun k hk => hf k (List.mem_range.1 hk))

theorem pySlice_ok {groupids : List Nat} {off len : Nat} (hl : off + len ≤ groupids.length) :
    pySlice groupids (off : Int) ((off : Int) + (len : Int)) = (List.range len).map (fun k => groupids.getD (off + k) 0) := by
  unfold pySlice sliceBound
  rw [if_neg (by omega), if_neg (by omega), Int.toNat_natCast, show ((off : Int) + (len : Int)).toNat = off + len by omega, Nat.min_eq_left (by omega), Nat.min_eq_left hl, Nat.add_sub_cancel_left]
  apply List.ext_getElem?
  intro k
  unfold slice
  by_cases hk : k < len
  · rw [List.getElem?_take, if_pos hk, List.getElem?_drop, List.getElem?_map, List.getElem?_range hk, List.getElem?_eq_getElem (by omega)]
    simp [show off + k < groupids.length by omega]
  · rw [List.getElem?_eq_none (by simp; omega), List.getElem?_eq_none (by simpa using hk)]

/-! ### Particles of one group -/

section Plot

variable {α : Type} {d : HashedFiles α} {nfiles nhash : Nat} {num : α → Nat} {order : List Nat → List Nat}

/-- C111: the program finds position and velocity of each particle of the group, in the order of the IDs. -/
theorem C111_group (hd : ∀ i < nfiles, CellOrdered nhash (d.first i) (d.last i) (d.ps i)) (hu : (((List.range nfiles).flatMap d.ps).map (fun p => num p.id)).Nodup) (ho : ∀ l, IsArgsort l (order l))
    {lens offs : List Int} {groupids : List Nat} {g off len : Nat} (h1 : offs[g]? = some (off : Int)) (h2 : lens[g]? = some (len : Int)) (h0 : 0 < len) (hl : off + len ≤ groupids.length) {who : Nat → CellParticle α}
    (hw : ∀ k < len, who k ∈ (List.range nfiles).flatMap d.ps ∧ groupids.getD (off + k) 0 = (who k).cell.toNat * 2 ^ 34 + num (who k).id ∧ num (who k).id < 2 ^ 34) :
    plotFofGroup order num d.files nfiles nhash lens offs groupids g = .ok ((List.range len).map (fun k => (who k).pos), (List.range len).map (fun k => (who k).vel)) := by
  have hcell : ∀ p ∈ (List.range nfiles).flatMap d.ps, ∃ i < nfiles, d.first i ≤ p.cell ∧ p.cell ≤ d.last i ∧ 0 ≤ p.cell ∧ p.cell < nhash := by
    intro p hp
    obtain ⟨i, hi, hp⟩ := List.mem_flatMap.1 hp
    have hi := List.mem_range.1 hi
    obtain ⟨c1, c2, c3, -, c5⟩ := hd i hi
    have := c5 p hp
    exact ⟨i, hi, this.1, this.2, by omega, by omega⟩
  -- IDs of the group
  obtain ⟨ids, hids⟩ : ∃ ids, ids = pySlice groupids (off : Int) ((off : Int) + (len : Int)) := ⟨_, rfl⟩
  have hids2 : ids = (List.range len).map (fun k => groupids.getD (off + k) 0) := by
    rw [hids]; exact pySlice_ok hl
  have hkey : ∀ k < len, hashKey (groupids.getD (off + k) 0) = (who k).cell.toNat ∧ particleID (groupids.getD (off + k) 0) = num (who k).id := by
    intro k hk
    obtain ⟨w1, w2, w3⟩ := hw k hk
    obtain ⟨i, -, -, -, c1, -⟩ := hcell _ w1
    rw [w2]
    exact unpack w3
  have hk1 : ids.map hashKey = (List.range len).map (fun k => (who k).cell.toNat) := by
    rw [hids2]
    exact map_range_map hashKey (fun k hk => (hkey k hk).1)
  have hk2 : ids.map particleID = (List.range len).map (fun k => num (who k).id) := by
    rw [hids2]
    exact map_range_map particleID (fun k hk => (hkey k hk).2)
  obtain ⟨keys, hkeys⟩ : ∃ keys, keys = (npUnique (ids.map hashKey)).map (fun e : Nat × Nat => (e.1 : Int)) := ⟨_, rfl⟩
  have hmem : ∀ c : Int, c ∈ keys ↔ ∃ k < len, (who k).cell = c := by
    intro c
    have hm := npUnique_mem (ids.map hashKey)
    rw [hkeys]
    constructor
    · intro hc
      obtain ⟨e, he, rfl⟩ := List.mem_map.1 hc
      have := (hm e.1).1 (List.mem_map.2 ⟨e, he, rfl⟩)
      rw [hk1] at this
      obtain ⟨k, hk, hek⟩ := List.mem_map.1 this
      have hk := List.mem_range.1 hk
      obtain ⟨i, -, -, -, c1, -⟩ := hcell _ (hw k hk).1
      exact ⟨k, hk, by omega⟩
    · rintro ⟨k, hk, rfl⟩
      have := (hm (who k).cell.toNat).2 (by rw [hk1]; exact List.mem_map.2 ⟨k, List.mem_range.2 hk, rfl⟩)
      obtain ⟨e, he, hek⟩ := List.mem_map.1 this
      obtain ⟨i, -, -, -, c1, -⟩ := hcell _ (hw k hk).1
      exact List.mem_map.2 ⟨e, he, by rw [hek]; omega⟩
  obtain ⟨sel, hsel⟩ : ∃ sel, sel = ((List.range nfiles).flatMap d.ps).filter (fun p => decide (p.cell ∈ keys)) := ⟨_, rfl⟩
  have hread : (readCells d.files nfiles nhash [] keys).2 = .ok (particleArrays sel) := by
    have h := C56_cells d hd [] (keys := keys) (by
      intro c hc
      obtain ⟨k, hk, rfl⟩ := (hmem c).1 hc
      obtain ⟨i, -, -, -, c1, c2⟩ := hcell _ (hw k hk).1
      exact ⟨c1, c2⟩)
    rw [if_pos] at h
    · rw [hsel]; exact h
    · obtain ⟨i, hi, c1, c2, -⟩ := hcell _ (hw 0 h0).1
      exact ⟨i, hi, _, (hmem _).2 ⟨0, h0, rfl⟩, c1, c2⟩
  have hin : ∀ k < len, who k ∈ sel := by
    intro k hk
    rw [hsel, List.mem_filter, decide_eq_true_eq]
    exact ⟨(hw k hk).1, (hmem _).2 ⟨k, hk, rfl⟩⟩
  have hgd : ∀ k < len, ((List.range len).map (fun k => num (who k).id)).getD k 0 = num (who k).id := by intro k hk; simp [hk]
  have hlen : ((List.range len).map (fun k => num (who k).id)).length = len := by simp
  obtain ⟨ptr, p1, p2, p3⟩ := ptr_ok (idf := fun p : CellParticle α => num p.id) (parts := sel) (groupids := (List.range len).map (fun k => num (who k).id)) (member := who) (order := order)
    (by rw [hsel]; exact hu.sublist (List.filter_sublist.map _))
    (by
      intro k hk
      rw [hlen] at hk
      rw [hgd k hk]
      exact Or.inl ⟨hin k hk, rfl⟩) (ho _)
  rw [hlen] at p2 p3
  have hneg := p3 (fun k hk => ⟨who k, hin k hk, (hgd k hk).symm⟩)
  unfold plotFofGroup
  rw [bindOk _ (item_nat h1), bindOk _ (item_nat h2)]
  dsimp only
  rw [← hids, ← hkeys, bindOk _ hread, hk2]
  have hsn : (particleArrays sel).2.2.map num = sel.map (fun p => num p.id) := by unfold particleArrays; rw [List.map_map]; rfl
  rw [hsn, bindOk _ p1, if_neg (by
    rw [List.any_eq_true]
    rintro ⟨x, hx, hx2⟩
    have := hneg x hx
    rw [decide_eq_true_eq] at hx2
    omega), bindOk _ (p2 _ (fun p => num p.id)), if_neg (by simp)]
  rw [bindOk _ (show items (particleArrays sel).1 ptr = _ from p2 _ CellParticle.pos), bindOk _ (show items (particleArrays sel).2.1 ptr = _ from p2 _ CellParticle.vel)]

/-- C111: if the program gives a result, each ID of the group is the one of the particle whose position is returned. -/
theorem C111_sound (hd : ∀ i < nfiles, CellOrdered nhash (d.first i) (d.last i) (d.ps i)) (ho : ∀ l, IsArgsort l (order l))
    {lens offs : List Int} {groupids : List Nat} (hbig : ∀ v ∈ groupids, v / 2 ^ 34 < nhash) {g off len : Nat} (h1 : offs[g]? = some (off : Int)) (h2 : lens[g]? = some (len : Int)) (hl : off + len ≤ groupids.length)
    {r : List α × List α} (hr : plotFofGroup order num d.files nfiles nhash lens offs groupids g = .ok r) :
    r.1.length = len ∧ r.2.length = len ∧ ∀ k < len, ∃ p ∈ (List.range nfiles).flatMap d.ps, num p.id = groupids.getD (off + k) 0 % 2 ^ 34 ∧ r.1[k]? = some p.pos ∧ r.2[k]? = some p.vel := by
  have hids : pySlice groupids (off : Int) ((off : Int) + (len : Int)) = (List.range len).map (fun k => groupids.getD (off + k) 0) := pySlice_ok hl
  unfold plotFofGroup at hr
  rw [bindOk _ (item_nat h1), bindOk _ (item_nat h2)] at hr
  dsimp only at hr
  rw [hids] at hr
  obtain ⟨keys, hkeys⟩ : ∃ keys, keys = (npUnique (((List.range len).map (fun k => groupids.getD (off + k) 0)).map hashKey)).map (fun e : Nat × Nat => (e.1 : Int)) := ⟨_, rfl⟩
  rw [← hkeys] at hr
  have hk : ∀ c ∈ keys, 0 ≤ c ∧ c < nhash := by
    intro c hc
    rw [hkeys] at hc
    obtain ⟨e, he, rfl⟩ := List.mem_map.1 hc
    have := (npUnique_mem _ e.1).1 (List.mem_map.2 ⟨e, he, rfl⟩)
    rw [List.map_map] at this
    obtain ⟨k, hk, hek⟩ := List.mem_map.1 this
    have hk := List.mem_range.1 hk
    have hm : groupids.getD (off + k) 0 ∈ groupids := by
      rw [List.getD_eq_getElem?_getD, List.getElem?_eq_getElem (by omega)]
      exact List.getElem_mem _
    have hb := hbig _ hm
    have hek : hashKey (groupids.getD (off + k) 0) = e.1 := hek
    unfold hashKey at hek
    omega
  obtain ⟨r0, hread, hr⟩ := bind_inv hr
  have h56 := C56_cells d hd [] hk
  have : hashTableAfter d.files nfiles nhash [] = [] := rfl
  rw [this, hread] at h56
  split_ifs at h56
  cases h56
  obtain ⟨sel, hsel⟩ : ∃ sel, sel = ((List.range nfiles).flatMap d.ps).filter (fun p => decide (p.cell ∈ keys)) := ⟨_, rfl⟩
  rw [← hsel] at hr
  have hsn : (particleArrays sel).2.2.map num = sel.map (fun p => num p.id) := by unfold particleArrays; rw [List.map_map]; rfl
  rw [hsn, map_range_map particleID (h := fun k => groupids.getD (off + k) 0 % 2 ^ 34) (fun k _ => particleID_eq _)] at hr
  obtain ⟨out, m1, m2, m3⟩ := C34_match (arr1 := (List.range len).map (fun k => groupids.getD (off + k) 0 % 2 ^ 34)) (ho (sel.map (fun p => num p.id)))
  rw [bindOk _ m1] at hr
  split_ifs at hr with hneg
  obtain ⟨found, -, hr⟩ := bind_inv hr
  split_ifs at hr
  obtain ⟨pos, hpos, hr⟩ := bind_inv hr
  obtain ⟨vel, hvel, hr⟩ := bind_inv hr
  cases hr
  obtain ⟨p1, p2⟩ := items_inv hpos
  obtain ⟨v1, v2⟩ := items_inv hvel
  rw [List.length_map, List.length_range] at m2
  refine ⟨p1.trans m2, v1.trans m2, fun k hk => ?_⟩
  rcases m3 k _ (by rw [List.getElem?_map, List.getElem?_range hk]; rfl) with ⟨-, m4⟩ | ⟨j, m4, m5⟩
  · exact absurd (List.any_eq_true.2 ⟨-1, List.mem_of_getElem? m4, by decide⟩) hneg
  · rw [List.getElem?_map] at m4
    cases hj : sel[j]? with
    | none => rw [hj] at m4; cases m4
    | some p =>
      rw [hj] at m4
      obtain ⟨x, p3, p4⟩ := p2 k _ m5
      obtain ⟨y, v3, v4⟩ := v2 k _ m5
      have hp := item_inv p4
      have hv := item_inv v4
      unfold particleArrays at hp hv
      rw [List.getElem?_map, hj] at hp hv
      refine ⟨p, (List.mem_filter.1 (hsel ▸ List.mem_of_getElem? hj)).1, by simpa using m4, p3.trans hp.symm, v3.trans hv.symm⟩

end Plot

/-! ### Properties of subhalos -/

section Units

variable {K : Type} [Field K] [LinearOrder K] [IsStrictOrderedRing K] [FloorRing K] {parts : List (Part K)} {order : List Nat → List Nat} {sortOrder : List Int → List Nat}

/-- `subnr` has the number of the subhalo for each ID, and −1 outside subhalos. -/
def SubNumbers (subnr : List Int) (ni : Nat) (R : List (Nat × Nat)) (offset : Nat) : Prop :=
  subnr.length = ni ∧ (∀ (j : Nat) (r : Nat × Nat), R[j]? = some r → ∀ i, r.1 ≤ i → i < r.1 + r.2 → subnr[i]? = some ((offset : Int) + (j : Int))) ∧
    ∀ i < ni, (∀ r ∈ R, ¬ (r.1 ≤ i ∧ i < r.1 + r.2)) → subnr[i]? = some (-1)

theorem filter_range {ni o l : Nat} (h : o + l ≤ ni) : (List.range ni).filter (fun i => decide (o ≤ i ∧ i < o + l)) = (List.range l).map (fun k => o + k) := by
  obtain ⟨m, rfl⟩ : ∃ m, ni = o + l + m := ⟨ni - (o + l), by omega⟩
  rw [List.range_add, List.range_add, List.filter_append, List.filter_append]
  have e1 : (List.range o).filter (fun i => decide (o ≤ i ∧ i < o + l)) = [] := by
    rw [List.filter_eq_nil_iff]
    intro i hi
    have := List.mem_range.1 hi
    rw [decide_eq_true_eq]; omega
  have e2 : ((List.range l).map (fun x => o + x)).filter (fun i => decide (o ≤ i ∧ i < o + l)) = (List.range l).map (fun x => o + x) := by
    rw [List.filter_eq_self]
    intro i hi
    obtain ⟨k, hk, rfl⟩ := List.mem_map.1 hi
    have := List.mem_range.1 hk
    rw [decide_eq_true_eq]; omega
  have e3 : ((List.range m).map (fun x => o + l + x)).filter (fun i => decide (o ≤ i ∧ i < o + l)) = [] := by
    rw [List.filter_eq_nil_iff]
    intro i hi
    obtain ⟨k, hk, rfl⟩ := List.mem_map.1 hi
    rw [decide_eq_true_eq]; omega
  rw [e1, e2, e3, List.nil_append, List.append_nil]

/-- The results for subhalos with given ranges of IDs -/
theorem props_of_ranges (hn : (parts.map Part.id).Nodup) {groupids : List Nat} {member : Nat → Part K} (hT : ∀ i < groupids.length, Taken parts (groupids.getD i 0) (member i))
    (ho : ∀ l, IsArgsort l (order l)) (hso : ∀ l, IsArgsort l (sortOrder l)) {R : List (Nat × Nat)} (hR : RangesOk groupids.length R) (hpos : ∀ r ∈ R, 0 < r.2) (hne : R ≠ []) {subnr : List Int}
    (hsub : SubNumbers subnr groupids.length R 0) (boxsize a sqrtA : K) :
    ∃ r, subhaloProps order sortOrder (parts.map Part.pos) (parts.map Part.vel) (parts.map Part.id) groupids subnr boxsize a sqrtA = .ok r ∧ PropsOf r boxsize a sqrtA R.length (membersOf R member) := by
  obtain ⟨h1, h2, h3⟩ := hsub
  have e : subnr = (List.range groupids.length).map (fun i => subnr.getD i (-1)) := by
    apply List.ext_getElem?
    intro i
    by_cases hi : i < groupids.length
    · simp [hi, h1]
    · rw [List.getElem?_eq_none (by omega), List.getElem?_eq_none (by simpa using hi)]
  -- the subhalo of each ID
  have hiff : ∀ (j : Nat) (r : Nat × Nat), R[j]? = some r → ∀ i < groupids.length, (subnr.getD i (-1) = (j : Int) ↔ r.1 ≤ i ∧ i < r.1 + r.2) := by
    intro j r hj i hi
    constructor
    · intro hij
      by_cases hex : ∃ r' ∈ R, r'.1 ≤ i ∧ i < r'.1 + r'.2
      · obtain ⟨r', hr', hin⟩ := hex
        obtain ⟨j', hj', rfl⟩ := List.getElem_of_mem hr'
        have := h2 j' _ (List.getElem?_eq_getElem hj') i hin.1 hin.2
        rw [List.getD_eq_getElem?_getD, this] at hij
        simp only [Option.getD_some] at hij
        have : j' = j := by omega
        subst this
        rw [List.getElem?_eq_getElem hj', Option.some.injEq] at hj
        exact hj ▸ hin
      · push Not at hex
        have := h3 i hi (fun r' hr' hc => by have := hex r' hr' hc.1; omega)
        rw [List.getD_eq_getElem?_getD, this] at hij
        simp only [Option.getD_some] at hij
        omega
    · intro hin
      rw [List.getD_eq_getElem?_getD, h2 j r hj i hin.1 hin.2]
      simp
  have hlt : ∀ i < groupids.length, subnr.getD i (-1) < (R.length : Int) := by
    intro i hi
    by_cases hex : ∃ r' ∈ R, r'.1 ≤ i ∧ i < r'.1 + r'.2
    · obtain ⟨r', hr', hin⟩ := hex
      obtain ⟨j', hj', rfl⟩ := List.getElem_of_mem hr'
      rw [List.getD_eq_getElem?_getD, h2 j' _ (List.getElem?_eq_getElem hj') i hin.1 hin.2]
      simp only [Option.getD_some]
      omega
    · push Not at hex
      rw [List.getD_eq_getElem?_getD, h3 i hi (fun r' hr' hc => by have := hex r' hr' hc.1; omega)]
      simp only [Option.getD_some]
      omega
  have hsome : ∀ j < R.length, ∃ i < groupids.length, subnr.getD i (-1) = ((j : Nat) : Int) := by
    intro j hj
    have hr := List.getElem?_eq_getElem hj
    have h5 := hR.1 _ (List.getElem_mem hj)
    have h6 := hpos _ (List.getElem_mem hj)
    exact ⟨R[j].1, by omega, (hiff j _ hr _ (by omega)).2 (by omega)⟩
  obtain ⟨r, hr1, hr2⟩ := subhaloProps_ok hn hT ho hso (List.length_pos_of_ne_nil hne) hlt hsome boxsize a sqrtA
  rw [← e] at hr1
  refine ⟨r, hr1, ?_⟩
  have hmem : ∀ j < R.length, ((List.range groupids.length).filter (fun i => decide (subnr.getD i (-1) = ((j : Nat) : Int)))).map member = membersOf R member j := by
    intro j hj
    have hr := List.getElem?_eq_getElem hj
    have h5 := hR.1 _ (List.getElem_mem hj)
    unfold membersOf
    rw [List.getD_eq_getElem?_getD, hr, Option.getD_some, List.filter_congr (q := fun i => decide (R[j].1 ≤ i ∧ i < R[j].1 + R[j].2)), filter_range h5, List.map_map]
    · rfl
    · intro i hi
      rw [Bool.eq_iff_iff, decide_eq_true_eq, decide_eq_true_eq]
      exact hiff j _ hr i (List.mem_range.1 hi)
  obtain ⟨r1, r2, r3, r4⟩ := hr2
  refine ⟨r1, r2, r3, fun j hj => ?_⟩
  have := r4 j hj
  dsimp only at this
  rw [hmem j hj] at this
  exact this

/-- `assign_ranges` gives the numbers of subhalos. -/
theorem assign_numbers {ni : Nat} {R : List (Nat × Nat)} (hR : RangesOk ni R) (offset : Nat) :
    ∃ nr, assignRanges (List.replicate ni (-1)) (R.map (fun r => (r.1 : Int))) (R.map (fun r => (r.2 : Int))) ((List.range R.length).map (fun i : Nat => (i : Int) + (offset : Int))) = .ok nr ∧ SubNumbers nr ni R offset := by
  obtain ⟨Q, hQ⟩ : ∃ Q : List (Nat × Nat × Int), Q = (List.range R.length).map (fun i : Nat => ((R.getD i (0, 0)).1, (R.getD i (0, 0)).2, (i : Int) + (offset : Int))) := ⟨_, rfl⟩
  have hRe : R = (List.range R.length).map (fun i => R.getD i (0, 0)) := by
    apply List.ext_getElem?
    intro i
    by_cases hi : i < R.length
    · simp [hi]
    · rw [List.getElem?_eq_none (by omega), List.getElem?_eq_none (by simpa using hi)]
  have q0 : Q.map (fun r => (r.1, r.2.1)) = R := by rw [hQ, List.map_map]; exact hRe.symm
  have q1 : R.map (fun r => (r.1 : Int)) = Q.map (fun r => (r.1 : Int)) := by rw [← q0, List.map_map]; rfl
  have q2 : R.map (fun r => (r.2 : Int)) = Q.map (fun r => (r.2.1 : Int)) := by rw [← q0, List.map_map]; rfl
  have q3 : (List.range R.length).map (fun i : Nat => (i : Int) + (offset : Int)) = Q.map (fun r => r.2.2) := by rw [hQ, List.map_map]; rfl
  obtain ⟨out, h1, h2, h3⟩ := C35_assign_ranges_point (array := List.replicate ni (-1 : Int)) (R := Q) (by rw [q0, List.length_replicate]; exact hR)
  rw [q1, q2, q3]
  refine ⟨out, h1, by rw [h2, List.length_replicate], ?_, ?_⟩
  · intro j r hj i hi1 hi2
    have hjl : j < R.length := (List.getElem?_eq_some_iff.1 hj).1
    have hg : R.getD j (0, 0) = r := by rw [List.getD_eq_getElem?_getD, hj]; rfl
    have := (h3 i).1 ((R.getD j (0, 0)).1, (R.getD j (0, 0)).2, (j : Int) + (offset : Int)) (by rw [hQ]; exact List.mem_map.2 ⟨j, List.mem_range.2 hjl, rfl⟩) (by rw [hg]; exact hi1) (by rw [hg]; exact hi2)
    rw [this, add_comm]
  · intro i hi hno
    rw [(h3 i).2]
    · simp [hi]
    · intro r hr hc
      exact hno (r.1, r.2.1) (by rw [← q0]; exact List.mem_map.2 ⟨r, hr, rfl⟩) hc

theorem numbers_append {nr more : List Int} {n m offset : Nat} {R S : List (Nat × Nat)} (hR : RangesOk n R) (h1 : SubNumbers nr n R offset) (h2 : SubNumbers more m S (offset + R.length)) :
    SubNumbers (nr ++ more) (n + m) (R ++ S.map (fun r => (n + r.1, r.2))) offset := by
  obtain ⟨a1, a2, a3⟩ := h1
  obtain ⟨b1, b2, b3⟩ := h2
  refine ⟨by rw [List.length_append, a1, b1], ?_, ?_⟩
  · intro j r hj i hi1 hi2
    by_cases hjl : j < R.length
    · rw [List.getElem?_append_left hjl] at hj
      have := hR.1 r (List.mem_of_getElem? hj)
      rw [List.getElem?_append_left (by omega)]
      exact a2 j r hj i hi1 hi2
    · rw [List.getElem?_append_right (by omega), List.getElem?_map] at hj
      cases hs : S[j - R.length]? with
      | none => rw [hs] at hj; cases hj
      | some q =>
        rw [hs] at hj
        cases hj
        dsimp only at hi1 hi2
        rw [List.getElem?_append_right (by omega), a1, b2 _ q hs (i - n) (by omega) (by omega)]
        congr 1
        push_cast
        omega
  · intro i hi hno
    by_cases hin : i < n
    · rw [List.getElem?_append_left (by omega)]
      exact a3 i hin (fun r hr => hno r (List.mem_append_left _ hr))
    · rw [List.getElem?_append_right (by omega), a1]
      refine b3 (i - n) (by omega) (fun r hr hc => hno (n + r.1, r.2) (List.mem_append_right _ (List.mem_map.2 ⟨r, hr, rfl⟩)) ?_)
      dsimp only
      omega

theorem ranges_append {n m : Nat} {R S : List (Nat × Nat)} (hR : RangesOk n R) (hS : RangesOk m S) : RangesOk (n + m) (R ++ S.map (fun r => (n + r.1, r.2))) := by
  constructor
  · intro r hr
    rcases List.mem_append.1 hr with h | h
    · have := hR.1 r h; omega
    · obtain ⟨q, hq, rfl⟩ := List.mem_map.1 h
      have := hS.1 q hq
      dsimp only; omega
  · rw [List.pairwise_append]
    refine ⟨hR.2, ?_, ?_⟩
    · rw [List.pairwise_map]
      exact hS.2.imp (fun h => by dsimp only; omega)
    · intro r hr s hs
      obtain ⟨q, -, rfl⟩ := List.mem_map.1 hs
      have := hR.1 r hr
      dsimp only; omega

theorem allRanges_ok {cats : List CatFile} (h : ∀ c ∈ cats, RangesOk c.ids.length c.ranges) : RangesOk (allIDs cats).length (allRanges cats) := by
  induction cats with
  | nil => exact ⟨by simp [allRanges], by simp [allRanges]⟩
  | cons c cats ih =>
    have e : (allIDs (c :: cats)).length = c.ids.length + (allIDs cats).length := by simp [allIDs]
    rw [e]
    exact ranges_append (h c (by simp)) (ih (fun d hd => h d (by simp [hd])))

theorem fileLoop_ok {cats : List CatFile} (h : ∀ c ∈ cats, RangesOk c.ids.length c.ranges) (offset : Nat) :
    ∃ nr, fileLoop (cats.map CatFile.arrays) offset = .ok nr ∧ SubNumbers nr (allIDs cats).length (allRanges cats) offset := by
  induction cats generalizing offset with
  | nil => exact ⟨[], rfl, rfl, by simp [allRanges], by simp [allIDs]⟩
  | cons c cats ih =>
    have hc := h c (by simp)
    obtain ⟨nr, n1, n2⟩ := assign_numbers hc offset
    obtain ⟨more, m1, m2⟩ := ih (fun d hd => h d (by simp [hd])) (offset + c.ranges.length)
    refine ⟨nr ++ more, ?_, ?_⟩
    · rw [List.map_cons, fileLoop]
      have e : c.arrays.sublen.length = c.ranges.length := by simp [CatFile.arrays]
      have e2 : assignRanges (List.replicate c.arrays.groupids.length (-1)) c.arrays.suboff c.arrays.sublen ((List.range c.ranges.length).map (fun i : Nat => (i : Int) + (offset : Int))) = .ok nr := n1
      rw [e, bindOk _ e2, bindOk _ m1]
    · have e : (allIDs (c :: cats)).length = c.ids.length + (allIDs cats).length := by simp [allIDs]
      rw [e]
      exact numbers_append hc n2 m2

/-- C112: the program for Millennium-2 data finds mean position, mean velocity and angular momentum of each subhalo, if all its particles are in the snapshot. -/
theorem C112_millennium2 (hn : (parts.map Part.id).Nodup) {groupids : List Nat} {member : Nat → Part K} (hm : ∀ i < groupids.length, member i ∈ parts ∧ (member i).id = groupids.getD i 0)
    (ho : ∀ l, IsArgsort l (order l)) (hso : ∀ l, IsArgsort l (sortOrder l)) {R : List (Nat × Nat)} (hR : RangesOk groupids.length R) (hpos : ∀ r ∈ R, 0 < r.2) (hne : R ≠ []) (boxsize a sqrtA : K) :
    ∃ r, checkUnits2 order sortOrder (parts.map Part.pos) (parts.map Part.vel) (parts.map Part.id) (R.map (fun r => (r.2 : Int))) (R.map (fun r => (r.1 : Int))) groupids boxsize a sqrtA = .ok r ∧
      PropsOf r boxsize a sqrtA R.length (membersOf R member) := by
  obtain ⟨nr, h1, h2⟩ := assign_numbers hR 0
  obtain ⟨r, h3, h4⟩ := props_of_ranges hn (fun i hi => Or.inl (hm i hi)) ho hso hR hpos hne h2 boxsize a sqrtA
  refine ⟨r, ?_, h4⟩
  unfold checkUnits2
  rw [List.length_map]
  simp only [Nat.cast_zero, add_zero] at h1
  rw [bindOk _ h1, h3]

/-- C112: IDs which are not in the snapshot are not noticed: the last particle of the snapshot is used for them. -/
theorem C112_missing_defect (hn : (parts.map Part.id).Nodup) {groupids : List Nat} {member : Nat → Part K} (hT : ∀ i < groupids.length, Taken parts (groupids.getD i 0) (member i))
    (ho : ∀ l, IsArgsort l (order l)) (hso : ∀ l, IsArgsort l (sortOrder l)) {R : List (Nat × Nat)} (hR : RangesOk groupids.length R) (hpos : ∀ r ∈ R, 0 < r.2) (hne : R ≠ []) (boxsize a sqrtA : K) :
    ∃ r, checkUnits2 order sortOrder (parts.map Part.pos) (parts.map Part.vel) (parts.map Part.id) (R.map (fun r => (r.2 : Int))) (R.map (fun r => (r.1 : Int))) groupids boxsize a sqrtA = .ok r ∧
      PropsOf r boxsize a sqrtA R.length (membersOf R member) := by
  obtain ⟨nr, h1, h2⟩ := assign_numbers hR 0
  obtain ⟨r, h3, h4⟩ := props_of_ranges hn hT ho hso hR hpos hne h2 boxsize a sqrtA
  refine ⟨r, ?_, h4⟩
  unfold checkUnits2
  rw [List.length_map]
  simp only [Nat.cast_zero, add_zero] at h1
  rw [bindOk _ h1, h3]

theorem getD_map' {α β : Type} (f : α → β) {l : List α} {i : Nat} (h : i < l.length) (d : α) (d' : β) : (l.map f).getD i d' = f (l.getD i d) := by
  rw [List.getD_eq_getElem?_getD, List.getElem?_map, List.getD_eq_getElem?_getD, List.getElem?_eq_getElem h]
  rfl

theorem shortID_eq (v : Nat) : shortID v = v % 2 ^ 30 := by
  unfold shortID
  omega

/-- C112: the program for Millennium data keeps 30 bits of the number of a particle instead of 34, so it uses the particle whose ID has these bits, or the last one of the snapshot. -/
theorem C112_bits_defect (hn : (parts.map Part.id).Nodup) {cats : List CatFile} {member : Nat → Part K} (hT : ∀ i < (allIDs cats).length, Taken parts ((allIDs cats).getD i 0 % 2 ^ 30) (member i))
    (ho : ∀ l, IsArgsort l (order l)) (hso : ∀ l, IsArgsort l (sortOrder l)) (hR : ∀ c ∈ cats, RangesOk c.ids.length c.ranges) (hpos : ∀ r ∈ allRanges cats, 0 < r.2) (hne : allRanges cats ≠ []) (boxsize a sqrtA : K) :
    ∃ r, checkUnits order sortOrder (parts.map Part.pos) (parts.map Part.vel) (parts.map Part.id) (cats.map CatFile.arrays) boxsize a sqrtA = .ok r ∧
      PropsOf r boxsize a sqrtA (allRanges cats).length (membersOf (allRanges cats) member) := by
  obtain ⟨nr, h1, h2⟩ := fileLoop_ok hR 0
  have e1 : (cats.map CatFile.arrays).flatMap SubFile.groupids = allIDs cats := by rw [List.flatMap_map]; rfl
  have hl : ((allIDs cats).map shortID).length = (allIDs cats).length := List.length_map _
  obtain ⟨r, h3, h4⟩ := props_of_ranges (groupids := (allIDs cats).map shortID) (member := member) hn (by
    intro i hi
    rw [hl] at hi
    have : ((allIDs cats).map shortID).getD i 0 = (allIDs cats).getD i 0 % 2 ^ 30 := by
      rw [getD_map' shortID hi 0 0, shortID_eq]
    rw [this]
    exact hT i hi) ho hso (by rw [hl]; exact allRanges_ok hR) hpos hne (by rw [hl]; exact h2) boxsize a sqrtA
  refine ⟨r, ?_, h4⟩
  unfold checkUnits
  rw [bindOk _ h1, e1]
  exact h3

/-- C112: this is correct as long as IDs of particles are below 2^30, as in the simulation for which it is made. -/
theorem C112_millennium (hn : (parts.map Part.id).Nodup) (hsmall : ∀ p ∈ parts, p.id < 2 ^ 30) {cats : List CatFile} {member : Nat → Part K}
    (hm : ∀ i < (allIDs cats).length, member i ∈ parts ∧ (member i).id = (allIDs cats).getD i 0 % 2 ^ 34)
    (ho : ∀ l, IsArgsort l (order l)) (hso : ∀ l, IsArgsort l (sortOrder l)) (hR : ∀ c ∈ cats, RangesOk c.ids.length c.ranges) (hpos : ∀ r ∈ allRanges cats, 0 < r.2) (hne : allRanges cats ≠ []) (boxsize a sqrtA : K) :
    ∃ r, checkUnits order sortOrder (parts.map Part.pos) (parts.map Part.vel) (parts.map Part.id) (cats.map CatFile.arrays) boxsize a sqrtA = .ok r ∧
      PropsOf r boxsize a sqrtA (allRanges cats).length (membersOf (allRanges cats) member) := by
  refine C112_bits_defect hn (fun i hi => Or.inl ⟨(hm i hi).1, ?_⟩) ho hso hR hpos hne boxsize a sqrtA
  have h1 := hsmall _ (hm i hi).1
  have h2 := (hm i hi).2
  omega

theorem wrap_eq {boxsize : K} (hb : 0 < boxsize) {x : K} {m : Int} (h1 : -(boxsize / 2) < x) (h2 : x < boxsize / 2) : wrap boxsize (x + boxsize * m) = x := by
  unfold wrap
  have hf : ⌊(x + boxsize * m + boxsize / 2) / boxsize⌋ = m := by
    rw [Int.floor_eq_iff, le_div_iff₀ hb, div_lt_iff₀ hb]
    constructor <;> nlinarith
  rw [hf]
  ring

/-- C112: if the particles of a subhalo are less than half a box apart, periodic boundaries do not change the result: angular momentum is the one of positions `y` in a common copy of the box,
and the mean position is the mean of `y`, up to the choice of the copy. -/
theorem C112_periodic {boxsize : K} (hb : 0 < boxsize) {r : SubhaloProps K} {a sqrtA : K} {nsub : Nat} {members : Nat → List (Part K)} (h : PropsOf r boxsize a sqrtA nsub members) {j : Nat} (hj : j < nsub)
    {y : Part K → Row K} (hy : Compact boxsize (members j) y) : r.am[j]? = some (angular (members j) (fun p => a • y p) (fun p => sqrtA • p.vel)) ∧
      ∃ i k l : Int, r.mean_pos[j]? = some (mean ((members j).map y) + (boxsize * i, boxsize * k, boxsize * l)) := by
  obtain ⟨q, hq, h5, -, h3⟩ := h.2.2.2 j hj
  rw [h3, h5]
  obtain ⟨hy1, hy2⟩ := hy
  have hnear' : ∀ p ∈ members j, near boxsize q p = y p + (q.pos - y q) := by
    intro p hp
    obtain ⟨i1, j1, k1, e1⟩ := hy1 p hp
    obtain ⟨i2, j2, k2, e2⟩ := hy1 q hq
    obtain ⟨c1, c2, c3⟩ := hy2 p hp q hq
    have ex := congrArg (fun v => v.1) e1
    have ey := congrArg (fun v => v.2.1) e1
    have ez := congrArg (fun v => v.2.2) e1
    have fx := congrArg (fun v => v.1) e2
    have fy := congrArg (fun v => v.2.1) e2
    have fz := congrArg (fun v => v.2.2) e2
    simp only [Prod.fst_add, Prod.snd_add] at ex ey ez fx fy fz
    have gx : (p.pos - q.pos).1 = (y p - y q).1 + boxsize * ((i2 - i1 : Int)) := by rw [Prod.fst_sub, Prod.fst_sub, ex, fx]; push_cast; ring
    have gy : (p.pos - q.pos).2.1 = (y p - y q).2.1 + boxsize * ((j2 - j1 : Int)) := by rw [Prod.snd_sub, Prod.fst_sub, Prod.snd_sub, Prod.fst_sub, ey, fy]; push_cast; ring
    have gz : (p.pos - q.pos).2.2 = (y p - y q).2.2 + boxsize * ((k2 - k1 : Int)) := by rw [Prod.snd_sub, Prod.snd_sub, Prod.snd_sub, Prod.snd_sub, ez, fz]; push_cast; ring
    have hw : wrapRow boxsize (p.pos - q.pos) = y p - y q := by
      unfold wrapRow
      rw [gx, gy, gz, wrap_eq hb c1.1 c1.2, wrap_eq hb c2.1 c2.2, wrap_eq hb c3.1 c3.2]
    unfold near
    rw [hw]
    abel
  have hnear : ∀ p ∈ members j, a • near boxsize q p = a • y p + a • (q.pos - y q) := by
    intro p hp
    rw [← smul_add, hnear' p hp]
  have hl : members j ≠ [] := List.ne_nil_of_mem hq
  have hn : ((members j).length : K) ≠ 0 := by
    have := List.length_pos_of_ne_nil hl
    exact_mod_cast this.ne'
  have hshift : ∀ (f : Part K → Row K) (c : Row K), mean ((members j).map (fun p => f p + c)) = mean ((members j).map f) + c := by
    intro f c
    unfold mean
    rw [List.length_map, List.length_map]
    have := sum_sub (members j) f (-c)
    simp only [sub_neg_eq_add] at this
    rw [this, smul_neg, sub_neg_eq_add, smul_add, smul_smul, inv_mul_cancel₀ hn, one_smul]
  have hmean : mean ((members j).map (fun p => a • near boxsize q p)) = mean ((members j).map (fun p => a • y p)) + a • (q.pos - y q) := by
    rw [List.map_congr_left hnear, hshift]
  constructor
  swap
  · obtain ⟨i, k, l, e⟩ := hy1 q hq
    refine ⟨-i, -k, -l, ?_⟩
    rw [List.map_congr_left hnear', hshift, e]
    congr 2
    push_cast
    ext <;> simp
  congr 1
  unfold angular
  rw [hmean]
  congr 1
  apply List.map_congr_left
  intro p hp
  dsimp only
  rw [hnear p hp, add_sub_add_right_eq_sub]

end Units

/-! ### Examples -/

namespace ExPythonPrograms

theorem argsort_ok {α : Type} [LinearOrder α] [Inhabited α] (l : List α) : IsArgsort l (argsort l) := ⟨argsort_perm l, fancy_argsort_sorted l⟩

/-- IDs of two groups in the files of `ExHash.d`: group 1 has the particles 6, 1 and 5. -/
def groupids : List Nat := [7 * 2 ^ 34 + 7, 2 * 2 ^ 34 + 3, 5 * 2 ^ 34 + 6, 0 * 2 ^ 34 + 1, 5 * 2 ^ 34 + 5]

def who (k : Nat) : CellParticle Nat := [⟨5, 6, 16, 106⟩, ⟨0, 1, 11, 101⟩, ⟨5, 5, 15, 105⟩].getD k ⟨0, 0, 0, 0⟩

/-- The numbers of particles are those of `ExHash.d` minus 100. -/
def num (v : Nat) : Nat := v - 100

example : plotFofGroup argsort num ExHash.d.files 2 8 [2, 3] [0, 2] groupids 1 = .ok ([6, 1, 5], [16, 11, 15]) := by
  have h := C111_group (d := ExHash.d) (num := num) (nhash := 8) (nfiles := 2) (order := argsort) ExHash.d_ok (by decide +kernel) argsort_ok (lens := [2, 3]) (offs := [0, 2]) (groupids := groupids) (g := 1) (off := 2) (len := 3) rfl rfl
    (by omega) (by decide +kernel) (who := who) (by
      intro k hk
      have : k = 0 ∨ k = 1 ∨ k = 2 := by omega
      rcases this with rfl | rfl | rfl
      · exact ⟨by simp [who, ExHash.d, List.range_succ], by decide +kernel, by decide +kernel⟩
      · exact ⟨by simp [who, ExHash.d, List.range_succ], by decide +kernel, by decide +kernel⟩
      · exact ⟨by simp [who, ExHash.d, List.range_succ], by decide +kernel, by decide +kernel⟩)
  exact h

example : plotFofGroup argsort num ExHash.d.files 2 8 [2, 3] [0, 2] groupids 1 = .ok ([6, 1, 5], [16, 11, 15]) := by decide +kernel

/-- An ID which is not in its cell is noticed. -/
example : plotFofGroup argsort num ExHash.d.files 2 8 [2, 3] [0, 2] [1, 2, 3, 4, 5] 1 = .error .other := by decide +kernel

/-- A group without particles -/
example : plotFofGroup argsort num ExHash.d.files 2 8 [0, 3] [0, 0] groupids 0 = .error .valueError := by decide +kernel

/-- Five particles in a box of size 10 -/
def parts : List (Part ℚ) := [⟨7, (1, 2, 3), (1, 0, 0)⟩, ⟨3, (9, 2, 3), (0, 1, 0)⟩, ⟨5, (2, 3, 3), (0, 0, 2)⟩, ⟨9, (5, 5, 5), (1, 1, 1)⟩, ⟨4, (5, 6, 5), (-1, 1, 3)⟩]

theorem parts_nodup : (parts.map Part.id).Nodup := by decide +kernel

def ids : List Nat := [3, 7, 8, 9, 4, 5]

def member (i : Nat) : Part ℚ := parts.getD ([1, 0, 4, 3, 4, 2].getD i 0) ⟨0, 0, 0⟩

/-- Two subhalos: particles 3 and 7 on both sides of the boundary of the box, and particles 9, 4 -/
example : ∃ r, checkUnits2 argsort argsort (parts.map Part.pos) (parts.map Part.vel) (parts.map Part.id) [2, 2] [0, 2] [3, 7, 9, 4, 5] 10 (1 / 4) (1 / 2) = .ok r ∧
    PropsOf r 10 (1 / 4) (1 / 2) 2 (membersOf [(0, 2), (2, 2)] (fun i => parts.getD ([1, 0, 3, 4, 2].getD i 0) ⟨0, 0, 0⟩)) :=
  C112_millennium2 (groupids := [3, 7, 9, 4, 5]) (R := [(0, 2), (2, 2)]) (order := argsort) (sortOrder := argsort) parts_nodup (by
    intro i hi
    have : i = 0 ∨ i = 1 ∨ i = 2 ∨ i = 3 ∨ i = 4 := by simp only [List.length_cons, List.length_nil] at hi; omega
    rcases this with rfl | rfl | rfl | rfl | rfl <;> exact ⟨by simp [parts], rfl⟩) argsort_ok argsort_ok ⟨by simp, by simp⟩ (by simp) (by simp) 10 (1 / 4) (1 / 2)

example : checkUnits2 argsort argsort (parts.map Part.pos) (parts.map Part.vel) (parts.map Part.id) [2, 2] [0, 2] [3, 7, 9, 4, 5] 10 (1 / 4) (1 / 2) =
    .ok ⟨[(10, 2, 3), (5, 11 / 2, 5)], [(1 / 4, 1 / 4, 0), (0, 1 / 2, 1)], [(0, 0, -1 / 16), (1 / 16, 0, 1 / 16)]⟩ := by decide +kernel

/-- ID 8 is not in the snapshot; the last particle is used. -/
example : ∃ r, checkUnits2 argsort argsort (parts.map Part.pos) (parts.map Part.vel) (parts.map Part.id) [2, 2] [0, 2] ids 10 (1 / 4) (1 / 2) = .ok r ∧ PropsOf r 10 (1 / 4) (1 / 2) 2 (membersOf [(0, 2), (2, 2)] member) :=
  C112_missing_defect (groupids := ids) (R := [(0, 2), (2, 2)]) (order := argsort) (sortOrder := argsort) parts_nodup (by
    intro i hi
    have : i = 0 ∨ i = 1 ∨ i = 2 ∨ i = 3 ∨ i = 4 ∨ i = 5 := by simp only [ids, List.length_cons, List.length_nil] at hi; omega
    rcases this with rfl | rfl | rfl | rfl | rfl | rfl
    · exact Or.inl ⟨by simp [parts, member], rfl⟩
    · exact Or.inl ⟨by simp [parts, member], rfl⟩
    · exact Or.inr ⟨by simp [parts, ids], rfl⟩
    · exact Or.inl ⟨by simp [parts, member], rfl⟩
    · exact Or.inl ⟨by simp [parts, member], rfl⟩
    · exact Or.inl ⟨by simp [parts, member], rfl⟩) argsort_ok argsort_ok ⟨by simp [ids], by simp⟩ (by simp) (by simp) 10 (1 / 4) (1 / 2)

/-- Two files, whose IDs have the cell in their upper bits -/
def cats : List CatFile := [⟨[(0, 2)], [6 * 2 ^ 34 + 3, 2 ^ 34 + 7]⟩, ⟨[(1, 2)], [5, 9, 2 * 2 ^ 34 + 4]⟩]

def member' (i : Nat) : Part ℚ := parts.getD ([1, 0, 2, 3, 4].getD i 0) ⟨0, 0, 0⟩

example : allRanges cats = [(0, 2), (3, 2)] := by decide +kernel

theorem ex_millennium : ∃ r, checkUnits argsort argsort (parts.map Part.pos) (parts.map Part.vel) (parts.map Part.id) (cats.map CatFile.arrays) 10 (1 / 4) (1 / 2) = .ok r ∧ PropsOf r 10 (1 / 4) (1 / 2) 2 (membersOf (allRanges cats) member') :=
  C112_millennium (order := argsort) (sortOrder := argsort) parts_nodup (by decide +kernel) (by
    intro i hi
    have : i = 0 ∨ i = 1 ∨ i = 2 ∨ i = 3 ∨ i = 4 := by
      have e : (allIDs cats).length = 5 := by decide +kernel
      omega
    rcases this with rfl | rfl | rfl | rfl | rfl <;> exact ⟨by simp [parts, member'], by decide +kernel⟩) argsort_ok argsort_ok (by
    intro c hc
    simp only [cats, List.mem_cons, List.not_mem_nil, or_false] at hc
    rcases hc with rfl | rfl
    · exact ⟨by simp, by simp⟩
    · exact ⟨by simp, by simp⟩) (by decide +kernel) (by decide +kernel) 10 (1 / 4) (1 / 2)

example : checkUnits argsort argsort (parts.map Part.pos) (parts.map Part.vel) (parts.map Part.id) (cats.map CatFile.arrays) 10 (1 / 4) (1 / 2) =
    .ok ⟨[(10, 2, 3), (5, 11 / 2, 5)], [(1 / 4, 1 / 4, 0), (0, 1 / 2, 1)], [(0, 0, -1 / 16), (1 / 16, 0, 1 / 16)]⟩ := by decide +kernel

/-- The ID 2^30 + 7 would be taken for 7. -/
example : (2 ^ 30 + 7) % 2 ^ 30 = 7 := by decide +kernel

/-- Copies of the particles next to each other: 1 and −1 instead of 1 and 9 -/
def copies (p : Part ℚ) : Row ℚ := if p.id = 3 then (-1, 2, 3) else p.pos

theorem copies_ok (j : Nat) (hj : j < 2) : Compact 10 (membersOf (allRanges cats) member' j) copies := by
  have h0 : membersOf (allRanges cats) member' 0 = [⟨3, (9, 2, 3), (0, 1, 0)⟩, ⟨7, (1, 2, 3), (1, 0, 0)⟩] := rfl
  have h1 : membersOf (allRanges cats) member' 1 = [⟨9, (5, 5, 5), (1, 1, 1)⟩, ⟨4, (5, 6, 5), (-1, 1, 3)⟩] := rfl
  have : j = 0 ∨ j = 1 := by omega
  rcases this with rfl | rfl
  · rw [h0]
    refine ⟨?_, ?_⟩
    · intro p hp
      simp only [List.mem_cons, List.not_mem_nil, or_false] at hp
      rcases hp with rfl | rfl
      · exact ⟨-1, 0, 0, by decide +kernel⟩
      · exact ⟨0, 0, 0, by decide +kernel⟩
    · intro p hp q hq
      simp only [List.mem_cons, List.not_mem_nil, or_false] at hp hq
      rcases hp with rfl | rfl <;> rcases hq with rfl | rfl <;> decide +kernel
  · rw [h1]
    refine ⟨?_, ?_⟩
    · intro p hp
      simp only [List.mem_cons, List.not_mem_nil, or_false] at hp
      rcases hp with rfl | rfl
      · exact ⟨0, 0, 0, by decide +kernel⟩
      · exact ⟨0, 0, 0, by decide +kernel⟩
    · intro p hp q hq
      simp only [List.mem_cons, List.not_mem_nil, or_false] at hp hq
      rcases hp with rfl | rfl <;> rcases hq with rfl | rfl <;> decide +kernel

example : ∃ r : SubhaloProps ℚ, (∀ j < 2, r.am[j]? = some (angular (membersOf (allRanges cats) member' j) (fun p => (1 / 4 : ℚ) • copies p) (fun p => (1 / 2 : ℚ) • p.vel))) := by
  obtain ⟨r, -, h⟩ := ex_millennium
  exact ⟨r, fun j hj => (C112_periodic (by norm_num) h hj (copies_ok j hj)).1⟩

end ExPythonPrograms

end Verif.PythonPrograms
