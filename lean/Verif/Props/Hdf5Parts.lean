import Verif.Proofs.Hdf5Parts

/-!
C126: datasets which are written in several calls (fortran/hdf5_wrapper/test/test_extend.f90)
-/

namespace Verif.Hdf5Parts

open Hdf5

/-- **C126** (sequences of writes): any number of calls for parts of an existing dataset, which may overlap and extend it if it is extensible, end with a dataset that is as large as the largest part needs. Each element
is the one which was written last, or what it was before, or zero if it is new and was never written. -/
theorem C126_sequence {ds : Dset} {t : Hdf5.DType} {ps : List Piece} (hr : ds.dims.length ≤ 7) (hw : ds.WF) (ht : ds.dtype = t) (hps : ∀ p ∈ ps, p.Good ds.dims.length t ∧ Room ds p.start p.count) :
    ∃ ds', writeCalls ds t (ps.map (·.call)) = .ok ds' ∧ Sequence ds ps ds' := writeCalls_sequence ps hr hw ht hps

/-- **C126**: calls of the right form end the program if one of them has no room, and by `C126_sequence` only then. -/
theorem C126_no_room {ds : Dset} {t : Hdf5.DType} {ps : List Piece} (hr : ds.dims.length ≤ 7) (hw : ds.WF) (ht : ds.dtype = t) (hps : ∀ p ∈ ps, p.Good ds.dims.length t) (h : ∃ p ∈ ps, ¬ Room ds p.start p.count) :
    writeCalls ds t (ps.map (·.call)) = .error .abort := by
  induction ps generalizing ds with
  | nil => obtain ⟨p, hp, _⟩ := h; simp at hp
  | cons p ps ih =>
    have hg := hps p List.mem_cons_self
    have hold := C95_write_old (ds := ds) hr hw hg.wf hg.type hg.isRegion (fun _ => hg.nonempty)
    show (writeOld ds t (some (p.call.start, p.call.count)) p.call.arr >>= fun ds1 => writeCalls ds1 t (ps.map (·.call))) = _
    by_cases hrm : Room ds p.start p.count
    · obtain ⟨ds1, h1, hres⟩ := hold.1 ⟨by rw [ht]; exact compatible_self t, hrm, hg.holds⟩
      rw [h1]
      refine ih (by rw [hres.rank]; exact hr) hres.wf (hres.dtype.trans ht) (fun q hq => by rw [hres.rank]; exact hps q (List.mem_cons_of_mem _ hq)) ?_
      obtain ⟨q, hq, hn⟩ := h
      rcases List.mem_cons.1 hq with rfl | hq
      · exact absurd hrm hn
      · refine ⟨q, hq, fun hq' => hn (fun i hi m hm => hq' i (by rw [hres.rank]; exact hi) m (by rw [hres.maxdims]; exact hm))⟩
    · rw [hold.2 (fun hh => hrm hh.2.1)]
      rfl

/-- **C126** (new datasets): the same for a dataset which is created by the first call, with `initial_size` or of the size of the first part. It starts with zeros. -/
theorem C126_new {o : CreateOptions} {t : Hdf5.DType} {dims : List Nat} {p : Piece} {ps : List Piece} (hr : dims.length ≤ 7) (hck : o.chunk_size.length ≤ 7) (hpd : p.call.arr.dims.length = dims.length)
    (hn : NewSize p.call.arr.dims o.initial_size (some (p.call.start, p.call.count)) dims) (hst : Storable o t dims) (hpos : 0 ∉ p.count) (hin : Inside dims p.start p.count)
    (hg : ∀ q ∈ p :: ps, q.Good dims.length t) (hrm : ∀ q ∈ ps, Room (blank t dims o.extensible.isSome) q.start q.count) :
    ∃ ds', writeAll o t p.call (ps.map (·.call)) = .ok ds' ∧ Sequence (blank t dims o.extensible.isSome) (p :: ps) ds' := by
  have hp := hg p List.mem_cons_self
  obtain ⟨ds, h1, h2, hres⟩ := (C95_write_new (by omega) hck hp.wf hp.type hn hst hp.isRegion hpos hp.nonempty).1 ⟨hin, hp.holds⟩
  have hwd : ds.dims.length = dims.length := by rw [h2]
  obtain ⟨ds', h3, hs⟩ := writeCalls_sequence ps (ds := ds) (t := t) (by omega) hres.wf hres.dtype (fun q hq => by
    refine ⟨by rw [hwd]; exact hg q (List.mem_cons_of_mem _ hq), fun i hi m hm => ?_⟩
    rw [hwd] at hi
    rw [hres.maxdims] at hm
    exact hrm q hq i hi m hm)
  refine ⟨ds', ?_, Sequence.cons (by exact hp) (by exact hres) hs⟩
  show (writeNew o t (some (p.call.start, p.call.count)) p.call.arr >>= fun ds => writeCalls ds t (ps.map (·.call))) = _
  rw [h1]
  exact h3

/-- **C126** (arrays in pieces): an array with elements which is cut into pieces, in any way and also with overlaps, and written piece by piece in any order to a new extensible dataset, gives the same shape and elements
as the array written in one call. -/
theorem C126_pieces {o : CreateOptions} {t : Hdf5.DType} {a : FArray} {p : Piece} {ps : List Piece} (hr : a.dims.length ≤ 7) (hck : o.chunk_size.length ≤ 7) (ho : o.initial_size = none) (hx : o.extensible.isSome = true)
    (ha : a.WF) (hz : 0 ∉ a.dims) (hpd : p.call.arr.dims.length = a.dims.length) (hst : Storable o t (List.zipWith (· + ·) p.start p.count)) (hpos : 0 ∉ p.count) (hg : ∀ q ∈ p :: ps, q.Good a.dims.length t)
    (hc : CutFrom a (p :: ps)) :
    ∃ ds, writeAll o t p.call (ps.map (·.call)) = .ok ds ∧ ds.dtype = t ∧ ds.dims = a.dims ∧ ds.data = a.elems := by
  have hp := hg p List.mem_cons_self
  have hl : (List.zipWith (· + ·) p.start p.count).length = a.dims.length := by rw [List.length_zipWith, hp.lstart, hp.lcount, min_self]
  have hget : ∀ i < a.dims.length, (List.zipWith (· + ·) p.start p.count).getD i 0 = p.start.getD i 0 + p.count.getD i 0 := by
    intro i hi
    have h1 := hp.lstart
    have h2 := hp.lcount
    simp only [List.getD_eq_getElem?_getD]
    rw [List.getElem?_eq_getElem (by omega), List.getElem_zipWith, List.getElem?_eq_getElem (by omega), List.getElem?_eq_getElem (by omega)]
    simp
  obtain ⟨ds, h1, hs⟩ := C126_new (o := o) (t := t) (dims := List.zipWith (· + ·) p.start p.count) (p := p) (ps := ps) (by omega) hck (by omega)
    (by rw [ho]; exact NewSize.part _ _ _ _ (IsRegion.part _ _ _ _ (by rw [hpd]; exact hp.lstart) (by rw [hpd]; exact hp.lcount) (by rw [hpd]; exact hp.entries))) hst hpos
    (fun i hi => by rw [hget i (by omega)]) (fun q hq => by rw [hl]; exact hg q hq) (fun q _ i _ m hm => by
      unfold blank at hm
      rw [hx] at hm
      simp only [List.getElem?_map] at hm
      cases h : (List.zipWith (· + ·) p.start p.count)[i]? <;> rw [h] at hm <;> simp at hm)
  obtain ⟨h2, h3⟩ := hs.cut ha hz hl (fun i hi => by
    show (List.zipWith (· + ·) p.start p.count).getD i 0 ≤ _
    rw [hget i hi]
    exact hc.inside p List.mem_cons_self i hi) hg hc
  exact ⟨ds, h1, hs.dtype, h2, h3⟩

/-- The piece of a call of the loop over blocks -/
def blockPiece (b : Nat) (elems : List (List Byte)) (i : Nat) : Piece := ⟨[i * b], [b], blockCall b elems i⟩

def rowPiece (nx ny : Nat) (elems : List (List Byte)) (i : Nat) : Piece := ⟨[i, 0], [1, ny], rowCall nx ny elems i⟩

theorem holds_self (dims : List Nat) : Holds dims dims := by
  unfold Holds
  induction squeezed dims dims with
  | nil => exact List.Forall₂.nil
  | cons x l ih => exact List.Forall₂.cons (le_refl _) ih

theorem samePlace_self {dims idx j : List Nat} (hi : InShape dims idx) (hj : InShape dims j) (h : SamePlace dims idx dims j) : idx = j := by
  unfold SamePlace at h
  induction dims generalizing idx j with
  | nil => cases idx <;> cases j <;> simp_all [InShape]
  | cons d ds ih =>
    cases idx with
    | nil => exact hi.elim
    | cons i is =>
      cases j with
      | nil => exact hj.elim
      | cons k ks =>
        rw [squeezed_cons, squeezed_cons] at h
        have h1 := hi.1
        have h2 := hj.1
        by_cases hd : 1 < d
        · rw [if_pos hd, if_pos hd] at h
          obtain ⟨rfl, h'⟩ := List.cons.inj h
          rw [ih hi.2 hj.2 h']
        · rw [if_neg hd, if_neg hd] at h
          rw [ih hi.2 hj.2 h]
          congr 1
          omega

/-- **C126** (blocks): a one dimensional array of `m` blocks of `b` elements, written block by block to a new extensible dataset, is what the dataset has in the end. -/
theorem C126_blocks {t : Hdf5.DType} {b m : Nat} {elems : List (List Byte)} (hb : 0 < b) (hm : 0 < m) (hl : elems.length = m * b) (ht : 0 < t.size) (hs : t.size < 2 ^ 19) (he : ∀ v ∈ elems, v.length = t.size) :
    ∃ ds, writeAll { extensible := some true } t (blockCall b elems 0) (blockCalls b m elems) = .ok ds ∧ ds.dtype = t ∧ ds.dims = [m * b] ∧ ds.data = elems := by
  have hmap : blockCalls b m elems = ((List.range (m - 1)).map (fun i => blockPiece b elems (i + 1))).map (·.call) := by rw [List.map_map]; rfl
  have hmem : ∀ q ∈ blockPiece b elems 0 :: (List.range (m - 1)).map (fun i => blockPiece b elems (i + 1)), ∃ i < m, q = blockPiece b elems i := by
    intro q hq
    rcases List.mem_cons.1 hq with rfl | hq
    · exact ⟨0, hm, rfl⟩
    · obtain ⟨i, hi, rfl⟩ := List.mem_map.1 hq
      exact ⟨i + 1, by have := List.mem_range.1 hi; omega, rfl⟩
  have hle : ∀ i < m, i * b + b ≤ m * b := fun i hi => by
    calc i * b + b = (i + 1) * b := by ring
      _ ≤ m * b := Nat.mul_le_mul_right _ hi
  have hgood : ∀ i < m, (blockPiece b elems i).Good 1 t := fun i hi => {
    lstart := rfl
    lcount := rfl
    entries := by
      intro k hk
      obtain rfl : k = 0 := by omega
      exact ⟨rfl, rfl⟩
    wf := by
      have := hle i hi
      show (slice elems (i * b) b).length = [b].prod
      unfold slice
      rw [List.length_take, List.length_drop, List.prod_singleton]
      omega
    type := ⟨ht, fun v hv => he v (List.mem_of_mem_drop (List.mem_of_mem_take hv))⟩
    holds := holds_self [b]
    nonempty := by
      show 0 ∉ [b]
      simp; omega }
  rw [hmap]
  refine C126_pieces (a := ⟨[m * b], elems⟩) (p := blockPiece b elems 0) (by simp) (by simp) rfl rfl (by unfold FArray.WF; simp [hl]) ?_ rfl ?_ (by show 0 ∉ [b]; simp; omega) ?_ ?_
  · have : 0 < m * b := Nat.mul_pos hm hb
    simp only [List.mem_singleton]
    omega
  · refine Or.inr ⟨by simp [blockPiece], ?_⟩
    have e : chunkElems { extensible := some true } (List.zipWith (· + ·) (blockPiece b elems 0).start (blockPiece b elems 0).count) = min b 8192 := by
      simp [chunkElems, blockPiece]
    rw [e]
    refine ⟨by omega, ?_⟩
    calc min b 8192 * t.size ≤ 8192 * t.size := Nat.mul_le_mul_right _ (by omega)
      _ < 2 ^ 32 := by omega
  · intro q hq
    obtain ⟨i, hi, rfl⟩ := hmem q hq
    exact hgood i hi
  · constructor
    · intro q hq
      obtain ⟨i, hi, rfl⟩ := hmem q hq
      intro k hk
      obtain rfl : k = 0 := by simpa using hk
      exact hle i hi
    · intro q hq k v hv
      obtain ⟨i, hi, rfl⟩ := hmem q hq
      obtain ⟨idx, j, h1, rfl, h2, h3, h4⟩ := hv
      obtain rfl := samePlace_self h1 h2 h3
      obtain ⟨x, rfl⟩ : ∃ x, idx = [x] := List.length_eq_one_iff.1 (inShape_length h1)
      have hx : x < b := h1.1
      simp only [FArray.at, offset, blockPiece, blockCall, slice, List.zipWith_cons_cons, List.zipWith_nil_left, List.length_singleton, List.range_one, List.map_cons, List.map_nil, List.getD_cons_zero, List.take_zero, List.prod_nil, mul_one,
        List.sum_cons, List.sum_nil, add_zero] at h4 ⊢
      rw [List.getElem?_take_of_lt hx, List.getElem?_drop] at h4
      exact h4
    · intro k hk
      obtain ⟨x, rfl⟩ : ∃ x, k = [x] := List.length_eq_one_iff.1 (inShape_length hk)
      have hx : x < m * b := hk.1
      have hi : x / b < m := Nat.div_lt_of_lt_mul (by rw [mul_comm]; exact hx)
      have hmod := Nat.mod_lt x hb
      have hdm : x / b * b + x % b = x := Nat.div_add_mod' x b
      refine ⟨blockPiece b elems (x / b), ?_, [x % b], ⟨hmod, trivial⟩, ?_⟩
      · cases hq : x / b with
        | zero => exact List.mem_cons_self
        | succ i => exact List.mem_cons_of_mem _ (List.mem_map.2 ⟨i, List.mem_range.2 (by omega), rfl⟩)
      · simp [blockPiece, hdm]

/-- **C126** (rows): a two dimensional array written row by row to a new extensible dataset is what the dataset has in the end. -/
theorem C126_rows {t : Hdf5.DType} {nx ny : Nat} {elems : List (List Byte)} (hx : 0 < nx) (hy : 0 < ny) (hl : elems.length = nx * ny) (ht : 0 < t.size) (hs : t.size < 2 ^ 19) (he : ∀ v ∈ elems, v.length = t.size) :
    ∃ ds, writeAll { extensible := some true } t (rowCall nx ny elems 0) (rowCalls nx ny elems) = .ok ds ∧ ds.dtype = t ∧ ds.dims = [nx, ny] ∧ ds.data = elems := by
  have hmap : rowCalls nx ny elems = ((List.range (nx - 1)).map (fun i => rowPiece nx ny elems (i + 1))).map (·.call) := by rw [List.map_map]; rfl
  have hmem : ∀ q ∈ rowPiece nx ny elems 0 :: (List.range (nx - 1)).map (fun i => rowPiece nx ny elems (i + 1)), ∃ i < nx, q = rowPiece nx ny elems i := by
    intro q hq
    rcases List.mem_cons.1 hq with rfl | hq
    · exact ⟨0, hx, rfl⟩
    · obtain ⟨i, hi, rfl⟩ := List.mem_map.1 hq
      exact ⟨i + 1, by have := List.mem_range.1 hi; omega, rfl⟩
  have hlt : ∀ i < nx, ∀ j < ny, i + nx * j < elems.length := fun i hi j hj => by
    rw [hl]
    calc i + nx * j < nx + nx * j := by omega
      _ = nx * (j + 1) := by ring
      _ ≤ nx * ny := Nat.mul_le_mul_left _ hj
  have hgood : ∀ i < nx, (rowPiece nx ny elems i).Good 2 t := fun i hi => {
    lstart := rfl
    lcount := rfl
    entries := by
      intro k hk
      rcases k with _ | _ | k
      · exact ⟨rfl, rfl⟩
      · exact ⟨rfl, rfl⟩
      · omega
    wf := by
      show ((List.range ny).map (fun j => elems.getD (i + nx * j) [])).length = [1, ny].prod
      simp
    type := ⟨ht, fun v hv => by
      obtain ⟨j, hj, rfl⟩ := List.mem_map.1 (show v ∈ (List.range ny).map (fun j => elems.getD (i + nx * j) []) from hv)
      rw [List.getD_eq_getElem?_getD, List.getElem?_eq_getElem (hlt i hi j (List.mem_range.1 hj))]
      exact he _ (List.getElem_mem _)⟩
    holds := holds_self [1, ny]
    nonempty := by
      show 0 ∉ [1, ny]
      simp; omega }
  rw [hmap]
  refine C126_pieces (a := ⟨[nx, ny], elems⟩) (p := rowPiece nx ny elems 0) (by simp) (by simp) rfl rfl (by unfold FArray.WF; simp [hl]) ?_ rfl ?_ (by show 0 ∉ [1, ny]; simp; omega) ?_ ?_
  · simp only [List.mem_cons, List.not_mem_nil, or_false]
    omega
  · refine Or.inr ⟨by simp [rowPiece], ?_⟩
    have e : chunkElems { extensible := some true } (List.zipWith (· + ·) (rowPiece nx ny elems 0).start (rowPiece nx ny elems 0).count) = min ny 8192 := by
      simp [chunkElems, rowPiece, List.range_succ]
    rw [e]
    refine ⟨by omega, ?_⟩
    calc min ny 8192 * t.size ≤ 8192 * t.size := Nat.mul_le_mul_right _ (by omega)
      _ < 2 ^ 32 := by omega
  · intro q hq
    obtain ⟨i, hi, rfl⟩ := hmem q hq
    exact hgood i hi
  · constructor
    · intro q hq
      obtain ⟨i, hi, rfl⟩ := hmem q hq
      intro k hk
      have hk : k < 2 := hk
      rcases k with _ | _ | k
      · exact hi
      · show 0 + ny ≤ ny
        omega
      · omega
    · intro q hq k v hv
      obtain ⟨i, hi, rfl⟩ := hmem q hq
      obtain ⟨idx, j, h1, rfl, h2, h3, h4⟩ := hv
      obtain rfl := samePlace_self h1 h2 h3
      obtain ⟨x, y, rfl⟩ : ∃ x y, idx = [x, y] := List.length_eq_two.1 (inShape_length h1)
      have hx0 : x < 1 := h1.1
      obtain rfl : x = 0 := by omega
      have hy0 : y < ny := h1.2.1
      simp only [FArray.at, offset, rowPiece, rowCall, List.zipWith_cons_cons, List.zipWith_nil_left, List.length_cons, List.length_nil, List.range_succ, List.range_zero, List.nil_append, List.cons_append, List.map_cons, List.map_nil,
        List.getD_cons_zero, List.getD_cons_succ, List.take_zero, List.take_succ_cons, List.prod_nil, List.prod_cons, mul_one, zero_add, List.sum_cons, List.sum_nil, add_zero] at h4 ⊢
      rw [List.getElem?_map, List.getElem?_range hy0] at h4
      rw [← h4]
      simp only [Option.map_some]
      rw [List.getD_eq_getElem?_getD, mul_comm y nx, List.getElem?_eq_getElem (hlt i hi y hy0)]
      rfl
    · intro k hk
      obtain ⟨x, y, rfl⟩ : ∃ x y, k = [x, y] := List.length_eq_two.1 (inShape_length hk)
      have hx0 : x < nx := hk.1
      have hy0 : y < ny := hk.2.1
      refine ⟨rowPiece nx ny elems x, ?_, [0, y], ⟨Nat.one_pos, hy0, trivial⟩, ?_⟩
      · cases hq : x with
        | zero => exact List.mem_cons_self
        | succ i => exact List.mem_cons_of_mem _ (List.mem_map.2 ⟨i, List.mem_range.2 (by omega), rfl⟩)
      · simp [rowPiece]

namespace ExHdf5Parts

def t : Hdf5.DType := ⟨.integer true, 2⟩

def arr (dims : List Nat) (k : Nat) : FArray := ⟨dims, (List.range dims.prod).map (fun i => [⟨(i + k) % 256, by omega⟩, 0])⟩

/-- Six elements in blocks of two, and then some of them overwritten -/
example : writeAll { extensible := some true } t (blockCall 2 (arr [6] 1).elems 0) (blockCalls 2 3 (arr [6] 1).elems ++ [⟨[4], [2], arr [5] 100⟩]) =
    .ok ⟨t, [6], [none], [[1, 0], [2, 0], [3, 0], [100, 0], [101, 0], [6, 0]]⟩ := by decide +kernel

/-- Rows of an array of two by three -/
example : writeAll { extensible := some true } t (rowCall 2 3 (arr [2, 3] 1).elems 0) (rowCalls 2 3 (arr [2, 3] 1).elems) = .ok ⟨t, [2, 3], [none, none], (arr [2, 3] 1).elems⟩ := by decide +kernel

/-- A dataset with elements which were not written, and a second part which overlaps with the first one (as `strdata`) -/
example : writeAll { initial_size := some [3, 3] } t ⟨[1, 1], [2, 2], arr [2, 2] 1⟩ [⟨[2, 2], [2, 2], arr [2, 2] 11⟩] =
    .ok ⟨t, [3, 3], [some 3, some 3], [[1, 0], [2, 0], [0, 0], [3, 0], [11, 0], [12, 0], [0, 0], [13, 0], [14, 0]]⟩ := by decide +kernel

/-- No room -/
example : writeAll { initial_size := some [3, 3] } t ⟨[1, 1], [2, 2], arr [2, 2] 1⟩ [⟨[3, 2], [2, 2], arr [2, 2] 11⟩] = .error .abort := by decide +kernel

/-- Parts of one dimension and a scalar in a dataset of two dimensions (as `Array2D`) -/
def zeros : Dset := blank t [3, 2] false

def pieces : List Piece := [⟨[0, 0], [2, 1], ⟨[1, 1], [2, 1], arr [3] 1⟩⟩, ⟨[1, 0], [1, 2], ⟨[2, 1], [1, 2], arr [2] 21⟩⟩, ⟨[2, 1], [1, 1], ⟨[3, 2], [1, 1], arr [] 31⟩⟩]

example : writeCalls zeros t (pieces.map (·.call)) = .ok ⟨t, [3, 2], [some 3, some 2], [[1, 0], [21, 0], [0, 0], [0, 0], [22, 0], [31, 0]]⟩ := by decide +kernel

example : ∀ p ∈ pieces, p.Good 2 t ∧ Room zeros p.start p.count := by
  have hr : ∀ s c : List Nat, s.getD 0 0 + c.getD 0 0 ≤ 3 → s.getD 1 0 + c.getD 1 0 ≤ 2 → Room zeros s c := by
    intro s c h0 h1 i hi m hm
    have hi : i < 2 := hi
    rcases i with _ | _ | i
    · simp [zeros, blank] at hm; omega
    · simp [zeros, blank] at hm
      show s.getD 1 0 + c.getD 1 0 ≤ m
      omega
    · omega
  intro p hp
  simp only [pieces, List.mem_cons, List.not_mem_nil, or_false] at hp
  rcases hp with rfl | rfl | rfl
  all_goals
    refine ⟨⟨rfl, rfl, by decide +kernel, by unfold FArray.WF; decide +kernel, ⟨by decide +kernel, by decide +kernel⟩, by unfold Holds; decide +kernel, by decide +kernel⟩, hr _ _ (by decide +kernel) (by decide +kernel)⟩

example : (arr [6] 1).elems.length = 3 * 2 ∧ (arr [2, 3] 1).elems.length = 2 * 3 ∧ ∀ v ∈ (arr [6] 1).elems, v.length = t.size := by decide +kernel

end ExHdf5Parts

end Verif.Hdf5Parts
