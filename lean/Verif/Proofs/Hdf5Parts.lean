import Verif.Spec.Hdf5Parts
import Verif.Props.Hdf5Write

/-!
Proofs about sequences of writes to parts of a dataset
-/

namespace Verif.Hdf5Parts

open Hdf5

theorem compatible_self (t : Hdf5.DType) : Compatible t t := by
  obtain ⟨cl, n⟩ := t
  cases cl <;> simp [Compatible]

theorem converted_self {t : Hdf5.DType} (ht : 0 < t.size) {x y : List Byte} (hx : x.length = t.size) (hy : Converted t t x y) : y = x := by
  have := convert_converted (compatible_self t) hx ht
  rw [convert_self t x hx] at this
  exact converted_unique hy this

theorem Sequence.nil {ds : Dset} (h : ds.WF) : Sequence ds [] ds where
  dtype := rfl
  maxdims := rfl
  rank := rfl
  wf := h
  dims := fun _ _ => rfl
  last := by intro e p l h; simp at h
  old := fun _ _ _ => rfl
  zeros := fun _ h h' => absurd h h'

/-- What a piece puts somewhere is there after it was written. -/
theorem puts_at {ds ds1 : Dset} {p : Piece} {k : List Nat} {v : List Byte} (hg : p.Good ds.dims.length ds.dtype) (h : WriteResult ds ds.dtype p.start p.count p.call.arr ds1) (hp : p.Puts k v) :
    InShape ds1.dims k ∧ ds1.at k = some v := by
  obtain ⟨idx, j, hi, rfl, hj, hs, hv⟩ := hp
  refine ⟨inShape_add (by rw [h.rank]; exact hg.lstart) (by rw [h.rank]; exact hg.lcount) h.inside hi, ?_⟩
  obtain ⟨v', w, h1, h2, h3⟩ := h.values idx j hi hj hs
  rw [hv] at h1
  obtain rfl := Option.some.inj h1
  rw [h2, converted_self hg.type.size (hg.type.elems v (List.mem_iff_getElem?.2 ⟨_, hv⟩)) h3]

theorem inShape_of_write {ds ds1 : Dset} {t : Hdf5.DType} {start count : List Nat} {a : FArray} (h : WriteResult ds t start count a ds1) {k : List Nat} (hk : InShape ds.dims k) : InShape ds1.dims k := by
  rw [inShape_iff_getD] at hk ⊢
  refine ⟨hk.1.trans h.rank.symm, fun i hi => ?_⟩
  rw [h.rank] at hi
  have := hk.2 i hi
  rw [h.dims i hi]
  omega

/-- A write before a sequence -/
theorem Sequence.cons {ds ds1 ds' : Dset} {p : Piece} {ps : List Piece} (hg : p.Good ds.dims.length ds.dtype) (h : WriteResult ds ds.dtype p.start p.count p.call.arr ds1) (hs : Sequence ds1 ps ds') :
    Sequence ds (p :: ps) ds' where
  dtype := hs.dtype.trans h.dtype
  maxdims := hs.maxdims.trans h.maxdims
  rank := hs.rank.trans h.rank
  wf := hs.wf
  dims := by
    intro i hi
    rw [hs.dims i (by rw [h.rank]; exact hi), List.foldl_cons, h.dims i hi]
  last := by
    intro e q l he k v hq hl
    cases e with
    | nil =>
      obtain ⟨rfl, rfl⟩ := List.cons.inj he
      obtain ⟨h1, h2⟩ := puts_at hg h hq
      rw [hs.old k h1 hl, h2]
    | cons e0 e =>
      obtain ⟨rfl, rfl⟩ := List.cons.inj he
      exact hs.last e q l rfl k v hq hl
  old := by
    intro k hk hn
    rw [hs.old k (inShape_of_write h hk) (fun q hq => hn q (List.mem_cons_of_mem _ hq))]
    exact h.others k hk (hn p List.mem_cons_self)
  zeros := by
    intro k hk ho hn
    by_cases h1 : InShape ds1.dims k
    · rw [hs.old k h1 (fun q hq => hn q (List.mem_cons_of_mem _ hq))]
      exact h.zeros k h1 ho (hn p List.mem_cons_self)
    · rw [hs.zeros k hk h1 (fun q hq => hn q (List.mem_cons_of_mem _ hq)), h.dtype]

theorem Piece.Good.isRegion {p : Piece} {dims : List Nat} {t : Hdf5.DType} (h : p.Good dims.length t) : IsRegion dims (some (p.call.start, p.call.count)) p.start p.count :=
  IsRegion.part _ _ _ _ h.lstart h.lcount h.entries

theorem writeCalls_sequence {t : Hdf5.DType} (ps : List Piece) : ∀ {ds : Dset}, ds.dims.length ≤ 7 → ds.WF → ds.dtype = t → (∀ p ∈ ps, p.Good ds.dims.length t ∧ Room ds p.start p.count) →
    ∃ ds', writeCalls ds t (ps.map (·.call)) = .ok ds' ∧ Sequence ds ps ds' := by
  induction ps with
  | nil => intro ds _ hw _ _; exact ⟨ds, rfl, Sequence.nil hw⟩
  | cons p ps ih =>
    intro ds hr hw ht hps
    obtain ⟨hg, hrm⟩ := hps p List.mem_cons_self
    obtain ⟨ds1, h1, hres⟩ := (C95_write_old hr hw hg.wf hg.type hg.isRegion (fun _ => hg.nonempty)).1 ⟨by rw [ht]; exact compatible_self t, hrm, hg.holds⟩
    obtain ⟨ds', h2, hseq⟩ := ih (ds := ds1) (by rw [hres.rank]; exact hr) hres.wf (hres.dtype.trans ht) (fun q hq => by
      obtain ⟨hq1, hq2⟩ := hps q (List.mem_cons_of_mem _ hq)
      refine ⟨by rw [hres.rank]; exact hq1, fun i hi m hm => ?_⟩
      rw [hres.rank] at hi
      rw [hres.maxdims] at hm
      exact hq2 i hi m hm)
    refine ⟨ds', ?_, Sequence.cons (by rw [ht]; exact hg) (by rw [ht]; exact hres) hseq⟩
    show (writeOld ds t (some (p.call.start, p.call.count)) p.call.arr >>= fun ds1 => writeCalls ds1 t (ps.map (·.call))) = _
    rw [h1]
    exact h2

/-- Every element of a piece comes from somewhere in its array. -/
theorem touches_puts {p : Piece} {rank : Nat} {t : Hdf5.DType} (hg : p.Good rank t) {k : List Nat} (hk : p.Touches k) : ∃ v, p.Puts k v := by
  obtain ⟨idx, hi, rfl⟩ := hk
  obtain ⟨j, hj, hs⟩ := exists_place hg.nonempty hg.holds hi
  have hlt : offset p.call.arr.dims j < p.call.arr.elems.length := by
    rw [hg.wf, ← colIndex_offset _ _ (inShape_length hj)]
    exact colIndex_lt hj
  exact ⟨p.call.arr.elems[offset p.call.arr.dims j], idx, j, hi, rfl, hj, hs, List.getElem?_eq_getElem hlt⟩

/-- The last piece with an index -/
theorem exists_last {ps : List Piece} {k : List Nat} (h : ∃ p ∈ ps, p.Touches k) : ∃ e p l, ps = e ++ p :: l ∧ p.Touches k ∧ ∀ q ∈ l, ¬ q.Touches k := by
  classical
  induction ps with
  | nil => obtain ⟨p, hp, _⟩ := h; simp at hp
  | cons p ps ih =>
    by_cases h' : ∃ q ∈ ps, q.Touches k
    · obtain ⟨e, q, l, he, hq⟩ := ih h'
      exact ⟨p :: e, q, l, by rw [he]; rfl, hq⟩
    · obtain ⟨q, hq, hk⟩ := h
      rcases List.mem_cons.1 hq with rfl | hq
      · exact ⟨[], q, ps, rfl, hk, fun r hr hrk => h' ⟨r, hr, hrk⟩⟩
      · exact absurd ⟨q, hq, hk⟩ h'

theorem foldl_max_le {α : Type} (f : α → Nat) (n : Nat) (l : List α) : ∀ m, m ≤ n → (∀ x ∈ l, f x ≤ n) → l.foldl (fun m x => max m (f x)) m ≤ n := by
  induction l with
  | nil => intro m h _; exact h
  | cons x l ih => intro m h hl; exact ih _ (max_le h (hl x List.mem_cons_self)) (fun y hy => hl y (List.mem_cons_of_mem _ hy))

theorem le_foldl_max {α : Type} (f : α → Nat) (l : List α) : ∀ m, m ≤ l.foldl (fun m x => max m (f x)) m ∧ ∀ x ∈ l, f x ≤ l.foldl (fun m x => max m (f x)) m := by
  induction l with
  | nil => intro m; exact ⟨le_refl _, fun x hx => by simp at hx⟩
  | cons x l ih =>
    intro m
    obtain ⟨h1, h2⟩ := ih (max m (f x))
    refine ⟨le_trans (le_max_left _ _) h1, fun y hy => ?_⟩
    rcases List.mem_cons.1 hy with rfl | hy
    · exact le_trans (le_max_right _ _) h1
    · exact h2 y hy

theorem touches_lt {p : Piece} {rank : Nat} {t : Hdf5.DType} (hg : p.Good rank t) {k : List Nat} (hk : p.Touches k) : k.length = rank ∧ ∀ i < rank, k.getD i 0 < p.start.getD i 0 + p.count.getD i 0 := by
  obtain ⟨idx, hi, rfl⟩ := hk
  rw [inShape_iff_getD] at hi
  have h1 := hg.lstart
  have h2 := hg.lcount
  have h3 := hi.1
  have hl : (List.zipWith (· + ·) p.start idx).length = rank := by rw [List.length_zipWith, h1, h3, h2, min_self]
  refine ⟨hl, fun i hir => ?_⟩
  have := hi.2 i (by omega)
  have h4 : i < p.start.length := by omega
  have h5 : i < idx.length := by omega
  rw [List.getD_eq_getElem?_getD, List.getElem?_eq_getElem (by omega), List.getElem_zipWith]
  rw [List.getD_eq_getElem?_getD, List.getElem?_eq_getElem h5] at this
  rw [List.getD_eq_getElem?_getD (l := p.start), List.getElem?_eq_getElem h4]
  simp only [Option.getD_some] at *
  omega

/-- A dataset with the elements of an array at all indexes is that array. -/
theorem data_eq {ds : Dset} {a : FArray} (hw : ds.WF) (ha : a.WF) (hd : ds.dims = a.dims) (h : ∀ k, InShape a.dims k → ds.at k = a.at k) : ds.data = a.elems := by
  apply List.ext_getElem?
  intro n
  have hl1 := hw.data
  rw [hd] at hl1
  have hl2 : a.elems.length = a.dims.prod := ha
  by_cases hn : n < a.dims.prod
  · obtain ⟨j, hj, rfl⟩ := exists_colIndex hn
    rw [colIndex_offset _ _ (inShape_length hj)]
    have := h j hj
    unfold Dset.at FArray.at at this
    rw [hd] at this
    exact this
  · rw [List.getElem?_eq_none (by omega), List.getElem?_eq_none (by omega)]

/-- A sequence of pieces which are cut from an array, on a dataset which is not larger, gives this array. -/
theorem Sequence.cut {ds ds' : Dset} {ps : List Piece} {a : FArray} (h : Sequence ds ps ds') (ha : a.WF) (hz : 0 ∉ a.dims) (hr : ds.dims.length = a.dims.length)
    (hd : ∀ i < a.dims.length, ds.dims.getD i 0 ≤ a.dims.getD i 0) (hg : ∀ p ∈ ps, p.Good a.dims.length ds.dtype) (hc : CutFrom a ps) : ds'.dims = a.dims ∧ ds'.data = a.elems := by
  have hdims : ds'.dims = a.dims := by
    have hl := h.rank.trans hr
    apply List.ext_getElem?
    intro i
    by_cases hi : i < a.dims.length
    · have e : ds'.dims.getD i 0 = a.dims.getD i 0 := by
        have hi' : i < ds.dims.length := by omega
        rw [h.dims i hi']
        apply le_antisymm
        · exact foldl_max_le _ _ _ _ (hd i hi) (fun p hp => hc.inside p hp i hi)
        · have hpos : ∀ j < a.dims.length, 0 < a.dims.getD j 0 := by
            intro j hj
            rw [List.getD_eq_getElem?_getD, List.getElem?_eq_getElem hj]
            exact Nat.pos_of_ne_zero (fun h0 => hz (by
              have := List.getElem_mem hj
              simp only [Option.getD_some] at h0
              rwa [h0] at this))
          have hk : InShape a.dims (a.dims.map (· - 1)) := by
            rw [inShape_iff_getD]
            refine ⟨by simp, fun j hj => ?_⟩
            have := hpos j hj
            rw [List.getD_eq_getElem?_getD, List.getElem?_map]
            rw [List.getD_eq_getElem?_getD] at this ⊢
            rw [List.getElem?_eq_getElem hj] at this ⊢
            simp only [Option.map_some, Option.getD_some] at this ⊢
            omega
          obtain ⟨p, hp, ht⟩ := hc.covers _ hk
          have h1 := (touches_lt (hg p hp) ht).2 i hi
          have h2 := (le_foldl_max (fun p : Piece => p.start.getD i 0 + p.count.getD i 0) ps (ds.dims.getD i 0)).2 p hp
          have h3 := hpos i hi
          rw [List.getD_eq_getElem?_getD, List.getElem?_map, List.getElem?_eq_getElem hi] at h1
          rw [List.getD_eq_getElem?_getD, List.getElem?_eq_getElem hi] at h3 ⊢
          simp only [Option.map_some, Option.getD_some] at h1 h3 ⊢
          omega
      rw [List.getD_eq_getElem?_getD, List.getD_eq_getElem?_getD] at e
      rw [List.getElem?_eq_getElem hi, List.getElem?_eq_getElem (by omega)] at e ⊢
      simpa using e
    · rw [List.getElem?_eq_none (by omega), List.getElem?_eq_none (by omega)]
  refine ⟨hdims, data_eq h.wf ha hdims (fun k hk => ?_)⟩
  obtain ⟨e, p, l, he, hp, hl⟩ := exists_last (hc.covers k hk)
  have hm : p ∈ ps := by rw [he]; simp
  obtain ⟨v, hv⟩ := touches_puts (hg p hm) hp
  rw [h.last e p l he k v hv hl, hc.same p hm k v hv]

end Verif.Hdf5Parts
