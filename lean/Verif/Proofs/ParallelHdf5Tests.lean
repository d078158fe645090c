import Verif.Model.ParallelHdf5Tests
import Verif.Proofs.SortTests
import Verif.Proofs.MultiFileRead
import Verif.Props.CollectiveIO
import Verif.Props.MultiFile
import Verif.Props.SortTests

namespace Verif.ParallelHdf5Tests

open Verif.SortTests

variable {α τ : Type}

/-- The comparison is exact unless one of the arrays is repeated. -/
theorem allEqual_iff [DecidableEq α] {a b : List α} (h : a.length = b.length ∨ a.length ≠ 1 ∧ b.length ≠ 1) : allEqual a b = .ok true ↔ a = b := by
  by_cases hl : a.length = b.length
  · rw [allEqual_same hl]; simp
  · constructor
    · intro he
      unfold allEqual at he
      rw [if_neg hl] at he
      match a, b, h with
      | [x], b, h => simp at h hl; exact absurd h hl
      | a, [y], h => simp at h hl; exact absurd h hl
      | [], [], _ => rfl
      | [], _ :: _ :: _, _ => simp at he
      | _ :: _ :: _, [], _ => simp at he
      | _ :: _ :: _, _ :: _ :: _, _ => simp at he
    · rintro rfl; exact absurd rfl hl

theorem assertRankZero_iff (c : Bool) : assertRankZero c = .ok () ↔ c = true := by cases c <;> simp [assertRankZero]

theorem assertAllEqual_iff [DecidableEq α] {a b : List α} (h : a.length = b.length ∨ a.length ≠ 1 ∧ b.length ≠ 1) : assertAllEqual a b = .ok () ↔ a = b := by
  rw [← allEqual_iff h]
  unfold assertAllEqual
  rw [bind_ok_iff]
  constructor
  · rintro ⟨c, h1, h2⟩; rw [assertRankZero_iff] at h2; rw [h1, h2]
  · intro h1; exact ⟨true, h1, rfl⟩

theorem assertAllEqual_self [DecidableEq α] (a : List α) : assertAllEqual a a = .ok () := (assertAllEqual_iff (Or.inl rfl)).2 rfl

theorem allEqual_replicate [DecidableEq α] (x : α) (n : Nat) : allEqual (List.replicate n x) [x] = .ok true := by
  by_cases h : n = 1
  · subst h; exact allEqual_self _
  · unfold allEqual
    rw [if_neg (by simpa using h)]
    match n, h with
    | 0, _ => rfl
    | n + 2, _ => simp [List.replicate_succ]

theorem replaceNone_total {P : Nat} (arr : Nat → Option (TypedArray τ α)) {p : Nat} (hp : p < P) : ∃ r, replaceNone P arr p = .ok r := by
  cases ha : arr p with
  | some a => exact ⟨_, replaceNone_some ha⟩
  | none =>
    by_cases hall : ∀ q < P, arr q = none
    · exact ⟨_, replaceNone_all hp hall⟩
    · simp only [not_forall] at hall
      classical
      have hex : ∃ r, r < P ∧ arr r ≠ none := by obtain ⟨q, hq, hn⟩ := hall; exact ⟨q, hq, hn⟩
      obtain ⟨h1, h2⟩ := Nat.find_spec hex
      obtain ⟨a, hr⟩ := Option.ne_none_iff_exists'.1 h2
      refine ⟨_, replaceNone_none ha h1 hr (fun q hq => ?_)⟩
      have := Nat.find_min hex hq
      by_contra hne
      exact this ⟨by omega, hne⟩

/-- What the parts of a rank tell about the types. -/
theorem readIndependent_types [DecidableEq τ] {files : Nat → Option (TypedArray τ α)} (idx : Nat → Nat) {first num : Nat} {d : List Nat}
    (hd : ∀ f, first ≤ f → f < first + num → ∀ a, files f = some a → a.dims = d) :
    ∃ D b n, readIndependent files idx first num = .ok (D, b, n) ∧
      (b = false → ∀ f, first ≤ f → f < first + num → ∀ a, files f = some a → ∃ c, D = some c ∧ c.dtype = a.dtype) := by
  unfold readIndependent
  simp only
  have hmem : ∀ a ∈ (List.range' first num).filterMap files, a.dims = d := by
    intro a ha
    obtain ⟨f, hf, hfa⟩ := List.mem_filterMap.1 ha
    rw [List.mem_range'_1] at hf
    exact hd f hf.1 hf.2 a hfa
  have hin : ∀ f, first ≤ f → f < first + num → ∀ a, files f = some a → a ∈ (List.range' first num).filterMap files := by
    intro f h1 h2 a ha
    exact List.mem_filterMap.2 ⟨f, List.mem_range'_1.2 ⟨h1, h2⟩, ha⟩
  generalize (List.range' first num).filterMap files = parts at hmem hin
  cases parts with
  | nil => exact ⟨_, _, _, rfl, fun _ f h1 h2 a ha => by cases hin f h1 h2 a ha⟩
  | cons x rest =>
    have hall : rest.all (fun b => decide (b.dims = x.dims)) = true := by
      rw [List.all_eq_true]
      intro y hy
      rw [hmem x (by simp), hmem y (by simp [hy])]
      simp
    unfold concatParts
    simp only
    rw [if_pos hall]
    refine ⟨_, _, _, rfl, fun hb f h1 h2 a ha => ⟨_, rfl, ?_⟩⟩
    have := hin f h1 h2 a ha
    unfold typesDiffer at hb
    simp only at hb
    rcases List.mem_cons.1 this with rfl | hm
    · rfl
    · have := (List.any_eq_false.1 hb) a hm
      simp only [decide_eq_true_eq, not_not] at this
      exact this.symm

theorem readLocal_types [DecidableEq τ] [Inhabited α] {P F : Nat} (hP : 0 < P) (hF : 0 < F) {files : Nat → Option (TypedArray τ α)} (idx : Nat → Nat) {itemsize : τ → Nat}
    (buffer_size : Nat) {d : List Nat} (hd : ∀ f < F, ∀ a, files f = some a → a.dims = d)
    (he : F < P → ∀ f < F, ∀ a, files f = some a → 0 < elementSize (itemsize a.dtype) d) {p : Nat} (hp : p < P) :
    ∃ D b n, readLocal P F files idx itemsize buffer_size p = .ok (D, b, n) ∧
      (b = false → ∀ f, MultiFileRead.ReadsFile F P p f → ∀ a, files f = some a → ∃ c, D = some c ∧ c.dtype = a.dtype) := by
  have hin := (MultiFileRead.readsFile_order hP hF).2.1 p hp
  unfold readLocal
  by_cases h : F < P
  · obtain ⟨f, k, n, h1, h2, -⟩ := C27_collective_total hF h hp
    rw [h1]
    have hreads : ∀ g, MultiFileRead.ReadsFile F P p g → g = f := by
      rintro g (⟨first, num, e, -, -⟩ | ⟨k', n', e⟩)
      · rw [h1] at e; simp at e
      · rw [h1] at e; simp at e; exact e.1.symm
    unfold readCollective
    cases hf : files f with
    | none =>
      refine ⟨none, false, none, by simp only [hf], fun _ g hg a ha => ?_⟩
      rw [hreads g hg, hf] at ha; cases ha
    | some a =>
      have hne : elementSize (itemsize a.dtype) a.dims ≠ 0 := by
        have := he h f h2 a hf
        rw [hd f h2 a hf]; omega
      have hcr : ∃ out, collectiveRead n a.rows (itemsize a.dtype) a.dims buffer_size = .ok out := by
        unfold collectiveRead
        simp only [if_neg hne]
        split
        · exact ⟨_, rfl⟩
        · exact ⟨_, rfl⟩
      obtain ⟨out, hout⟩ := hcr
      refine ⟨some ⟨a.dtype, a.dims, (out k).1⟩, false, some (List.replicate (out k).1.length (idx f)), by simp only [hf, hout], fun _ g hg b hb => ?_⟩
      rw [hreads g hg, hf] at hb
      cases hb
      exact ⟨_, rfl, rfl⟩
  · obtain ⟨num, h1, h2, h3⟩ := layout_independent hP (show P ≤ F by omega)
    have hlt := pre_lt_total (f := num) hp
    rw [h3 p hp]
    obtain ⟨D, b, n, h4, h5⟩ := readIndependent_types idx (first := pre num p) (num := num p) (files := files) (d := d)
      (fun f _ hf2 a ha => hd f (by omega) a ha)
    refine ⟨D, b, n, h4, fun hb f hf a ha => ?_⟩
    rcases hf with ⟨first, m, e, h6, h7⟩ | ⟨k, m, e⟩
    · rw [h3 p hp] at e
      simp only [Except.ok.injEq, FileLayout.independent.injEq] at e
      obtain ⟨rfl, rfl⟩ := e
      exact h5 hb f h6 h7 a ha
    · rw [h3 p hp] at e; simp at e

/-- Two ranks with different types -/
theorem multiFileRead_inconsistent [DecidableEq τ] [Inhabited α] {P F : Nat} {files : Nat → Option (TypedArray τ α)} {idx : Nat → Nat} {itemsize : τ → Nat} {native : τ → τ}
    {buffer_size : Nat} {D : Nat → Option (TypedArray τ α)} {b : Nat → Bool} {n : Nat → Option (List Nat)}
    (hl : ∀ p < P, readLocal P F files idx itemsize buffer_size p = .ok (D p, b p, n p))
    (h : (∃ p < P, b p = true) ∨ ∃ p < P, ∃ q < P, ∃ x y, D p = some x ∧ D q = some y ∧ native x.dtype ≠ native y.dtype) :
    multiFileRead P F files idx itemsize native buffer_size = .error .other := by
  have hget : ∀ p < P, ((List.range P).map (fun p => (D p, b p, n p)))[p]? = some (D p, b p, n p) := by
    intro p hp
    rw [List.getElem?_map, List.getElem?_range hp]; rfl
  unfold multiFileRead
  rw [allRanks_ok hl]
  simp only [Except.andThen]
  by_cases hb : ∃ p < P, b p = true
  · obtain ⟨p, hp, hbp⟩ := hb
    rw [if_pos]
    rw [List.any_eq_true]
    exact ⟨_, List.mem_map.2 ⟨p, List.mem_range.2 hp, rfl⟩, hbp⟩
  · rw [if_neg]
    · rcases h with h | ⟨p, hp, q, hq, x, y, hx, hy, hne⟩
      · exact absurd h hb
      · have h1 : ∀ r, r < P → ∃ v, replaceNone P (fun p => (((List.range P).map (fun p => (D p, b p, n p)))[p]?.bind (fun e => e.1)).map (fun a => { a with dtype := native a.dtype })) r = .ok v :=
          fun r hr => replaceNone_total _ hr
        have h2 : ∀ r, r < P → ∃ v, replaceNone P (fun p => (((List.range P).map (fun p => (D p, b p, n p)))[p]?.bind (fun e => e.2.2)).map (fun l => (⟨(), [], l⟩ : TypedArray Unit Nat))) r = .ok v :=
          fun r hr => replaceNone_total _ hr
        choose! v hv using h1
        choose! w hw using h2
        rw [allRanks_ok hv]
        simp only
        rw [allRanks_ok hw]
        simp only
        rw [if_pos]
        have hvp : v p = some { x with dtype := native x.dtype } := by
          have := hv p hp
          rw [replaceNone_some (a := { x with dtype := native x.dtype }) (by rw [hget p hp]; simp [hx])] at this
          exact (Except.ok.inj this).symm
        have hvq : v q = some { y with dtype := native y.dtype } := by
          have := hv q hq
          rw [replaceNone_some (a := { y with dtype := native y.dtype }) (by rw [hget q hq]; simp [hy])] at this
          exact (Except.ok.inj this).symm
        rw [List.any_eq_true]
        have hmp : native x.dtype ∈ ((List.range P).map v).filterMap (fun a => a.map TypedArray.dtype) :=
          List.mem_filterMap.2 ⟨v p, List.mem_map.2 ⟨p, List.mem_range.2 hp, rfl⟩, by rw [hvp]; rfl⟩
        have hmq : native y.dtype ∈ ((List.range P).map v).filterMap (fun a => a.map TypedArray.dtype) :=
          List.mem_filterMap.2 ⟨v q, List.mem_map.2 ⟨q, List.mem_range.2 hq, rfl⟩, by rw [hvq]; rfl⟩
        by_cases hh : some (native x.dtype) = (((List.range P).map v).filterMap (fun a => a.map TypedArray.dtype)).head?
        · refine ⟨_, hmq, ?_⟩
          rw [← hh]
          simpa using fun e => hne e.symm
        · exact ⟨_, hmp, by simpa using hh⟩
    · rw [Bool.not_eq_true, List.any_eq_false]
      intro e he
      obtain ⟨p, hp, rfl⟩ := List.mem_map.1 he
      intro hbp
      exact hb ⟨p, List.mem_range.1 hp, hbp⟩

theorem concatenate_ok (l : List (List α)) (h : l ≠ []) : concatenate (l.map some) = .ok l.flatten := by
  unfold concatenate
  rw [if_neg]
  · congr 2
    rw [List.filterMap_map]
    exact List.filterMap_some
  · cases l with
    | nil => exact absurd rfl h
    | cons a l => simp

/-- What the serial reading collects -/
theorem concatenate_files {F : Nat} {files : Nat → Option (TypedArray τ α)} (hex : ∃ f < F, files f ≠ none) :
    concatenate (((List.range F).filterMap files).map (fun a => some a.rows)) = .ok (gcat F (fileRows files)) := by
  have e : ((List.range F).filterMap files).map (fun a => some a.rows) = (((List.range F).filterMap files).map TypedArray.rows).map some := by
    rw [List.map_map]; rfl
  rw [e, concatenate_ok]
  · rw [gcat_eq_flatMap, ← List.flatMap_def, filterMap_flatMap]; rfl
  · obtain ⟨f, hf, hne⟩ := hex
    obtain ⟨a, ha⟩ := Option.ne_none_iff_exists'.1 hne
    intro hnil
    have : a ∈ (List.range F).filterMap files := List.mem_filterMap.2 ⟨f, List.mem_range.2 hf, ha⟩
    rw [List.map_eq_nil_iff.1 hnil] at this
    cases this

theorem sameFile_iff [DecidableEq α] (a b : Option (List α)) : sameFile a b = .ok true ↔ a.getD [] = b.getD [] := by
  unfold sameFile
  rw [bind_ok_iff]
  constructor
  · rintro ⟨c, h1, h2⟩
    simp only [Except.ok.injEq, Bool.and_eq_true, decide_eq_true_eq] at h2
    rw [h2.2] at h1
    exact (allEqual_iff (Or.inl h2.1)).1 h1
  · intro h
    refine ⟨true, ?_, ?_⟩
    · rw [h]; exact allEqual_self _
    · simp [h]

theorem sameFiles_iff [DecidableEq α] (old new : Nat → Option (List α)) (fs : List Nat) : sameFiles old new fs = .ok true ↔ ∀ f ∈ fs, (old f).getD [] = (new f).getD [] := by
  induction fs with
  | nil => simp [sameFiles]
  | cons f fs ih =>
    rw [show sameFiles old new (f :: fs) = (sameFile (old f) (new f) >>= fun eq => sameFiles old new fs >>= fun rest => .ok (eq && rest)) from rfl, bind_ok_iff, List.forall_mem_cons, ← ih,
      ← sameFile_iff]
    constructor
    · rintro ⟨c, h1, h2⟩
      rw [bind_ok_iff] at h2
      obtain ⟨e, h3, h4⟩ := h2
      simp only [Except.ok.injEq, Bool.and_eq_true] at h4
      rw [h4.1] at h1; rw [h4.2] at h3
      exact ⟨h1, h3⟩
    · rintro ⟨h1, h2⟩
      refine ⟨true, h1, ?_⟩
      rw [bind_ok_iff]
      exact ⟨true, h2, rfl⟩

theorem arraysOf_ok {P : Nat} (data : Nat → TypedArray τ α) : ∃ g, arraysOf ((List.range P).map (fun p => some (data p))) = .ok g ∧ ∀ p < P, g p = some (data p) := by
  unfold arraysOf
  rw [if_neg (by simp)]
  refine ⟨_, rfl, fun p hp => ?_⟩
  rw [List.getElem?_map, List.getElem?_range hp]; rfl

/-- C30 for arrays and dicts which are only known on the ranks which exist -/
theorem round_trip_ranks [DecidableEq τ] [Inhabited α] {P F : Nat} (hP : 0 < P) (hF : 0 < F) {files : Nat → Option (TypedArray τ α)} {itemsize : τ → Nat} {native : τ → τ}
    {buffer_size fuel : Nat} {t : τ} {d : List Nat} (hc : SameType F files t d) (hnat : itemsize (native t) = itemsize t)
    (hb : F < P → 0 < elementSize (itemsize t) d ∧ elementSize (itemsize t) d ≤ buffer_size) (hex : ∃ f < F, files f ≠ none)
    (hfuel : (gcat F (fileRows files)).length ≤ fuel) :
    ∃ rows : Nat → List α, ∃ nr : Nat → List Nat, ∃ epf : Nat → List (Nat × Nat),
      multiFileRead P F files id itemsize native buffer_size = .ok ((List.range P).map (fun p => (some ⟨native t, d, rows p⟩, some ⟨(), [], nr p⟩))) ∧
      (∀ p < P, elementsPerFile P F files id p = .ok (epf p)) ∧
      ∀ (data : Nat → TypedArray τ α) (e : Nat → List (Nat × Nat)), (∀ p < P, data p = ⟨native t, d, rows p⟩) → (∀ p < P, e p = epf p) →
      ∀ f < F, multiFileWrite P F data e id itemsize buffer_size fuel f = .ok (some ⟨native t, d, fileRows files f⟩) := by
  obtain ⟨has, rows, nr, h1, h2⟩ := readLocal_ok hP hF id hc hb
  obtain ⟨h3, -⟩ | ⟨-, h3⟩ := multiFileRead_of_local (native := native) h1 h2
  · obtain ⟨f, hf, hne⟩ := hex
    exact absurd (h3 f hf) hne
  · have h4 := h1.epf
    choose! epf h5 h6 using h4
    refine ⟨rows, nr, epf, h3, h5, fun data e hdata he f hf => ?_⟩
    have hg : gcat P (fun p => (data p).rows) = gcat P rows := gcat_congr (fun p hp => by rw [hdata p hp])
    have hrow : slice (gcat P (fun p => (data p).rows)) (pre (fun f => (fileRows files f).length) f) (fileRows files f).length = fileRows files f := by
      rw [hg, h1.rows_eq]
      exact slice_gcat hf
    have hcd : ∀ p < P, (data p).dtype = native t ∧ (data p).dims = d := fun p hp => by rw [hdata p hp]; exact ⟨rfl, rfl⟩
    have hep : ∀ p < P, elementsPerFile P F files id p = .ok (e p) := fun p hp => by rw [he p hp]; exact h5 p hp
    have hlen : ∀ p < P, (data p).rows.length = ((e p).map Prod.snd).sum := fun p hp => by rw [hdata p hp, he p hp]; exact h6 p hp
    conv_rhs => rw [← hrow]
    by_cases h : F < P
    · refine multiFileWrite_collective (files := files) hF h hcd hep hlen (by rw [hnat]; exact (hb h).1) (by rw [hnat]; exact (hb h).2) (fun p hp => ?_) hf
      refine Nat.le_trans ?_ hfuel
      rw [← h1.rows_eq, length_gcat, hdata p hp]
      have := pre_lt_total (f := sizes rows) hp
      simp only [sizes] at *
      omega
    · exact multiFileWrite_independent (files := files) hP (by omega) (fun i _ j _ hij => by simp only [id_eq] at hij; rw [hij]) hcd hep hlen itemsize buffer_size fuel hf

end Verif.ParallelHdf5Tests
