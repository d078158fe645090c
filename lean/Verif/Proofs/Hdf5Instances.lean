import Verif.Model.Hdf5Instances
import Verif.Proofs.Hdf5Write

/-!
The memory behind an array does not matter for what is written.
-/

namespace Verif.Hdf5

theorem effective_toNat (l : List Int) : (effective (l.map (fun x => Int.ofNat x.toNat))) = effective l := by
  unfold effective
  suffices H : ∀ k, ((l.map (fun x => Int.ofNat x.toNat)).zipIdx k).filter (fun d => decide (d.1 > 1)) = (l.zipIdx k).filter (fun d => decide (d.1 > 1)) from H 0
  induction l with
  | nil => intro k; rfl
  | cons x l ih =>
    intro k
    rw [List.map_cons, List.zipIdx_cons, List.zipIdx_cons, List.filter_cons, List.filter_cons, ih (k + 1)]
    by_cases hx : 1 < x
    · rw [if_pos (by simpa using hx), if_pos (by simpa using hx)]
      congr 2
      simp; omega
    · rw [if_neg (by simp; omega), if_neg (by simp; omega)]

theorem slabInside_nonneg {dims : List Nat} {start count : List Int} (h : slabInside dims start count = true) (hs : start.length = dims.length) (hc : count.length = dims.length) : ∀ c ∈ count, 0 ≤ c := by
  induction dims generalizing start count with
  | nil => rw [List.length_eq_zero_iff.1 hc]; simp
  | cons d dims ih =>
    obtain ⟨s, start, rfl⟩ := List.exists_cons_of_length_pos (l := start) (by rw [hs]; simp)
    obtain ⟨c, count, rfl⟩ := List.exists_cons_of_length_pos (l := count) (by rw [hc]; simp)
    rw [slabInside, Bool.and_eq_true, Bool.and_eq_true, Bool.and_eq_true] at h
    intro x hx
    rcases List.mem_cons.1 hx with rfl | hx
    · simpa using h.1.1.2
    · exact ih h.2 (by simpa using hs) (by simpa using hc) x hx

/-- The elements of the memory which are written are those of the array. -/
theorem memSelW_lt {adims : List Nat} {rd : List Int} (hz : 0 ∉ adims) (hf : fits (effective (adims.map Int.ofNat)) (effective rd) = true) {m : List Nat}
    (hm : (memSel rd.length rd.length rd).points (padDims rd.length ((effective rd).map (·.2)) ((effective (adims.map Int.ofNat)).map (·.1))) = some m) : ∀ o ∈ m, o < adims.prod := by
  set count : List Nat := rd.map Int.toNat with hcount
  have he : effective rd = effective (count.map Int.ofNat) := by
    rw [hcount, List.map_map, ← effective_toNat rd]
    rfl
  have hl : rd.length = count.length := by rw [hcount, List.length_map]
  have hh : Holds adims count := by rw [he] at hf; exact (fits_iff _ _).1 hf
  have hl2 : (squeezed adims adims).length = (squeezed count count).length := hh.length_eq
  rw [he, hl, padDims_eq count _ (by rw [List.length_map, length_effective, hl2]), List.map_map] at hm
  rw [show ((effective (adims.map Int.ofNat)).map (Int.toNat ∘ fun x => x.1)) = squeezed adims adims from effective_map adims] at hm
  unfold memSel at hm
  split at hm
  · next hp =>
    rw [Sel.points] at hm
    have hle := length_expand count (squeezed adims adims)
    have hd : expand count (squeezed adims adims) ≠ [] := by
      intro h0
      rw [h0] at hle
      simp at hle
      omega
    rw [if_neg hd] at hm
    split at hm
    · obtain rfl := Option.some.inj hm
      simp
    · next hany =>
      split at hm
      · next hin =>
        have hnn := slabInside_nonneg hin (by simp [hle]) (by rw [hle]; exact hl)
        obtain rfl := Option.some.inj hm
        intro o ho
        have e1 : (List.replicate count.length (0 : Int)).map Int.toNat = List.replicate count.length 0 := by simp
        rw [e1] at ho
        exact mem_points_lt hz hh ho
      · simp at hm
  · next hp =>
    have h0 : count = [] := List.length_eq_zero_iff.1 (by omega)
    rw [h0] at hm hh
    have : m = [0] := by
      have := Option.some.inj hm
      rw [← this]; rfl
    subst this
    intro o ho
    rw [List.mem_singleton.1 ho]
    exact Nat.pos_of_ne_zero (List.prod_ne_zero hz)

theorem h5dwrite_take {ds : Dset} {t : DType} {memdims : List Nat} {memsel filesel : Sel} {e : List (List Byte)} {n : Nat} (hn : n ≤ e.length)
    (h : ∀ m, memsel.points memdims = some m → ∀ o ∈ m, o < n) : h5dwrite ds t memdims memsel filesel (e.take n) = h5dwrite ds t memdims memsel filesel e := by
  unfold h5dwrite
  cases filesel.points ds.dims with
  | none => rfl
  | some f =>
    cases hm : memsel.points memdims with
    | none => rfl
    | some m =>
      have hb := h m hm
      have h1 : m.all (fun i => decide (i < (e.take n).length)) = true := List.all_eq_true.2 (fun o ho => by
        have := hb o ho
        simp only [decide_eq_true_eq, List.length_take]; omega)
      have h2 : m.all (fun i => decide (i < e.length)) = true := List.all_eq_true.2 (fun o ho => by
        have := hb o ho
        simp only [decide_eq_true_eq]; omega)
      have h3 : m.map (fun o => convert t ds.dtype ((e.take n).getD o [])) = m.map (fun o => convert t ds.dtype (e.getD o [])) := by
        apply List.map_congr_left
        intro o ho
        rw [List.getD_eq_getElem?_getD, List.getD_eq_getElem?_getD, List.getElem?_take, if_pos (hb o ho)]
      simp only [h1, h2, h3]

theorem putData_take (ds : Dset) (t : DType) (region : Option (List Int × List Int)) {d : List Nat} {e : List (List Byte)} (hz : 0 ∉ d) (hn : d.prod ≤ e.length) :
    putData ds t region ⟨d, e.take d.prod⟩ = putData ds t region ⟨d, e⟩ := by
  rw [putData_eq, putData_eq]
  by_cases h1 : tooShort ds.dims.length region = true
  · rw [if_pos h1, if_pos h1]
  · rw [if_neg h1, if_neg h1]
    by_cases h2 : fits (effective (d.map Int.ofNat)) (effective (readDims ds.dims region)) = false
    · rw [if_pos h2, if_pos h2]
    · rw [if_neg h2, if_neg h2]
      have hl : ds.dims.length = (readDims ds.dims region).length := by
        cases region with
        | none => simp [readDims]
        | some p =>
          obtain ⟨s, c⟩ := p
          have : ¬ (s.length < ds.dims.length ∨ c.length < ds.dims.length) := by simpa [tooShort] using h1
          simp [readDims]; omega
      rw [h5dwrite_take hn]
      intro m hm
      rw [hl] at hm
      exact memSelW_lt hz (by simpa using h2) hm

end Verif.Hdf5
