import Verif.Proofs.FetchElements
import Verif.Spec.FetchElements
import Verif.Lib.Overlay

set_option linter.unusedSectionVars false

namespace Verif

variable {α : Type*}

theorem negatives_eq {l : List Int} (hl : Sorted l) : negatives l = ssLeft l (0 : Int) := by
  unfold negatives
  rw [ssLeft_eq hl, List.countP_eq_length_filter]

/-- Displacement of the block for `p`: where its indexes are, less the number of negative ones. -/
theorem pre_fetchSendCount_neg {P : Nat} {n : Nat → Nat} {l : List Int} (hl : Sorted l) {p : Nat} (hp : p < P) :
    pre (fun p => fetchSendCount P (pre n) l p) p = ssLeft l (pre n p : Int) - negatives l := by
  rw [negatives_eq hl]
  induction p with
  | zero => simp
  | succ p ih =>
    have hm : ssLeft l (pre n p : Int) ≤ ssLeft l (pre n (p + 1) : Int) :=
      ssLeft_mono hl (by exact_mod_cast pre_mono n (by omega))
    have h0 : ssLeft l (0 : Int) ≤ ssLeft l (pre n p : Int) := ssLeft_mono hl (by omega)
    rw [pre_succ, ih (by omega)]
    unfold fetchSendCount
    simp only
    rw [if_pos (by omega)]
    omega

theorem pre_fetchSendCount_total {P : Nat} {n : Nat → Nat} {l : List Int} (hl : Sorted l) (hP : 0 < P) :
    pre (fun p => fetchSendCount P (pre n) l p) P = l.length - negatives l := by
  obtain ⟨Q, rfl⟩ : ∃ Q, P = Q + 1 := ⟨P - 1, by omega⟩
  rw [pre_succ, pre_fetchSendCount_neg hl (by omega)]
  have h0 : negatives l ≤ ssLeft l (pre n Q : Int) := by
    rw [negatives_eq hl]; exact ssLeft_mono hl (by omega)
  have := ssLeft_le_length hl (pre n Q : Int)
  unfold fetchSendCount
  simp only
  rw [if_neg (by omega)]
  omega

/-- Slot `k` lies in the block for `d` exactly if `d` is asked for the index `negatives l` places further on. -/
theorem slot_block_iff {P : Nat} {n : Nat → Nat} {l : List Int} (hl : Sorted l) {k d : Nat} {y : Int} (hd : d < P)
    (hy : l[k + negatives l]? = some y) :
    (pre (fun p => fetchSendCount P (pre n) l p) d ≤ k ∧
      k < pre (fun p => fetchSendCount P (pre n) l p) d + fetchSendCount P (pre n) l d) ↔ AskedFor P n y d := by
  have hlen := (List.getElem?_eq_some_iff.1 hy).1
  have h1 := lt_iff_lt_ssLeft hl (v := (pre n d : Int)) hy
  have h0 : negatives l ≤ ssLeft l (pre n d : Int) := by
    rw [negatives_eq hl]; exact ssLeft_mono hl (by omega)
  rw [← pre_succ, pre_fetchSendCount_neg hl hd]
  unfold AskedFor
  by_cases hp : d + 1 < P
  · have h2 := lt_iff_lt_ssLeft hl (v := (pre n (d + 1) : Int)) hy
    rw [pre_fetchSendCount_neg hl hp]
    constructor
    · rintro ⟨ha, hb⟩
      refine ⟨hd, ?_, fun _ => h2.2 (by omega)⟩
      by_contra hc
      have := h1.1 (by omega); omega
    · rintro ⟨-, ha, hb⟩
      have hb := h2.1 (hb hp)
      refine ⟨?_, by omega⟩
      by_contra hc
      have := h1.2 (by omega); omega
  · have hP : d + 1 = P := by omega
    rw [hP, pre_fetchSendCount_total hl (by omega)]
    constructor
    · rintro ⟨ha, hb⟩
      refine ⟨hd, ?_, fun h => absurd h (by omega)⟩
      by_contra hc
      have := h1.1 (by omega); omega
    · rintro ⟨-, ha, -⟩
      refine ⟨?_, by omega⟩
      by_contra hc
      have := h1.2 (by omega); omega

theorem mapM_isSome {β : Type*} {f : α → Option β} {l : List α} :
    (l.mapM f).isSome = true ↔ ∀ x ∈ l, (f x).isSome = true := by
  constructor
  · intro h x hx
    by_contra hc
    rw [mapM_none hx (by simpa using hc)] at h
    simp at h
  · intro h
    by_cases hl : l = []
    · subst hl; rfl
    · have ⟨x, hx⟩ : ∃ x, x ∈ l := List.exists_mem_of_ne_nil l hl
      have : Inhabited β := ⟨(f x).get (h x hx)⟩
      rw [mapM_some (g := fun x => (f x).getD default)]
      · rfl
      · intro x hx
        obtain ⟨v, hv⟩ := Option.isSome_iff_exists.1 (h x hx)
        rw [hv]; rfl

section

variable [Inhabited α] (P : Nat) (arr : Nat → List α) (index : Nat → List Int)

/-- Sorted request of a rank. -/
private def fS (me : Nat) : List Int := fancy (index me) (argsort (index me))

private def fsc (me p : Nat) : Nat := fetchSendCount P (pre (sizes arr)) (fS index me) p

/-- Indexes looked up by `d` for `me`. -/
private def fB (me d : Nat) : List Int :=
  slice (fS index me) (pre (fun p => fetchSendCount P (pre (sizes arr)) (fS index me) p) d) (fsc P arr index me d)

/-- Buffer for the values that come back. -/
private def fbuf (result : Option (Nat → List α)) : Nat → List α :=
  match result with
  | none => fun me => emptyArray (index me).length
  | some r => r

private theorem fS_sorted (me : Nat) : Sorted (fS index me) := fancy_argsort_sorted _

private theorem fB_fits (me : Nat) {d : Nat} (hd : d < P) :
    pre (fun p => fetchSendCount P (pre (sizes arr)) (fS index me) p) d + fsc P arr index me d ≤ (fS index me).length := by
  have h1 : pre (fun p => fetchSendCount P (pre (sizes arr)) (fS index me) p) (d + 1)
      ≤ pre (fun p => fetchSendCount P (pre (sizes arr)) (fS index me) p) P := pre_mono _ hd
  rw [pre_fetchSendCount_total (fS_sorted index me) (by omega), pre_succ] at h1
  unfold fsc
  omega

private theorem fB_length (me : Nat) {d : Nat} (hd : d < P) : (fB P arr index me d).length = fsc P arr index me d :=
  length_slice_of_le (fB_fits P arr index me hd)

private theorem find_eq {d : Nat} (hd : d < P) :
    a2av P (fS index) (fsc P arr index) (fun me => pre (fsc P arr index me)) d
      = gcat P (fun me => fB P arr index me d) := by
  rw [a2av_eq]
  · rfl
  · intro me hme
    exact fB_fits P arr index me hd

/-- Membership in a block is an answered slot. -/
private theorem mem_fB {me d : Nat} (hd : d < P) {x : Int} :
    x ∈ fB P arr index me d ↔ ∃ k y, (fS index me)[k]? = some x ∧
      (fS index me)[k + negatives (fS index me)]? = some y ∧ AskedFor P (sizes arr) y d := by
  have hl := fS_sorted index me
  have htot := pre_fetchSendCount_total (P := P) (n := sizes arr) hl (by omega)
  constructor
  · intro hx
    obtain ⟨i, hi⟩ := List.mem_iff_getElem?.1 hx
    unfold fB at hi
    rw [getElem?_slice] at hi
    split at hi
    · rename_i hlt
      have hle : pre (fun p => fetchSendCount P (pre (sizes arr)) (fS index me) p) d + fsc P arr index me d
          ≤ (fS index me).length - negatives (fS index me) := by
        rw [← htot]; exact pre_lt_total hd
      have hk : pre (fun p => fetchSendCount P (pre (sizes arr)) (fS index me) p) d + i + negatives (fS index me)
          < (fS index me).length := by omega
      refine ⟨_, _, hi, List.getElem?_eq_getElem hk, ?_⟩
      refine (slot_block_iff hl hd (List.getElem?_eq_getElem hk)).1 ⟨by omega, ?_⟩
      unfold fsc at hlt
      omega
    · simp at hi
  · rintro ⟨k, y, hx, hy, ha⟩
    obtain ⟨h1, h2⟩ := (slot_block_iff hl hd hy).2 ha
    apply List.mem_iff_getElem?.2
    refine ⟨k - pre (fun p => fetchSendCount P (pre (sizes arr)) (fS index me) p) d, ?_⟩
    unfold fB
    rw [getElem?_slice, if_pos (by unfold fsc; omega), ← hx]
    congr 1; omega

private theorem fetchElements_unfold (result : Option (Nat → List α)) :
    fetchElements P arr index result =
      if (List.range P).all (fun d => (fancy? (arr d)
          ((a2av P (fS index) (fsc P arr index) (fun me => pre (fsc P arr index me)) d).map
            (fun i => i - (pre (sizes arr) d : Int)))).isSome)
      then .ok (fun me =>
        let back := a2avInto P (fun d => (fancy? (arr d)
            ((a2av P (fS index) (fsc P arr index) (fun me => pre (fsc P arr index me)) d).map
              (fun i => i - (pre (sizes arr) d : Int)))).getD [])
          (alltoall (fsc P arr index)) (fun d => pre (alltoall (fsc P arr index) d))
          (fbuf index result) (fun me => pre (fsc P arr index me)) me
        scatter back (argsort (index me)) back)
      else .error .indexError := rfl

/-- All lookups succeed. -/
private theorem all_found_iff :
    ((List.range P).all (fun d => (fancy? (arr d)
          ((a2av P (fS index) (fsc P arr index) (fun me => pre (fsc P arr index me)) d).map
            (fun i => i - (pre (sizes arr) d : Int)))).isSome) = true) ↔
      ∀ me < P, ∀ k v, SlotAnswer P arr (fS index me) k v → v.isSome = true := by
  rw [List.all_eq_true]
  constructor
  · rintro h me hme k v ⟨x, y, d, hx, hy, ha, rfl⟩
    have hd := ha.1
    have := h d (List.mem_range.2 hd)
    rw [find_eq P arr index hd] at this
    unfold fancy? at this
    rw [List.mapM_map, mapM_isSome] at this
    exact this x (mem_gcat.2 ⟨me, hme, (mem_fB P arr index hd).2 ⟨k, y, hx, hy, ha⟩⟩)
  · intro h d hd
    have hd := List.mem_range.1 hd
    rw [find_eq P arr index hd]
    unfold fancy?
    rw [List.mapM_map, mapM_isSome]
    intro x hx
    obtain ⟨me, hme, hx⟩ := mem_gcat.1 hx
    obtain ⟨k, y, hx, hy, ha⟩ := (mem_fB P arr index hd).1 hx
    exact h me hme k _ ⟨x, y, d, hx, hy, ha, rfl⟩

theorem fetchElements_error_iff (result : Option (Nat → List α)) :
    fetchElements P arr index result = .error .indexError ↔
      ∃ me < P, ∃ k, SlotAnswer P arr (fancy (index me) (argsort (index me))) k none := by
  rw [fetchElements_unfold]
  by_cases h : ((List.range P).all (fun d => (fancy? (arr d)
          ((a2av P (fS index) (fsc P arr index) (fun me => pre (fsc P arr index me)) d).map
            (fun i => i - (pre (sizes arr) d : Int)))).isSome) = true)
  · rw [if_pos h]
    constructor
    · nofun
    · rintro ⟨me, hme, k, hk⟩
      have := (all_found_iff P arr index).1 h me hme k none hk
      simp at this
  · rw [if_neg h]
    refine ⟨fun _ => ?_, fun _ => rfl⟩
    by_contra hc
    refine h ((all_found_iff P arr index).2 ?_)
    intro me hme k v hv
    by_contra hn
    have : v = none := by simpa using hn
    subst this
    exact hc ⟨me, hme, k, hv⟩

theorem fetchElements_not_error (result : Option (Nat → List α))
    (h : fetchElements P arr index result ≠ .error .indexError) : ∃ out, fetchElements P arr index result = .ok out := by
  rw [fetchElements_unfold] at h ⊢
  split at h
  · rename_i hh; rw [if_pos hh]; exact ⟨_, rfl⟩
  · exact absurd rfl h

theorem fetchElements_values (result : Option (Nat → List α))
    (hr : ∀ r, result = some r → ∀ me < P, (r me).length = (index me).length)
    {out : Nat → List α} (hok : fetchElements P arr index result = .ok out) {me : Nat} (hme : me < P) :
    (out me).length = (index me).length ∧
    ∀ k j, (argsort (index me))[k]? = some j →
      (∀ v, SlotAnswer P arr (fancy (index me) (argsort (index me))) k v → (out me)[j]? = v) ∧
      ((index me).length ≤ k + negatives (index me) → ∀ r, result = some r → (out me)[j]? = (r me)[k]?) := by
  rw [fetchElements_unfold] at hok
  split at hok
  case isFalse => cases hok
  rename_i hall
  have hfound := (all_found_iff P arr index).1 hall
  have hok' := Except.ok.inj hok
  -- lookup in `d`
  let g : Nat → Int → α := fun d x => (pyGet? (arr d) (x - (pre (sizes arr) d : Int))).getD default
  have hvals : ∀ d < P, (fancy? (arr d)
      ((a2av P (fS index) (fsc P arr index) (fun me => pre (fsc P arr index me)) d).map
        (fun i => i - (pre (sizes arr) d : Int)))).getD [] = gcat P (fun me => (fB P arr index me d).map (g d)) := by
    intro d hd
    rw [find_eq P arr index hd]
    unfold fancy?
    rw [List.mapM_map, mapM_some (g := g d)]
    · rw [Option.getD_some, map_gcat]
    · intro x hx
      obtain ⟨me, hme, hx⟩ := mem_gcat.1 hx
      obtain ⟨k, y, hx, hy, ha⟩ := (mem_fB P arr index hd).1 hx
      obtain ⟨v, hv⟩ := Option.isSome_iff_exists.1 (hfound me hme k _ ⟨x, y, d, hx, hy, ha, rfl⟩)
      show pyGet? (arr d) (x - (pre (sizes arr) d : Int)) = some (g d x)
      simp only [g, hv, Option.getD_some]
  have hslice : ∀ d < P, slice ((fancy? (arr d)
      ((a2av P (fS index) (fsc P arr index) (fun me => pre (fsc P arr index me)) d).map
        (fun i => i - (pre (sizes arr) d : Int)))).getD []) (pre (alltoall (fsc P arr index) d) me)
        (alltoall (fsc P arr index) d me) = (fB P arr index me d).map (g d) := by
    intro d hd
    rw [hvals d hd]
    have hsz : ∀ q < P, sizes (fun me => (fB P arr index me d).map (g d)) q = alltoall (fsc P arr index) d q := by
      intro q hq
      simp only [sizes, List.length_map]
      exact fB_length P arr index q hd
    have := slice_gcat (a := fun me => (fB P arr index me d).map (g d)) hme
    rw [pre_congr (fun i hi => hsz i (by omega))] at this
    have h2 := hsz me hme
    simp only [sizes] at h2
    rw [h2] at this
    exact this
  have hl := fS_sorted index me
  have hSl : (fS index me).length = (index me).length := by simp [fS]
  have hneg : negatives (fS index me) = negatives (index me) := by
    unfold negatives fS
    exact ((fancy_argsort_perm (index me)).filter _).length_eq
  have htot := pre_fetchSendCount_total (P := P) (n := sizes arr) hl (by omega)
  have hbuf : (fbuf index result me).length = (fS index me).length := by
    rw [hSl]
    clear hok
    cases result with
    | none => simp [fbuf, emptyArray]
    | some r => exact hr r rfl me hme
  let x : Nat → List α := fun d => (fB P arr index me d).map (g d)
  have hxs : ∀ d < P, sizes x d = fsc P arr index me d := by
    intro d hd
    simp only [sizes, x, List.length_map]
    exact fB_length P arr index me hd
  have hxp : ∀ p ≤ P, pre (sizes x) p = pre (fun p => fetchSendCount P (pre (sizes arr)) (fS index me) p) p :=
    fun p hp => pre_congr (fun i hi => hxs i (by omega))
  have hback : a2avInto P (fun d => (fancy? (arr d)
            ((a2av P (fS index) (fsc P arr index) (fun me => pre (fsc P arr index me)) d).map
              (fun i => i - (pre (sizes arr) d : Int)))).getD [])
          (alltoall (fsc P arr index)) (fun d => pre (alltoall (fsc P arr index) d))
          (fbuf index result) (fun me => pre (fsc P arr index me)) me = gcat P x ++ (fbuf index result me).drop (pre (sizes x) P) := by
    rw [← foldl_overlay_consecutive P x (fbuf index result me) (by rw [hxp P (Nat.le_refl _), htot, hbuf]; omega)]
    unfold a2avInto
    apply List.foldl_ext
    intro b d hd
    have hd := List.mem_range.1 hd
    rw [hslice d hd, hxp d (by omega)]
    rfl
  have hout : out me = scatter (gcat P x ++ (fbuf index result me).drop (pre (sizes x) P)) (argsort (index me))
      (gcat P x ++ (fbuf index result me).drop (pre (sizes x) P)) := by
    rw [← hback, ← hok']
  have hlen : (gcat P x ++ (fbuf index result me).drop (pre (sizes x) P)).length = (index me).length := by
    rw [List.length_append, length_gcat, List.length_drop, hbuf, hxp P (Nat.le_refl _), htot, ← hSl]
    omega
  have hscl : (scatter (gcat P x ++ (fbuf index result me).drop (pre (sizes x) P)) (argsort (index me))
      (gcat P x ++ (fbuf index result me).drop (pre (sizes x) P))).length = (index me).length := by
    rw [length_scatter, hlen]
  refine ⟨by rw [hout, hscl], ?_⟩
  intro k j hk
  have hperm := argsort_perm (index me)
  have hj : j < (index me).length := List.mem_range.1 (hperm.mem_iff.1 (List.mem_iff_getElem?.2 ⟨k, hk⟩))
  have hget : (out me)[j]? = (gcat P x ++ (fbuf index result me).drop (pre (sizes x) P))[k]? := by
    rw [hout]
    exact getElem?_scatter (hperm.nodup_iff.2 List.nodup_range) (by rw [hlen, hperm.length_eq, List.length_range]) hk
      (by rw [hlen]; exact hj)
  have hgl : (gcat P x).length = (fS index me).length - negatives (fS index me) := by
    rw [length_gcat, hxp P (Nat.le_refl _), htot]
  constructor
  · rintro v ⟨xx, y, d, hx, hy, ha, rfl⟩
    have hd := ha.1
    obtain ⟨h1, h2⟩ := (slot_block_iff hl hd hy).2 ha
    obtain ⟨v, hv⟩ := Option.isSome_iff_exists.1 (hfound me hme k _ ⟨xx, y, d, hx, hy, ha, rfl⟩)
    have hlt : k + negatives (fS index me) < (fS index me).length := (List.getElem?_eq_some_iff.1 hy).1
    rw [hget, List.getElem?_append_left (by omega)]
    have hkd : k - pre (fun p => fetchSendCount P (pre (sizes arr)) (fS index me) p) d < (x d).length := by
      have := hxs d hd
      simp only [sizes] at this
      rw [this]; unfold fsc; omega
    have := getElem?_gcat (a := x) hd hkd
    rw [hxp d (by omega)] at this
    rw [show pre (fun p => fetchSendCount P (pre (sizes arr)) (fS index me) p) d
      + (k - pre (fun p => fetchSendCount P (pre (sizes arr)) (fS index me) p) d) = k from by omega] at this
    rw [this]
    have hfb : (fB P arr index me d)[k - pre (fun p => fetchSendCount P (pre (sizes arr)) (fS index me) p) d]?
        = some xx := by
      unfold fB
      rw [getElem?_slice, if_pos (by unfold fsc; omega), ← hx]
      show (fS index me)[_]? = (fS index me)[_]?
      congr 1; omega
    simp only [x, List.getElem?_map, hfb, Option.map_some, g, hv, Option.getD_some]
  · intro hge r hres
    have hge : (fS index me).length - negatives (fS index me) ≤ k := by rw [hSl, hneg]; omega
    rw [hget, List.getElem?_append_right (by omega), List.getElem?_drop, hxp P (Nat.le_refl _), htot, hgl]
    have hb : fbuf index result me = r me := by rw [hres]; rfl
    rw [hb]
    congr 1; omega

/-- Every slot that is not among the last `negatives` ones is answered. -/
theorem slotAnswer_exists {P : Nat} (hP : 0 < P) (arr : Nat → List α) {s : List Int} (hs : Sorted s) {k : Nat}
    (hk : k + negatives s < s.length) : ∃ v, SlotAnswer P arr s k v := by
  have hy := List.getElem?_eq_getElem hk
  have hlt : k < pre (fun p => fetchSendCount P (pre (sizes arr)) s p) P := by
    rw [pre_fetchSendCount_total hs hP]; omega
  obtain ⟨d, hd, h1, h2⟩ := exists_block hlt
  exact ⟨_, _, _, d, List.getElem?_eq_getElem (by omega), hy, (slot_block_iff hs hd hy).1 ⟨h1, h2⟩, rfl⟩

end

end Verif
