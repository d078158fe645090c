import Verif.Model.MatchNan
import Verif.Proofs.ParallelMatch
import Verif.Props.SortNan

namespace Verif.MatchNan

set_option linter.unusedSectionVars false

open SortNan (neNan)

section
variable {α : Type*} [LinearOrder α] [Inhabited α] {P : Nat}

/-- The exchange of elements gives what `look` finds, for each element on the task where it belongs. -/
theorem exchange_ok {arr1 A : Nat → List α} {look : Nat → α → Int} {g : α → Int} (hAsort : Sorted (gcat P A)) (hg1 : ∀ v, v ∉ gcat P A → g v = -1)
    (hg2 : ∀ d < P, 0 < (A d).length → ∀ v, v ≤ Verif.amax (A d) → (∀ u < d, ∀ x ∈ A u, x < v) → Verif.amin (A ((psMembers P A).getD 0 0)) ≤ v → look d v = g v) :
    ∃ out, exchange P arr1 (psMembers P A) (fun t => Verif.amin (A t)) (fun t => Verif.amax (A t)) look = .ok out ∧ ∀ p < P, out p = (arr1 p).map g := by
  unfold exchange
  simp only
  set M := psMembers P A with hM
  set ls := fun p => fancy (arr1 p) (argsort (arr1 p)) with hls
  have hlss : ∀ p, Sorted (ls p) := fun p => fancy_argsort_sorted _
  have hlslen : ∀ p, (ls p).length = (arr1 p).length := by intro p; simp [hls]
  have hDC : ∀ p k, k < M.length → pmD P A (ls p) k + pmC P A (ls p) k = pmD P A (ls p) (k + 1) := by
    intro p k hk
    have := pmD_mono hAsort (hlss p) hk
    rw [pmC_eq]; omega
  rw [if_neg]
  swap
  · rw [Bool.not_eq_true, Bool.not_eq_false', List.all_eq_true]
    intro p _
    rw [Bool.and_eq_true, List.all_eq_true]
    constructor
    · have := pmC_pre hAsort (hlss p) M.length (Nat.le_refl _)
      have := pmD_le (P := P) (A := A) (hlss p) M.length
      exact decide_eq_true (by show pre (pmC P A (ls p)) M.length ≤ (ls p).length; omega)
    · intro k hk
      have h3 := hDC p k (List.mem_range.1 hk)
      have := pmD_le (P := P) (A := A) (hlss p) (k + 1)
      exact decide_eq_true (by show pmD P A (ls p) k + pmC P A (ls p) k ≤ (ls p).length; omega)
  -- expanded offsets and counts
  set sd : Nat → Nat → Nat := fun p t => if t ∈ M then pmD P A (ls p) (M.idxOf t) else 0 with hsd
  set sc : Nat → Nat → Nat := fun p t => if t ∈ M then pmC P A (ls p) (M.idxOf t) else 0 with hsc
  have hwin : ∀ p t, t < P → sd p t + sc p t ≤ (ls p).length := by
    intro p t ht
    simp only [hsd, hsc]
    split
    · rename_i hl
      rw [hDC p _ (psMembers_idxOf ht (mem_psMembers.1 hl).2).1]
      exact pmD_le (hlss p) _
    · omega
  have hrecv : ∀ d < P, a2av P ls sc sd d = gcat P (fun s => slice (ls s) (sd s d) (sc s d)) :=
    fun d hd => a2av_eq (fun s _ => hwin s d hd)
  rw [if_neg]
  swap
  · rw [Bool.not_eq_true, Bool.not_eq_false', List.all_eq_true]
    intro d hd
    have hd := List.mem_range.1 hd
    rw [Bool.or_eq_true]
    by_cases hl : d ∈ M
    · right
      exact decide_eq_true hl
    · left
      have : a2av P ls sc sd d = [] := by
        rw [hrecv d hd]
        apply List.eq_nil_of_length_eq_zero
        rw [length_gcat, pre_congr (g := fun _ => 0), pre_const_zero]
        intro s _
        simp only [sizes, hsc, if_neg hl, slice_zero, List.length_nil]
      show (a2av P ls sc sd d).isEmpty = true
      rw [this]; rfl
  refine ⟨_, rfl, ?_⟩
  intro p hp
  -- the blocks returned to this rank
  have hblock : ∀ d < P, slice ((a2av P ls sc sd d).map (look d)) (pre (alltoall sc d) p)
      (alltoall sc d p) = (slice (ls p) (sd p d) (sc p d)).map (look d) := by
    intro d hd
    rw [hrecv d hd, ← slice_map]
    congr 1
    have := slice_gcat (a := fun s => slice (ls s) (sd s d) (sc s d)) hp
    rw [length_slice_of_le (hwin p d hd)] at this
    have hp2 : pre (alltoall sc d) p = pre (sizes (fun s => slice (ls s) (sd s d) (sc s d))) p :=
      pre_congr (fun s _ => (length_slice_of_le (hwin s d hd)).symm)
    rw [hp2]
    exact this
  have hblocklen : ∀ d < P, (slice ((a2av P ls sc sd d).map (look d)) (pre (alltoall sc d) p)
      (alltoall sc d p)).length = sc p d := by
    intro d hd
    rw [hblock d hd, List.length_map, length_slice_of_le (hwin p d hd)]
  set out := a2avInto P (fun d => (a2av P ls sc sd d).map (look d)) (alltoall sc)
    (fun d => pre (alltoall sc d)) (fun p => List.replicate (arr1 p).length (-1 : Int)) sd p with hout
  have hfit : ∀ s < P, sd p s + (slice ((a2av P ls sc sd s).map (look s))
      (pre (alltoall sc s) p) (alltoall sc s p)).length ≤ (List.replicate (arr1 p).length (-1 : Int)).length := by
    intro s hs
    rw [hblocklen s hs, List.length_replicate, ← hlslen]
    exact hwin p s hs
  have hlen : out.length = (arr1 p).length := by
    rw [hout, length_a2avInto (recv := fun p => List.replicate (arr1 p).length (-1 : Int)) hfit]
    simp
  have hval : out = (ls p).map (g) := by
    apply List.ext_getElem?
    intro i
    by_cases hi : i < (ls p).length
    swap
    · rw [List.getElem?_eq_none (by rw [hlen, ← hlslen]; omega), List.getElem?_eq_none (by rw [List.length_map]; omega)]
    have hv : (ls p)[i]? = some (ls p)[i] := List.getElem?_eq_getElem hi
    rw [List.getElem?_map, hv, Option.map_some]
    generalize hvv : (ls p)[i] = v at *
    rcases pm_window hAsort (hlss p) hv with ⟨hnot, hno⟩ | ⟨k, hk, hkin, hkun, hmax, hlow⟩
    · rw [hout, a2avInto_outside (recv := fun p => List.replicate (arr1 p).length (-1 : Int)) hfit]
      · rw [hlslen] at hi
        simp only [List.getElem?_replicate, if_pos hi]
        rw [hg1 v hnot]
      · intro s hsP hc
        rw [hblocklen s hsP] at hc
        simp only [hsd, hsc] at hc
        split at hc
        · rename_i hl
          obtain ⟨hi1, _⟩ := psMembers_idxOf hsP (mem_psMembers.1 hl).2
          rw [hDC p _ hi1] at hc
          exact hno _ hi1 hc
        · omega
    · have hmk := member_getD (P := P) (A := A) hk
      have hidx := member_idxOf (P := P) (A := A) hk
      have hsdk : sd p (M.getD k 0) = pmD P A (ls p) k := by
        simp only [hsd]; rw [if_pos (mem_psMembers.2 hmk), hidx]
      have hsck : sc p (M.getD k 0) = pmC P A (ls p) k := by
        simp only [hsc]; rw [if_pos (mem_psMembers.2 hmk), hidx]
      rw [hout, a2avInto_inside (recv := fun p => List.replicate (arr1 p).length (-1 : Int)) hfit hmk.1]
      · rw [hblock _ hmk.1, List.getElem?_map, getElem?_slice, hsdk, hsck]
        have h3 := hDC p k hk
        rw [if_pos (by omega), show pmD P A (ls p) k + (i - pmD P A (ls p) k) = i by omega, hv, Option.map_some]
        rw [hg2 _ hmk.1 hmk.2 v hmax hlow (by
          have h4 : pmD P A (ls p) 0 ≤ i := by
            have h5 := pmC_pre hAsort (hlss p) k (by omega)
            omega
          by_contra hc
          have h6 := (lt_iff_lt_ssLeft (hlss p) hv).1 (not_le.1 hc)
          unfold pmD pmDispl at h4
          rw [if_pos rfl] at h4
          exact absurd h4 (Nat.not_le.2 h6))]
      · rw [hblocklen _ hmk.1, hsdk, hsck, hDC p k hk]; exact hkin
      · intro s hsP hne hc
        rw [hblocklen s hsP] at hc
        simp only [hsd, hsc] at hc
        split at hc
        · rename_i hl
          obtain ⟨hi1, hi2⟩ := psMembers_idxOf hsP (mem_psMembers.1 hl).2
          rw [hDC p _ hi1] at hc
          refine hkun _ hi1 (fun he => hne ?_) hc
          rw [← hi2, he]
        · omega
  show scatter (emptyArray out.length) (argsort (arr1 p)) out = _
  have := scatter_fancy_map (out := emptyArray out.length) (l := arr1 p) (g) (argsort_perm (arr1 p))
    (by simp [emptyArray, hlen])
  rw [← this]
  congr 1

end

variable {α : Type*} [LinearOrder α] [Inhabited α] [OrderTop α] {P : Nat}

theorem lookup_top (arr2 : List α) (index_in : List Nat) : lookup arr2 index_in ⊤ = -1 := by
  unfold lookup neNan
  simp only
  rw [if_pos]
  by_cases h : arr2.getD (if ssLeft arr2 ⊤ ≥ arr2.length then 0 else ssLeft arr2 ⊤) default = ⊤
  · simp [h]
  · simp [h]

theorem neNan_eq {x v : α} (hv : v ≠ ⊤) : neNan x v = decide (x ≠ v) := by
  unfold neNan
  by_cases h : x = ⊤
  · subst h; simp [hv.symm]
  · simp [h]

theorem lookup_eq (arr2 : List α) (index_in : List Nat) {v : α} (hv : v ≠ ⊤) : lookup arr2 index_in v = pmLookup arr2 index_in v := by
  unfold lookup pmLookup
  simp only [neNan_eq hv, decide_eq_true_eq]

theorem matchLookup_top (tmp2 : List α) (ind : List Nat) : matchLookup tmp2 ind ⊤ = -1 := lookup_top tmp2 ind

theorem matchLookup_eq (tmp2 : List α) (ind : List Nat) {v : α} (hv : v ≠ ⊤) : matchLookup tmp2 ind v = Verif.matchLookup tmp2 ind v := lookup_eq tmp2 ind hv

theorem sort_few {fuel : Nat} {arr : Nat → List α} (hfuel : (gcat P arr).length ≤ fuel) {L : Nat} (hL : L < P) (h0 : arr L ≠ []) (hlast : ∀ q, L < q → q < P → arr q = []) (h : (gcat P arr).count ⊤ ≤ (arr L).length) :
    SortNan.sort neNan (findSplittingPoints fuel) P arr = parallelSort fuel P arr := by
  have hM := SortNan.members_last hL h0 hlast
  have hg : gcat (psMembers P arr).length (fun q => arr ((psMembers P arr).getD q 0)) = gcat P arr :=
    gcat_members P arr arr (fun p _ h => List.eq_nil_of_length_eq_zero h)
  have hQ : 0 < (psMembers P arr).length := by rw [hM]; simp
  have hne : ∀ q < (psMembers P arr).length, 0 < (arr ((psMembers P arr).getD q 0)).length := fun q hq => (member_getD hq).2
  have hl : (psMembers P arr).getD ((psMembers P arr).length - 1) 0 = L := by rw [hM]; simp
  have := SortNan.sub_few (fuel := fuel) hQ hne (by rw [hg]; exact hfuel) (by rw [hg, hl]; exact h)
  unfold SortNan.sort parallelSort
  simp only
  rw [this]
  rfl

theorem amin_of_not {l : List α} (h : ⊤ ∉ l) : amin l = Verif.amin l := by unfold amin; rw [if_neg h]

/-- Only the smallest element of the first task matters. -/
theorem exchange_congr {arr1 : Nat → List α} {have2 : List Nat} {mn mn' mx mx' : Nat → α} {look : Nat → α → Int} (h0 : have2 ≠ [] → mn (have2.getD 0 0) = mn' (have2.getD 0 0))
    (hx : ∀ t ∈ have2, mx t = mx' t) : exchange P arr1 have2 mn mx look = exchange P arr1 have2 mn' mx' look := by
  by_cases hn : have2 = []
  · subst hn
    unfold exchange
    simp
  have hd : ∀ ls k, k < have2.length → pmDispl have2 mn mx ls k = pmDispl have2 mn' mx' ls k := by
    intro ls k hk
    unfold pmDispl
    split
    · rw [h0 hn]
    · rw [hx]
      rw [List.getD_eq_getElem?_getD, List.getElem?_eq_getElem (show k - 1 < have2.length by omega)]
      exact List.getElem_mem _
  have hc : ∀ ls k, k < have2.length → pmCount have2 mn mx ls k = pmCount have2 mn' mx' ls k := by
    intro ls k hk
    unfold pmCount
    rw [hd ls k hk, hx]
    rw [List.getD_eq_getElem?_getD, List.getElem?_eq_getElem hk]
    exact List.getElem_mem _
  have hsd : (fun p t => if t ∈ have2 then pmDispl have2 mn mx (fancy (arr1 p) (argsort (arr1 p))) (have2.idxOf t) else 0) =
      (fun p t => if t ∈ have2 then pmDispl have2 mn' mx' (fancy (arr1 p) (argsort (arr1 p))) (have2.idxOf t) else 0) := by
    funext p t
    split
    · rw [hd _ _ (List.idxOf_lt_length_of_mem ‹_›)]
    · rfl
  have hsc : (fun p t => if t ∈ have2 then pmCount have2 mn mx (fancy (arr1 p) (argsort (arr1 p))) (have2.idxOf t) else 0) =
      (fun p t => if t ∈ have2 then pmCount have2 mn' mx' (fancy (arr1 p) (argsort (arr1 p))) (have2.idxOf t) else 0) := by
    funext p t
    split
    · rw [hc _ _ (List.idxOf_lt_length_of_mem ‹_›)]
    · rfl
  have hcheck : ((List.range P).all (fun p =>
      decide (pre (pmCount have2 mn mx (fancy (arr1 p) (argsort (arr1 p)))) have2.length ≤ (fancy (arr1 p) (argsort (arr1 p))).length) &&
      (List.range have2.length).all (fun k => decide (pmDispl have2 mn mx (fancy (arr1 p) (argsort (arr1 p))) k + pmCount have2 mn mx (fancy (arr1 p) (argsort (arr1 p))) k ≤ (fancy (arr1 p) (argsort (arr1 p))).length)))) =
      ((List.range P).all (fun p =>
      decide (pre (pmCount have2 mn' mx' (fancy (arr1 p) (argsort (arr1 p)))) have2.length ≤ (fancy (arr1 p) (argsort (arr1 p))).length) &&
      (List.range have2.length).all (fun k => decide (pmDispl have2 mn' mx' (fancy (arr1 p) (argsort (arr1 p))) k + pmCount have2 mn' mx' (fancy (arr1 p) (argsort (arr1 p))) k ≤ (fancy (arr1 p) (argsort (arr1 p))).length)))) := by
    congr 1
    funext p
    rw [pre_congr (fun k hk => hc _ k hk)]
    congr 1
    rw [Bool.eq_iff_iff, List.all_eq_true, List.all_eq_true]
    refine forall_congr' (fun k => ?_)
    refine imp_congr_right (fun hk => ?_)
    rw [hd _ k (List.mem_range.1 hk), hc _ k (List.mem_range.1 hk)]
  unfold exchange
  simp only
  rw [hcheck, hsd, hsc]

end Verif.MatchNan
