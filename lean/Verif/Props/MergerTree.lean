import Verif.Proofs.MergerTree

/-! C19, C20: matching of halos -/

namespace Verif

variable {α : Type*}

/-- C19. For every halo of the first snapshot `match_halos` returns the halo of the second one that contains most of its particles (the lowest numbered one
in case of ties, -1 if there is none), distributed over the ranks as requested. Particles are identified by an ID which is unique in the second snapshot;
group numbers in the first one are below the total number of halos, negative ones mean "in no group". -/
theorem C19_match_halos [LinearOrder α] [Inhabited α] (fuel P : Nat) (grnr1 : Nat → List Int) (ids1 : Nat → List α)
    (grnr2 : Nat → List Int) (ids2 : Nat → List α) (local_nr_halos : Nat → Nat) (hP : 0 < P)
    (hfuel1 : (gcat P ids1).length ≤ fuel) (hfuel2 : (gcat P ids2).length ≤ fuel)
    (hl1 : ∀ p < P, (grnr1 p).length = (ids1 p).length) (hl2 : ∀ p < P, (grnr2 p).length = (ids2 p).length)
    (hnd : (gcat P ids2).Nodup) (hg1 : ∀ g ∈ gcat P grnr1, g < (pre local_nr_halos P : Nat)) :
    ∃ out, matchHalos fuel P grnr1 ids1 grnr2 ids2 local_nr_halos = .ok out ∧
      (∀ p < P, (out p).length = local_nr_halos p) ∧
      ∀ h < pre local_nr_halos P, ∃ g, (gcat P out)[h]? = some g ∧
        BestMatch (sharedParticles (gcat P ids1) (gcat P grnr1) (gcat P ids2) (gcat P grnr2) h) g :=
  matchHalos_ok hP hfuel1 hfuel2 hl1 hl2 hnd hg1

/-- The description of the result leaves no choice. -/
theorem C19_best_match_unique (share : Int → Nat) {g g' : Int} (h : BestMatch share g) (h' : BestMatch share g') : g = g' := by
  rcases h with ⟨h1, h2⟩ | ⟨h1, h2, h3⟩ <;> rcases h' with ⟨h1', h2'⟩ | ⟨h1', h2', h3'⟩
  · omega
  · have := h2 g' h1'; omega
  · have := h2' g h1; omega
  · rcases h3 g' h1' with h4 | h4 <;> rcases h3' g h1 with h5 | h5 <;> omega

/-- Two ranks, four halos in the first snapshot: halo 0 has two particles each in halos 3 and 1 of the second one, halo 1 has one in halo 2 and one not in a halo,
halo 2 lost its only particle, halo 3 has no particles at all. Particles 20 and 21 are in no halo at first. -/
def mhIds1 : Nat → List Nat := fun p => [[10, 11, 12, 20], [13, 14, 15, 16, 21]].getD p []
def mhGrnr1 : Nat → List Int := fun p => [[0, 0, 0, -1], [0, 1, 1, 2, -1]].getD p []
def mhIds2 : Nat → List Nat := fun p => [[15, 13, 20, 11], [10, 12, 14, 30, 21]].getD p []
def mhGrnr2 : Nat → List Int := fun p => [[-1, 1, 1, 3], [3, 1, 2, 0, 1]].getD p []

example : (gcat 2 mhIds2).Nodup ∧ (∀ g ∈ gcat 2 mhGrnr1, g < (pre (fun p => [1, 3].getD p 0) 2 : Nat)) := by decide +kernel

example : (match matchHalos 20 2 mhGrnr1 mhIds1 mhGrnr2 mhIds2 (fun p => [1, 3].getD p 0) with
    | .ok out => (List.range 2).map out | .error _ => []) = [[1], [2, -1, -1]] := by decide +kernel

/-- C20. `consistent_match` returns 1 for halo `h` (global number) if its match `m` is not negative and the match of halo `m` is `h`, 0 otherwise, distributed
like the input. -/
theorem C20_consistent_match (P : Nat) (m12 m21 : Nat → List Int)
    (hin : ∀ p < P, ∀ m ∈ m12 p, m < (gcat P m21).length) :
    ∃ out, consistentMatch P m12 m21 = .ok out ∧ (∀ p < P, (out p).length = (m12 p).length) ∧
      ∀ (h : Nat) (m : Int), (gcat P m12)[h]? = some m →
        (gcat P out)[h]? = some (if 0 ≤ m ∧ (gcat P m21)[m.toNat]? = some (h : Int) then 1 else 0) := by
  obtain ⟨out, h1, h2⟩ := consistentMatch_ok hin
  have hl : ∀ p < P, (out p).length = (m12 p).length := fun p hp => by rw [h2 p hp, List.length_mapIdx]
  refine ⟨out, h1, hl, ?_⟩
  intro h m hm
  have hlt := (List.getElem?_eq_some_iff.1 hm).1
  rw [length_gcat] at hlt
  obtain ⟨p, hp, hlo, hhi⟩ := exists_block hlt
  obtain ⟨i, rfl⟩ : ∃ i, h = pre (sizes m12) p + i := ⟨h - pre (sizes m12) p, by omega⟩
  have hi : i < (m12 p).length := by
    have : sizes m12 p = (m12 p).length := rfl
    omega
  rw [getElem?_gcat hp hi] at hm
  have hpre : pre (sizes m12) p = pre (sizes out) p := pre_congr (fun q hq => (hl q (by omega)).symm)
  have hi' : i < (out p).length := by rw [hl p hp]; exact hi
  have e1 := getElem?_gcat (a := out) hp hi'
  rw [← hpre] at e1
  rw [e1, h2 p hp, List.getElem?_mapIdx, hm]
  rfl

/-- C20. A match beyond the end of the second catalogue is an error. -/
theorem C20_consistent_match_invalid (P : Nat) (m12 m21 : Nat → List Int)
    (h : ∃ p < P, ∃ m ∈ m12 p, ((gcat P m21).length : Int) ≤ m) : consistentMatch P m12 m21 = .error .indexError := by
  obtain ⟨p, hp, m, hm, hle⟩ := h
  unfold consistentMatch
  rw [fetchElements_too_large (me := p) (x := m) _ hp _ (by rw [← length_gcat]; exact hle)]
  · intro q _ i hi
    simpa using (List.mem_filter.1 hi).2
  · rw [List.mem_filter]
    exact ⟨hm, by simp; omega⟩

/-- Halos 0 and 2 are mutual matches, halo 1 points at a halo that points elsewhere, halo 3 has none. -/
example : (match consistentMatch 2 (fun p => [[1, 2], [0, -1]].getD p []) (fun p => [[2], [0, 3]].getD p []) with
    | .ok out => (List.range 2).map out | .error _ => []) = [[1, 0], [1, 0]] := by decide +kernel

example : ∀ p < 2, ∀ m ∈ (fun p => [[1, 2], [0, -1]].getD p [] : Nat → List Int) p,
    m < (gcat 2 (fun p => [[2], [0, 3]].getD p [] : Nat → List Int)).length := by decide +kernel

end Verif
