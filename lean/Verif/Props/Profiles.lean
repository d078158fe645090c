import Verif.Proofs.Profiles
import Mathlib.Analysis.Real.Sqrt
import Mathlib.Algebra.Order.Archimedean.Real.Basic

/-! C116: centres and curves of circular velocity. C117: profiles of density. C118: maximum of the circular velocity. -/

namespace Verif.Profiles

open PythonPrograms

set_option linter.unusedSectionVars false

variable {K : Type} [Field K] [LinearOrder K] [IsStrictOrderedRing K]

/-! ### Circular velocity -/

/-- C116: show_profile.pro finds the centre of the group with spheres of decreasing radius, and plots the circular velocity of particles around it. -/
theorem C116_show_profile [Archimedean K] {sqrt : K → K} (hs : IsSqrt sqrt) {order : List K → List Nat} (ho : SortsAny order) {pos : List (Row K)} (h0 : pos ≠ [])
    (hc : ∀ p, (pos.filter fun q => decide (q = p)).length < 15) :
    ∃ R c' n0, IsLargest (pos.map fun p => sqrt (dist2 p 0)) R ∧ Shrinks pos 15 0 R c' ∧
      ∀ fuel, n0 < fuel → ∃ points, showProfile sqrt order fuel pos = .ok points ∧ VelocityCurve sqrt (pos.map fun p => sqrt (dist2 p c')) points := by
  obtain ⟨R, c', n0, h1, h2, h3⟩ := shrink_ok hs (by omega) h0 hc
  refine ⟨R, c', n0, h1, h2, ?_⟩
  intro fuel hf
  unfold showProfile
  rw [h3 fuel hf]
  refine ⟨_, rfl, ?_⟩
  have e : radii sqrt (pos.map fun p => p - c') = pos.map fun p => sqrt (dist2 p c') := by
    unfold radii
    rw [List.map_map]
    apply List.map_congr_left
    intro p _
    show sqrt (square (p - c')) = _
    rw [square_sub]
  dsimp only
  rw [e]
  exact velocities_ok sqrt ho _

/-- Distances of the particles of a region, which are relative to its centre, if they are less than `rad` -/
def nearer (sqrt : K → K) (region : List (Row K)) (rad : K) : List K := (region.map fun p => sqrt (dist2 p 0)).filter fun r => decide (r < rad)

theorem radii_zero (sqrt : K → K) (region : List (Row K)) : radii sqrt region = region.map fun p => sqrt (dist2 p 0) := by
  unfold radii
  apply List.map_congr_left
  intro p _
  rw [← square_sub, sub_zero]

theorem within_eq (sqrt : K → K) (region : List (Row K)) (rad : K) : within sqrt region rad = if nearer sqrt region rad = [] then .error .indexError else .ok (nearer sqrt region rad) := by
  unfold within nearer
  rw [radii_zero]

/-- C116: plot_profile_vmax.pro finds the centre in the same way. It plots the circular velocity of all particles (also those which are not in the group) up to the radius of the group around this centre. -/
theorem C116_plot_vmax [Archimedean K] {sqrt : K → K} (hs : IsSqrt sqrt) {order : List K → List Nat} (ho : SortsAny order) {pos : List (Row K)} (h0 : pos ≠ [])
    (hc : ∀ p, (pos.filter fun q => decide (q = p)).length < 25) (region : Row K → K → List (Row K)) :
    ∃ R c' rad n0, IsLargest (pos.map fun p => sqrt (dist2 p 0)) R ∧ Shrinks pos 25 0 R c' ∧ IsLargest (pos.map fun p => sqrt (dist2 p c')) rad ∧
      ∀ fuel, n0 < fuel → (nearer sqrt (region c' rad) rad = [] → plotVmax sqrt order fuel pos region = .error .indexError) ∧
        (nearer sqrt (region c' rad) rad ≠ [] → ∃ points, plotVmax sqrt order fuel pos region = .ok (c', points) ∧ VelocityCurve sqrt (nearer sqrt (region c' rad) rad) points) := by
  obtain ⟨R, c', n0, h1, h2, h3⟩ := shrink_ok hs (by omega) h0 hc
  obtain ⟨rad, r1, r2⟩ := arrayMax_ok (l := pos.map fun p => sqrt (dist2 p c')) (by simpa using h0)
  refine ⟨R, c', rad, n0, h1, h2, r2, ?_⟩
  intro fuel hf
  have e : plotVmax sqrt order fuel pos region = (do
      let r ← within sqrt (region c' rad) rad
      .ok (c', velocities sqrt order r)) := by
    unfold plotVmax
    rw [h3 fuel hf]
    show (do
      let rad ← arrayMax (pos.map fun p => sqrt (dist2 p c'))
      let r ← within sqrt (region c' rad) rad
      .ok (c', velocities sqrt order r)) = _
    rw [r1]
    rfl
  rw [e, within_eq]
  constructor
  · intro h
    rw [if_pos h]
    rfl
  · intro h
    rw [if_neg h]
    exact ⟨_, rfl, velocities_ok sqrt ho _⟩

/-! ### Density -/

theorem dense_iff {pi rhocrit : K} (hpi : 0 < pi) (m : K) {r : K} (hr : 0 ≤ r) (hm : 0 ≤ m) : dense pi rhocrit m r = true ↔ 200 * rhocrit * (4 * pi / 3 * (r * r * r)) ≤ m := by
  unfold dense
  rw [Bool.or_eq_true, decide_eq_true_eq, decide_eq_true_eq]
  rcases eq_or_lt_of_le hr with h | h
  · subst h
    simp [hm]
  · rw [le_div_iff₀ (by positivity)]
    constructor
    · rintro (h1 | h1)
      · exact absurd h1.symm (ne_of_lt h)
      · rw [show r * r * r = r ^ 3 by ring]; exact h1
    · intro h1
      right
      rw [show r * r * r = r ^ 3 by ring] at h1
      exact h1

/-- The radius for sorted distances -/
theorem radius200_ok {pi rhocrit partMass : K} (hpi : 0 < pi) (hm : 0 ≤ partMass) {r : List K} (hr : ∀ x ∈ r, 0 ≤ x) (hs : r.Pairwise (· ≤ ·)) :
    (∃ x, radius200 pi rhocrit partMass r = .ok x ∧ IsR200 pi rhocrit partMass r x) ∨ (radius200 pi rhocrit partMass r = .error .indexError ∧ ∀ x ∈ r, ¬ Dense200 pi rhocrit partMass r x) := by
  obtain ⟨ind, hind⟩ : ∃ ind, ind = (List.range r.length).filter (fun i => dense pi rhocrit (partMass * ((i : Nat) + 1 : K)) (r.getD i 0)) := ⟨_, rfl⟩
  have hval : ∀ i, i < r.length → r[i]? = some (r.getD i 0) := by
    intro i hi
    rw [List.getD_eq_getElem?_getD, List.getElem?_eq_getElem hi]
    rfl
  -- an index which was found is dense
  have h1 : ∀ i ∈ ind, r.getD i 0 ∈ r ∧ Dense200 pi rhocrit partMass r (r.getD i 0) := by
    intro i hi
    rw [hind] at hi
    obtain ⟨hi1, hi2⟩ := List.mem_filter.1 hi
    have hi1 := List.mem_range.1 hi1
    have hmem := List.mem_of_getElem? (hval i hi1)
    refine ⟨hmem, ?_⟩
    rw [dense_iff hpi _ (hr _ hmem) (by positivity)] at hi2
    unfold Dense200
    refine le_trans hi2 (mul_le_mul_of_nonneg_left ?_ hm)
    exact_mod_cast (steps hs (hval i hi1)).2
  -- dense radii were found
  have h2 : ∀ x ∈ r, Dense200 pi rhocrit partMass r x → ∃ i ∈ ind, r.getD i 0 = x := by
    intro x hx hd
    obtain ⟨l1, l2⟩ := last_equal hs hx
    obtain ⟨hlt, -⟩ := List.getElem?_eq_some_iff.1 l2
    have hg : r.getD (upTo r x - 1) 0 = x := by rw [List.getD_eq_getElem?_getD, l2]; rfl
    refine ⟨upTo r x - 1, ?_, hg⟩
    rw [hind]
    refine List.mem_filter.2 ⟨List.mem_range.2 hlt, ?_⟩
    rw [hg, dense_iff hpi _ (hr x hx) (by positivity)]
    unfold Dense200 at hd
    have : ((upTo r x - 1 : Nat) : K) + 1 = (upTo r x : K) := by
      have : upTo r x - 1 + 1 = upTo r x := by omega
      exact_mod_cast congrArg (fun n : Nat => (n : K)) this
    rw [this]
    exact hd
  unfold radius200
  rw [← hind]
  cases ind with
  | nil =>
    right
    refine ⟨rfl, ?_⟩
    intro x hx hd
    obtain ⟨i, hi, -⟩ := h2 x hx hd
    cases hi
  | cons i l =>
    left
    obtain ⟨x, hx1, hx2⟩ := arrayMax_ok (l := (i :: l).map fun i => r.getD i 0) (by simp)
    obtain ⟨j, hj, rfl⟩ := List.mem_map.1 hx2.1
    refine ⟨_, hx1, (h1 j hj).1, (h1 j hj).2, ?_⟩
    intro y hy hd
    obtain ⟨k, hk, rfl⟩ := h2 y hy hd
    exact hx2.2 _ (List.mem_map_of_mem hk)

/-- The loop adds to each element of the array the number of particles in the bin. -/
theorem histogram_ok [FloorRing K] (log : K → K) (mi ma : K) (bins : Nat) (r : List K) (count : List Int) :
    (histogram log mi ma bins r count).length = count.length ∧ ∀ b < bins, (histogram log mi ma bins r count)[b]? =
      count[b]?.map fun n : Int => n + (r.countP fun x => decide ((b : K) ≤ binOf log mi ma bins x ∧ binOf log mi ma bins x < b + 1) : Nat) := by
  induction r generalizing count with
  | nil =>
    refine ⟨rfl, ?_⟩
    intro b _
    rw [histogram]
    cases count[b]? <;> simp
  | cons x r ih =>
    rw [histogram]
    by_cases hx : 0 ≤ binOf log mi ma bins x ∧ binOf log mi ma bins x < bins
    · rw [if_pos hx]
      obtain ⟨h1, h2⟩ := ih (count.modify ⌊binOf log mi ma bins x⌋.toNat (· + 1))
      refine ⟨by rw [h1, List.length_modify], ?_⟩
      intro b hb
      rw [h2 b hb, List.getElem?_modify, List.countP_cons]
      have hk : (⌊binOf log mi ma bins x⌋.toNat = b) ↔ ((b : K) ≤ binOf log mi ma bins x ∧ binOf log mi ma bins x < b + 1) := by
        have h0 : 0 ≤ ⌊binOf log mi ma bins x⌋ := Int.floor_nonneg.2 hx.1
        constructor
        · intro h
          have e : ⌊binOf log mi ma bins x⌋ = (b : Int) := by omega
          obtain ⟨f1, f2⟩ := Int.floor_eq_iff.1 e
          push_cast at f1 f2
          exact ⟨f1, f2⟩
        · rintro ⟨f1, f2⟩
          have e : ⌊binOf log mi ma bins x⌋ = (b : Int) := Int.floor_eq_iff.2 ⟨by push_cast; exact f1, by push_cast; exact f2⟩
          omega
      by_cases hb2 : ⌊binOf log mi ma bins x⌋.toNat = b
      · rw [if_pos (decide_eq_true (hk.1 hb2))]
        cases count[b]? with
        | none => rfl
        | some n =>
          show some ((if ⌊binOf log mi ma bins x⌋.toNat = b then n + 1 else n) + _) = some _
          rw [if_pos hb2, Option.some_inj]
          push_cast
          ring
      · rw [if_neg (by rw [decide_eq_true_eq]; exact fun h => hb2 (hk.2 h))]
        cases count[b]? with
        | none => rfl
        | some n =>
          show some ((if ⌊binOf log mi ma bins x⌋.toNat = b then n + 1 else n) + _) = some _
          rw [if_neg hb2]
          rfl
    · rw [if_neg hx]
      obtain ⟨h1, h2⟩ := ih count
      refine ⟨h1, ?_⟩
      intro b hb
      rw [h2 b hb, List.countP_cons_of_neg]
      rw [decide_eq_true_eq]
      rintro ⟨f1, f2⟩
      refine hx ⟨le_trans (by positivity) f1, lt_of_lt_of_le f2 ?_⟩
      exact_mod_cast hb

theorem bind_ok' {α β : Type} (a : α) (f : α → Except Err β) : (Except.ok a >>= f) = f a := rfl

/-- C117: plot_profile_dens.pro finds the radius within which the mean density of all particles around the centre is at least 200 times the critical density, and stops if there is none. The array with the numbers of
particles in bins of the logarithm of the radius has one too many in bin 1, two in bin 2 and so on, as it starts with 0, 1, 2, ... instead of 0, 0, 0, ... -/
theorem C117_density_defect [Archimedean K] [FloorRing K] {sqrt : K → K} (hs : IsSqrt sqrt) (log : K → K) {pi : K} (hpi : 0 < pi) {order : List K → List Nat} (ho : SortsAny order) {time rhocrit partMass : K} (ht : 0 < time)
    (hm : 0 ≤ partMass) {pos : List (Row K)} (h0 : pos ≠ []) (hc : ∀ p, (pos.filter fun q => decide (q = p)).length < 25) (region : Row K → K → List (Row K)) :
    ∃ R c' rad r n0, IsLargest (pos.map fun p => sqrt (dist2 p 0)) R ∧ Shrinks pos 25 0 R c' ∧ IsLargest (pos.map fun p => sqrt (dist2 p c')) rad ∧ r = (nearer sqrt (region c' rad) rad).map (fun x => x * time) ∧
      ∀ fuel, n0 < fuel →
        ((∀ x ∈ r, ¬ Dense200 pi rhocrit partMass r x) → plotDens sqrt log pi order fuel time rhocrit partMass pos region = .error .indexError) ∧
        ((∃ x ∈ r, Dense200 pi rhocrit partMass r x) → ∃ d, plotDens sqrt log pi order fuel time rhocrit partMass pos region = .ok d ∧ d.centre = c' ∧ IsR200 pi rhocrit partMass r d.r200 ∧
          d.m200 = 200 * rhocrit * (4 * pi / 3 * (d.r200 * d.r200 * d.r200)) ∧ d.count.length = 25 ∧
          ∀ b : Nat, b < 25 → d.count[b]? = some ((b : Int) + (r.countP fun x => decide ((b : K) ≤ 25 * (log x - log (1 / 1000)) / (log 5 - log (1 / 1000)) ∧ 25 * (log x - log (1 / 1000)) / (log 5 - log (1 / 1000)) < b + 1) : Nat))) := by
  have hbin : ∀ x : K, 25 * (log x - log (1 / 1000)) / (log 5 - log (1 / 1000)) = binOf log (1 / 1000) 5 25 x := by
    intro x
    unfold binOf
    push_cast
    ring
  simp only [hbin]
  obtain ⟨R, c', n0, h1, h2, h3⟩ := shrink_ok hs (by omega) h0 hc
  obtain ⟨rad, r1, r2⟩ := arrayMax_ok (l := pos.map fun p => sqrt (dist2 p c')) (by simpa using h0)
  obtain ⟨r, hr⟩ : ∃ r, r = (nearer sqrt (region c' rad) rad).map (fun x => x * time) := ⟨_, rfl⟩
  refine ⟨R, c', rad, r, n0, h1, h2, r2, hr, ?_⟩
  intro fuel hf
  have e : plotDens sqrt log pi order fuel time rhocrit partMass pos region = (do
      let q ← within sqrt (region c' rad) rad
      let r200 ← radius200 pi rhocrit partMass (sorted order (q.map fun x => x * time))
      .ok (⟨c', r200, 200 * 4 * pi / 3 * r200 ^ 3 * rhocrit, histogram log (1 / 1000) 5 25 (sorted order (q.map fun x => x * time)) ((List.range 25).map fun i : Nat => (i : Int))⟩ : Density K)) := by
    unfold plotDens
    rw [h3 fuel hf]
    show (do
      let rad ← arrayMax (pos.map fun p => sqrt (dist2 p c'))
      let q ← within sqrt (region c' rad) rad
      let r200 ← radius200 pi rhocrit partMass (sorted order (q.map fun x => x * time))
      .ok (⟨c', r200, 200 * 4 * pi / 3 * r200 ^ 3 * rhocrit, histogram log (1 / 1000) 5 25 (sorted order (q.map fun x => x * time)) ((List.range 25).map fun i : Nat => (i : Int))⟩ : Density K)) = _
    rw [r1]
    rfl
  have hpos : ∀ x ∈ sorted order r, 0 ≤ x := by
    intro x hx
    rw [(sorted_perm ho r).mem_iff, hr] at hx
    obtain ⟨y, hy, rfl⟩ := List.mem_map.1 hx
    obtain ⟨p, -, rfl⟩ := List.mem_map.1 (List.mem_filter.1 hy).1
    have := (hs (dist2 p 0) (by rw [← square_sub]; exact square_nonneg _)).1
    positivity
  have hd : ∀ x, Dense200 pi rhocrit partMass (sorted order r) x ↔ Dense200 pi rhocrit partMass r x := by
    intro x
    unfold Dense200
    rw [upTo_perm (sorted_perm ho r)]
  have hcases := radius200_ok (rhocrit := rhocrit) hpi hm hpos (sorted_sorted ho r)
  rw [e, within_eq]
  by_cases hn : nearer sqrt (region c' rad) rad = []
  · rw [if_pos hn]
    have hr0 : r = [] := by rw [hr, hn]; rfl
    refine ⟨fun _ => rfl, ?_⟩
    rintro ⟨x, hx, -⟩
    rw [hr0] at hx
    cases hx
  · rw [if_neg hn]
    rw [bind_ok', ← hr]
    rcases hcases with ⟨x, hx1, hx2⟩ | ⟨hx1, hx2⟩
    · rw [hx1]
      refine ⟨?_, ?_⟩
      · intro h
        exact absurd ((hd x).1 hx2.2.1) (h x ((sorted_perm ho r).mem_iff.1 hx2.1))
      · intro _
        refine ⟨_, rfl, rfl, ⟨(sorted_perm ho r).mem_iff.1 hx2.1, (hd x).1 hx2.2.1, ?_⟩, ?_, ?_, ?_⟩
        · intro y hy hdy
          exact hx2.2.2 y ((sorted_perm ho r).mem_iff.2 hy) ((hd y).2 hdy)
        · dsimp only
          ring
        · dsimp only
          rw [(histogram_ok log _ _ 25 _ _).1]
          simp
        · intro b hb
          dsimp only
          rw [(histogram_ok log _ _ 25 _ _).2 b hb, List.getElem?_map, List.getElem?_range hb, (sorted_perm ho r).countP_eq]
          rfl
    · rw [hx1]
      refine ⟨fun _ => rfl, ?_⟩
      rintro ⟨x, hx, hdx⟩
      exact absurd ((hd x).2 hdx) (hx2 x ((sorted_perm ho r).mem_iff.2 hx))

/-! ### Maximum of the circular velocity -/

theorem sqrt_mono {sqrt : K → K} (hs : IsSqrt sqrt) {a b : K} (ha : 0 ≤ a) (h : a ≤ b) : sqrt a ≤ sqrt b := by
  obtain ⟨a1, a2⟩ := hs a ha
  obtain ⟨b1, b2⟩ := hs b (le_trans ha h)
  by_contra hc
  push Not at hc
  nlinarith

theorem wrap_image [FloorRing K] {boxsize : K} (hb : 0 < boxsize) (d : K) : IsImage boxsize d (wrap boxsize d) := by
  unfold wrap
  refine ⟨⟨-⌊(d + boxsize / 2) / boxsize⌋, by push_cast; ring⟩, ?_, ?_⟩
  · have := Int.floor_le ((d + boxsize / 2) / boxsize)
    rw [le_div_iff₀ hb] at this
    linarith
  · have := Int.lt_floor_add_one ((d + boxsize / 2) / boxsize)
    rw [div_lt_iff₀ hb] at this
    linarith

theorem forall_map {α β : Type} {P : α → β → Prop} {f : α → β} (l : List α) (h : ∀ a, P a (f a)) : List.Forall₂ P l (l.map f) := by
  induction l with
  | nil => exact List.Forall₂.nil
  | cons a l ih => exact List.Forall₂.cons (h a) ih

/-- C118: compute_rvmax.py computes the largest circular velocity at a particle of the subhalo, from the mass of the other particles up to there, and the smallest distance at which it is reached, whatever the order of
particles at the same distance. Without particles it stops. -/
theorem C118_rvmax [FloorRing K] {sqrt : K → K} (hs : IsSqrt sqrt) {u : Units K} (hu : 0 ≤ u.g ∧ 0 ≤ u.mass ∧ 0 ≤ u.length) {order : List K → List Nat} (ho : SortsAny order) (pos : List (Row K)) (subnr : List Int)
    (isub : Int) (centre : Row K) {boxsize : K} (hb : 0 < boxsize) {mpart a : K} (hm : 0 ≤ mpart) (ha : 0 ≤ a) :
    ∃ r : List K, List.Forall₂ (IsDistance sqrt boxsize centre) (((pos.zip subnr).filter fun x => decide (x.2 = isub)).map fun x => x.1) r ∧
      (r = [] → computeRvmax sqrt u order pos subnr isub centre boxsize mpart a = .error .valueError) ∧
      (r ≠ [] → ∃ x, computeRvmax sqrt u order pos subnr isub centre boxsize mpart a = .ok (x * a, speedAt sqrt u mpart a r x) ∧ x ∈ r ∧
        ∀ y ∈ r, speedAt sqrt u mpart a r y ≤ speedAt sqrt u mpart a r x ∧ (speedAt sqrt u mpart a r y = speedAt sqrt u mpart a r x → x ≤ y)) := by
  obtain ⟨r, hr⟩ : ∃ r, r = ((pos.zip subnr).filter fun x => decide (x.2 = isub)).map (fun x => sqrt (dist2 (wrapRow boxsize (x.1 - centre)) 0)) := ⟨_, rfl⟩
  have hf : List.Forall₂ (IsDistance sqrt boxsize centre) (((pos.zip subnr).filter fun x => decide (x.2 = isub)).map fun x => x.1) r := by
    have := forall_map (P := IsDistance sqrt boxsize centre) (f := fun p => sqrt (dist2 (wrapRow boxsize (p - centre)) 0)) (((pos.zip subnr).filter fun x => decide (x.2 = isub)).map fun x => x.1)
      (fun p => ⟨_, wrap_image hb _, wrap_image hb _, wrap_image hb _, rfl⟩)
    rw [List.map_map] at this
    rw [hr]
    exact this
  refine ⟨r, hf, ?_⟩
  clear hf
  have hrel : radii sqrt (((((pos.map fun p => wrapRow boxsize (p - centre)).zip subnr).filter fun x => decide (x.2 = isub))).map (·.1)) = r := by
    rw [radii_zero, hr, List.zip_map_left, List.filter_map, List.map_map, List.map_map]
    rfl
  have e : computeRvmax sqrt u order pos subnr isub centre boxsize mpart a = (do
      let imax ← argmax (List.zipWith (vcirc sqrt u mpart a) (List.range (sorted order r).length) (sorted order r))
      .ok ((sorted order r).getD imax 0 * a, (List.zipWith (vcirc sqrt u mpart a) (List.range (sorted order r).length) (sorted order r)).getD imax 0)) := by
    unfold computeRvmax
    dsimp only
    rw [hrel]
  rw [e]
  clear e
  have hp := sorted_perm ho r
  have hsort := sorted_sorted ho r
  obtain ⟨v, hv⟩ : ∃ v, v = List.zipWith (vcirc sqrt u mpart a) (List.range (sorted order r).length) (sorted order r) := ⟨_, rfl⟩
  rw [← hv]
  have hpos : ∀ x ∈ r, 0 ≤ x := by
    intro x hx
    rw [hr] at hx
    obtain ⟨p, -, rfl⟩ := List.mem_map.1 hx
    exact (hs _ (by rw [← square_sub]; exact square_nonneg _)).1
  have hvlen : v.length = (sorted order r).length := by rw [hv]; simp
  have hvj : ∀ (j : Nat) (x : K), (sorted order r)[j]? = some x → v[j]? = some (vcirc sqrt u mpart a j x) := by
    intro j x hx
    obtain ⟨hj, -⟩ := List.getElem?_eq_some_iff.1 hx
    rw [hv, List.getElem?_zipWith, List.getElem?_range hj, hx]
  -- each is at most the speed at this distance
  have hle : ∀ (j : Nat) (x : K), (sorted order r)[j]? = some x → vcirc sqrt u mpart a j x ≤ speedAt sqrt u mpart a r x := by
    intro j x hx
    have hmem := hp.mem_iff.1 (List.mem_of_getElem? hx)
    have h2 := (steps hsort hx).2
    rw [upTo_perm hp] at h2
    unfold vcirc speedAt
    rcases eq_or_lt_of_le (hpos x hmem) with h0 | h0
    · rw [if_neg (by rw [← h0]; exact lt_irrefl _), if_pos h0.symm]
    · rw [if_pos h0, if_neg (ne_of_gt h0)]
      apply div_le_div_of_nonneg_right _ (by norm_num)
      have hc : ((j : K)) ≤ (upTo r x : K) - 1 := by
        have : ((j : K)) + 1 ≤ (upTo r x : K) := by exact_mod_cast h2
        linarith
      obtain ⟨u1, u2, u3⟩ := hu
      apply sqrt_mono hs
      · positivity
      · apply div_le_div_of_nonneg_right _ (by positivity)
        apply mul_le_mul_of_nonneg_left _ u1
        nlinarith [mul_nonneg hm u2]
  -- and it is reached
  have hreach : ∀ x ∈ r, ∃ j, (sorted order r)[j]? = some x ∧ vcirc sqrt u mpart a j x = speedAt sqrt u mpart a r x := by
    intro x hx
    obtain ⟨l1, l2⟩ := last_equal hsort (hp.mem_iff.2 hx)
    rw [upTo_perm hp] at l1 l2
    refine ⟨_, l2, ?_⟩
    unfold vcirc speedAt
    rcases eq_or_lt_of_le (hpos x hx) with h0 | h0
    · rw [if_neg (by rw [← h0]; exact lt_irrefl _), if_pos h0.symm]
    · rw [if_pos h0, if_neg (ne_of_gt h0)]
      have : ((upTo r x - 1 : Nat) : K) = (upTo r x : K) - 1 := by rw [Nat.cast_sub (by omega), Nat.cast_one]
      rw [this]
      congr 3
      ring
  constructor
  · intro h0
    have : sorted order r = [] := List.length_eq_zero_iff.1 (by rw [hp.length_eq, h0]; rfl)
    have : v = [] := List.length_eq_zero_iff.1 (by rw [hvlen, this]; rfl)
    rw [this]
    rfl
  · intro h0
    have hv0 : v ≠ [] := by
      intro h
      apply h0
      apply List.length_eq_zero_iff.1
      rw [← hp.length_eq, ← hvlen, h]
      rfl
    obtain ⟨M, hM1, hM2⟩ := arrayMax_ok hv0
    obtain ⟨i, hi⟩ : ∃ i, i = v.findIdx (fun w => decide (w = M)) := ⟨_, rfl⟩
    have harg : argmax v = .ok i := by
      cases v with
      | nil => exact absurd rfl hv0
      | cons a l =>
        unfold arrayMax at hM1
        cases hM1
        rw [hi]
        rfl
    have hilt : i < v.length := by
      rw [hi]
      exact List.findIdx_lt_length_of_exists ⟨M, hM2.1, by simp⟩
    have hvi : v[i] = M := by
      subst hi
      simpa using List.findIdx_getElem (w := hilt)
    obtain ⟨x, hx⟩ : ∃ x, (sorted order r)[i]? = some x := ⟨_, List.getElem?_eq_getElem (by omega)⟩
    have hMx : vcirc sqrt u mpart a i x = M := by
      have := hvj i x hx
      rw [List.getElem?_eq_getElem hilt, hvi, Option.some_inj] at this
      exact this.symm
    have hxm := hp.mem_iff.1 (List.mem_of_getElem? hx)
    have hall : ∀ y ∈ r, speedAt sqrt u mpart a r y ≤ M := by
      intro y hy
      obtain ⟨j, hj1, hj2⟩ := hreach y hy
      rw [← hj2]
      exact hM2.2 _ (List.mem_of_getElem? (hvj j y hj1))
    have hMs : speedAt sqrt u mpart a r x = M := le_antisymm (hall x hxm) (hMx ▸ hle i x hx)
    refine ⟨x, ?_, hxm, ?_⟩
    · rw [harg]
      show Except.ok _ = _
      rw [List.getD_eq_getElem?_getD, hx, List.getD_eq_getElem?_getD, List.getElem?_eq_getElem hilt, hvi, hMs]
      rfl
    · intro y hy
      rw [hMs]
      refine ⟨hall y hy, ?_⟩
      intro hyM
      obtain ⟨j, hj1, hj2⟩ := hreach y hy
      rw [hyM] at hj2
      have hji : i ≤ j := by
        by_contra hlt
        push Not at hlt
        have := List.not_of_lt_findIdx (hi ▸ hlt)
        have h3 := hvj j y hj1
        rw [List.getElem?_eq_getElem (by omega), Option.some_inj] at h3
        simp [h3, hj2] at this
      rcases Nat.lt_or_ge i j with h | h
      · obtain ⟨hi', hi''⟩ := List.getElem?_eq_some_iff.1 hx
        obtain ⟨hj', hj''⟩ := List.getElem?_eq_some_iff.1 hj1
        rw [← hi'', ← hj'']
        exact List.pairwise_iff_getElem.1 hsort i j hi' hj' h
      · obtain rfl : i = j := by omega
        rw [hx, Option.some_inj] at hj1
        exact le_of_eq hj1

/-! ### Examples -/

namespace ExProfiles

theorem sorts_argsort : SortsAny (argsort : List K → List Nat) := by
  intro l
  refine ⟨argsort_perm l, ?_⟩
  let _ : Inhabited K := ⟨0⟩
  exact fancy_argsort_sorted l

theorem sqrt_real : IsSqrt Real.sqrt := fun a ha => ⟨Real.sqrt_nonneg a, Real.mul_self_sqrt ha⟩

/-- Forty particles on a line -/
def line : List (Row ℝ) := (List.range 40).map fun i : Nat => ((i : ℝ), 0, 0)

theorem line_nodup : line.Nodup := by
  unfold line
  refine List.Nodup.map ?_ List.nodup_range
  intro i j h
  have : (i : ℝ) = (j : ℝ) := congrArg Prod.fst h
  exact_mod_cast this

theorem line_few (n : Nat) (hn : 1 < n) (p : Row ℝ) : (line.filter fun q => decide (q = p)).length < n := by
  have h := List.nodup_iff_count_le_one.1 line_nodup p
  rw [List.count_eq_countP, List.countP_eq_length_filter] at h
  have e : (line.filter fun q => decide (q = p)) = line.filter (fun q => q == p) := by
    apply List.filter_congr
    intro q _
    by_cases hq : q = p <;> simp [hq]
  rw [e]
  omega

theorem line_ne : line ≠ [] := by
  unfold line
  simp

/-- The hypotheses are met: by forty different particles and the real square root. -/
example := C116_show_profile sqrt_real sorts_argsort line_ne (line_few 15 (by omega))

example := C116_plot_vmax sqrt_real sorts_argsort line_ne (line_few 25 (by omega)) (fun c rad => [c, ((rad, 0, 0) : Row ℝ)])

noncomputable example := C117_density_defect sqrt_real (fun x : ℝ => x) (pi := 3) (by norm_num) sorts_argsort (time := 1) (rhocrit := 1) (partMass := 1) (by norm_num) (by norm_num) line_ne (line_few 25 (by omega))
  (fun c rad => [c, ((rad, 0, 0) : Row ℝ)])

noncomputable example := C118_rvmax sqrt_real (u := ⟨1, 1, 1⟩) (by norm_num) sorts_argsort line (List.replicate 40 7) 7 (0, 0, 0) (boxsize := 100) (by norm_num) (mpart := 1) (a := 1) (by norm_num) (by norm_num)

/-! Runs, with rational numbers and the square roots of squares -/

/-- Square root of a square of a number with numerator and denominator less than 310 -/
def root (a : ℚ) : ℚ := (((List.range 310).findIdx fun n => n * n == a.num.toNat : Nat) : ℚ) / (((List.range 310).findIdx fun n => n * n == a.den : Nat) : ℚ)

/-- 15 particles near 10, and one at 300 (relative to the first particle) -/
def cloud : List (Row ℚ) := (300, 0, 0) :: (List.range 15).map fun i : Nat => ((i : ℚ) + 3, 0, 0)

/-- The centre is the mean of the 15 particles, without the most distant one. -/
example : (shrink root 15 50 cloud).map (fun c => c.centre) = .ok (10, 0, 0) := by decide +kernel

/-- Two particles in bin 3 and one in bin 7 are added to 0, 1, 2, ...; one is outside. -/
example : (histogram (fun x : ℚ => x) 0 25 25 [3, 3, 7, 30] ((List.range 25).map fun i : Nat => (i : Int))).take 9 = [0, 1, 2, 5, 4, 5, 6, 8, 8] := by decide +kernel

/-- The mean density is high enough at 1 and at 2, not at 3. -/
example : radius200 (3 : ℚ) (1 / 800) 1 [1, 2, 2, 2, 2, 2, 2, 2, 3] = .ok 2 := by decide +kernel

/-- No radius -/
example : radius200 (3 : ℚ) 1 1 [1, 2, 3] = .error .indexError := by decide +kernel

/-- Particles at the distances 1, 4 and 1, the last one through the boundary of the box: there is one other particle up to 1 and there are two up to 4. -/
example : computeRvmax root ⟨1, 1, 1⟩ (argsort : List ℚ → List Nat) [(1, 0, 0), (4, 0, 0), (9, 9, 9), (19, 0, 0)] [5, 5, 2, 5] 5 (0, 0, 0) 20 1 1 = .ok (1, 1 / 1000) := by decide +kernel

/-- A subhalo without particles in the group -/
example : computeRvmax root ⟨1, 1, 1⟩ (argsort : List ℚ → List Nat) [(1, 0, 0)] [5] 4 (0, 0, 0) 20 1 1 = .error .valueError := by decide +kernel

end ExProfiles

end Verif.Profiles
