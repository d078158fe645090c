import Verif.Proofs.Spectrum
import Mathlib.Analysis.SpecialFunctions.Log.Basic

/-! C119: PlotSpectrum.pro. -/

namespace Verif.Spectrum

set_option linter.unusedSectionVars false

variable {K : Type} [Field K] [LinearOrder K] [IsStrictOrderedRing K]

theorem padded_mem {rows : List (Bin K)} {bins : Nat} {r : Bin K} (h : r ∈ padded rows bins) : r ∈ rows := by
  unfold padded at h
  rcases List.mem_append.1 h with h | h
  · exact List.mem_of_mem_take h
  · obtain ⟨x, hx, hr⟩ := List.mem_flatMap.1 h
    rw [List.eq_of_mem_replicate hr]
    rw [Option.mem_toList] at hx
    exact List.mem_of_mem_getLast? hx

theorem padded_take {rows : List (Bin K)} {bins : Nat} (h : bins ≤ rows.length) : padded rows bins = rows.take bins := by
  unfold padded
  rw [Nat.sub_eq_zero_of_le h]
  simp

/-- C119: The loops of PlotSpectrum.pro make the shortest possible bands, from the first row of a table on, which have enough modes and are wide enough. Rows at the end which are not enough for a band are left out. The number of
rows is `bins`, and the last row is repeated if the table has fewer. The program stops if there is no band, or if the centre of a band is after the end of the table. -/
theorem C119_bands [FloorRing K] {lg : K → K} (hlg : ∀ x y, 0 < x → x ≤ y → lg x ≤ lg y) (d : K) {rows : List (Bin K)} (h0 : rows ≠ []) {bins : Nat} (hb : 0 < bins) (hk : ∀ r ∈ rows, 0 < r.k ∧ 0 ≤ r.count) :
    ∃ bands, Bands (Wide lg d 140) 0 (padded rows bins) bands ∧ ∀ fuel, bins ≤ fuel →
      (bands = [] → rebin lg d fuel bins rows = .error .indexError) ∧
      (bands ≠ [] → (∃ l, rebin lg d fuel bins rows = .ok l ∧ List.Forall₂ (IsPoint rows) bands l) ∨ (rebin lg d fuel bins rows = .error .indexError ∧ ∃ band ∈ bands, ∀ p, ¬ IsPoint rows band p)) := by
  have hlen := padded_length h0 bins
  obtain ⟨r, rest, hpad⟩ : ∃ r rest, padded rows bins = r :: rest := by
    cases h : padded rows bins with
    | nil => rw [h] at hlen; simp at hlen; omega
    | cons r rest => exact ⟨r, rest, rfl⟩
  obtain ⟨bands, h1, h2⟩ := rebinLoop_ok hlg d (minCount := 140) (by norm_num) h0 (bins := bins) (fun r hr => hk r (padded_mem hr)) rest r [] [] (by simpa using hpad) (by intro n h1 h2; simp at h2; omega)
  refine ⟨bands, by rw [hpad]; exact h1, ?_⟩
  intro fuel hf
  have hr : rest.length < fuel := by rw [hpad] at hlen; simp at hlen; omega
  have e : List.range' ([] : List (Bin K)).length (([] : List (Bin K)).length + 1) = [0] := rfl
  have e0 : ([] : List (Bin K)).length + ([] : List (Bin K)).length = 0 := rfl
  rcases h2 fuel [] hr with ⟨l, r1, r2⟩ | ⟨r1, r2⟩
  · rw [e, e0, List.nil_append] at r1
    unfold rebin
    rw [r1]
    show (_ → tail1 l = _) ∧ (_ → (∃ l', tail1 l = _ ∧ _) ∨ (tail1 l = _ ∧ _))
    constructor
    · rintro rfl
      cases r2
      rfl
    · intro hne
      left
      refine ⟨l, ?_, r2⟩
      unfold tail1
      rw [if_neg]
      rintro rfl
      cases r2
      exact hne rfl
  · rw [e, e0] at r1
    unfold rebin
    rw [r1]
    exact ⟨fun _ => rfl, fun _ => Or.inr ⟨rfl, r2⟩⟩

/-! ### Complete tables -/

/-- A band is a part of the rows. -/
theorem bands_part {W : List (Bin K) → Prop} {o : Nat} {l : List (Bin K)} {bands : List (Nat × List (Bin K))} (h : Bands W o l bands) :
    ∀ band ∈ bands, W band.2 ∧ o ≤ band.1 ∧ band.1 + band.2.length ≤ o + l.length ∧ ∀ r ∈ band.2, r ∈ l := by
  induction h with
  | rest _ => intro band hb; cases hb
  | @band o b l bs h1 h2 h3 h4 ih =>
    intro band hb
    rcases List.mem_cons.1 hb with rfl | hb
    · exact ⟨h2, le_refl _, by simp, fun r hr => List.mem_append_left _ hr⟩
    · obtain ⟨i1, i2, i3, i4⟩ := ih band hb
      exact ⟨i1, by omega, by rw [List.length_append]; omega, fun r hr => List.mem_append_right _ (i4 r hr)⟩

theorem has_point [FloorRing K] {rows : List (Bin K)} {o : Nat} {b : List (Bin K)} (ho : o + b.length ≤ rows.length) (hc : ∀ r ∈ b, 0 ≤ r.count) (hS : 0 < (b.map fun r => r.count).sum) : ∃ p, IsPoint rows (o, b) p := by
  obtain ⟨S, hSd⟩ : ∃ S, S = (b.map fun r => r.count).sum := ⟨_, rfl⟩
  obtain ⟨T, hTd⟩ : ∃ T, T = (b.zipIdx.map fun x => ((o + x.2 : Nat) : K) * x.1.count).sum := ⟨_, rfl⟩
  obtain ⟨m1, m2⟩ := mean_position b hc o
  rw [← hSd, ← hTd] at m1 m2
  rw [← hSd] at hS
  have hT0 : 0 ≤ T := le_trans (by positivity) m1
  obtain ⟨j, hj⟩ : ∃ j : Nat, (j : Int) = ⌊T / S⌋ := ⟨⌊T / S⌋.toNat, Int.toNat_of_nonneg (Int.floor_nonneg.2 (by positivity))⟩
  obtain ⟨f1, f2⟩ := Int.floor_eq_iff.1 hj.symm
  push_cast at f1 f2
  rw [le_div_iff₀ hS] at f1
  rw [div_lt_iff₀ hS] at f2
  have hoj : o ≤ j := by
    have : (o : K) < j + 1 := lt_of_mul_lt_mul_right (lt_of_le_of_lt m1 f2) (le_of_lt hS)
    have : o < j + 1 := by exact_mod_cast this
    omega
  have hjo : j < o + b.length := by
    have h1 : (j : K) ≤ (o : K) + b.length - 1 := le_of_mul_le_mul_right (le_trans f1 m2) hS
    have h2 : (j : K) + 1 ≤ (o : K) + b.length := by linarith
    have h2 : j + 1 ≤ o + b.length := by exact_mod_cast h2
    omega
  refine ⟨⟨(rows[j]'(by omega)).k, (rows[j]'(by omega)).conv * (rows[j]'(by omega)).shape * (b.map fun r => r.power).sum / S, S⟩, j, rows[j]'(by omega), hoj, hjo, List.getElem?_eq_getElem _, ?_, ?_, hSd, rfl, ?_⟩
  · dsimp only
    rw [← hSd, ← hTd]
    exact f1
  · dsimp only
    rw [← hSd, ← hTd]
    exact f2
  · dsimp only
    field_simp

/-- C119: If the table has at least `bins` rows, there is a point for each band of the first `bins` rows. -/
theorem C119_complete [FloorRing K] {lg : K → K} (hlg : ∀ x y, 0 < x → x ≤ y → lg x ≤ lg y) (d : K) {rows : List (Bin K)} {bins : Nat} (hb : 0 < bins) (hbr : bins ≤ rows.length) (hk : ∀ r ∈ rows, 0 < r.k ∧ 0 ≤ r.count) :
    ∃ bands, Bands (Wide lg d 140) 0 (rows.take bins) bands ∧ ∀ fuel, bins ≤ fuel →
      (bands = [] → rebin lg d fuel bins rows = .error .indexError) ∧ (bands ≠ [] → ∃ l, rebin lg d fuel bins rows = .ok l ∧ List.Forall₂ (IsPoint rows) bands l) := by
  have h0 : rows ≠ [] := by rintro rfl; simp at hbr; omega
  obtain ⟨bands, h1, h2⟩ := C119_bands hlg d h0 hb hk
  rw [padded_take hbr] at h1
  refine ⟨bands, h1, ?_⟩
  intro fuel hf
  obtain ⟨h3, h4⟩ := h2 fuel hf
  refine ⟨h3, ?_⟩
  intro hne
  rcases h4 hne with h | ⟨-, band, hb1, hb2⟩
  · exact h
  · exfalso
    obtain ⟨i1, i2, i3, i4⟩ := bands_part h1 band hb1
    obtain ⟨p, hp⟩ := has_point (rows := rows) (o := band.1) (b := band.2) (by rw [List.length_take] at i3; omega) (fun r hr => (hk r (List.mem_of_mem_take (i4 r hr))).2) (lt_of_lt_of_le (by norm_num) i1.2)
    exact hb2 p hp

theorem bands_width {lg : K → K} (hlg : ∀ x y, 0 < x → x ≤ y → lg x ≤ lg y) {d m : K} {o : Nat} {l : List (Bin K)} {bands : List (Nat × List (Bin K))} (h : Bands (Wide lg d m) o l bands) :
    (∀ r ∈ l, 0 < r.k) → (l.map fun r => r.k).Pairwise (· ≤ ·) → ∀ lo hi, lo ≤ hi → (∀ r ∈ l, lo ≤ lg r.k ∧ lg r.k ≤ hi) → (bands.length : K) * d ≤ hi - lo := by
  induction h with
  | rest _ =>
    intro _ _ lo hi h _
    simp
    exact h
  | @band o b l bs h1 h2 h3 h4 ih =>
    intro hk hs lo hi _ hr
    rw [List.map_append, List.pairwise_append] at hs
    obtain ⟨s1, s2, s3⟩ := hs
    obtain ⟨e, he, hmax⟩ : ∃ e ∈ b, ∀ x ∈ b, x.k ≤ e.k := by
      obtain ⟨m1, m2⟩ := maxOf_mem (l := b.map fun r => r.k) (by simpa using h1)
      obtain ⟨e, he, hee⟩ := List.mem_map.1 m1
      exact ⟨e, he, fun x hx => by rw [hee]; exact m2 _ (List.mem_map_of_mem hx)⟩
    have hi2 := ih (fun r hr => hk r (by simp [hr])) s2 (lg e.k) hi (hr e (by simp [he])).2 (by
      intro r hr'
      exact ⟨hlg _ _ (hk e (by simp [he])) (s3 _ (List.mem_map_of_mem he) _ (List.mem_map_of_mem hr')), (hr r (by simp [hr'])).2⟩)
    obtain ⟨⟨x, hx, y, hy, hd⟩, -⟩ := h2
    have hx2 := hlg _ _ (hk x (by simp [hx])) (hmax x hx)
    have hy2 := (hr y (by simp [hy])).1
    rw [List.length_cons]
    push_cast
    linarith

/-- C119: If `k` increases in the first table, there are not more than 180 points for it (TargetBinNummer), however many rows there are. -/
theorem C119_target [FloorRing K] {lg : K → K} (hlg : ∀ x y, 0 < x → x ≤ y → lg x ≤ lg y) {rows : List (Bin K)} {bins : Nat} (hb : 0 < bins) (hbr : bins ≤ rows.length) (hk : ∀ r ∈ rows, 0 < r.k ∧ 0 ≤ r.count)
    (hs : (rows.map fun r => r.k).Pairwise (· ≤ ·)) (hne : ∃ x ∈ rows, ∃ y ∈ rows, lg x.k < lg y.k) {fuel : Nat} (hf : bins ≤ fuel) {l : List (Point K)} (h : rebin lg (minDlogK lg rows) fuel bins rows = .ok l) : l.length ≤ 180 := by
  obtain ⟨bands, h1, h2⟩ := C119_complete hlg (minDlogK lg rows) hb hbr hk
  obtain ⟨h3, h4⟩ := h2 fuel hf
  have hbn : bands ≠ [] := by
    intro hb0
    rw [h3 hb0] at h
    cases h
  obtain ⟨l', e1, e2⟩ := h4 hbn
  rw [h] at e1
  cases e1
  rw [← e2.length_eq]
  have h0 : (rows.map fun r => r.k) ≠ [] := by
    obtain ⟨x, hx, -⟩ := hne
    intro h
    rw [List.map_eq_nil_iff] at h
    rw [h] at hx
    cases hx
  obtain ⟨m1, m2⟩ := maxOf_mem h0
  obtain ⟨n1, n2⟩ := minOf_mem h0
  obtain ⟨mx, hmx, emx⟩ := List.mem_map.1 m1
  obtain ⟨mn, hmn, emn⟩ := List.mem_map.1 n1
  have hrange : ∀ r ∈ rows, lg (minOf (rows.map fun r => r.k)) ≤ lg r.k ∧ lg r.k ≤ lg (maxOf (rows.map fun r => r.k)) := by
    intro r hr
    exact ⟨hlg _ _ (emn ▸ (hk mn hmn).1) (n2 _ (List.mem_map_of_mem hr)), hlg _ _ (hk r hr).1 (m2 _ (List.mem_map_of_mem hr))⟩
  obtain ⟨x, hx, y, hy, hxy⟩ := hne
  have hlt : lg (minOf (rows.map fun r => r.k)) < lg (maxOf (rows.map fun r => r.k)) := lt_of_le_of_lt (hrange x hx).1 (lt_of_lt_of_le hxy (hrange y hy).2)
  have hw := bands_width hlg h1 (fun r hr => (hk r (List.mem_of_mem_take hr)).1) (by rw [List.map_take]; exact hs.sublist (List.take_sublist _ _)) _ _ (le_of_lt hlt) (fun r hr => hrange r (List.mem_of_mem_take hr))
  unfold minDlogK at hw
  have h5 : (bands.length : K) * (lg (maxOf (rows.map fun r => r.k)) - lg (minOf (rows.map fun r => r.k))) ≤ 180 * (lg (maxOf (rows.map fun r => r.k)) - lg (minOf (rows.map fun r => r.k))) := by
    rw [mul_div_assoc', div_le_iff₀ (by norm_num)] at hw
    linarith
  have h6 := le_of_mul_le_mul_right h5 (by linarith)
  exact_mod_cast h6

theorem bands_count {W : List (Bin K) → Prop} {o : Nat} {l : List (Bin K)} {bands : List (Nat × List (Bin K))} (h : Bands W o l bands) (hc : ∀ r ∈ l, 0 ≤ r.count) :
    (bands.map fun band => (band.2.map fun r => r.count).sum).sum ≤ (l.map fun r => r.count).sum := by
  induction h with
  | rest _ =>
    rw [List.map_nil, List.sum_nil]
    apply List.sum_nonneg
    intro x hx
    obtain ⟨r, hr, rfl⟩ := List.mem_map.1 hx
    exact hc r hr
  | @band o b l bs h1 h2 h3 h4 ih =>
    have := ih (fun r hr => hc r (by simp [hr]))
    rw [List.map_cons, List.sum_cons, List.map_append, List.sum_append]
    linarith

theorem points_count {rows : List (Bin K)} {bands : List (Nat × List (Bin K))} {l : List (Point K)} (h : List.Forall₂ (IsPoint rows) bands l) : (l.map fun p => p.count) = bands.map fun band => (band.2.map fun r => r.count).sum := by
  induction h with
  | nil => rfl
  | cons h _ ih =>
    obtain ⟨j, r, -, -, -, -, -, h1, -⟩ := h
    rw [List.map_cons, List.map_cons, ih, h1]

/-- C119: What goes wrong if the first table has more rows than the second: the number of rows is that of the second table in both loops, so that the modes in later rows are not in any point. -/
theorem C119_bins_defect [FloorRing K] {lg : K → K} (hlg : ∀ x y, 0 < x → x ≤ y → lg x ≤ lg y) (d : K) {a b : List (Bin K)} (hb : b ≠ []) (hab : b.length ≤ a.length) (hk : ∀ r ∈ a, 0 < r.k ∧ 0 ≤ r.count) {fuel : Nat}
    (hf : b.length ≤ fuel) {l : List (Point K)} (h : rebin lg d fuel b.length a = .ok l) :
    (l.map fun p => p.count).sum ≤ ((a.take b.length).map fun r => r.count).sum ∧ ∀ p ∈ l, ∃ r ∈ a.take b.length, p.k = r.k := by
  obtain ⟨bands, h1, h2⟩ := C119_complete hlg d (List.length_pos_iff.2 hb) hab hk
  obtain ⟨h3, h4⟩ := h2 fuel hf
  have hbn : bands ≠ [] := by
    intro hb0
    rw [h3 hb0] at h
    cases h
  obtain ⟨l', e1, e2⟩ := h4 hbn
  rw [h] at e1
  cases e1
  constructor
  · rw [points_count e2]
    exact bands_count h1 (fun r hr => (hk r (List.mem_of_mem_take hr)).2)
  · intro p hp
    obtain ⟨i, hi⟩ := List.mem_iff_getElem?.1 hp
    obtain ⟨hil, hie⟩ := List.getElem?_eq_some_iff.1 hi
    have hib : i < bands.length := by rw [e2.length_eq]; exact hil
    have hpt := (List.forall₂_iff_get.1 e2).2 i hib hil
    simp only [List.get_eq_getElem] at hpt
    rw [hie] at hpt
    obtain ⟨j, r, q1, q2, q3, -, -, -, q4, -⟩ := hpt
    obtain ⟨-, -, i3, -⟩ := bands_part h1 (bands[i]) (List.getElem_mem hib)
    rw [List.length_take] at i3
    refine ⟨r, ?_, q4⟩
    apply List.mem_of_getElem? (i := j)
    rw [List.getElem?_take_of_lt (by omega)]
    exact q3

/-! ### The plot -/

/-- C119: the linear spectrum has the rows with positive power and is continued with a power law to k = 400. -/
theorem C119_linear {log exp : K → K} (hlog : ∀ x y, 0 < x → 0 < y → log (x / y) = log x - log y) (hexp : ∀ x, log (exp x) = x) (growthfac : K) {table : List (K × K)} (hk : ∀ x ∈ table, 0 < x.1) :
    (linear log exp growthfac table = .error .indexError ∧ (table.filter fun x : K × K => decide (0 < x.2)).length < 2) ∨
    ∃ (front : List (K × K)) (k1 d1 k2 d2 e : K), (table.filter fun x : K × K => decide (0 < x.2)) = front ++ [(k1, d1), (k2, d2)] ∧
      log e - log d2 = (log d2 - log d1) / (log k2 - log k1) * (log 400 - log k2) ∧
      linear log exp growthfac table = .ok ((front ++ [(k1, d1), (k2, d2), (400, e)]).map fun x : K × K => (x.1, x.2 / (growthfac * growthfac))) := by
  obtain ⟨pos, hpos⟩ : ∃ pos, pos = table.filter fun x : K × K => decide (0 < x.2) := ⟨_, rfl⟩
  have hmem : ∀ x ∈ pos, 0 < x.1 ∧ 0 < x.2 := by
    intro x hx
    rw [hpos] at hx
    obtain ⟨h1, h2⟩ := List.mem_filter.1 hx
    exact ⟨hk x h1, by simpa using h2⟩
  unfold linear
  rw [← hpos]
  clear hpos
  rcases h : pos.reverse with _ | ⟨⟨k2, d2⟩, _ | ⟨⟨k1, d1⟩, front⟩⟩
  · left
    refine ⟨rfl, ?_⟩
    have := congrArg List.length h
    simp at this
    simp [this]
  · left
    refine ⟨rfl, ?_⟩
    have := congrArg List.length h
    simp at this
    omega
  · right
    have hp : pos = front.reverse ++ [(k1, d1), (k2, d2)] := by
      have := congrArg List.reverse h
      simpa using this
    have m1 := hmem (k1, d1) (by rw [hp]; simp)
    have m2 := hmem (k2, d2) (by rw [hp]; simp)
    refine ⟨front.reverse, k1, d1, k2, d2, exp (log (d2 / d1) / log (k2 / k1) * log (400 / k2) + log d2), hp, ?_, ?_⟩
    · rw [hexp, hlog _ _ m2.2 m1.2, hlog _ _ m2.1 m1.1, hlog _ _ (by norm_num) m2.1]
      ring
    · rw [hp]
      simp [pow_two]

/-- C119: what is plotted for two tables with the same number of rows, if the program does not stop: points of the second spectrum for k from 0.01 up to 5, points of the first one for k from 5 to 200, and error bars of
the second one, which are not below zero. -/
theorem C119_plot [FloorRing K] {lg log exp sqrt : K → K} (hsq : ∀ x, 0 ≤ x → 0 ≤ sqrt x ∧ sqrt x * sqrt x = x) (hlg : ∀ x y, 0 < x → x ≤ y → lg x ≤ lg y) {a b : List (Bin K)} (hab : a.length = b.length)
    (hk : ∀ r ∈ a ++ b, 0 < r.k ∧ 0 ≤ r.count) {lo hi : K} (hlo : (∃ r ∈ a, r.k = lo) ∧ ∀ r ∈ a, lo ≤ r.k) (hhi : (∃ r ∈ a, r.k = hi) ∧ ∀ r ∈ a, r.k ≤ hi) {growthfac : K} {table : List (K × K)} {fuel : Nat} (hf : b.length ≤ fuel) {plot : Plot K} (h : plotSpectrum lg log exp sqrt fuel a b growthfac table = .ok plot) :
    ∃ bandsA bandsB pa pb lin, Bands (Wide lg ((lg hi - lg lo) / 180) 140) 0 a bandsA ∧ List.Forall₂ (IsPoint a) bandsA pa ∧ Bands (Wide lg ((lg hi - lg lo) / 180) 140) 0 b bandsB ∧ List.Forall₂ (IsPoint b) bandsB pb ∧
      linear log exp growthfac table = .ok lin ∧ plot.linear = lin.map (fun x => (x.1, lg x.2)) ∧
      plot.red = ((pb.filter fun p => decide (1 / 100 ≤ p.k ∧ p.k < 5)).map fun p => (p.k, lg p.d2)) ∧ plot.blue = ((pa.filter fun p => decide (5 ≤ p.k ∧ p.k ≤ 200)).map fun p => (p.k, lg p.d2)) ∧
      plot.red ≠ [] ∧ plot.blue ≠ [] ∧
      plot.bars = ((pb.filter fun p => decide (p.count < 20000)).map fun p => (p.k, lg (p.d2 * (1 - 1 / sqrt (p.count / 2))), lg (p.d2 * (1 + 1 / sqrt (p.count / 2))))) ∧
      ∀ p ∈ pb, 0 < 1 - 1 / sqrt (p.count / 2) := by
  have hd : minDlogK lg a = (lg hi - lg lo) / 180 := by
    obtain ⟨⟨r1, m1, rfl⟩, l2⟩ := hlo
    obtain ⟨⟨r2, m2, rfl⟩, u2⟩ := hhi
    have h0 : (a.map fun r => r.k) ≠ [] := by
      intro h0
      rw [List.map_eq_nil_iff] at h0
      rw [h0] at m1
      cases m1
    obtain ⟨x1, x2⟩ := maxOf_mem h0
    obtain ⟨y1, y2⟩ := minOf_mem h0
    obtain ⟨r3, m3, e3⟩ := List.mem_map.1 x1
    obtain ⟨r4, m4, e4⟩ := List.mem_map.1 y1
    have e1 : maxOf (a.map fun r => r.k) = r2.k := le_antisymm (e3 ▸ u2 r3 m3) (x2 _ (List.mem_map_of_mem m2))
    have e2 : minOf (a.map fun r => r.k) = r1.k := le_antisymm (y2 _ (List.mem_map_of_mem m1)) (e4 ▸ l2 r4 m4)
    unfold minDlogK
    rw [e1, e2]
  rw [← hd]
  unfold plotSpectrum at h
  by_cases hne : a = [] ∨ b = []
  · rw [if_pos hne] at h
    cases h
  · rw [if_neg hne] at h
    push Not at hne
    obtain ⟨ha0, hb0⟩ := hne
    have hbl := List.length_pos_iff.2 hb0
    obtain ⟨bandsA, a1, a2⟩ := C119_complete hlg (minDlogK lg a) (rows := a) (bins := b.length) hbl (le_of_eq hab.symm) (fun r hr => hk r (by simp [hr]))
    obtain ⟨bandsB, b1, b2⟩ := C119_complete hlg (minDlogK lg a) (rows := b) (bins := b.length) hbl (le_refl _) (fun r hr => hk r (by simp [hr]))
    obtain ⟨a3, a4⟩ := a2 fuel hf
    obtain ⟨b3, b4⟩ := b2 fuel hf
    rw [← hab, List.take_length] at a1
    rw [List.take_length] at b1
    by_cases hA : bandsA = []
    · rw [a3 hA] at h
      cases h
    · by_cases hB : bandsB = []
      · obtain ⟨pa, a5, -⟩ := a4 hA
        rw [a5, b3 hB] at h
        cases h
      · obtain ⟨pa, a5, a6⟩ := a4 hA
        obtain ⟨pb, b5, b6⟩ := b4 hB
        rw [a5, b5] at h
        cases hlin : linear log exp growthfac table with
        | error e => rw [hlin] at h; cases h
        | ok lin =>
          rw [hlin] at h
          have h : (do
              let cb ← choose (fun p => decide (p.k < 5) && decide (1 / 100 ≤ p.k)) pb
              let ca ← choose (fun p => decide (5 ≤ p.k) && decide (p.k ≤ 200)) pa
              .ok (⟨lin.map (fun x : K × K => (x.1, lg x.2)), errorBars lg sqrt pb, cb.map (fun p : Point K => (p.k, lg p.d2)), ca.map (fun p : Point K => (p.k, lg p.d2))⟩ : Plot K)) = .ok plot := h
          unfold choose at h
          by_cases c1 : pb.filter (fun p => decide (p.k < 5) && decide (1 / 100 ≤ p.k)) = []
          · rw [if_pos c1] at h
            cases h
          · rw [if_neg c1] at h
            by_cases c2 : pa.filter (fun p => decide (5 ≤ p.k) && decide (p.k ≤ 200)) = []
            · rw [if_pos c2] at h
              cases h
            · rw [if_neg c2] at h
              cases h
              have e1 : (pb.filter fun p => decide (1 / 100 ≤ p.k ∧ p.k < 5)) = pb.filter (fun p => decide (p.k < 5) && decide (1 / 100 ≤ p.k)) := by
                apply List.filter_congr
                intro p _
                rw [Bool.decide_and, Bool.and_comm]
              have e2 : (pa.filter fun p => decide (5 ≤ p.k ∧ p.k ≤ 200)) = pa.filter (fun p => decide (5 ≤ p.k) && decide (p.k ≤ 200)) := by
                apply List.filter_congr
                intro p _
                rw [Bool.decide_and]
              have e3 : (pb.filter fun p => decide (p.count < 20000)) = pb.filter fun p => decide (p.count / 2 < 10000) := by
                apply List.filter_congr
                intro p _
                congr 1
                rw [div_lt_iff₀ (by norm_num)]
                norm_num
              refine ⟨bandsA, bandsB, pa, pb, lin, a1, a6, b1, b6, rfl, rfl, ?_, ?_, ?_, ?_, ?_, ?_⟩
              · rw [e1]
              · rw [e2]
              · simpa using c1
              · simpa using c2
              · rw [e3]
                rfl
              · intro p hp
                have hcount : 140 ≤ p.count := by
                  have hmem : p.count ∈ pb.map fun p => p.count := List.mem_map_of_mem hp
                  rw [points_count b6] at hmem
                  obtain ⟨band, hband, hbc⟩ := List.mem_map.1 hmem
                  rw [← hbc]
                  exact (bands_part b1 band hband).1.2
                obtain ⟨s1, s2⟩ := hsq (p.count / 2) (by linarith)
                have s3 : 1 < sqrt (p.count / 2) := by nlinarith
                have : 1 / sqrt (p.count / 2) < 1 := by
                  rw [div_lt_one (by linarith)]
                  exact s3
                linarith

/-! ### Examples -/

namespace ExSpectrum

/-- A table with 100 or more modes in each row -/
def rows : List (Bin ℚ) := [⟨1, 100, 1, 200, 1⟩, ⟨2, 100, 1, 400, 1⟩, ⟨3, 100, 1, 600, 1⟩, ⟨4, 150, 1, 600, 1⟩, ⟨100, 140, 1, 140, 2⟩, ⟨300, 100, 1, 100, 1⟩]

/-- Bands of rows 0 to 1 and 2 to 3 (with the identity in place of the logarithm); the third is rows 4 to 5. -/
example : rebin (fun x : ℚ => x) 1 10 6 rows = .ok [⟨1, 3, 200⟩, ⟨3, 24 / 5, 250⟩, ⟨100, 2, 240⟩] := by decide +kernel

/-- With four rows of the table -/
example : rebin (fun x : ℚ => x) 1 10 4 rows = .ok [⟨1, 3, 200⟩, ⟨3, 24 / 5, 250⟩] := by decide +kernel

/-- The table is too short: the last row is repeated, which does not make a band. -/
example : rebin (fun x : ℚ => x) 1 10 8 (rows.take 5) = .ok [⟨1, 3, 200⟩, ⟨3, 24 / 5, 250⟩] := by decide +kernel

/-- The hypotheses are met. -/
example := C119_complete (K := ℚ) (lg := fun x => x) (fun _ _ _ h => h) 1 (rows := rows) (bins := 6) (by decide) (by decide) (by decide +kernel)

/-- Another table -/
def rows2 : List (Bin ℚ) := [⟨1, 200, 1, 200, 1⟩, ⟨3, 200, 1, 400, 1⟩, ⟨10, 200, 1, 600, 1⟩, ⟨30, 200, 1, 800, 1⟩]

example : rebin (fun x : ℚ => x) (minDlogK (fun x => x) rows2) 10 4 rows2 = .ok [⟨1, 3 / 2, 400⟩, ⟨10, 7 / 2, 400⟩] := by decide +kernel

example : (plotSpectrum (fun x : ℚ => x) (fun x => x) (fun x => x) (fun _ => 10) 10 rows2 rows2 1 [(1, 1), (2, 0), (3, 2)]).map (fun p => (p.red, p.blue)) = .ok ([(1, 3 / 2)], [(10, 7 / 2)]) := by decide +kernel

/-- The points for k = 10 and 30 are missing if the second table has two rows. -/
example : rebin (fun x : ℚ => x) (minDlogK (fun x => x) rows2) 10 (rows2.take 2).length rows2 = .ok [⟨1, 3 / 2, 400⟩] := by decide +kernel

/-- The logarithms, the exponential function and the square root of real numbers meet the hypotheses. -/
example (table : List (ℝ × ℝ)) (hk : ∀ x ∈ table, 0 < x.1) := C119_linear (log := Real.log) (exp := Real.exp) (fun _ _ hx hy => Real.log_div (ne_of_gt hx) (ne_of_gt hy)) Real.log_exp 2 hk

example : (∀ x : ℝ, 0 ≤ x → 0 ≤ Real.sqrt x ∧ Real.sqrt x * Real.sqrt x = x) ∧ ∀ x y : ℝ, 0 < x → x ≤ y → Real.log x / Real.log 10 ≤ Real.log y / Real.log 10 := by
  refine ⟨fun x hx => ⟨Real.sqrt_nonneg x, Real.mul_self_sqrt hx⟩, ?_⟩
  intro x y hx h
  apply div_le_div_of_nonneg_right (Real.log_le_log hx h)
  exact Real.log_nonneg (by norm_num)

/-- No band -/
example : rebin (fun x : ℚ => x) 1 10 1 rows = .error .indexError := by decide +kernel

end ExSpectrum

end Verif.Spectrum
