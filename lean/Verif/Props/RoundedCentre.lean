import Verif.Model.RoundedCentre
import Verif.Props.RoundedSphere
import Verif.Props.GroupCoords

/-! C144: the centre of mass of a group with rounded operations -/

namespace Verif.FloatBits

/-- Positions `ys` are up to rounding relative to the centre of mass `c` of points `xs` in a periodic box (see `GroupLib.Centred`). -/
structure NearCentred (box : ℚ) (xs ys : List ℚ) (c : ℚ) : Prop where
  length : ys.length = xs.length
  mean : |ys.sum| ≤ xs.length * (box / 2 ^ 22)
  inside : 0 ≤ c ∧ c ≤ box
  image : ∀ (i : Nat) (x y : ℚ), xs[i]? = some x → ys[i]? = some y → ∃ k : Int, |y + c - (x + k * box)| ≤ box / 2 ^ 21
  near : ∀ y0 ∈ ys.head?, ∀ y ∈ ys, |y - y0| ≤ box / 2 + box / 2 ^ 22

section
variable {fl4 fl : ℚ → ℚ} (h4 : NearestTo 24 fl4) (hf : NearestTo 53 fl) {box : ℚ} (hb : 0 < box) (hbits : IsFloat 24 box)
include h4 hf hb hbits

theorem offset_near {x c : ℚ} (hc : 0 ≤ c ∧ c ≤ box) (hx : 0 ≤ x ∧ x ≤ box) :
    (∃ k : Int, |offsetFrom fl4 fl box c x - (x - c + k * box)| ≤ box / 2 ^ 23) ∧ |offsetFrom fl4 fl box c x| ≤ box / 2 := by
  have hd : |x - c| ≤ box := by rw [abs_le]; constructor <;> linarith [hc.1, hc.2, hx.1, hx.2]
  have hhalf : IsFloat 24 (box / 2) := by simpa using hbits.div 1
  have h53 : IsFloat 53 (box / 2) := hhalf.mono (by norm_num)
  have hb53 : IsFloat 53 box := hbits.mono (by norm_num)
  have small : ∀ z, |z| ≤ box / 2 → |fl4 z - z| ≤ 1 / 2 ^ 24 * (box / 2) ∧ |fl z - z| ≤ 1 / 2 ^ 53 * (box / 2) :=
    fun z hz => ⟨(h4.error_le z).trans (mul_le_mul_of_nonneg_left hz (by positivity)), (hf.error_le z).trans (mul_le_mul_of_nonneg_left hz (by positivity))⟩
  have e1 := (hf.error_le (x - c)).trans (mul_le_mul_of_nonneg_left hd (by positivity))
  have y1 : fl (x - c) ≤ box := hf.le hb53 (abs_le.1 hd).2
  have y2 : -box ≤ fl (x - c) := hf.ge hb53.neg (abs_le.1 hd).1
  unfold offsetFrom fofPeriodic
  generalize fl (x - c) = y at *
  rw [abs_le] at e1
  dsimp only
  by_cases h1 : y ≥ box / 2
  · rw [if_pos h1]
    have a1 : -(box / 2) ≤ fl (y - box) := hf.ge h53.neg (by linarith)
    have a2 : fl (y - box) ≤ 0 := hf.le (isFloat_zero _) (by linarith)
    rw [if_neg (by linarith)]
    have s1 := (small (y - box) (by rw [abs_le]; constructor <;> linarith)).2
    have s2 := (small (fl (y - box)) (by rw [abs_le]; constructor <;> linarith)).1
    rw [abs_le] at s1 s2
    refine ⟨⟨-1, ?_⟩, abs_le.2 ⟨h4.ge hhalf.neg a1, h4.le hhalf (by linarith)⟩⟩
    rw [abs_le]
    norm_num at *
    constructor <;> linarith
  · rw [if_neg h1]
    by_cases h2 : y < -(box / 2)
    · rw [if_pos h2]
      have a1 : 0 ≤ fl (y + box) := hf.ge (isFloat_zero _) (by linarith)
      have a2 : fl (y + box) ≤ box / 2 := hf.le h53 (by linarith)
      have s1 := (small (y + box) (by rw [abs_le]; constructor <;> linarith)).2
      have s2 := (small (fl (y + box)) (by rw [abs_le]; constructor <;> linarith)).1
      rw [abs_le] at s1 s2
      refine ⟨⟨1, ?_⟩, abs_le.2 ⟨h4.ge hhalf.neg (by linarith), h4.le hhalf a2⟩⟩
      rw [abs_le]
      norm_num at *
      constructor <;> linarith
    · rw [if_neg h2]
      have s2 := (small y (by rw [abs_le]; constructor <;> linarith)).1
      rw [abs_le] at s2
      refine ⟨⟨0, ?_⟩, abs_le.2 ⟨h4.ge hhalf.neg (by linarith), h4.le hhalf (by linarith)⟩⟩
      rw [abs_le]
      norm_num at *
      constructor <;> linarith

omit h4 in
/-- `fof_periodic_wrap` of a number which is at most 3/4 of the box outside -/
theorem wrap_near {t : ℚ} (h1 : -(3 / 4 * box) ≤ t) (h2 : t ≤ 7 / 4 * box) {fuel : Nat} (hfu : 2 ≤ fuel) :
    ∃ x, fofPeriodicWrap fl box fuel t = .ok x ∧ 0 ≤ x ∧ x ≤ box ∧ ∃ j : Int, |x - (t + j * box)| ≤ box / 2 ^ 53 := by
  obtain ⟨k, rfl⟩ : ∃ k, fuel = k + 2 := ⟨fuel - 2, by omega⟩
  have hb53 : IsFloat 53 box := hbits.mono (by norm_num)
  unfold fofPeriodicWrap
  by_cases c1 : t ≥ box
  · have e := (hf.error_le (t - box)).trans (mul_le_mul_of_nonneg_left (by rw [abs_le]; constructor <;> linarith : |t - box| ≤ box) (by positivity))
    have a1 : 0 ≤ fl (t - box) := hf.ge (isFloat_zero _) (by linarith)
    have e' := abs_le.1 e
    have a2 : fl (t - box) < box := by norm_num at e' ⊢; linarith
    refine ⟨fl (t - box), ?_, a1, a2.le, -1, ?_⟩
    · rw [wrapDown, if_pos c1, wrapDown, if_neg (by linarith)]
      change wrapUp fl box (k + 2) (fl (t - box)) = _
      rw [wrapUp, if_neg (by linarith)]
    · push_cast
      rw [show t + -1 * box = t - box by ring]
      exact e.trans (le_of_eq (by ring))
  · by_cases c2 : t < 0
    · have e := (hf.error_le (t + box)).trans (mul_le_mul_of_nonneg_left (by rw [abs_le]; constructor <;> linarith : |t + box| ≤ box) (by positivity))
      have a1 : 0 ≤ fl (t + box) := hf.ge (isFloat_zero _) (by linarith)
      refine ⟨fl (t + box), ?_, a1, hf.le hb53 (by linarith), 1, ?_⟩
      · rw [wrapDown, if_neg c1]
        change wrapUp fl box (k + 2) t = _
        rw [wrapUp, if_pos c2, wrapUp, if_neg (by linarith)]
      · push_cast
        rw [one_mul]
        exact e.trans (le_of_eq (by ring))
    · refine ⟨t, ?_, by linarith, by linarith, 0, ?_⟩
      · rw [wrapDown, if_neg c1]
        change wrapUp fl box (k + 2) t = _
        rw [wrapUp, if_neg c2]
      · simp only [Int.cast_zero, zero_mul, add_zero, sub_self, abs_zero]
        positivity

end

theorem pow_bound {ε : ℚ} (h0 : 0 ≤ ε) : ∀ n : ℕ, 2 * n * ε ≤ 1 → (1 + ε) ^ n ≤ 1 + 2 * n * ε := by
  intro n
  induction n with
  | zero => intro _; simp
  | succ n ih =>
    intro h
    push_cast at h ⊢
    have h1 := ih (by nlinarith)
    rw [pow_succ]
    have h2 : (1 + ε) ^ n * (1 + ε) ≤ (1 + 2 * n * ε) * (1 + ε) := mul_le_mul_of_nonneg_right h1 (by linarith)
    have h3 : 2 * (n : ℚ) * ε * ε ≤ 1 * ε := mul_le_mul_of_nonneg_right (by nlinarith) h0
    nlinarith

theorem sum_abs_le {l : List ℚ} {h : ℚ} (hl : ∀ d ∈ l, |d| ≤ h) : (l.map abs).sum ≤ l.length * h := by
  induction l with
  | nil => simp
  | cons a l ih =>
    have := hl a (by simp)
    have := ih (fun d hd => hl d (by simp [hd]))
    rw [List.map_cons, List.sum_cons, List.length_cons]
    push_cast
    linarith

theorem abs_sum_le (l : List ℚ) : |l.sum| ≤ (l.map abs).sum := by
  induction l with
  | nil => simp
  | cons a l ih => rw [List.sum_cons, List.map_cons, List.sum_cons]; exact (abs_add_le _ _).trans (by linarith)

/-- C144: the centre of mass of at most 2^29 particles and the positions relative to it are right up to one part in 2^21 of the box. The centre is in the box, but may be its upper end. -/
theorem C144_centre {fl4 fl : ℚ → ℚ} (h4 : NearestTo 24 fl4) (hf : NearestTo 53 fl) {box : ℚ} (hb : 0 < box) (hbits : IsFloat 24 box) {pos : List ℚ} (hne : pos ≠ []) (hn : pos.length ≤ 2 ^ 29)
    (hin : ∀ x ∈ pos, 0 ≤ x ∧ x ≤ box) {fuel : Nat} (hfu : 2 ≤ fuel) :
    ∃ ys c, recentre fl4 fl box fuel pos = .ok (ys, c) ∧ NearCentred box pos ys c := by
  obtain ⟨ref, tl, rfl⟩ : ∃ ref tl, pos = ref :: tl := by
    cases pos with
    | nil => exact absurd rfl hne
    | cons a l => exact ⟨a, l, rfl⟩
  have href := hin ref (by simp)
  unfold recentre
  dsimp only
  generalize hpos : ref :: tl = pos at *
  have hoff : ∀ x ∈ pos, (∃ k : Int, |offsetFrom fl4 fl box ref x - (x - ref + k * box)| ≤ box / 2 ^ 23) ∧ |offsetFrom fl4 fl box ref x| ≤ box / 2 :=
    fun x hx => offset_near h4 hf hb hbits href (hin x hx)
  have hd0 : offsetFrom fl4 fl box ref ref = 0 := by
    unfold offsetFrom fofPeriodic
    have g1 : ¬ (0 : ℚ) ≥ box / 2 := by linarith
    have g2 : ¬ (0 : ℚ) < -(box / 2) := by linarith
    rw [sub_self, hf.self (isFloat_zero _)]
    simp only [if_neg g1, if_neg g2]
    exact h4.self (isFloat_zero _)
  set d := pos.map (offsetFrom fl4 fl box ref) with hd
  have hdl : d.length = pos.length := by rw [hd, List.length_map]
  have hdabs : ∀ y ∈ d, |y| ≤ box / 2 := by
    intro y hy
    obtain ⟨x, hx, rfl⟩ := List.mem_map.1 hy
    exact (hoff x hx).2
  have hnpos : (0 : ℚ) < pos.length := by rw [← hpos]; simp; positivity
  have hnq : (pos.length : ℚ) ≤ 2 ^ 29 := by exact_mod_cast hn
  set n : ℚ := (pos.length : ℚ) with hnn
  -- the sum
  have hS := fold_error (ε := 1 / 2 ^ 53) (by positivity) hf.error_le id id abs d 0 0 0 0 (by simp) (by simp) (by simp)
  simp only [List.map_id, zero_add] at hS
  have hsum := sum_abs_le hdabs
  have hpow := pow_bound (ε := 1 / 2 ^ 53) (by positivity) d.length (by rw [hdl, ← hnn]; norm_num at hnq ⊢; linarith)
  rw [hdl] at hpow hsum
  rw [← hnn] at hpow hsum
  have habs := abs_sum_le d
  have hsnn : 0 ≤ (d.map abs).sum := (abs_nonneg _).trans habs
  set S := d.foldl (fun a u => fl (a + u)) 0 with hSdef
  have hS1 : |S - d.sum| ≤ n * (n * (box / 2 ^ 53)) := by
    refine hS.trans ?_
    rw [hdl]
    calc ((1 + 1 / 2 ^ 53 : ℚ) ^ pos.length - 1) * (d.map abs).sum ≤ (2 * n * (1 / 2 ^ 53)) * (n * (box / 2)) :=
          mul_le_mul (by linarith) hsum hsnn (by positivity)
      _ = _ := by ring
  -- the mean
  have hm1 : |S / n - d.sum / n| ≤ box / 2 ^ 24 := by
    rw [← sub_div, abs_div, abs_of_pos hnpos, div_le_iff₀ hnpos]
    refine hS1.trans ?_
    have : n * (box / 2 ^ 53) ≤ box / 2 ^ 24 := by
      have : n * (box / 2 ^ 53) ≤ 2 ^ 29 * (box / 2 ^ 53) := mul_le_mul_of_nonneg_right hnq (by positivity)
      refine this.trans (le_of_eq ?_)
      ring
    rw [mul_comm (box / 2 ^ 24)]
    exact mul_le_mul_of_nonneg_left this hnpos.le
  have hm2 : |d.sum / n| ≤ box / 2 := by
    rw [abs_div, abs_of_pos hnpos, div_le_iff₀ hnpos]
    linarith
  have hm3 : |S / n| ≤ box := by
    have := abs_sub_abs_le_abs_sub (S / n) (d.sum / n)
    norm_num at hm1
    linarith
  have hm4 := (hf.error_le (S / n)).trans (mul_le_mul_of_nonneg_left hm3 (by positivity))
  set s := fl (S / n) with hs
  have hs1 : |s - d.sum / n| ≤ box / 2 ^ 23 := by
    have := abs_add_le (s - S / n) (S / n - d.sum / n)
    rw [show s - S / n + (S / n - d.sum / n) = s - d.sum / n by ring] at this
    norm_num at this hm1 hm4 ⊢
    linarith
  have hs2 : |s| ≤ box / 2 + box / 2 ^ 23 := by
    have := abs_sub_abs_le_abs_sub s (d.sum / n)
    linarith
  -- positions
  have hy : ∀ p ∈ d, |fl4 (fl (p - s)) - (p - s)| ≤ box / 2 ^ 23 := by
    intro p hp
    have g1 := hdabs p hp
    have g2 : |p - s| ≤ 3 / 2 * box := by
      have := abs_sub p s
      norm_num at hs2
      linarith
    have g3 := (hf.error_le (p - s)).trans (mul_le_mul_of_nonneg_left g2 (by positivity))
    have g4 : |p - s| ≤ 101 / 100 * box := by
      have := abs_sub p s
      norm_num at hs2
      linarith
    have g5 : |fl (p - s)| ≤ 3 / 2 * box := by
      have := abs_sub_abs_le_abs_sub (fl (p - s)) (p - s)
      norm_num at g3
      linarith
    have g6 := (h4.error_le (fl (p - s))).trans (mul_le_mul_of_nonneg_left g5 (by positivity))
    have := abs_add_le (fl4 (fl (p - s)) - fl (p - s)) (fl (p - s) - (p - s))
    rw [show fl4 (fl (p - s)) - fl (p - s) + (fl (p - s) - (p - s)) = fl4 (fl (p - s)) - (p - s) by ring] at this
    norm_num at this g3 g6 ⊢
    linarith
  -- the centre
  have ht0 : |s + ref| ≤ 2 * box := by
    have := abs_add_le s ref
    rw [abs_of_nonneg href.1] at this
    norm_num at hs2
    linarith [href.2]
  have ht1 := (hf.error_le (s + ref)).trans (mul_le_mul_of_nonneg_left ht0 (by positivity))
  have ht1' := abs_le.1 ht1
  have hs2' := abs_le.1 hs2
  obtain ⟨x, hx, hx0, hx1, j, hj⟩ := wrap_near hf hb hbits (t := fl (s + ref)) (by norm_num at ht1' hs2' ⊢; linarith [href.1]) (by norm_num at ht1' hs2' ⊢; linarith [href.2]) hfu
  rw [hx]
  refine ⟨_, _, rfl, ?_, ?_, ?_, ?_, ?_⟩
  · rw [List.length_map, hdl]
  · -- sum of positions
    have key : ∀ l : List ℚ, (∀ p ∈ l, p ∈ d) → |(l.map (fun p => fl4 (fl (p - s)))).sum - (l.sum - l.length * s)| ≤ l.length * (box / 2 ^ 23) := by
      intro l
      induction l with
      | nil => intro _; simp
      | cons a l ih =>
        intro hl
        have g1 := ih (fun p hp => hl p (by simp [hp]))
        have g2 := hy a (hl a (by simp))
        rw [List.map_cons, List.sum_cons, List.sum_cons, List.length_cons]
        push_cast
        have := abs_add_le (fl4 (fl (a - s)) - (a - s)) ((l.map (fun p => fl4 (fl (p - s)))).sum - (l.sum - l.length * s))
        rw [show fl4 (fl (a - s)) - (a - s) + ((l.map (fun p => fl4 (fl (p - s)))).sum - (l.sum - l.length * s)) =
          fl4 (fl (a - s)) + (l.map (fun p => fl4 (fl (p - s)))).sum - (a + l.sum - (l.length + 1) * s) by ring] at this
        linarith
    have g1 := key d (fun _ h => h)
    rw [hdl, ← hnn] at g1
    have g2 : |d.sum - n * s| ≤ n * (box / 2 ^ 23) := by
      have : d.sum - n * s = -(n * (s - d.sum / n)) := by field_simp; ring
      rw [this, abs_neg, abs_mul, abs_of_pos hnpos]
      exact mul_le_mul_of_nonneg_left hs1 hnpos.le
    have g3 := abs_add_le ((d.map (fun p => fl4 (fl (p - s)))).sum - (d.sum - n * s)) (d.sum - n * s)
    rw [sub_add_cancel] at g3
    refine g3.trans ((add_le_add g1 g2).trans (le_of_eq ?_))
    ring
  · exact ⟨h4.ge (isFloat_zero _) hx0, h4.le hbits hx1⟩
  · intro i a y ha hyi
    rw [List.getElem?_map, hd, List.getElem?_map, ha] at hyi
    simp only [Option.map_some, Option.some.injEq] at hyi
    have hmem := List.mem_of_getElem? ha
    obtain ⟨k, hk⟩ := (hoff a hmem).1
    have g1 := hy _ (List.mem_map_of_mem hmem)
    rw [hyi] at g1
    have g2 := (h4.error_le x).trans (mul_le_mul_of_nonneg_left (by rw [abs_of_nonneg hx0]; exact hx1 : |x| ≤ box) (by positivity))
    refine ⟨k + j, ?_⟩
    rw [abs_le] at *
    push_cast
    norm_num at *
    constructor <;> linarith [hk.1, hk.2, g1.1, g1.2, g2.1, g2.2, hj.1, hj.2, ht1.1, ht1.2]
  · intro y0 h0 y hyy
    obtain ⟨p, hp, rfl⟩ := List.mem_map.1 hyy
    have e0 : y0 = fl4 (fl (0 - s)) := by
      rw [hd, ← hpos] at h0
      simp only [List.map_cons, List.head?_cons, Option.mem_def, Option.some.injEq] at h0
      rw [← h0, hd0]
    have g0 := hy 0 (by rw [hd, ← hpos, List.map_cons, hd0]; simp)
    rw [← e0] at g0
    have g1 := hy p hp
    have g2 := hdabs p hp
    rw [abs_le] at *
    norm_num at *
    constructor <;> linarith [g0.1, g0.2, g1.1, g1.2, g2.1, g2.2]

/-- Numbers a little below a floating point number are rounded to it. -/
theorem NearestTo.up {p : ℕ} (hp : 1 ≤ p) {fl : ℚ → ℚ} (hf : NearestTo p fl) {x y : ℚ} (hy : IsFloat p y) (hy0 : 0 < y) (h0 : 0 ≤ x) (h1 : y - y / 2 ^ (p + 1) < x) (h2 : x ≤ y) : fl x = y := by
  refine le_antisymm (hf.le hy h2) ?_
  by_contra hlt
  rw [not_le] at hlt
  have g1 := (hf x).1.gap hp hy (hf.ge (isFloat_zero p) h0) hlt
  have g2 := (hf x).2 y hy
  rw [abs_of_nonneg (by linarith : 0 ≤ y - x)] at g2
  have g3 := (abs_le.1 g2).1
  have e : y / 2 ^ (p + 1) = y * (1 / 2 ^ p) / 2 := by rw [pow_succ]; field_simp
  rw [e] at h1
  rw [mul_sub, mul_one] at g1
  linarith

/-- C144: if the mean is negative, but by less than one part in 2^26 of the box, the centre which is returned is the size of the box. It is then not in the box. -/
theorem C144_wrap_defect {fl4 fl : ℚ → ℚ} (h4 : NearestTo 24 fl4) (hf : NearestTo 53 fl) {box : ℚ} (hb : 0 < box) (hbits : IsFloat 24 box) {t : ℚ} (h1 : -(box / 2 ^ 26) ≤ t) (h2 : t < 0) {fuel : Nat}
    (hfu : 2 ≤ fuel) : (fofPeriodicWrap fl box fuel t).map fl4 = .ok box := by
  obtain ⟨k, rfl⟩ : ∃ k, fuel = k + 2 := ⟨fuel - 2, by omega⟩
  have e := (hf.error_le (t + box)).trans (mul_le_mul_of_nonneg_left (by norm_num at h1; rw [abs_le]; constructor <;> linarith : |t + box| ≤ box) (by positivity))
  rw [abs_le] at e
  have a1 : 0 ≤ fl (t + box) := hf.ge (isFloat_zero _) (by norm_num at h1; linarith)
  have hv : fofPeriodicWrap fl box (k + 2) t = .ok (fl (t + box)) := by
    unfold fofPeriodicWrap
    rw [wrapDown, if_neg (by linarith)]
    change wrapUp fl box (k + 2) t = _
    rw [wrapUp, if_pos h2, wrapUp, if_neg (by linarith)]
  rw [hv]
  refine congrArg Except.ok (h4.up (by norm_num) hbits hb a1 ?_ (hf.le (hbits.mono (by norm_num)) (by linarith)))
  norm_num at e h1 ⊢
  linarith

/-- C144: two particles near the side of a box of 500, the first of them in it by the last bit of its position, and the other one on the other side. The centre is 500. -/
theorem C144_box_defect {fl4 fl : ℚ → ℚ} (h4 : NearestTo 24 fl4) (hf : NearestTo 53 fl) :
    ∃ ys, recentre fl4 fl 500 2 [500 - 1 / 2 ^ 15, 1 / 2 ^ 16] = .ok (ys, 500) := by
  have f4 : ∀ (m e : ℤ), |m| ≤ 2 ^ 24 → fl4 (m * 2 ^ e) = m * 2 ^ e := fun m e h => h4.self ⟨m, e, h, rfl⟩
  have f8 : ∀ (m e : ℤ), |m| ≤ 2 ^ 53 → fl (m * 2 ^ e) = m * 2 ^ e := fun m e h => hf.self ⟨m, e, h, rfl⟩
  have z4 : fl4 0 = 0 := h4.self (isFloat_zero _)
  have z8 : fl 0 = 0 := hf.self (isFloat_zero _)
  have a1 := f8 (3 - 32768000) (-16) (by norm_num)
  have a2 := f8 3 (-16) (by norm_num)
  have a3 := f4 3 (-16) (by norm_num)
  have a4 := f8 3 (-17) (by norm_num)
  have a5 := f8 (65536000 - 1) (-17) (by norm_num)
  have a6 : fl4 (500 - 1 / 2 ^ 17) = 500 := h4.up (by norm_num) ⟨500, 0, by norm_num, by norm_num⟩ (by norm_num) (by norm_num) (by norm_num) (by norm_num)
  norm_num [zpow_neg] at a1 a2 a3 a4 a5 a6
  unfold recentre
  simp only [List.map_cons, List.map_nil, List.foldl_cons, List.foldl_nil, List.length_cons, List.length_nil]
  have d0 : offsetFrom fl4 fl 500 (500 - 1 / 2 ^ 15) (500 - 1 / 2 ^ 15) = 0 := by
    unfold offsetFrom fofPeriodic
    norm_num [z4, z8]
  have d1 : offsetFrom fl4 fl 500 (500 - 1 / 2 ^ 15) (1 / 2 ^ 16) = 3 / 65536 := by
    unfold offsetFrom fofPeriodic
    norm_num [a1, a2, a3]
  rw [d0, d1]
  have hs : fl (fl (fl (0 + 0) + 3 / 65536) / ((0 + 1 + 1 : ℕ) : ℚ)) = 3 / 131072 := by norm_num [z8, a2, a4]
  have ht : fl (3 / 131072 + (500 - 1 / 2 ^ 15)) = 65535999 / 131072 := by norm_num [a5]
  have hw : fofPeriodicWrap fl 500 2 (65535999 / 131072) = .ok (65535999 / 131072) := by
    unfold fofPeriodicWrap
    rw [wrapDown, if_neg (by norm_num)]
    change wrapUp fl 500 2 (65535999 / 131072) = _
    rw [wrapUp, if_neg (by norm_num)]
  rw [hs, ht, hw]
  refine ⟨[fl4 (fl (0 - 3 / 131072)), fl4 (fl (3 / 65536 - 3 / 131072))], ?_⟩
  rw [← a6]
  rfl

/-- C144 for all three coordinates -/
theorem recentreAll_near {fl4 fl : ℚ → ℚ} (h4 : NearestTo 24 fl4) (hf : NearestTo 53 fl) {box : ℚ} (hb : 0 < box) (hbits : IsFloat 24 box) {ws rest : List GroupLib.Vec} (hne : ws ≠ [])
    (hn : ws.length ≤ 2 ^ 29) (hx : ∀ w ∈ ws, (0 ≤ w.1 ∧ w.1 ≤ box) ∧ (0 ≤ w.2.1 ∧ w.2.1 ≤ box) ∧ (0 ≤ w.2.2 ∧ w.2.2 ≤ box)) {fuel : Nat} (hfu : 2 ≤ fuel) :
    ∃ vs c, recentreAll fl4 fl box fuel ws.length (ws ++ rest) = .ok (vs ++ rest, c) ∧ NearCentred box (ws.map (·.1)) (vs.map (·.1)) c.1 ∧
      NearCentred box (ws.map (·.2.1)) (vs.map (·.2.1)) c.2.1 ∧ NearCentred box (ws.map (·.2.2)) (vs.map (·.2.2)) c.2.2 := by
  have one : ∀ g : GroupLib.Vec → ℚ, (∀ w ∈ ws, 0 ≤ g w ∧ g w ≤ box) → ∃ ys c, recentre fl4 fl box fuel (ws.map g) = .ok (ys, c) ∧ NearCentred box (ws.map g) ys c := fun g hg =>
    C144_centre h4 hf hb hbits (by simpa using hne) (by simpa using hn) (by
      intro x hx
      obtain ⟨w, hw, rfl⟩ := List.mem_map.1 hx
      exact hg w hw) hfu
  obtain ⟨xs, cx, x1, x2⟩ := one (·.1) (fun w hw => (hx w hw).1)
  obtain ⟨ys, cy, y1, y2⟩ := one (·.2.1) (fun w hw => (hx w hw).2.1)
  obtain ⟨zs, cz, z1, z2⟩ := one (·.2.2) (fun w hw => (hx w hw).2.2)
  have lx := x2.length
  have ly := y2.length
  have lz := z2.length
  rw [List.length_map] at lx ly lz
  have e2 : (ys.zip zs).length = ws.length := by rw [List.length_zip, ly, lz, min_self]
  have m1 : (xs.zip (ys.zip zs)).map (·.1) = xs := List.map_fst_zip (by omega)
  have m2 : (xs.zip (ys.zip zs)).map (·.2) = ys.zip zs := List.map_snd_zip (by omega)
  have m3 : (xs.zip (ys.zip zs)).map (·.2.1) = ys := by
    rw [show (fun v : GroupLib.Vec => v.2.1) = (fun v : ℚ × ℚ => v.1) ∘ (fun v : GroupLib.Vec => v.2) from rfl, ← List.map_map, m2]
    exact List.map_fst_zip (by omega)
  have m4 : (xs.zip (ys.zip zs)).map (·.2.2) = zs := by
    rw [show (fun v : GroupLib.Vec => v.2.2) = (fun v : ℚ × ℚ => v.2) ∘ (fun v : GroupLib.Vec => v.2) from rfl, ← List.map_map, m2]
    exact List.map_snd_zip (by omega)
  refine ⟨xs.zip (ys.zip zs), (cx, cy, cz), ?_, ?_, ?_, ?_⟩
  · have hpos := List.length_pos_of_ne_nil hne
    unfold recentreAll
    rw [if_neg (by rw [List.length_append]; omega), List.take_left, List.drop_left]
    dsimp only
    rw [x1, y1, z1]
    rfl
  · rw [m1]; exact x2
  · rw [m3]; exact y2
  · rw [m4]; exact z2

section
open CPeano ReadParticles ReadRegion
open GroupLib hiding getGroupCoordinates groupPositions recentre fofPeriodic fofPeriodicWrap wrapUp wrapDown sphereKeys getSphericalRegionCount getSphericalRegionCoordinates

variable {sys : Bool} {fs : ByteFS} {dir base : Name} {num : Nat} {Cs : Nat → Content} {n cells : Nat → Nat} {start : Nat → Nat → Nat} {nfile : Nat}
  {Gs : Nat → Content} {ng : Nat → Nat} {minlen ngfile : Nat} {C : Content} {f g o len ni : Nat} {val4 val8 : List Byte → Rat} {qsort : List Nat → List Nat} {box box0 : Rat} {pos : List Vec}

theorem coords_start {fl4 fl : ℚ → ℚ} {ids : List Nat} (S : Snapshot Cs n cells start nfile) (hn : nfile ≤ 2 ^ 30) {R : List Particle} (hR : R = region Cs n cells start nfile (cellFlags (pre cells nfile) ids))
    (hsize : R.length < 2 ^ 29) (hcells : ∀ id ∈ ids, idCell id < pre cells nfile) {fuel : Nat} (hids : groupIds sys fs dir num f g len = .ok ids) :
    getGroupCoordinates fl4 fl sys fs dir base num val4 val8 qsort fuel (wholeTable n cells start nfile) (pre cells nfile) g f len box0 pos =
      afterMark (pre cells nfile) (flagTab (pre cells nfile) (fileAt n cells start nfile) (fun c => decide (c ∈ ids.map idCell)))
        (groupPositions fl4 fl sys fs dir base num val4 val8 qsort fuel (wholeTable n cells start nfile) (pre cells nfile)
          (flagTab (pre cells nfile) (fileAt n cells start nfile) (fun c => decide (c ∈ ids.map idCell))) R.length ids box0 pos) := by
  rw [region_flags] at hR
  have hl := whole_file_length (n := n) (cells := cells) (start := start) nfile
  have hlf : ∀ P, (flagTab (pre cells nfile) (fileAt n cells start nfile) P).length = pre cells nfile := by intro P; simp [flagTab]
  have hRl := length_if (fun c => decide (c ∈ ids.map idCell)) (cellAt Cs n cells start nfile) (pre cells nfile)
  rw [← hR] at hRl
  have hmark := markLoop_ok (t := wholeTable n cells start nfile) (size := pre cells nfile) (file := fileAt n cells start nfile) (len := fun c => (cellAt Cs n cells start nfile c).length)
    (fun c hc => (cell_ok (sys := sys) (fs := fs) (dir := dir) (base := base) (num := num) S hc).1) ids (fun _ => false) (fun c => decide (c ∈ ids.map idCell)) hcells (by intro c; simp) (by rw [← hRl]; omega)
  have h0 : ((List.range (pre cells nfile)).map (fun c => if (false = true) then (cellAt Cs n cells start nfile c).length else 0)).sum = 0 := by
    simp
  rw [h0, ← hRl, Nat.cast_zero] at hmark
  unfold getGroupCoordinates
  rw [hids]
  dsimp only
  rw [if_neg (by omega), shift_ok hn, List.drop_of_length_le (l := (wholeTable n cells start nfile).filetable) (by omega)]
  dsimp only
  rw [List.append_nil, hmark]

/-- C144: `get_group_coordinates` finds the positions of the particles of a group as in C89, up to rounding. -/
theorem C144_coordinates {fl4 fl : ℚ → ℚ} (h4 : NearestTo 24 fl4) (hfl : NearestTo 53 fl) (hbits : IsFloat 24 box) (hmany : len ≤ 2 ^ 29) (S : HashedSnapshot Cs n cells start nfile) (hs : SnapStored sys fs dir base num Cs n cells nfile) (hn : nfile ≤ 2 ^ 30)
    (T : GroupTabs Gs ng minlen ngfile) (ht : TabsStored sys fs dir num Gs ng minlen ngfile) (hf : f < ngfile) (hg : g < ng f) (ho : int32Value ((Gs f "GroupOffset".toList).getD g []) = o)
    (hi : IdsStored sys fs dir num f C ni) (hl : o + len ≤ ni) (h0 : 0 < len) (hcells : ∀ id ∈ idsOf C o len, idCell id < pre cells nfile)
    {R : List Particle} (hR : R = region Cs n cells start nfile (cellFlags (pre cells nfile) (idsOf C o len))) (hsize : R.length < 2 ^ 29)
    (hfound : ∀ id ∈ idsOf C o len, ∃ p ∈ R, lowOf p = lowId id) (hq : ∀ l, QSorted idSortCompareKey l (qsort l))
    (hbox : ∀ f < nfile, val8 ((Cs f "Header/BoxSize".toList).headD []) = box) (hb : 0 < box)
    (hin : ∀ p ∈ R, (0 ≤ val4 p.x ∧ val4 p.x ≤ box) ∧ (0 ≤ val4 p.y ∧ val4 p.y ≤ box) ∧ (0 ≤ val4 p.z ∧ val4 p.z ≤ box)) (hpos : len ≤ pos.length) {fuel : Nat} (hfu : 2 ≤ fuel) :
    ∃ (ps : List Particle) (vs : List Vec) (c : Vec),
      getGroupCoordinates fl4 fl sys fs dir base num val4 val8 qsort fuel (wholeTable n cells start nfile) (pre cells nfile) g f len box0 pos =
        ⟨.ok (vs ++ pos.drop len, c), (wholeTable n cells start nfile).filetable⟩ ∧
      (ps.map lowOf).Perm ((idsOf C o len).map lowId) ∧ (ps.map lowOf).Pairwise (· ≤ ·) ∧ (∀ p ∈ ps, p ∈ R) ∧
      NearCentred box (ps.map fun p => val4 p.x) (vs.map (·.1)) c.1 ∧ NearCentred box (ps.map fun p => val4 p.y) (vs.map (·.2.1)) c.2.1 ∧
      NearCentred box (ps.map fun p => val4 p.z) (vs.map (·.2.2)) c.2.2 := by
  have hids := groupIds_ok T ht hf hg ho hi hl
  have hcl : (C "GroupIDs".toList).length = ni := by
    have := (hi.fits.rows ⟨false, [Files.col 8 ni "GroupIDs"]⟩ (by rw [ids_sections]; simp) (Files.col 8 ni "GroupIDs") (by simp)).1
    exact this.trans (by simp [Files.col])
  have hlen : (idsOf C o len).length = len := by
    unfold idsOf slice
    rw [List.length_map, List.length_take, List.length_drop]
    omega
  generalize hG : idsOf C o len = ids at *
  have hne : ∃ id ∈ ids, idCell id < pre cells nfile := by
    obtain ⟨id, hid⟩ := List.exists_mem_of_length_pos (show 0 < ids.length by omega)
    exact ⟨id, hid, hcells id hid⟩
  obtain ⟨l1, ⟨boxes, b, l2, l3, l4⟩, l5⟩ := loops_ok S.toSnapshot hs hR hbox hne
  obtain ⟨ps, m1, m2, m3, m4, m5⟩ := match_ok (val4 := val4) hsize hq hfound (pos := pos) (by omega)
  have hpl : (ps.map (vecOf val4)).length = ids.length := by
    have := m2.length_eq
    rw [List.length_map, List.length_map] at this
    rw [List.length_map, this]
  obtain ⟨vs, c, r1, r2, r3, r4⟩ := recentreAll_near h4 hfl (ws := ps.map (vecOf val4)) (rest := pos.drop ids.length) hb hbits (by intro h; rw [h] at hpl; simp at hpl; omega) (by omega) (by
        intro w hw
        obtain ⟨p, hp, rfl⟩ := List.mem_map.1 hw
        exact hin p (m4 p hp)) hfu
  have hroom : cInt (3 * (R.length : Int)) = .ok (3 * (R.length : Int)) := cInt_ok (by omega) (by omega)
  have hg : groupPositions fl4 fl sys fs dir base num val4 val8 qsort fuel (wholeTable n cells start nfile) (pre cells nfile)
      (flagTab (pre cells nfile) (fileAt n cells start nfile) (fun c => decide (c ∈ ids.map idCell))) R.length ids box0 pos = .ok (vs ++ pos.drop ids.length, c) := by
    unfold groupPositions
    rw [bindOk _ hroom, show (3 * (R.length : Int)).toNat = 3 * R.length by omega, bindOk _ l1, bindOk _ l2, Int.toNat_natCast, bindOk _ l5, l3]
    dsimp only
    rw [hpl] at r1
    rw [bindOk _ m1, l4, m5, r1]
  refine ⟨ps, vs, c, ?_, m2, m3, m4, ?_, ?_, ?_⟩
  · rw [coords_start S.toSnapshot hn hR hsize hcells hids, hg, afterMark_ok, hlen]
  · rw [List.map_map] at r2; exact r2
  · rw [List.map_map] at r3; exact r3
  · rw [List.map_map] at r4; exact r4

end

namespace ExRoundedCentre

/-- Three particles on both sides of a box of 100, without rounding: the mean is 0. -/
example : recentre id id 100 2 [98, 1, 1] = .ok ([-2, 1, 1], 0) ∧ recentre id id 100 2 [1, 97, 98] = .ok ([7 / 3, -5 / 3, -2 / 3], 296 / 3) := by decide +kernel

/-- The theorem applied to them, with any rounding -/
example {fl4 fl : ℚ → ℚ} (h4 : NearestTo 24 fl4) (hf : NearestTo 53 fl) :
    ∃ ys c, recentre fl4 fl 100 2 [1, 97, 98] = .ok (ys, c) ∧ NearCentred 100 [1, 97, 98] ys c :=
  C144_centre h4 hf (by norm_num) ⟨25, 2, by norm_num, by norm_num⟩ (by simp) (by simp) (by
    intro x hx
    simp only [List.mem_cons, List.not_mem_nil, or_false] at hx
    rcases hx with rfl | rfl | rfl <;> norm_num) (by norm_num)

/-- Roundings exist. -/
example : ∃ fl4 fl : ℚ → ℚ, NearestTo 24 fl4 ∧ NearestTo 53 fl := by
  obtain ⟨a, ha⟩ := exists_nearestTo (p := 24) (by norm_num)
  obtain ⟨b, hb⟩ := exists_nearestTo (p := 53) (by norm_num)
  exact ⟨a, b, ha, hb⟩

/-- The group of C89, whose centre is at 1 in a box of 100, which has 5 bits -/
example : (getGroupCoordinates id id true ExGroupCoords.store "d".toList "snap".toList 63 (fun v => (leNat v : Rat)) (fun v => (leNat v : Rat)) (List.foldr ExGroupCoords.insertId []) 2
    ⟨[0, 2, 0, 0, 1], [0, 0, 1, 1, 1], [1, 4], [3, 2]⟩ 5 1 0 3 0 [(0, 0, 0), (0, 0, 0), (0, 0, 0)]).result = .ok ([(2, 4 / 3, 4 / 3), (-2, -2 / 3, -2 / 3), (0, -2 / 3, -2 / 3)], (1, 32 / 3, 62 / 3)) ∧
    IsFloat 24 (100 : ℚ) :=
  ⟨by decide +kernel, 25, 2, by norm_num, by norm_num⟩

end ExRoundedCentre

end Verif.FloatBits
