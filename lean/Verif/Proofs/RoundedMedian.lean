import Verif.Model.RoundedSplit
import Verif.Proofs.Double
import Verif.Proofs.WeightedMedian

/-! Lemmas for weighted medians with rounding -/

namespace Verif.Rounded

open Double

variable {α : Type*} [LinearOrder α] [Inhabited α] {fl : ℚ → ℚ}

/-- One minus the relative error of one operation -/
def d : ℚ := 1 - 1 / 2 ^ 53

theorem d_pos : 0 < d := by unfold d; norm_num
theorem d_le : d ≤ 1 := by unfold d; norm_num

theorem fl_ge (hf : Nearest fl) {x : ℚ} (hx : 0 ≤ x) : d * x ≤ fl x := by
  have := (abs_le.1 (hf.error hx)).1
  have h2 : d * x = x - x / 2 ^ 53 := by unfold d; ring
  rw [h2]; linarith

theorem fl_le (hf : Nearest fl) {x : ℚ} (hx : 0 ≤ x) : d * fl x ≤ x := by
  have h1 := (abs_le.1 (hf.error hx)).2
  have h2 : d * fl x ≤ d * (x + x / 2 ^ 53) := mul_le_mul_of_nonneg_left (by linarith) d_pos.le
  have h3 : d * (x + x / 2 ^ 53) = x - x * (1 / 2 ^ 106) := by unfold d; ring
  have h4 : 0 ≤ x * (1 / 2 ^ 106) := mul_nonneg hx (by norm_num)
  linarith

theorem pow_d {m n : Nat} (h : n ≤ m) : d ^ m ≤ d ^ n := pow_le_pow_of_le_one d_pos.le d_le h

theorem tree (hf : Nearest fl) {l : List ℚ} {s : ℚ} (h : SumTree fl l s) : (∀ x ∈ l, IsDouble x ∧ 0 ≤ x) →
    l ≠ [] ∧ IsDouble s ∧ 0 ≤ s ∧ (∀ x ∈ l, x ≤ s) ∧ d ^ l.length * s ≤ l.sum := by
  induction h with
  | one x =>
    intro hl
    obtain ⟨h1, h2⟩ := hl x (by simp)
    refine ⟨by simp, h1, h2, by simp, ?_⟩
    simp only [List.length_cons, List.length_nil, List.sum_cons, List.sum_nil, zero_add, pow_one, add_zero]
    nlinarith [d_le]
  | @add l₁ l₂ l a b _ _ hp ih1 ih2 =>
    intro hl
    obtain ⟨n1, d1, p1, b1, s1⟩ := ih1 (fun x hx => hl x (hp.mem_iff.2 (by simp [hx])))
    obtain ⟨n2, d2, p2, b2, s2⟩ := ih2 (fun x hx => hl x (hp.mem_iff.2 (by simp [hx])))
    have hab : 0 ≤ a + b := by linarith
    refine ⟨?_, (hf _).1, hf.ge isDouble_zero hab, ?_, ?_⟩
    · rintro rfl
      have := hp.length_eq
      simp only [List.length_nil, List.length_append] at this
      exact n1 (List.eq_nil_of_length_eq_zero (by omega))
    · intro x hx
      rcases List.mem_append.1 (hp.mem_iff.1 hx) with h | h
      · exact (b1 x h).trans (hf.ge d1 (by linarith))
      · exact (b2 x h).trans (hf.ge d2 (by linarith))
    · have hl1 := List.length_pos_iff.2 n1
      have hl2 := List.length_pos_iff.2 n2
      rw [hp.length_eq, hp.sum_eq, List.length_append, List.sum_append]
      have e : d ^ (l₁.length + l₂.length) * fl (a + b) = d ^ (l₁.length + l₂.length - 1) * (d * fl (a + b)) := by
        rw [← mul_assoc, ← pow_succ]; congr 2; omega
      rw [e]
      have h1 := mul_le_mul_of_nonneg_left (fl_le hf hab) (pow_pos d_pos (l₁.length + l₂.length - 1)).le
      have h2 := mul_le_mul_of_nonneg_right (pow_d (show l₁.length ≤ l₁.length + l₂.length - 1 by omega)) p1
      have h3 := mul_le_mul_of_nonneg_right (pow_d (show l₂.length ≤ l₁.length + l₂.length - 1 by omega)) p2
      rw [mul_add] at h1
      linarith

/-- The last of the running totals -/
def total (fl : ℚ → ℚ) (acc : ℚ) : List ℚ → ℚ
  | [] => acc
  | w :: ws => total fl (fl (acc + w)) ws

theorem total_ge (hf : Nearest fl) : ∀ (ws : List ℚ) (acc : ℚ), 0 ≤ acc → (∀ w ∈ ws, 0 ≤ w) → d ^ ws.length * (acc + ws.sum) ≤ total fl acc ws
  | [], acc, _, _ => by simp [total]
  | w :: ws, acc, h0, hw => by
    have h1 : 0 ≤ acc + w := add_nonneg h0 (hw w (by simp))
    have h2 := total_ge hf ws (fl (acc + w)) (hf.ge isDouble_zero h1) (fun x hx => hw x (by simp [hx]))
    have hs : 0 ≤ ws.sum := List.sum_nonneg (fun x hx => hw x (by simp [hx]))
    unfold total
    refine le_trans ?_ h2
    rw [List.length_cons, pow_succ, mul_assoc, List.sum_cons]
    refine mul_le_mul_of_nonneg_left ?_ (pow_pos d_pos _).le
    have h3 := fl_ge hf h1
    have h4 : d * ws.sum ≤ ws.sum := by nlinarith [d_le]
    have h5 : d * (acc + (w + ws.sum)) = d * (acc + w) + d * ws.sum := by ring
    linarith

theorem scan (hf : Nearest fl) : ∀ (ps : List (α × ℚ)) (acc : ℚ), IsDouble acc → 0 ≤ acc → ¬ fl (1 - acc) ≤ 1 / 2 → (∀ e ∈ ps, IsDouble e.2 ∧ 0 ≤ e.2 ∧ e.2 ≤ 1) →
    (∃ e ∈ ps, 0 < e.2 ∧ ∃ c t, (ps.zip (cumsumFl fl acc (ps.map Prod.snd))).filter (fun e => decide (fl (e.2 - e.1.2) ≤ 1 / 2 ∧ fl (1 - e.2) ≤ 1 / 2)) = (e, c) :: t) ∨
      ¬ fl (1 - total fl acc (ps.map Prod.snd)) ≤ 1 / 2
  | [], acc, _, _, h, _ => Or.inr h
  | (a, w) :: ps, acc, hd, h0, h, hp => by
    obtain ⟨w1, w2, w3⟩ := hp (a, w) (by simp)
    simp only at w1 w2 w3
    have hacc : acc < 1 / 2 := by
      by_contra hc
      exact h (hf.le isDouble_half (by linarith))
    have hc0 : 0 ≤ fl (acc + w) := hf.ge isDouble_zero (by linarith)
    by_cases hq : fl (1 - fl (acc + w)) ≤ 1 / 2
    · left
      refine ⟨(a, w), by simp, ?_, fl (acc + w), (ps.zip (cumsumFl fl (fl (acc + w)) (ps.map Prod.snd))).filter (fun e => decide (fl (e.2 - e.1.2) ≤ 1 / 2 ∧ fl (1 - e.2) ≤ 1 / 2)), ?_⟩
      · rcases w2.eq_or_lt with rfl | hlt
        · rw [add_zero, hf.self hd] at hq
          exact (h hq).elim
        · exact hlt
      · simp only [List.map_cons, cumsumFl, List.zip_cons_cons]
        exact List.filter_cons_of_pos (decide_eq_true ⟨hf.before hd w1 h0 hacc w2 w3, hq⟩)
    · rcases scan hf ps (fl (acc + w)) (hf _).1 hc0 hq (fun e he => hp e (by simp [he])) with ⟨e, he, hpos, c, t, ht⟩ | hn
      · left
        refine ⟨e, by simp [he], hpos, c, t, ?_⟩
        simp only [List.map_cons, cumsumFl, List.zip_cons_cons]
        rw [List.filter_cons_of_neg]
        · exact ht
        · simp only [decide_eq_true_eq]
          exact fun hh => hq hh.2
      · right
        exact hn

theorem bernoulli {n : Nat} (hn : n < 2 ^ 51) : 1 / 2 ≤ d ^ (2 * n + 1) := by
  have h := one_add_mul_le_pow (a := (-1 / 2 ^ 53 : ℚ)) (by norm_num) (2 * n + 1)
  have e : (1 : ℚ) + -1 / 2 ^ 53 = d := by unfold d; ring
  rw [e] at h
  refine le_trans ?_ h
  have h1 : ((2 * n + 1 : ℕ) : ℚ) ≤ 2 ^ 52 - 1 := by
    have : 2 * n + 1 + 1 ≤ 2 ^ 52 := by omega
    have : ((2 * n + 1 + 1 : ℕ) : ℚ) ≤ ((2 ^ 52 : ℕ) : ℚ) := by exact_mod_cast this
    push_cast at this ⊢
    linarith
  have h2 : ((2 * n + 1 : ℕ) : ℚ) * (-1 / 2 ^ 53) ≥ (2 ^ 52 - 1) * (-1 / 2 ^ 53) := mul_le_mul_of_nonpos_right h1 (by norm_num)
  have h3 : ((2 : ℚ) ^ 52 - 1) * (-1 / 2 ^ 53) ≥ -1 / 2 := by norm_num
  linarith

/-- The median with rounded weights is one of the elements with positive weight. -/
theorem weightedMedian_ok (hf : Nearest fl) {sum : List ℚ → ℚ} (hsum : ∀ l, l ≠ [] → SumTree fl l (sum l)) {arr : List α} {weight : List ℚ} (hlen : arr.length = weight.length)
    (hn : arr.length < 2 ^ 51) (hw : ∀ w ∈ weight, IsDouble w ∧ 0 ≤ w) (hpos : ∃ w ∈ weight, 0 < w) :
    ∃ (m : α) (k : Nat) (w : ℚ), weightedMedian fl sum arr weight = .ok m ∧ arr[k]? = some m ∧ weight[k]? = some w ∧ 0 < w := by
  set idx := argsort arr with hidx
  have hperm := argsort_perm arr
  have hzip : ((fancy arr idx).zip (fancy weight idx)).Perm (arr.zip weight) := by
    rw [zip_fancy, ← map_range_zip hlen]
    exact hperm.map _
  have hsnd : ((fancy arr idx).zip (fancy weight idx)).map Prod.snd = fancy weight idx := List.map_snd_zip (by simp)
  have hwp : (fancy weight idx).Perm weight := by
    rw [← hsnd]
    refine (hzip.map Prod.snd).trans (List.Perm.of_eq (List.map_snd_zip (by omega)))
  have hne : fancy weight idx ≠ [] := by
    obtain ⟨w, h1, -⟩ := hpos
    intro h
    have := hwp.mem_iff.2 h1
    rw [h] at this
    cases this
  have hw' : ∀ w ∈ fancy weight idx, IsDouble w ∧ 0 ≤ w := fun w h => hw w (hwp.mem_iff.1 h)
  obtain ⟨-, -, -, hb, ht⟩ := tree hf (hsum _ hne) hw'
  set S := sum (fancy weight idx) with hS
  have hS0 : 0 < S := by
    obtain ⟨w, h1, h2⟩ := hpos
    exact lt_of_lt_of_le h2 (hb w (hwp.mem_iff.2 h1))
  let f : α × ℚ → α × ℚ := fun e => (e.1, fl (e.2 / S))
  have hscale : (fancy arr idx).zip ((fancy weight idx).map (fun w => fl (w / S))) = ((fancy arr idx).zip (fancy weight idx)).map f := by
    rw [List.zip_map_right]; rfl
  have hsnd2 : (((fancy arr idx).zip (fancy weight idx)).map f).map Prod.snd = (fancy weight idx).map (fun w => fl (w / S)) := by
    rw [← hscale]; exact List.map_snd_zip (by simp)
  have hrange : ∀ e ∈ ((fancy arr idx).zip (fancy weight idx)).map f, IsDouble e.2 ∧ 0 ≤ e.2 ∧ e.2 ≤ 1 := by
    intro e he
    obtain ⟨e', he', rfl⟩ := List.mem_map.1 he
    have hm : e'.2 ∈ fancy weight idx := (List.of_mem_zip he').2
    refine ⟨(hf _).1, hf.ge isDouble_zero (div_nonneg (hw' _ hm).2 hS0.le), hf.le isDouble_one ?_⟩
    rw [div_le_one hS0]
    exact hb _ hm
  have htotal : 1 / 2 ≤ total fl 0 ((fancy weight idx).map (fun w => fl (w / S))) := by
    have h1 := total_ge hf ((fancy weight idx).map (fun w => fl (w / S))) 0 (le_refl _) (by
      intro w h
      obtain ⟨x, hx, rfl⟩ := List.mem_map.1 h
      exact hf.ge isDouble_zero (div_nonneg (hw' x hx).2 hS0.le))
    rw [zero_add, List.length_map] at h1
    have h2 : ∀ l : List ℚ, (∀ x ∈ l, 0 ≤ x) → d * (l.sum / S) ≤ (l.map (fun w => fl (w / S))).sum := by
      intro l
      induction l with
      | nil => intro _; simp
      | cons x l ih =>
        intro hl
        simp only [List.sum_cons, List.map_cons]
        have := ih (fun y hy => hl y (by simp [hy]))
        have h3 := fl_ge hf (div_nonneg (hl x (by simp)) hS0.le)
        rw [add_div, mul_add]
        linarith
    have h3 := h2 (fancy weight idx) (fun x hx => (hw' x hx).2)
    have h4 : d ^ (fancy weight idx).length ≤ (fancy weight idx).sum / S := by rw [le_div_iff₀ hS0]; exact ht
    have h5 := mul_le_mul_of_nonneg_left h4 d_pos.le
    have h6 := mul_le_mul_of_nonneg_left (h5.trans h3) (pow_pos d_pos (fancy weight idx).length).le
    have h7 := bernoulli (n := (fancy weight idx).length) (by rw [length_fancy, hidx, hperm.length_eq, List.length_range]; exact hn)
    have e : d ^ (2 * (fancy weight idx).length + 1) = d ^ (fancy weight idx).length * (d * d ^ (fancy weight idx).length) := by ring
    rw [e] at h7
    linarith
  rcases scan hf _ 0 isDouble_zero (le_refl _) (by rw [sub_zero, hf.self isDouble_one]; norm_num) hrange with ⟨e, he, hpe, c, t, hc⟩ | hno
  · obtain ⟨e', he', rfl⟩ := List.mem_map.1 he
    have hres : weightedMedian fl sum arr weight = .ok e'.1 := by
      unfold weightedMedian
      simp only
      rw [← hidx, ← hS, hscale, ← hsnd2, hc]
    have hmem := (hzip.mem_iff).1 he'
    obtain ⟨k, hk⟩ := List.mem_iff_getElem?.1 hmem
    obtain ⟨k1, k2⟩ := List.getElem?_zip_eq_some.1 hk
    refine ⟨e'.1, k, e'.2, hres, k1, k2, ?_⟩
    rcases (hw' e'.2 (List.of_mem_zip he').2).2.eq_or_lt with h0 | h0
    · have : (f e').2 = 0 := by
        show fl (e'.2 / S) = 0
        rw [← h0, zero_div, hf.self isDouble_zero]
      rw [this] at hpe
      exact (lt_irrefl _ hpe).elim
    · exact h0
  · rw [hsnd2] at hno
    exact (hno (hf.le isDouble_half (by linarith))).elim

end Verif.Rounded
