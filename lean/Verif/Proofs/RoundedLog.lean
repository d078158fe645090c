import Verif.Proofs.RoundedSplit
import Verif.Proofs.FspLog

/-! The number of passes of `find_splitting_points` with rounded weights -/

namespace Verif.Rounded

open Double

section
variable {α : Type*} [LinearOrder α] [Inhabited α] {fl : ℚ → ℚ}

theorem tree_ge (hf : Nearest fl) {l : List ℚ} {s : ℚ} (h : SumTree fl l s) : (∀ x ∈ l, 0 ≤ x) → l ≠ [] ∧ 0 ≤ s ∧ d ^ l.length * l.sum ≤ s := by
  induction h with
  | one x =>
    intro hl
    have := hl x (by simp)
    refine ⟨by simp, this, ?_⟩
    simp only [List.length_cons, List.length_nil, List.sum_cons, List.sum_nil, zero_add, pow_one, add_zero]
    nlinarith [d_le]
  | @add l₁ l₂ l a b _ _ hp ih1 ih2 =>
    intro hl
    obtain ⟨n1, p1, s1⟩ := ih1 (fun x hx => hl x (hp.mem_iff.2 (by simp [hx])))
    obtain ⟨n2, p2, s2⟩ := ih2 (fun x hx => hl x (hp.mem_iff.2 (by simp [hx])))
    have hab : 0 ≤ a + b := by linarith
    have hl1 := List.length_pos_iff.2 n1
    have hl2 := List.length_pos_iff.2 n2
    refine ⟨?_, hf.ge isDouble_zero hab, ?_⟩
    · rintro rfl
      have := hp.length_eq
      simp only [List.length_nil, List.length_append] at this
      omega
    · have q1 : 0 ≤ l₁.sum := List.sum_nonneg (fun x hx => hl x (hp.mem_iff.2 (by simp [hx])))
      have q2 : 0 ≤ l₂.sum := List.sum_nonneg (fun x hx => hl x (hp.mem_iff.2 (by simp [hx])))
      rw [hp.length_eq, hp.sum_eq, List.length_append, List.sum_append]
      have e : d ^ (l₁.length + l₂.length) = d * d ^ (l₁.length + l₂.length - 1) := by
        rw [← pow_succ']; congr 1; omega
      have h2 := mul_le_mul_of_nonneg_right (pow_d (show l₁.length ≤ l₁.length + l₂.length - 1 by omega)) q1
      have h3 := mul_le_mul_of_nonneg_right (pow_d (show l₂.length ≤ l₁.length + l₂.length - 1 by omega)) q2
      have h4 := fl_ge hf hab
      have h5 : d ^ (l₁.length + l₂.length - 1) * (l₁.sum + l₂.sum) ≤ a + b := by rw [mul_add]; linarith
      rw [e, mul_assoc]
      exact (mul_le_mul_of_nonneg_left h5 d_pos.le).trans h4

theorem total_le (hf : Nearest fl) : ∀ (ws : List ℚ) (acc : ℚ), 0 ≤ acc → (∀ w ∈ ws, 0 ≤ w) → d ^ ws.length * total fl acc ws ≤ acc + ws.sum
  | [], acc, _, _ => by simp [total]
  | w :: ws, acc, h0, hw => by
    have h1 : 0 ≤ acc + w := add_nonneg h0 (hw w (by simp))
    have h2 := total_le hf ws (fl (acc + w)) (hf.ge isDouble_zero h1) (fun x hx => hw x (by simp [hx]))
    have hs : 0 ≤ ws.sum := List.sum_nonneg (fun x hx => hw x (by simp [hx]))
    have h3 := mul_le_mul_of_nonneg_left h2 d_pos.le
    have h4 := fl_le hf h1
    have h5 : d * ws.sum ≤ ws.sum := by nlinarith [d_le]
    rw [List.length_cons, List.sum_cons, pow_succ']
    unfold total
    rw [mul_assoc]
    rw [mul_add] at h3
    linarith

theorem total_append (ws vs : List ℚ) : ∀ acc, total fl acc (ws ++ vs) = total fl (total fl acc ws) vs := by
  induction ws with
  | nil => intro acc; rfl
  | cons w ws ih => intro acc; exact ih _

theorem total_nonneg (hf : Nearest fl) : ∀ (ws : List ℚ) (acc : ℚ), 0 ≤ acc → (∀ w ∈ ws, 0 ≤ w) → 0 ≤ total fl acc ws
  | [], acc, h, _ => h
  | w :: ws, acc, h0, hw => total_nonneg hf ws _ (hf.ge isDouble_zero (add_nonneg h0 (hw w (by simp)))) (fun x hx => hw x (by simp [hx]))

/-- Where the first candidate is -/
theorem scan_split (hf : Nearest fl) : ∀ (ps : List (α × ℚ)) (acc : ℚ), IsDouble acc → 0 ≤ acc → ¬ fl (1 - acc) ≤ 1 / 2 → (∀ e ∈ ps, IsDouble e.2 ∧ 0 ≤ e.2 ∧ e.2 ≤ 1) →
    (∃ l e r t, ps = l ++ e :: r ∧ total fl acc (l.map Prod.snd) < 1 / 2 ∧ fl (1 - total fl acc ((l ++ [e]).map Prod.snd)) ≤ 1 / 2 ∧
      (ps.zip (cumsumFl fl acc (ps.map Prod.snd))).filter (fun e => decide (fl (e.2 - e.1.2) ≤ 1 / 2 ∧ fl (1 - e.2) ≤ 1 / 2)) = (e, total fl acc ((l ++ [e]).map Prod.snd)) :: t) ∨
      ¬ fl (1 - total fl acc (ps.map Prod.snd)) ≤ 1 / 2
  | [], acc, _, _, h, _ => Or.inr h
  | (a, w) :: ps, acc, hd, h0, h, hp => by
    obtain ⟨w1, w2, w3⟩ := hp (a, w) (by simp)
    simp only at w1 w2 w3
    have hacc : acc < 1 / 2 := by
      by_contra hc
      exact h (hf.le isDouble_half (by linarith))
    have hc0 : 0 ≤ fl (acc + w) := hf.ge isDouble_zero (by linarith)
    by_cases hq : fl (1 - fl (acc + w)) ≤ 1 / 2
    · left
      refine ⟨[], (a, w), ps, (ps.zip (cumsumFl fl (fl (acc + w)) (ps.map Prod.snd))).filter (fun e => decide (fl (e.2 - e.1.2) ≤ 1 / 2 ∧ fl (1 - e.2) ≤ 1 / 2)), rfl, hacc, hq, ?_⟩
      simp only [List.map_cons, cumsumFl, List.zip_cons_cons]
      exact List.filter_cons_of_pos (decide_eq_true ⟨hf.before hd w1 h0 hacc w2 w3, hq⟩)
    · rcases scan_split hf ps (fl (acc + w)) (hf _).1 hc0 hq (fun e he => hp e (by simp [he])) with ⟨l, e, r, t, h1, h2, h3, h4⟩ | hn
      · left
        refine ⟨(a, w) :: l, e, r, t, by rw [h1]; rfl, h2, h3, ?_⟩
        simp only [List.map_cons, cumsumFl, List.zip_cons_cons]
        rw [List.filter_cons_of_neg]
        · exact h4
        · simp only [decide_eq_true_eq]
          exact fun hh => hq hh.2
      · right
        exact hn

theorem bernoulli2 {n : Nat} (hn : n < 2 ^ 40) : 1 - 1 / 2 ^ 11 ≤ d ^ (2 * n + 2) := by
  have h := one_add_mul_le_pow (a := (-1 / 2 ^ 53 : ℚ)) (by norm_num) (2 * n + 2)
  have e : (1 : ℚ) + -1 / 2 ^ 53 = d := by unfold d; ring
  rw [e] at h
  refine le_trans ?_ h
  have h1 : ((2 * n + 2 : ℕ) : ℚ) ≤ 2 ^ 41 := by
    have : 2 * n + 2 ≤ 2 ^ 41 := by omega
    exact_mod_cast this
  have h2 : ((2 * n + 2 : ℕ) : ℚ) * (-1 / 2 ^ 53) ≥ 2 ^ 41 * (-1 / 2 ^ 53) := mul_le_mul_of_nonpos_right h1 (by norm_num)
  have h3 : (2 : ℚ) ^ 41 * (-1 / 2 ^ 53) ≥ -1 / 2 ^ 11 := by norm_num
  linarith

theorem sum_fl_ge (hf : Nearest fl) {S : ℚ} (hS : 0 < S) : ∀ l : List (α × ℚ), (∀ e ∈ l, 0 ≤ e.2) → d * (l.map Prod.snd).sum ≤ (l.map (fun e => fl (e.2 / S))).sum * S
  | [], _ => by simp
  | e :: l, h => by
    have h1 := sum_fl_ge hf hS l (fun x hx => h x (by simp [hx]))
    have h2 := mul_le_mul_of_nonneg_right (fl_ge hf (div_nonneg (h e (by simp)) hS.le)) hS.le
    rw [mul_assoc, div_mul_cancel₀ _ hS.ne'] at h2
    simp only [List.map_cons, List.sum_cons]
    rw [mul_add, add_mul]
    linarith

theorem sum_fl_le (hf : Nearest fl) {S : ℚ} (hS : 0 < S) : ∀ l : List (α × ℚ), (∀ e ∈ l, 0 ≤ e.2) → d * (l.map (fun e => fl (e.2 / S))).sum * S ≤ (l.map Prod.snd).sum
  | [], _ => by simp
  | e :: l, h => by
    have h1 := sum_fl_le hf hS l (fun x hx => h x (by simp [hx]))
    have h2 := mul_le_mul_of_nonneg_right (fl_le hf (div_nonneg (h e (by simp)) hS.le)) hS.le
    rw [div_mul_cancel₀ _ hS.ne'] at h2
    simp only [List.map_cons, List.sum_cons]
    rw [mul_add, add_mul]
    linarith

/-- The weights on both sides of the median are at most about half of the total. -/
theorem weightedMedian_near (hf : Nearest fl) {sum : List ℚ → ℚ} (hsum : ∀ l, l ≠ [] → SumTree fl l (sum l)) {arr : List α} {weight : List ℚ} (hlen : arr.length = weight.length)
    (hn : arr.length < 2 ^ 40) (hw : ∀ w ∈ weight, IsDouble w ∧ 0 ≤ w) (hpos : ∃ w ∈ weight, 0 < w) :
    ∃ m, weightedMedian fl sum arr weight = .ok m ∧ Spec.weightBelow arr weight m ≤ 13 / 25 * weight.sum ∧ Spec.weightAbove arr weight m ≤ 13 / 25 * weight.sum := by
  set idx := argsort arr with hidx
  have hperm := argsort_perm arr
  have hzip : ((fancy arr idx).zip (fancy weight idx)).Perm (arr.zip weight) := by
    rw [zip_fancy, ← map_range_zip hlen]
    exact hperm.map _
  have hsnd : ((fancy arr idx).zip (fancy weight idx)).map Prod.snd = fancy weight idx := List.map_snd_zip (by simp)
  have hfst : ((fancy arr idx).zip (fancy weight idx)).map Prod.fst = fancy arr idx := List.map_fst_zip (by simp)
  have hwp : (fancy weight idx).Perm weight := by
    rw [← hsnd]
    refine (hzip.map Prod.snd).trans (List.Perm.of_eq (List.map_snd_zip (by omega)))
  have hne : fancy weight idx ≠ [] := by
    obtain ⟨w, h1, -⟩ := hpos
    intro h
    have := hwp.mem_iff.2 h1
    rw [h] at this
    cases this
  have hw' : ∀ w ∈ fancy weight idx, IsDouble w ∧ 0 ≤ w := fun w h => hw w (hwp.mem_iff.1 h)
  obtain ⟨-, -, -, hb, ht⟩ := tree hf (hsum _ hne) hw'
  obtain ⟨-, -, htg⟩ := tree_ge hf (hsum _ hne) (fun x hx => (hw' x hx).2)
  set S := sum (fancy weight idx) with hS
  have hS0 : 0 < S := by
    obtain ⟨w, h1, h2⟩ := hpos
    exact lt_of_lt_of_le h2 (hb w (hwp.mem_iff.2 h1))
  set Z := (fancy arr idx).zip (fancy weight idx) with hZ
  let f : α × ℚ → α × ℚ := fun e => (e.1, fl (e.2 / S))
  have hscale : (fancy arr idx).zip ((fancy weight idx).map (fun w => fl (w / S))) = Z.map f := by
    rw [List.zip_map_right]; rfl
  have hsnd2 : (Z.map f).map Prod.snd = (fancy weight idx).map (fun w => fl (w / S)) := by
    rw [← hscale]; exact List.map_snd_zip (by simp)
  have hZw : ∀ e ∈ Z, 0 ≤ e.2 := fun e he => (hw' _ (List.of_mem_zip he).2).2
  have hrange : ∀ e ∈ Z.map f, IsDouble e.2 ∧ 0 ≤ e.2 ∧ e.2 ≤ 1 := by
    intro e he
    obtain ⟨e', he', rfl⟩ := List.mem_map.1 he
    have hm : e'.2 ∈ fancy weight idx := (List.of_mem_zip he').2
    refine ⟨(hf _).1, hf.ge isDouble_zero (div_nonneg (hw' _ hm).2 hS0.le), hf.le isDouble_one ?_⟩
    rw [div_le_one hS0]
    exact hb _ hm
  have hZl : (fancy weight idx).length = arr.length := by rw [hwp.length_eq, hlen]
  obtain ⟨m0, -, -, hm0, -⟩ := weightedMedian_ok hf hsum hlen (lt_trans hn (by norm_num)) hw hpos
  have hunf : weightedMedian fl sum arr weight = match ((Z.map f).zip (cumsumFl fl 0 ((Z.map f).map Prod.snd))).filter (fun e => decide (fl (e.2 - e.1.2) ≤ 1 / 2 ∧ fl (1 - e.2) ≤ 1 / 2)) with
      | [] => .error .indexError
      | e :: _ => .ok e.1.1 := by
    unfold weightedMedian
    simp only
    rw [← hidx, ← hS, hscale, ← hsnd2]
    rfl
  have hsplit : ∃ l e r t, Z.map f = l ++ e :: r ∧ total fl 0 (l.map Prod.snd) < 1 / 2 ∧ fl (1 - total fl 0 ((l ++ [e]).map Prod.snd)) ≤ 1 / 2 ∧
      ((Z.map f).zip (cumsumFl fl 0 ((Z.map f).map Prod.snd))).filter (fun e => decide (fl (e.2 - e.1.2) ≤ 1 / 2 ∧ fl (1 - e.2) ≤ 1 / 2)) = (e, total fl 0 ((l ++ [e]).map Prod.snd)) :: t := by
    rcases scan_split hf (Z.map f) 0 isDouble_zero (le_refl _) (by rw [sub_zero, hf.self isDouble_one]; norm_num) hrange with h | h
    · exact h
    · exfalso
      refine h (hf.le isDouble_half ?_)
      have h1 := total_ge hf ((Z.map f).map Prod.snd) 0 (le_refl _) (by
        intro w h
        obtain ⟨e, he, rfl⟩ := List.mem_map.1 h
        exact (hrange e he).2.1)
      rw [zero_add, List.length_map, List.length_map] at h1
      have h3 := sum_fl_ge hf hS0 Z hZw
      rw [hsnd] at h3
      have e1 : (List.map Prod.snd (List.map f Z)) = Z.map (fun e => fl (e.2 / S)) := by rw [List.map_map]; rfl
      rw [e1] at h1 ⊢
      have hl : Z.length = arr.length := by rw [hzip.length_eq, List.length_zip, hlen, min_self]
      rw [hl] at h1
      rw [hZl] at ht
      have h7 := bernoulli (n := arr.length) (lt_trans hn (by norm_num))
      set W := (Z.map (fun e => fl (e.2 / S))).sum with hW
      have h8 : d * d ^ arr.length ≤ W := by
        have : d * (d ^ arr.length * S) ≤ W * S := (mul_le_mul_of_nonneg_left ht d_pos.le).trans h3
        rw [← mul_assoc] at this
        exact le_of_mul_le_mul_right this hS0
      have h9 := mul_le_mul_of_nonneg_left h8 (pow_pos d_pos arr.length).le
      have e : d ^ (2 * arr.length + 1) = d ^ arr.length * (d * d ^ arr.length) := by ring
      rw [e] at h7
      linarith
  obtain ⟨l, e, r, t, h1, h2, h3, h4⟩ := hsplit
  obtain ⟨l', er, hZ1, rfl, her⟩ := List.map_eq_append_iff.1 h1
  obtain ⟨e', r', rfl, rfl, rfl⟩ := List.map_eq_cons_iff.1 her
  refine ⟨e'.1, by rw [hunf, h4], ?_⟩
  set n := arr.length with hnn
  have hlenZ : Z.length = n := by rw [hzip.length_eq, List.length_zip]; omega
  have hll : l'.length + 1 ≤ n := by
    rw [← hlenZ, hZ1]; simp
  have hZw' : ∀ x ∈ l' ++ e' :: r', 0 ≤ x.2 := by rw [← hZ1]; exact hZw
  have hXsum : weight.sum = (l'.map Prod.snd).sum + e'.2 + (r'.map Prod.snd).sum := by
    rw [← hwp.sum_eq, ← hsnd, hZ1]
    simp
    ring
  have hX0 : 0 ≤ weight.sum := List.sum_nonneg (fun x hx => (hw x hx).2)
  have hq := bernoulli2 hn
  have hsorted : ((l' ++ e' :: r').map Prod.fst).Pairwise (· ≤ ·) := by
    rw [← hZ1, hfst]
    exact fancy_argsort_sorted arr
  rw [List.map_append, List.map_cons, List.pairwise_append, List.pairwise_cons] at hsorted
  obtain ⟨-, ⟨so1, -⟩, so2⟩ := hsorted
  have hD1 : d ^ n * S ≤ weight.sum := by rw [hZl] at ht; rw [← hwp.sum_eq]; exact ht
  have hD2 : d ^ n * weight.sum ≤ S := by rw [hZl] at htg; rw [← hwp.sum_eq]; exact htg
  have hdn := pow_pos d_pos n
  have sub_le : ∀ (p : α × ℚ → Bool) (z : List (α × ℚ)), (∀ x ∈ z, 0 ≤ x.2) → ((z.filter p).map Prod.snd).sum ≤ (z.map Prod.snd).sum := by
    intro p z hz
    exact ((List.filter_sublist (l := z) (p := p)).map Prod.snd).sum_le_sum (fun x hx => by
      obtain ⟨y, hy, rfl⟩ := List.mem_map.1 hx
      exact hz y hy)
  have hA : ∀ p : α × ℚ → Bool, (((arr.zip weight).filter p).map Prod.snd).sum = (((l' ++ e' :: r').filter p).map Prod.snd).sum := by
    intro p
    rw [← hZ1]
    exact (((hzip.filter p).map Prod.snd).sum_eq).symm
  constructor
  · unfold Spec.weightBelow
    rw [hA, List.filter_append]
    have h0 : (e' :: r').filter (fun x => decide (x.1 < e'.1)) = [] := by
      rw [List.filter_eq_nil_iff]
      intro x hx
      rw [decide_eq_true_eq, not_lt]
      rcases List.mem_cons.1 hx with rfl | hx
      · exact le_refl _
      · exact so1 _ (List.mem_map_of_mem hx)
    rw [h0, List.append_nil]
    refine (sub_le _ l' (fun x hx => hZw' x (by simp [hx]))).trans ?_
    have hL0 : 0 ≤ (l'.map Prod.snd).sum := List.sum_nonneg (fun x hx => by
      obtain ⟨y, hy, rfl⟩ := List.mem_map.1 hx
      exact hZw' y (by simp [hy]))
    have e1 : (List.map Prod.snd (List.map f l')) = l'.map (fun e => fl (e.2 / S)) := by rw [List.map_map]; rfl
    rw [e1] at h2
    have g1 := total_ge hf (l'.map (fun e => fl (e.2 / S))) 0 (le_refl _) (by
      intro w h
      obtain ⟨x, hx, rfl⟩ := List.mem_map.1 h
      exact hf.ge isDouble_zero (div_nonneg (hZw' x (by simp [hx])) hS0.le))
    rw [zero_add, List.length_map] at g1
    have g2 := sum_fl_ge hf hS0 l' (fun x hx => hZw' x (by simp [hx]))
    set W := (l'.map (fun e => fl (e.2 / S))).sum with hW
    have hW0 : 0 ≤ W := List.sum_nonneg (fun w h => by
      obtain ⟨x, hx, rfl⟩ := List.mem_map.1 h
      exact hf.ge isDouble_zero (div_nonneg (hZw' x (by simp [hx])) hS0.le))
    have g3 : d ^ n * W ≤ 1 / 2 := (mul_le_mul_of_nonneg_right (pow_d (show l'.length ≤ n by omega)) hW0).trans (g1.trans h2.le)
    set L := (l'.map Prod.snd).sum with hL
    -- d^(2n+1) L ≤ d^n S / 2
    have g4 : d ^ (2 * n + 1) * L ≤ weight.sum / 2 := by
      have a1 : d ^ n * (d * L) ≤ d ^ n * (W * S) := mul_le_mul_of_nonneg_left g2 hdn.le
      have a2 : d ^ n * W * S ≤ 1 / 2 * S := mul_le_mul_of_nonneg_right g3 hS0.le
      have a3 : d ^ n * (d ^ n * (d * L)) ≤ d ^ n * (1 / 2 * S) := mul_le_mul_of_nonneg_left (by linarith) hdn.le
      have e : d ^ (2 * n + 1) * L = d ^ n * (d ^ n * (d * L)) := by ring
      rw [e]
      linarith
    have g5 : (1 - 1 / 2 ^ 11) * L ≤ d ^ (2 * n + 1) * L := mul_le_mul_of_nonneg_right (hq.trans (pow_d (by omega))) hL0
    have : (1 - 1 / 2 ^ 11 : ℚ) * L ≤ weight.sum / 2 := g5.trans g4
    have h6 : (25 / 26 : ℚ) ≤ 1 - 1 / 2 ^ 11 := by norm_num
    have h7 := mul_le_mul_of_nonneg_right h6 hL0
    linarith
  · unfold Spec.weightAbove
    rw [hA, List.filter_append]
    have h0 : l'.filter (fun x => decide (e'.1 < x.1)) = [] := by
      rw [List.filter_eq_nil_iff]
      intro x hx
      rw [decide_eq_true_eq, not_lt]
      exact so2 _ (List.mem_map_of_mem hx) _ (by simp)
    rw [h0, List.nil_append, List.filter_cons_of_neg (by simp)]
    refine (sub_le _ r' (fun x hx => hZw' x (by simp [hx]))).trans ?_
    have e1 : (List.map Prod.snd (List.map f l' ++ [f e'])) = (l' ++ [e']).map (fun e => fl (e.2 / S)) := by simp [f]
    rw [e1] at h3
    have hpw : ∀ w ∈ (l' ++ [e']).map (fun e => fl (e.2 / S)), 0 ≤ w := by
      intro w h
      obtain ⟨x, hx, rfl⟩ := List.mem_map.1 h
      refine hf.ge isDouble_zero (div_nonneg (hZw' x ?_) hS0.le)
      rcases List.mem_append.1 hx with hx | hx
      · simp [hx]
      · simp at hx; simp [hx]
    have g1 := total_le hf ((l' ++ [e']).map (fun e => fl (e.2 / S))) 0 (le_refl _) hpw
    rw [zero_add, List.length_map, List.length_append, List.length_cons, List.length_nil, zero_add] at g1
    have g0 := total_nonneg hf _ 0 (le_refl _) hpw
    have g2 := sum_fl_le hf hS0 (l' ++ [e']) (fun x hx => hZw' x (by
      rcases List.mem_append.1 hx with hx | hx
      · simp [hx]
      · simp at hx; simp [hx]))
    set c := total fl 0 ((l' ++ [e']).map (fun e => fl (e.2 / S))) with hc
    set W := ((l' ++ [e']).map (fun e => fl (e.2 / S))).sum with hW
    have hY : ((l' ++ [e']).map Prod.snd).sum = weight.sum - (r'.map Prod.snd).sum := by rw [hXsum]; simp
    rw [hY] at g2
    set R := (r'.map Prod.snd).sum with hR
    have g3 : d ^ n * c ≤ W := (mul_le_mul_of_nonneg_right (pow_d hll) g0).trans g1
    have g4 : d - 1 / 2 ≤ d * c := by
      by_cases hc1 : c ≤ 1
      · have := fl_ge hf (show 0 ≤ 1 - c by linarith)
        have e : d * (1 - c) = d - d * c := by ring
        rw [e] at this
        linarith
      · have := mul_le_mul_of_nonneg_left (le_of_not_ge hc1) d_pos.le
        linarith
    -- S d^n (d - 1/2) ≤ weight.sum - R
    have g5 : S * (d ^ n * (d - 1 / 2)) ≤ weight.sum - R := by
      have a1 : d ^ n * (d - 1 / 2) ≤ d * W := by
        have := mul_le_mul_of_nonneg_left g4 hdn.le
        have b := mul_le_mul_of_nonneg_left g3 d_pos.le
        have e : d ^ n * (d * c) = d * (d ^ n * c) := by ring
        rw [e] at this
        linarith
      have := mul_le_mul_of_nonneg_right a1 hS0.le
      linarith
    have hd2 : (1 / 2 - 1 / 2 ^ 53 : ℚ) = d - 1 / 2 := by unfold d; ring
    have g6 : weight.sum * (d ^ (2 * n) * (d - 1 / 2)) ≤ weight.sum - R := by
      have h0 : 0 ≤ d ^ n * (d - 1 / 2) := mul_nonneg hdn.le (by rw [← hd2]; norm_num)
      have := mul_le_mul_of_nonneg_right hD2 h0
      have e : weight.sum * (d ^ (2 * n) * (d - 1 / 2)) = d ^ n * weight.sum * (d ^ n * (d - 1 / 2)) := by ring
      rw [e]
      linarith
    have g7 : (12 / 25 : ℚ) ≤ d ^ (2 * n) * (d - 1 / 2) := by
      have a := mul_le_mul_of_nonneg_right (hq.trans (pow_d (show 2 * n ≤ 2 * n + 2 by omega))) (show 0 ≤ d - 1 / 2 by rw [← hd2]; norm_num)
      refine le_trans ?_ a
      rw [← hd2]
      norm_num
    have g8 := mul_le_mul_of_nonneg_left g7 hX0
    linarith
end

section
variable {α : Type*} [LinearOrder α] [Inhabited α] {fl : ℚ → ℚ} {sum : List ℚ → ℚ} {P nranks : Nat} {arr : Nat → List α} {s : Nat → FspRank α} {i : Nat} {v : α}
  {r : Int}

theorem mul_sum {β : Type*} (c : ℚ) (f : β → ℚ) (l : List β) : c * (l.map f).sum = (l.map (fun x => c * f x)).sum := by
  induction l with
  | nil => simp
  | cons x l ih => rw [List.map_cons, List.map_cons, List.sum_cons, List.sum_cons, mul_add, ih]

/-- Ranks whose local median is below (above) the estimate have little more than half of the active elements. -/
theorem balanced (hf : Nearest fl) (hsum : ∀ l, l ≠ [] → SumTree fl l (sum l)) (hP' : P < 2 ^ 40) (h : Active P arr v s i) (hact : 0 < pre (fun q => fspNlocal s q i) P) (hi : i < nranks) {m : α} {p : Nat} (hp : p < P)
    (hm : fspEst fl sum P nranks arr s p i = .ok m) :
    15 * pre (fun q => if medAt arr s i q < m then fspNlocal s q i else 0) P ≤ 8 * pre (fun q => fspNlocal s q i) P ∧
      15 * pre (fun q => if m < medAt arr s i q then fspNlocal s q i else 0) P ≤ 8 * pre (fun q => fspNlocal s q i) P := by
  set T := pre (fun q => fspNlocal s q i) P with hT
  have hTq : (0 : ℚ) < (T : ℚ) := by exact_mod_cast hact
  have hfT : 0 < fl (T : ℚ) := hf.pos hTq
  -- weights are close to the exact ones
  have hw : ∀ q < P, IsDouble (fspLocal fl P arr s q i).2 ∧ 0 ≤ (fspLocal fl P arr s q i).2 ∧ (0 < fspNlocal s q i → 0 < (fspLocal fl P arr s q i).2) ∧
      d ^ 3 * ((fspNlocal s q i : ℚ) / T) ≤ (fspLocal fl P arr s q i).2 ∧ d ^ 3 * (fspLocal fl P arr s q i).2 ≤ (fspNlocal s q i : ℚ) / T := by
    intro q hq
    have hn0 : (0 : ℚ) ≤ (fspNlocal s q i : ℚ) := by exact_mod_cast Nat.zero_le _
    unfold fspLocal
    simp only
    split
    · next hc =>
      have hfn : 0 ≤ fl (fspNlocal s q i : ℚ) := hf.ge isDouble_zero hn0
      have a1 := fl_ge hf hn0
      have a2 := fl_le hf hn0
      have a3 := fl_ge hf hTq.le
      have a4 := fl_le hf hTq.le
      have a5 := fl_ge hf (div_nonneg hfn hfT.le)
      have a6 := fl_le hf (div_nonneg hfn hfT.le)
      refine ⟨(hf _).1, hf.ge isDouble_zero (div_nonneg hfn hfT.le), fun _ => hf.pos (div_pos (hf.pos (by exact_mod_cast hc.1)) hfT), ?_, ?_⟩
      · refine le_trans ?_ a5
        have : d ^ 2 * ((fspNlocal s q i : ℚ) / T) ≤ fl (fspNlocal s q i : ℚ) / fl (T : ℚ) := by
          rw [le_div_iff₀ hfT, mul_div_assoc', div_mul_eq_mul_div, div_le_iff₀ hTq]
          have b1 := mul_le_mul_of_nonneg_left a4 (mul_nonneg d_pos.le hn0)
          have b2 := mul_le_mul_of_nonneg_right a1 hTq.le
          have e : d ^ 2 * (fspNlocal s q i : ℚ) * fl (T : ℚ) = d * (fspNlocal s q i : ℚ) * (d * fl (T : ℚ)) := by ring
          rw [e]
          exact b1.trans b2
        have := mul_le_mul_of_nonneg_left this d_pos.le
        have e : d ^ 3 * ((fspNlocal s q i : ℚ) / T) = d * (d ^ 2 * ((fspNlocal s q i : ℚ) / T)) := by ring
        rw [e]
        exact this
      · have : d ^ 2 * (fl (fspNlocal s q i : ℚ) / fl (T : ℚ)) ≤ (fspNlocal s q i : ℚ) / T := by
          rw [le_div_iff₀ hTq, mul_div_assoc', div_mul_eq_mul_div, div_le_iff₀ hfT]
          have b1 := mul_le_mul_of_nonneg_left a3 (mul_nonneg d_pos.le hfn)
          have b2 := mul_le_mul_of_nonneg_right a2 hfT.le
          have e : d ^ 2 * fl (fspNlocal s q i : ℚ) * (T : ℚ) = d * fl (fspNlocal s q i : ℚ) * (d * (T : ℚ)) := by ring
          rw [e]
          exact b1.trans b2
        refine le_trans ?_ this
        have := mul_le_mul_of_nonneg_left a6 (pow_pos d_pos 2).le
        have e : d ^ 3 * fl (fl (fspNlocal s q i : ℚ) / fl (T : ℚ)) = d ^ 2 * (d * fl (fl (fspNlocal s q i : ℚ) / fl (T : ℚ))) := by ring
        rw [e]
        exact this
    · next hc =>
      have : fspNlocal s q i = 0 := by
        by_contra h0
        exact hc ⟨Nat.pos_of_ne_zero h0, h.done q hq⟩
      rw [this]
      refine ⟨isDouble_zero, le_refl _, by simp, by simp, by simp⟩
  have hmed : ∀ q < P, fspNlocal s q i ≠ 0 → (fspLocal fl P arr s q i).1 = medAt arr s i q := by
    intro q hq h0
    unfold fspLocal medAt
    simp only
    rw [if_pos ⟨Nat.pos_of_ne_zero h0, h.done q hq⟩]
  have hest : weightedMedian fl sum ((List.range P).map (fun q => (fspLocal fl P arr s q i).1)) ((List.range P).map (fun q => (fspLocal fl P arr s q i).2)) = .ok m := by
    rw [← hm]
    unfold fspEst
    simp only
    split
    · rw [h.done p hp]; rfl
    · rw [if_pos ⟨hi, h.done i (by omega)⟩]
  obtain ⟨m', hm', hb, ha⟩ := weightedMedian_near hf hsum
    (arr := (List.range P).map (fun q => (fspLocal fl P arr s q i).1))
    (weight := (List.range P).map (fun q => (fspLocal fl P arr s q i).2)) (by simp) (by simpa using hP')
    (by
      intro w hw'
      obtain ⟨q, hq, rfl⟩ := List.mem_map.1 hw'
      exact ⟨(hw q (List.mem_range.1 hq)).1, (hw q (List.mem_range.1 hq)).2.1⟩)
    (by
      obtain ⟨k, hk, hk0⟩ := exists_of_pre_pos hact
      exact ⟨_, List.mem_map.2 ⟨k, List.mem_range.2 hk, rfl⟩, (hw k hk).2.2.1 hk0⟩)
  rw [hest] at hm'
  have : m' = m := by injection hm' with e; exact e.symm
  subst this
  -- sums over the ranks with some property
  have hgen : ∀ (c : α → Bool), (((((List.range P).map (fun q => (fspLocal fl P arr s q i).1)).zip ((List.range P).map (fun q => (fspLocal fl P arr s q i).2))).filter (fun e => c e.1)).map Prod.snd).sum =
      (((List.range P).filter (fun q => c (fspLocal fl P arr s q i).1)).map (fun q => (fspLocal fl P arr s q i).2)).sum := by
    intro c
    rw [List.zip_map', List.filter_map, List.map_map]
    rfl
  have hlow : ∀ (c : α → Bool), d ^ 3 * ((pre (fun q => if c (medAt arr s i q) = true then fspNlocal s q i else 0) P : ℚ) / T) ≤
      (((List.range P).filter (fun q => c (fspLocal fl P arr s q i).1)).map (fun q => (fspLocal fl P arr s q i).2)).sum := by
    intro c
    have e : (pre (fun q => if c (medAt arr s i q) = true then fspNlocal s q i else 0) P : ℚ) / T =
        (((List.range P).filter (fun q => decide (c (fspLocal fl P arr s q i).1 = true))).map (fun q => (fspNlocal s q i : ℚ) / T)).sum := by
      rw [sum_range_pre (fun q => c (fspLocal fl P arr s q i).1 = true) (fun q => fspNlocal s q i)]
      congr 2
      refine pre_congr (fun q hq => ?_)
      by_cases h0 : fspNlocal s q i = 0
      · rw [h0]; simp
      · rw [hmed q hq h0]
    rw [e, mul_sum]
    simp only [Bool.decide_eq_true]
    exact List.sum_le_sum (fun q hq => (hw q (List.mem_range.1 (List.mem_filter.1 hq).1)).2.2.2.1)
  have hall : d ^ 3 * ((List.range P).map (fun q => (fspLocal fl P arr s q i).2)).sum ≤ 1 := by
    have e := sum_range_pre (fun _ => True) (fun q => fspNlocal s q i) (T : ℚ) P
    simp only [decide_true, List.filter_true, if_true] at e
    rw [← hT, div_self (ne_of_gt hTq)] at e
    rw [← e, mul_sum]
    exact List.sum_le_sum (fun q hq => (hw q (List.mem_range.1 hq)).2.2.2.2)
  have hd6 : (39 / 40 : ℚ) ≤ d ^ 6 := by unfold d; norm_num
  have fin : ∀ n : Nat, d ^ 3 * ((n : ℚ) / T) ≤ 13 / 25 * ((List.range P).map (fun q => (fspLocal fl P arr s q i).2)).sum → 15 * n ≤ 8 * T := by
    intro n hn
    have h1 := mul_le_mul_of_nonneg_left hn (pow_pos d_pos 3).le
    have h2 : d ^ 6 * ((n : ℚ) / T) ≤ 13 / 25 := by
      have e : d ^ 6 * ((n : ℚ) / T) = d ^ 3 * (d ^ 3 * ((n : ℚ) / T)) := by ring
      rw [e]
      linarith
    have h3 : (39 / 40 : ℚ) * ((n : ℚ) / T) ≤ 13 / 25 := (mul_le_mul_of_nonneg_right hd6 (div_nonneg (by exact_mod_cast Nat.zero_le _) hTq.le)).trans h2
    have h4 : (n : ℚ) / T ≤ 8 / 15 := by linarith
    rw [div_le_iff₀ hTq] at h4
    have h5 : ((15 * n : Nat) : ℚ) ≤ ((8 * T : Nat) : ℚ) := by push_cast; linarith
    exact_mod_cast h5
  unfold Spec.weightBelow at hb
  unfold Spec.weightAbove at ha
  have hb' := hlow (fun x => decide (x < m'))
  have ha' := hlow (fun x => decide (m' < x))
  rw [← hgen (fun x => decide (x < m'))] at hb'
  rw [← hgen (fun x => decide (m' < x))] at ha'
  simp only [decide_eq_true_eq] at hb' ha'
  exact ⟨fin _ (hb'.trans hb), fin _ (ha'.trans ha)⟩

/-- After each pass at least seven of thirty active elements is gone. -/
theorem step_log (hf : Nearest fl) (hsum : ∀ l, l ≠ [] → SumTree fl l (sum l)) (hP' : P < 2 ^ 40) {r : Nat → Int} {s' : Nat → FspRank α} (hs : ∀ p < P, Sorted (arr p))
    (h : Active P arr v s i) (hv1 : (pre (fun p => ssLeft (arr p) v) P : Int) ≤ r i)
    (hv2 : r i < pre (fun p => ssRight (arr p) v) P) (hi : i < nranks)
    (hstep : fspStep fl sum P nranks r arr s = .ok s') :
    Finished P arr (r i) s' i ∨
      (Active P arr v s' i ∧ 30 * pre (fun q => fspNlocal s' q i) P ≤ 23 * pre (fun q => fspNlocal s q i) P) := by
  rcases active_step hf hsum (lt_trans hP' (by norm_num)) hs h hv1 hv2 hi hstep with hfin | ⟨ha, -⟩
  · exact Or.inl hfin
  right
  refine ⟨ha, ?_⟩
  obtain ⟨m, k, hm, hk, hloc, hmk⟩ := median hf hsum (lt_trans hP' (by norm_num)) hs h hv1 hv2 hi (nranks := nranks)
  obtain ⟨hbelow, habove⟩ := balanced hf hsum hP' h (h.nactive_pos hs hv1 hv2) hi hk (hm k hk)
  generalize hF : pre (fun q => ssLeft (arr q) m) P = F at *
  generalize hL : pre (fun q => ssRight (arr q) m) P = L at *
  have hreq : ∀ p < P, (s' p).req i = reqUpdate (r i) m (ssLeft (arr p) m) (ssRight (arr p) m) F L ((s p).req i) := by
    intro p hp
    rw [fspStep_req hstep hi hp hm, hF, hL]
  have hdone : ∀ p < P, ((s p).req i).done = false := h.done
  have hle : F ≤ L := by
    rw [← hF, ← hL]
    exact pre_le_pre (fun q hq => ssLeft_le_ssRight (hs q hq) m)
  by_cases h1 : r i ≥ F ∧ r i ≤ (L : Int) - 1
  · exfalso
    have hu : reqUpdate (r i) m (ssLeft (arr k) m) (ssRight (arr k) m) F L ((s k).req i) =
        { (s k).req i with med := m, mn := F, mx := (L : Int) - 1, done := true } := by
      unfold reqUpdate
      rw [hdone k hk]
      simp only [Bool.false_eq_true, if_false]
      rw [if_pos h1, if_neg (by omega), if_neg (by omega)]
    have h2 := (FspReq.ext' ((hreq k hk).trans hu)).2.2.1
    rw [ha.done k hk] at h2
    cases h2
  have finish : ∀ (c : Nat → Prop) [DecidablePred c], 15 * pre (fun q => if c q then fspNlocal s q i else 0) P ≤ 8 * pre (fun q => fspNlocal s q i) P →
      (∀ q < P, fspNlocal s' q i ≤ fspNlocal s q i) → (∀ q < P, ¬c q → 2 * fspNlocal s' q i ≤ fspNlocal s q i) →
      30 * pre (fun q => fspNlocal s' q i) P ≤ 23 * pre (fun q => fspNlocal s q i) P := by
    intro c _ hc h2 h3
    have : pre (fun q => 2 * fspNlocal s' q i) P ≤ pre (fun q => fspNlocal s q i + if c q then fspNlocal s q i else 0) P := by
      refine pre_le_pre (fun q hq => ?_)
      by_cases hcq : c q
      · rw [if_pos hcq]; have := h2 q hq; omega
      · rw [if_neg hcq]; have := h3 q hq hcq; omega
    rw [pre_two, pre_sum] at this
    omega
  by_cases h2 : (L : Int) - 1 < r i
  · have hu : ∀ p < P, reqUpdate (r i) m (ssLeft (arr p) m) (ssRight (arr p) m) F L ((s p).req i) =
        { (s p).req i with imin := max ((s p).imin i) (ssRight (arr p) m : Nat) } := by
      intro p hp
      unfold reqUpdate
      rw [hdone p hp]
      simp only [Bool.false_eq_true, if_false]
      rw [if_neg h1, if_pos h2, if_neg (by omega)]
      rw [show ((s p).req i).imin = (s p).imin i from rfl]
    have hx := fun p hp => FspReq.ext' ((hreq p hp).trans (hu p hp))
    have hmin : ∀ p < P, (s' p).imin i = max ((s p).imin i) (ssRight (arr p) m : Nat) := fun p hp => (hx p hp).1
    have hmax : ∀ p < P, (s' p).imax i = (s p).imax i := fun p hp => (hx p hp).2.1
    refine finish (fun q => m < medAt arr s i q) habove (fun q hq => ?_) (fun q hq hc => ?_)
    · unfold fspNlocal
      rw [hmin q hq, hmax q hq]
      omega
    · by_cases h0 : fspNlocal s q i = 0
      · unfold fspNlocal at h0 ⊢
        rw [hmin q hq, hmax q hq]
        omega
      · have h5 := (le_iff_lt_ssRight (hs q hq) (h.med_get hq h0)).1 (not_lt.1 hc)
        have h6 := h.nonneg q hq
        unfold fspNlocal at h0 h5 ⊢
        rw [hmin q hq, hmax q hq]
        omega
  · have h3 : (F : Int) > r i := by omega
    have hu : ∀ p < P, reqUpdate (r i) m (ssLeft (arr p) m) (ssRight (arr p) m) F L ((s p).req i) =
        { (s p).req i with imax := min ((s p).imax i) ((ssLeft (arr p) m : Int) - 1) } := by
      intro p hp
      unfold reqUpdate
      rw [hdone p hp]
      simp only [Bool.false_eq_true, if_false]
      rw [if_neg h1, if_neg h2, if_pos h3]
      rw [show ((s p).req i).imax = (s p).imax i from rfl]
    have hx := fun p hp => FspReq.ext' ((hreq p hp).trans (hu p hp))
    have hmin : ∀ p < P, (s' p).imin i = (s p).imin i := fun p hp => (hx p hp).1
    have hmax : ∀ p < P, (s' p).imax i = min ((s p).imax i) ((ssLeft (arr p) m : Int) - 1) := fun p hp => (hx p hp).2.1
    refine finish (fun q => medAt arr s i q < m) hbelow (fun q hq => ?_) (fun q hq hc => ?_)
    · unfold fspNlocal
      rw [hmin q hq, hmax q hq]
      omega
    · by_cases h0 : fspNlocal s q i = 0
      · unfold fspNlocal at h0 ⊢
        rw [hmin q hq, hmax q hq]
        omega
      · have h5 := (lt_iff_lt_ssLeft (hs q hq) (h.med_get hq h0)).not.1 hc
        have h6 := h.nonneg q hq
        unfold fspNlocal at h0 h5 ⊢
        rw [hmin q hq, hmax q hq]
        omega

theorem shrink {fuel n n' : Nat} (h : 23 ^ (fuel + 1) * n < 30 ^ (fuel + 1)) (h' : 30 * n' ≤ 23 * n) : 23 ^ fuel * n' < 30 ^ fuel := by
  have h1 : 23 ^ fuel * (30 * n') ≤ 23 ^ fuel * (23 * n) := Nat.mul_le_mul_left _ h'
  rw [pow_succ, pow_succ] at h
  nlinarith

theorem fspLoop_log (hf : Nearest fl) (hsum : ∀ l, l ≠ [] → SumTree fl l (sum l)) (hP' : P < 2 ^ 40) {r : Nat → Int} (hP : 0 < P) (hs : ∀ p < P, Sorted (arr p)) (v : Nat → α)
    (hv1 : ∀ i < nranks, (pre (fun p => ssLeft (arr p) (v i)) P : Int) ≤ r i)
    (hv2 : ∀ i < nranks, r i < pre (fun p => ssRight (arr p) (v i)) P) (fuel : Nat) :
    ∀ s, (∀ i < nranks, Finished P arr (r i) s i ∨
        (Active P arr (v i) s i ∧ 23 ^ fuel * pre (fun q => fspNlocal s q i) P < 30 ^ fuel)) →
      ∃ s', fspLoop fl sum P nranks r arr fuel s = .ok s' ∧ ∀ i < nranks, Finished P arr (r i) s' i := by
  induction fuel with
  | zero =>
    intro s h
    have hall : ∀ i < nranks, Finished P arr (r i) s i := by
      intro i hi
      rcases h i hi with h | ⟨h1, h2⟩
      · exact h
      · have := h1.nactive_pos hs (hv1 i hi) (hv2 i hi); simp only [pow_zero, one_mul] at h2; omega
    refine ⟨s, ?_, hall⟩
    unfold fspLoop
    rw [if_pos]
    rw [List.all_eq_true]
    intro p hp
    unfold fspWantsMore
    rw [Bool.not_eq_true', List.any_eq_false]
    intro i hi
    obtain ⟨q, _, _, hq⟩ := hall i (List.mem_range.1 hi)
    simp [(hq p (List.mem_range.1 hp)).1]
  | succ fuel ih =>
    intro s h
    by_cases hall : ∀ i < nranks, Finished P arr (r i) s i
    · refine ⟨s, ?_, hall⟩
      unfold fspLoop
      rw [if_pos]
      rw [List.all_eq_true]
      intro p hp
      unfold fspWantsMore
      rw [Bool.not_eq_true', List.any_eq_false]
      intro i hi
      obtain ⟨q, _, _, hq⟩ := hall i (List.mem_range.1 hi)
      simp [(hq p (List.mem_range.1 hp)).1]
    · have hact : ∃ i < nranks, Active P arr (v i) s i := by
        by_contra hc
        apply hall
        intro i hi
        rcases h i hi with h | ⟨h1, _⟩
        · exact h
        · exact (hc ⟨i, hi, h1⟩).elim
      obtain ⟨i0, hi0, ha0⟩ := hact
      have hw : ∀ p < P, fspWantsMore nranks s p = true := by
        intro p hp
        unfold fspWantsMore
        rw [List.any_eq_true]
        exact ⟨i0, List.mem_range.2 hi0, by simp [ha0.done p hp]⟩
      obtain ⟨s1, hstep⟩ : ∃ s1, fspStep fl sum P nranks r arr s = .ok s1 := by
        have hok : (List.range P).all (fun p => (List.range nranks).all
            (fun i => (fspEst fl sum P nranks arr s p i).isOk)) = true := by
          rw [List.all_eq_true]
          intro p hp
          rw [List.all_eq_true]
          intro i hi
          have hi := List.mem_range.1 hi
          have hp := List.mem_range.1 hp
          rcases h i hi with ⟨q, _, _, hq⟩ | ⟨h1, _⟩
          · exact fspEst_done fl sum P nranks hi (fun p hp => (hq p hp).1) hp
          · obtain ⟨m, k, hm, _⟩ := median hf hsum (lt_trans hP' (by norm_num)) hs h1 (hv1 i hi) (hv2 i hi) hi (nranks := nranks)
            rw [hm p hp]; rfl
        unfold fspStep
        simp only
        rw [if_pos hok]
        exact ⟨_, rfl⟩
      obtain ⟨s', hl, hfin⟩ := ih s1 (by
        intro i hi
        rcases h i hi with h | ⟨h1, h2⟩
        · exact Or.inl (finished_step h hstep)
        · rcases step_log hf hsum hP' hs h1 (hv1 i hi) (hv2 i hi) hi hstep with h3 | ⟨h3, h4⟩
          · exact Or.inl h3
          · exact Or.inr ⟨h3, shrink h2 h4⟩)
      refine ⟨s', ?_, hfin⟩
      unfold fspLoop
      rw [if_neg, if_pos]
      · simp only [hstep]; exact hl
      · rw [List.all_eq_true]
        intro p hp
        exact hw p (List.mem_range.1 hp)
      · rw [List.all_eq_true]
        intro hc
        have := hc 0 (List.mem_range.2 hP)
        rw [hw 0 hP] at this
        simp at this

theorem findSplittingPoints_log (hf : Nearest fl) (hsum : ∀ l, l ≠ [] → SumTree fl l (sum l)) (hP' : P < 2 ^ 40) {r : Nat → Int} {fuel : Nat} (hP : 0 < P) (hs : ∀ p < P, Sorted (arr p))
    (hr : ∀ i < nranks, 0 ≤ r i ∧ r i < (gcat P arr).length) (hfuel : 23 ^ fuel * (gcat P arr).length < 30 ^ fuel) :
    ∃ out, findSplittingPoints fl sum fuel P nranks r arr = .ok out ∧
      ∀ i < nranks, ∃ (v : α) (mn mx : Int), (∀ p < P, out p i = (v, mn, mx)) ∧ v ∈ gcat P arr ∧
        mn = ((gcat P arr).countP (fun x => decide (x < v)) : Nat) ∧
        mx = ((gcat P arr).countP (fun x => decide (x ≤ v)) : Nat) - 1 ∧ mn ≤ r i ∧ r i ≤ mx := by
  have htar : ∀ i, ∃ v : α, i < nranks → (pre (fun p => ssLeft (arr p) v) P : Int) ≤ r i ∧
      r i < pre (fun p => ssRight (arr p) v) P := by
    intro i
    by_cases hi : i < nranks
    · have := hr i hi
      obtain ⟨v, h1, h2⟩ := exists_target (gcat P arr) (r := (r i).toNat) (by omega)
      refine ⟨v, fun _ => ?_⟩
      rw [countP_gcat] at h1 h2
      rw [pre_congr (fun q hq => ssLeft_eq (hs q hq) v), pre_congr (fun q hq => ssRight_eq (hs q hq) v)]
      omega
    · exact ⟨default, fun h => (hi h).elim⟩
  choose v hv using htar
  obtain ⟨s', hl, hfin⟩ := fspLoop_log hf hsum hP' (r := r) hP hs v (fun i hi => (hv i hi).1) (fun i hi => (hv i hi).2) fuel
    (fspInit arr) (by
      intro i hi
      refine Or.inr ⟨⟨fun p hp => rfl, fun p hp => ?_, fun p hp => ?_, fun p hp => ?_, fun p hp => ?_⟩, ?_⟩
      · exact le_refl _
      · exact Int.natCast_nonneg _
      · have := ssRight_le_length (hs p hp) (v i)
        show _ ≤ ((arr p).length : Int) - 1
        omega
      · exact le_refl _
      · rw [length_gcat] at hfuel
        refine lt_of_le_of_lt (Nat.mul_le_mul_left _ (pre_le_pre ?_)) hfuel
        intro p hp
        unfold fspNlocal fspInit sizes
        simp only
        omega)
  refine ⟨_, by unfold findSplittingPoints; rw [hl], ?_⟩
  intro i hi
  obtain ⟨q, _, hok, hq⟩ := hfin i hi
  refine ⟨q.med, q.mn, q.mx, fun p hp => ?_, hok.mem, hok.mn_eq, hok.mx_eq, hok.le_r, hok.r_le⟩
  obtain ⟨_, h2, h3, h4⟩ := hq p hp
  simp only [h2, h3, h4]

end

/-- `3 * (log2 n + 1)` passes leave fewer than one of `n` elements. -/
theorem log_fuel {n fuel : Nat} (hfuel : 3 * (Nat.log 2 n + 1) ≤ fuel) : 23 ^ fuel * n < 30 ^ fuel := by
  have h1 : n < 2 ^ (Nat.log 2 n + 1) := Nat.lt_pow_succ_log_self (by decide) _
  generalize Nat.log 2 n + 1 = k at *
  obtain ⟨d, rfl⟩ : ∃ d, fuel = 3 * k + d := ⟨fuel - 3 * k, by omega⟩
  have h2 : 12167 ^ k * 2 ^ k ≤ 27000 ^ k := by rw [← Nat.mul_pow]; exact Nat.pow_le_pow_left (by decide) k
  have h3 : 23 ^ d ≤ 30 ^ d := Nat.pow_le_pow_left (by decide) d
  rw [pow_add, pow_add, pow_mul, pow_mul, show 23 ^ 3 = 12167 from rfl, show 30 ^ 3 = 27000 from rfl]
  have h4 : 12167 ^ k * n < 27000 ^ k := lt_of_lt_of_le (Nat.mul_lt_mul_of_pos_left h1 (by positivity)) h2
  calc 12167 ^ k * 23 ^ d * n = 12167 ^ k * n * 23 ^ d := by ring
    _ < 27000 ^ k * 23 ^ d := Nat.mul_lt_mul_of_pos_right h4 (by positivity)
    _ ≤ 27000 ^ k * 30 ^ d := Nat.mul_le_mul_left _ h3

end Verif.Rounded
