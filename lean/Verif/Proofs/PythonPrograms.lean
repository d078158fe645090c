import Verif.Spec.PythonPrograms
import Verif.Props.Match
import Verif.Props.Ranges
import Verif.Proofs.PeanoBlocks
import Mathlib.Tactic.Ring
import Mathlib.Tactic.Module
import Mathlib.Tactic.FieldSimp
import Mathlib.Algebra.Order.Field.Basic

namespace Verif.PythonPrograms

variable {α β ι : Type}

theorem bindOk {x : Except Err α} {v : α} (f : α → Except Err β) (h : x = .ok v) : (x >>= f) = f v := by subst h; rfl

theorem item_nat {l : List α} {i : Nat} {v : α} (h : l[i]? = some v) : item l (i : Int) = .ok v := by
  unfold item pyGet?
  rw [if_pos (by omega), Int.toNat_natCast, h]

theorem item_last {l : List α} {v : α} (h : l.getLast? = some v) : item l (-1) = .ok v := by
  have hl : 0 < l.length := by
    rcases l with _ | ⟨x, l⟩
    · simp at h
    · simp
  unfold item pyGet?
  rw [if_neg (by omega), if_pos (by omega), show ((l.length : Int) + -1).toNat = l.length - 1 by omega, ← List.getLast?_eq_getElem?, h]

theorem items_map {l : List α} (js : List ι) (f : ι → Int) (v : ι → α) (h : ∀ j ∈ js, item l (f j) = .ok (v j)) : items l (js.map f) = .ok (js.map v) := by
  induction js with
  | nil => rfl
  | cons j js ih =>
    have := ih (fun i hi => h i (by simp [hi]))
    unfold items at this ⊢
    rw [List.map_cons, List.mapM_cons, h j (by simp), this]
    rfl

theorem zipWith_maps (l : List ι) (f : ι → α) (g : ι → β) {γ : Type} (op : α → β → γ) : List.zipWith op (l.map f) (l.map g) = l.map (fun i => op (f i) (g i)) := by
  induction l with
  | nil => rfl
  | cons i l ih => simp [ih]

theorem selectMask_map (l : List ι) (h : ι → α) (p : ι → Bool) : selectMask (l.map h) (l.map p) = .ok ((l.filter p).map h) := by
  unfold selectMask
  rw [if_neg (by simp)]
  congr 1
  induction l with
  | nil => rfl
  | cons i l ih =>
    simp only [List.map_cons, List.zip_cons_cons, List.filter_cons]
    cases p i <;> simp [ih]

theorem amax_ok {l : List Int} {m : Int} (hm : m ∈ l) (h : ∀ x ∈ l, x ≤ m) : amax l = .ok m := by
  have key : ∀ (l : List Int) (x : Int), (x = m ∨ m ∈ l) → x ≤ m → (∀ y ∈ l, y ≤ m) → l.foldl max x = m := by
    intro l
    induction l with
    | nil => intro x h1 h2 _; simpa using h1
    | cons y l ih =>
      intro x h1 h2 h3
      have hy := h3 y (by simp)
      refine ih _ ?_ (max_le h2 hy) (fun z hz => h3 z (by simp [hz]))
      rcases h1 with rfl | h1
      · exact Or.inl (max_eq_left hy)
      · rcases List.mem_cons.1 h1 with rfl | h1
        · exact Or.inl (max_eq_right h2)
        · exact Or.inr h1
  rcases l with _ | ⟨x, l⟩
  · simp at hm
  · exact congrArg Except.ok (key l x (by rcases List.mem_cons.1 hm with h1 | h1; exacts [Or.inl h1.symm, Or.inr h1]) (h x (by simp)) (fun y hy => h y (by simp [hy])))

/-! ### Finding particles -/

theorem ptr_ok {P : Type} {idf : P → Nat} {parts : List P} (hn : (parts.map idf).Nodup) {groupids : List Nat} {member : Nat → P}
    (hT : ∀ i < groupids.length, (member i ∈ parts ∧ idf (member i) = groupids.getD i 0) ∨ ((∀ q ∈ parts, idf q ≠ groupids.getD i 0) ∧ parts.getLast? = some (member i)))
    {order : List Nat → List Nat} (ho : IsArgsort (parts.map idf) (order (parts.map idf))) :
    ∃ ptr, matchArr groupids (parts.map idf) false none (order (parts.map idf)) = .ok ptr ∧
      (∀ (γ : Type) (g : P → γ), items (parts.map g) ptr = .ok ((List.range groupids.length).map (fun i => g (member i)))) ∧
      ((∀ i < groupids.length, ∃ p ∈ parts, idf p = groupids.getD i 0) → ∀ x ∈ ptr, 0 ≤ x) := by
  obtain ⟨out, h1, h2, h3⟩ := C34_match (arr1 := groupids) ho
  refine ⟨out, h1, fun γ g => ?_, fun hall x hx => ?_⟩
  rotate_left
  · obtain ⟨i, hi, rfl⟩ := List.getElem_of_mem hx
    have hi' : i < groupids.length := h2 ▸ hi
    have hv : groupids[i]? = some (groupids.getD i 0) := by simp [hi']
    rcases h3 i _ hv with ⟨h4, -⟩ | ⟨j, -, h5⟩
    · obtain ⟨p, hp, he⟩ := hall i hi'
      exact absurd (List.mem_map.2 ⟨p, hp, he⟩) h4
    · rw [List.getElem?_eq_getElem hi] at h5
      simp only [Option.some.injEq] at h5
      omega
  have e : out = (List.range groupids.length).map (fun i => out.getD i 0) := by
    apply List.ext_getElem?
    intro i
    by_cases hi : i < groupids.length
    · simp [hi, h2]
    · rw [List.getElem?_eq_none (by omega), List.getElem?_eq_none (by simpa using hi)]
  rw [e]
  refine items_map _ _ _ (fun i hi => ?_)
  have hi : i < groupids.length := by simpa using hi
  have hv : groupids[i]? = some (groupids.getD i 0) := by simp [hi]
  rcases h3 i _ hv with ⟨h4, h5⟩ | ⟨j, h4, h5⟩
  · rw [List.getD_eq_getElem?_getD, h5]
    refine item_last ?_
    rcases hT i hi with ⟨h6, h7⟩ | ⟨-, h7⟩
    · exact absurd (List.mem_map.2 ⟨_, h6, h7⟩) h4
    · rw [List.getLast?_map, h7]; rfl
  · rw [List.getD_eq_getElem?_getD, h5]
    refine item_nat ?_
    rw [List.getElem?_map] at h4 ⊢
    cases hp : parts[j]? with
    | none => rw [hp] at h4; simp at h4
    | some p =>
      rw [hp] at h4
      have h4 : idf p = groupids.getD i 0 := by simpa using h4
      rcases hT i hi with ⟨h6, h7⟩ | ⟨h6, -⟩
      · have : p = member i := List.inj_on_of_nodup_map hn (List.mem_of_getElem? hp) h6 (h4.trans h7.symm)
        rw [this]; rfl
      · exact absurd h4 (h6 p (List.mem_of_getElem? hp))

/-! ### Sorted by subhalo -/

theorem range_of_sub {O : List Nat} {s : Nat → Int} (hs : Sorted (O.map s)) (j : Int) :
    slice O (ssLeft (O.map s) j) (ssRight (O.map s) j - ssLeft (O.map s) j) = O.filter (fun o => decide (s o = j)) := by
  have hp : O.Pairwise (fun x y => s x ≤ s y) := List.pairwise_map.1 hs
  have d1 : DownClosed (fun o => decide (s o < j)) O := hp.imp (fun h h2 => by simp only [decide_eq_true_eq] at h2 ⊢; omega)
  have d2 : DownClosed (fun o => decide (s o ≤ j)) O := hp.imp (fun h h2 => by simp only [decide_eq_true_eq] at h2 ⊢; omega)
  have e1 : ssLeft (O.map s) j = O.countP (fun o => decide (s o < j)) := by rw [ssLeft_eq hs, List.countP_map]; rfl
  have e2 : ssRight (O.map s) j = O.countP (fun o => decide (s o ≤ j)) := by rw [ssRight_eq hs, List.countP_map]; rfl
  have e3 : (O.filter (fun o => decide (s o ≤ j))).countP (fun o => decide (s o < j)) = O.countP (fun o => decide (s o < j)) := by
    rw [List.countP_filter]
    apply List.countP_congr
    intro o _
    simp only [Bool.and_eq_true, decide_eq_true_eq]
    omega
  have d3 : DownClosed (fun o => decide (s o < j)) (O.filter (fun o => decide (s o ≤ j))) := d1.sublist List.filter_sublist
  have := d3.drop_countP
  rw [e3] at this
  unfold slice
  rw [e1, e2, ← List.drop_take, d2.take_countP, this, List.filter_filter]
  apply List.filter_congr
  intro o _
  rw [Bool.eq_iff_iff]
  simp only [Bool.and_eq_true, Bool.not_eq_true', decide_eq_false_iff_not, decide_eq_true_eq]
  omega

theorem slice_map (f : α → β) (l : List α) (o n : Nat) : slice (l.map f) o n = (slice l o n).map f := by
  unfold slice
  rw [List.map_take, List.map_drop]

variable {K : Type} [Field K]

theorem sum_fst (l : List (Row K)) : l.sum.1 = (l.map (fun r => r.1)).sum ∧ l.sum.2.1 = (l.map (fun r => r.2.1)).sum ∧ l.sum.2.2 = (l.map (fun r => r.2.2)).sum := by
  induction l with
  | nil => simp
  | cons r l ih => simp [ih]

theorem mean_perm {l l' : List (Row K)} (h : l.Perm l') : mean l = mean l' := by
  unfold mean
  rw [h.length_eq, h.sum_eq]

theorem meanRanges_ok {O : List Nat} {s : Nat → Int} (hs : Sorted (O.map s)) (h : Nat → Row K) (nsub : Nat) :
    meanRanges (O.map h) ((List.range nsub).map (fun j : Nat => (ssLeft (O.map s) (j : Int) : Int))) ((List.range nsub).map (fun j : Nat => (ssRight (O.map s) (j : Int) : Int) - (ssLeft (O.map s) (j : Int) : Int))) =
      .ok ((List.range nsub).map (fun j : Nat => mean ((O.filter (fun o => decide (s o = (j : Int)))).map h))) := by
  obtain ⟨R, hR⟩ : ∃ R, R = (List.range nsub).map (fun j : Nat => (ssLeft (O.map s) (j : Int), ssRight (O.map s) (j : Int) - ssLeft (O.map s) (j : Int))) := ⟨_, rfl⟩
  have hle := fun j : Int => ssLeft_le_ssRight hs j
  have e1 : (List.range nsub).map (fun j : Nat => (ssLeft (O.map s) (j : Int) : Int)) = R.map (fun r => (r.1 : Int)) := by
    rw [hR, List.map_map]; rfl
  have e2 : (List.range nsub).map (fun j : Nat => (ssRight (O.map s) (j : Int) : Int) - (ssLeft (O.map s) (j : Int) : Int)) = R.map (fun r => (r.2 : Int)) := by
    rw [hR, List.map_map]
    apply List.map_congr_left
    intro j _
    have := hle j
    simp only [Function.comp_apply]
    omega
  have hok : ∀ n, n = O.length → RangesOk n R := by
    rintro n rfl
    rw [hR]
    constructor
    · intro r hr
      obtain ⟨j, -, rfl⟩ := List.mem_map.1 hr
      have h1 := hle j
      have h2 := ssRight_le_length hs (j : Int)
      rw [List.length_map] at h2
      dsimp only
      omega
    · rw [List.pairwise_map]
      refine List.pairwise_lt_range.imp ?_
      intro i j hij
      have h1 := hle i
      have h2 := ssRight_le_ssLeft hs (show (i : Int) < (j : Int) by omega)
      dsimp only
      omega
  unfold meanRanges
  rw [e1, e2, bindOk _ (C36_sum_ranges (hok _ (by simp)) none (by simp) true), bindOk _ (C36_sum_ranges (hok _ (by simp)) none (by simp) true), bindOk _ (C36_sum_ranges (hok _ (by simp)) none (by simp) true)]
  congr 1
  rw [hR]
  simp only [List.map_map]
  rw [List.zip_eq_zipWith, List.zip_eq_zipWith, zipWith_maps, zipWith_maps]
  apply List.map_congr_left
  intro j _
  have hsl := range_of_sub hs (j : Int)
  have hlen : ssRight (O.map s) (j : Int) - ssLeft (O.map s) (j : Int) = ((O.filter (fun o => decide (s o = (j : Int)))).map h).length := by
    rw [List.length_map, ← hsl]
    have h1 := hle j
    have h2 := ssRight_le_length hs (j : Int)
    rw [List.length_map] at h2
    simp [slice]
    omega
  obtain ⟨s1, s2, s3⟩ := sum_fst ((O.filter (fun o => decide (s o = (j : Int)))).map h)
  simp only [Function.comp_apply, rangeSum, slice_map, hsl]
  rw [hlen]
  unfold mean
  simp only [List.map_map] at s1 s2 s3
  ext
  · rw [Prod.smul_fst, s1, smul_eq_mul, div_eq_inv_mul]
  · dsimp only; rw [Prod.smul_snd, Prod.smul_fst, s2, smul_eq_mul, div_eq_inv_mul]
  · dsimp only; rw [Prod.smul_snd, Prod.smul_snd, s3, smul_eq_mul, div_eq_inv_mul]

/-! ### Angular momentum -/

theorem sum_sub (l : List ι) (f : ι → Row K) (c : Row K) : (l.map (fun i => f i - c)).sum = (l.map f).sum - (l.length : K) • c := by
  induction l with
  | nil => simp
  | cons i l ih =>
    rw [List.map_cons, List.sum_cons, ih, List.map_cons, List.sum_cons, List.length_cons]
    push_cast
    module

theorem sum_cross (l : List ι) (u w : ι → Row K) (c : Row K) : (l.map (fun i => cross (u i) (w i - c))).sum = (l.map (fun i => cross (u i) (w i))).sum - cross (l.map u).sum c := by
  induction l with
  | nil => ext <;> simp [cross]
  | cons i l ih =>
    simp only [List.map_cons, List.sum_cons]
    rw [ih]
    ext <;> simp [cross] <;> ring

theorem mean_smul (c : K) (l : List (Row K)) : mean (l.map (fun r => c • r)) = c • mean l := by
  unfold mean
  rw [List.length_map, smul_comm]
  congr 1
  induction l with
  | nil => simp
  | cons r l ih => simp [ih]

theorem mean_smul' (c : K) (l : List ι) (f : ι → Row K) : mean (l.map (fun i => c • f i)) = c • mean (l.map f) := by
  rw [← mean_smul, List.map_map]; rfl

/-- Which velocity is subtracted does not matter, as positions are relative to their mean. -/
theorem angular_any [CharZero K] {l : List ι} (hl : l ≠ []) (x v : ι → Row K) (c : Row K) : mean (l.map (fun i => cross (x i - mean (l.map x)) (v i - c))) = angular l x v := by
  have h0 : (l.map (fun i => x i - mean (l.map x))).sum = 0 := by
    have hn : (l.length : K) ≠ 0 := by
      have := List.length_pos_of_ne_nil hl
      exact_mod_cast this.ne'
    rw [sum_sub]
    unfold mean
    rw [List.length_map, smul_smul, mul_inv_cancel₀ hn, one_smul, sub_self]
  have hc : ∀ c : Row K, cross 0 c = 0 := by intro c; ext <;> simp [cross]
  unfold angular
  unfold mean at h0 ⊢
  simp only [List.length_map] at h0 ⊢
  rw [sum_cross, sum_cross, h0, hc, hc]

theorem angular_perm {l l' : List ι} (h : l.Perm l') (x v : ι → Row K) : angular l x v = angular l' x v := by
  unfold angular
  rw [mean_perm (h.map x), mean_perm (h.map v)]
  exact mean_perm (h.map _)

theorem cross_smul (a b : K) (u v : Row K) : cross (a • u) (b • v) = (a * b) • cross u v := by
  ext <;> simp [cross] <;> ring

/-! ### Both programs -/

theorem subhaloProps_ok [LinearOrder K] [IsStrictOrderedRing K] [FloorRing K] {parts : List (Part K)} (hn : (parts.map Part.id).Nodup) {groupids : List Nat} {member : Nat → Part K}
    (hT : ∀ i < groupids.length, Taken parts (groupids.getD i 0) (member i)) {order : List Nat → List Nat} (ho : ∀ l, IsArgsort l (order l)) {sortOrder : List Int → List Nat} (hso : ∀ l, IsArgsort l (sortOrder l))
    {s : Nat → Int} {nsub : Nat} (h0 : 0 < nsub) (hs : ∀ i < groupids.length, s i < nsub) (hne : ∀ j < nsub, ∃ i < groupids.length, s i = j) (boxsize a sqrtA : K) :
    ∃ r, subhaloProps order sortOrder (parts.map Part.pos) (parts.map Part.vel) (parts.map Part.id) groupids ((List.range groupids.length).map s) boxsize a sqrtA = .ok r ∧
      PropsOf r boxsize a sqrtA nsub (fun j => ((List.range groupids.length).filter (fun i => decide (s i = (j : Int)))).map member) := by
  obtain ⟨ptr, p1, p2, -⟩ := ptr_ok hn hT (ho _)
  obtain ⟨ni, hni⟩ : ∃ n, n = groupids.length := ⟨_, rfl⟩
  rw [← hni] at hs hne p2 ⊢
  obtain ⟨order', hord⟩ : ∃ o, o = sortOrder ((List.range ni).map s) := ⟨_, rfl⟩
  have hA := hso ((List.range ni).map s)
  rw [← hord] at hA
  obtain ⟨hperm, hsort⟩ := hA
  rw [List.length_map, List.length_range] at hperm
  have hlt : ∀ i ∈ order', i < ni := fun i hi => List.mem_range.1 (hperm.mem_iff.1 hi)
  have hsorted : Sorted (order'.map s) := by
    have : fancy ((List.range ni).map s) order' = order'.map s := by
      unfold fancy
      apply List.map_congr_left
      intro i hi
      simp [hlt i hi]
    rw [← this]; exact hsort
  have hidx : ∀ (γ : Type) (g : Nat → γ), items ((List.range ni).map g) (order'.map Int.ofNat) = .ok (order'.map g) := fun γ g =>
    items_map _ _ _ (fun i hi => item_nat (by simp [hlt i hi]))
  obtain ⟨O, hO⟩ : ∃ O, O = order'.filter (fun i => decide (s i ≥ 0)) := ⟨_, rfl⟩
  have hOs : Sorted (O.map s) := hsorted.sublist (by rw [hO]; exact List.filter_sublist.map s)
  have hO0 : ∀ o ∈ O, 0 ≤ s o ∧ s o < nsub := by
    intro o h
    rw [hO, List.mem_filter, decide_eq_true_eq] at h
    exact ⟨h.2, hs o (hlt o h.1)⟩
  have hOj : ∀ j : Nat, (O.filter (fun o => decide (s o = (j : Int)))).Perm ((List.range ni).filter (fun o => decide (s o = (j : Int)))) := by
    intro j
    rw [hO, List.filter_filter]
    refine List.Perm.trans (List.Perm.of_eq (List.filter_congr ?_)) (hperm.filter _)
    intro o _
    rw [Bool.eq_iff_iff]
    simp only [Bool.and_eq_true, decide_eq_true_eq]
    omega
  have hnej : ∀ j < nsub, O.filter (fun o => decide (s o = ((j : Nat) : Int))) ≠ [] := by
    intro j hj he
    obtain ⟨i, hi, hij⟩ := hne j hj
    have := (hOj j).mem_iff.2 (List.mem_filter.2 ⟨List.mem_range.2 hi, by simpa using hij⟩)
    rw [he] at this
    cases this
  have hmax : amax (O.map s) = .ok ((nsub : Int) - 1) := by
    apply amax_ok
    · obtain ⟨o, ho⟩ := List.exists_mem_of_ne_nil _ (hnej (nsub - 1) (by omega))
      rw [List.mem_filter, decide_eq_true_eq] at ho
      exact List.mem_map.2 ⟨o, ho.1, by rw [ho.2]; omega⟩
    · intro x hx
      obtain ⟨o, ho, rfl⟩ := List.mem_map.1 hx
      have := hO0 o ho
      omega
  obtain ⟨hd, hhd⟩ : ∃ hd : Int → Nat, hd = fun j => (O.filter (fun o => decide (s o = j))).headD 0 := ⟨_, rfl⟩
  have hhead : ∀ j < nsub, hd (j : Nat) ∈ O.filter (fun o => decide (s o = ((j : Nat) : Int))) ∧ O[ssLeft (O.map s) ((j : Nat) : Int)]? = some (hd (j : Nat)) := by
    intro j hj
    have h1 := range_of_sub hOs (j : Int)
    have h2 := hnej j hj
    rw [hhd]
    rcases hc : O.filter (fun o => decide (s o = ((j : Nat) : Int))) with _ | ⟨o, rest⟩
    · exact absurd hc h2
    · rw [hc] at h1
      refine ⟨by simp [hc], ?_⟩
      have h3 : (slice O (ssLeft (O.map s) (j : Int)) (ssRight (O.map s) (j : Int) - ssLeft (O.map s) (j : Int)))[0]? = some o := by rw [h1]; rfl
      unfold slice at h3
      rw [List.getElem?_take] at h3
      split_ifs at h3
      rw [List.getElem?_drop, Nat.add_zero] at h3
      simp only [hc, List.headD_cons]
      exact h3
  have hget : ∀ (γ : Type) (g : Nat → γ), items ((List.range nsub).map g) (O.map s) = .ok (O.map (fun o => g (s o).toNat)) := by
    intro γ g
    refine items_map _ _ _ (fun o ho => ?_)
    have := hO0 o ho
    have e : s o = ((s o).toNat : Int) := by omega
    rw [e]
    refine item_nat ?_
    rw [List.getElem?_map, List.getElem?_range (by omega)]
    rfl
  have htoNat : ∀ o ∈ O, ((s o).toNat : Int) = s o := fun o ho => by have := hO0 o ho; omega
  obtain ⟨W, hW⟩ : ∃ W : Nat → Row K, W = fun o => wrapRow boxsize ((member o).pos - (member (hd (s o))).pos) + (member (hd (s o))).pos := ⟨_, rfl⟩
  have hWn : ∀ j : Nat, ∀ o ∈ O.filter (fun o => decide (s o = ((j : Nat) : Int))), W o = near boxsize (member (hd (j : Int))) (member o) := by
    intro j o ho
    rw [List.mem_filter, decide_eq_true_eq] at ho
    rw [hW]
    dsimp only
    rw [ho.2]
    exact add_comm _ _
  refine ⟨⟨(List.range nsub).map (fun j : Nat => mean ((O.filter (fun o => decide (s o = (j : Int)))).map W)),
    ((List.range nsub).map (fun j : Nat => mean ((O.filter (fun o => decide (s o = (j : Int)))).map (fun o => (member o).vel)))).map (fun r => sqrtA • r),
    (List.range nsub).map (fun j : Nat => mean ((O.filter (fun o => decide (s o = (j : Int)))).map (fun o =>
      cross (a • (W o - mean ((O.filter (fun o' => decide (s o' = ((s o).toNat : Int)))).map W)))
        (sqrtA • ((member o).vel - sqrtA • mean ((O.filter (fun o' => decide (s o' = ((s o).toNat : Int)))).map (fun o => (member o).vel)))))))⟩, ?_, ?_⟩
  · unfold subhaloProps
    rw [bindOk _ p1, bindOk _ (p2 _ Part.pos), bindOk _ (p2 _ Part.vel)]
    dsimp only
    rw [← hord, bindOk _ (hidx _ (fun i => (member i).pos)), bindOk _ (hidx _ (fun i => (member i).vel)), bindOk _ (hidx _ s)]
    rw [List.map_map]
    have hcomp : ((fun n : Int => decide (n ≥ 0)) ∘ s) = fun i => decide (s i ≥ 0) := rfl
    rw [hcomp, bindOk _ (selectMask_map _ _ _), bindOk _ (selectMask_map _ _ _), bindOk _ (selectMask_map _ _ _), ← hO, bindOk _ hmax]
    simp only [List.map_map]
    rw [show ((nsub : Int) - 1 + 1).toNat = nsub by omega]
    have hf : items ((List.range nsub).map ((fun i : Int => (ssLeft (O.map s) i : Int)) ∘ fun i : Nat => (i : Int))) (O.map s) = .ok (O.map (fun o => (ssLeft (O.map s) (s o) : Int))) := by
      rw [hget]
      congr 1
      apply List.map_congr_left
      intro o ho
      simp only [Function.comp_apply]
      rw [htoNat o ho]
    have href : items (O.map (fun i => (member i).pos)) (O.map (fun o => (ssLeft (O.map s) (s o) : Int))) = .ok (O.map (fun o => (member (hd (s o))).pos)) := by
      refine items_map _ _ _ (fun o ho => item_nat ?_)
      have h1 := hO0 o ho
      have h2 := (hhead (s o).toNat (by omega)).2
      rw [htoNat o ho] at h2
      rw [List.getElem?_map, h2]; rfl
    rw [bindOk _ hf, bindOk _ href, zipWith_maps, List.map_map, zipWith_maps]
    have hWm : (O.map (fun i => (wrapRow boxsize ∘ fun i => (member i).pos - (member (hd (s i))).pos) i + (member (hd (s i))).pos)) = O.map W := by rw [hW]; rfl
    rw [hWm]
    have m1 : ∀ h : Nat → Row K, meanRanges (O.map h) ((List.range nsub).map ((fun i : Int => (ssLeft (O.map s) i : Int)) ∘ fun i : Nat => (i : Int)))
        ((List.range nsub).map ((fun i : Int => (ssRight (O.map s) i : Int) - (ssLeft (O.map s) i : Int)) ∘ fun i : Nat => (i : Int))) =
          .ok ((List.range nsub).map (fun j : Nat => mean ((O.filter (fun o => decide (s o = (j : Int)))).map h))) := fun h => meanRanges_ok hOs h nsub
    rw [bindOk _ (m1 W), bindOk _ (m1 (fun i => (member i).vel)), List.map_map, bindOk _ (hget _ _), bindOk _ (hget _ _), zipWith_maps, zipWith_maps, List.map_map, List.map_map, zipWith_maps, bindOk _ (m1 _)]
    rfl
  · refine ⟨by simp, by simp, by simp, fun j hj => ?_⟩
    obtain ⟨q1, -⟩ := hhead j hj
    have hmem := (hOj j).mem_iff.1 q1
    refine ⟨member (hd (j : Int)), List.mem_map_of_mem hmem, ?_, ?_, ?_⟩
    · dsimp only
      rw [List.getElem?_map, List.getElem?_range hj, List.map_map]
      simp only [Option.map_some]
      congr 1
      refine Eq.trans ?_ (mean_perm ((hOj j).map _))
      rw [List.map_congr_left (hWn j)]
      rfl
    · dsimp only
      rw [List.getElem?_map, List.getElem?_map, List.getElem?_range hj, List.map_map]
      simp only [Option.map_some]
      congr 1
      rw [← mean_smul']
      exact mean_perm ((hOj j).map _)
    · dsimp only
      rw [List.getElem?_map, List.getElem?_range hj]
      simp only [Option.map_some]
      congr 1
      have hl := hnej j hj
      have e := angular_any hl (fun o => a • W o) (fun o => sqrtA • (member o).vel) (sqrtA • sqrtA • mean ((O.filter (fun o' => decide (s o' = (j : Int)))).map (fun o => (member o).vel)))
      have e2 : (O.filter (fun o => decide (s o = (j : Int)))).map (fun o =>
          cross (a • (W o - mean ((O.filter (fun o' => decide (s o' = ((s o).toNat : Int)))).map W)))
            (sqrtA • ((member o).vel - sqrtA • mean ((O.filter (fun o' => decide (s o' = ((s o).toNat : Int)))).map (fun o => (member o).vel))))) =
          (O.filter (fun o => decide (s o = (j : Int)))).map (fun o => cross (a • W o - mean ((O.filter (fun o => decide (s o = (j : Int)))).map (fun o => a • W o)))
            (sqrtA • (member o).vel - sqrtA • sqrtA • mean ((O.filter (fun o' => decide (s o' = (j : Int)))).map (fun o => (member o).vel)))) := by
        apply List.map_congr_left
        intro o ho
        rw [List.mem_filter, decide_eq_true_eq] at ho
        rw [htoNat o ho.1, ho.2, mean_smul', smul_sub, smul_sub]
      rw [e2, e, angular_perm (hOj j)]
      unfold angular
      simp only [List.map_map]
      have e3 : ∀ o ∈ (List.range ni).filter (fun o => decide (s o = (j : Int))), W o = near boxsize (member (hd (j : Int))) (member o) := fun o ho => hWn j o ((hOj j).mem_iff.2 ho)
      have e4 : ((List.range ni).filter (fun o => decide (s o = (j : Int)))).map (fun o => a • W o) =
          ((List.range ni).filter (fun o => decide (s o = (j : Int)))).map ((fun p => a • near boxsize (member (hd (j : Int))) p) ∘ member) := by
        apply List.map_congr_left
        intro o ho
        rw [e3 o ho]; rfl
      rw [e4]
      congr 1
      apply List.map_congr_left
      intro o ho
      simp only [Function.comp_apply]
      rw [e3 o ho]
      rfl

end Verif.PythonPrograms
