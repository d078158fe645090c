import Verif.Proofs.PeanoLoop

set_option linter.unusedSectionVars false

namespace Verif

/-! ### Arrays are processed element by element -/

theorem le_sum_map {ι : Type*} (l : List ι) (f : ι → Nat) {i : ι} (hi : i ∈ l) : f i ≤ (l.map f).sum := by
  induction l with
  | nil => simp at hi
  | cons a l ih =>
    rw [List.map_cons, List.sum_cons]
    rcases List.mem_cons.1 hi with rfl | h
    · omega
    · have := ih h; omega

theorem rotateAll_eq {ι : Type*} (table : List Nat) (l : List ι) (fuel : Nat) (rotation rot : ι → Nat) (h : (l.map rot).sum ≤ fuel) :
    rotateAll table fuel (l.map rotation) (l.map rot) = l.map (fun i => rotateOne table (rot i) (rotation i)) := by
  induction fuel generalizing rotation rot with
  | zero =>
    have : ∀ i ∈ l, rot i = 0 := by
      intro i hi
      have := le_sum_map l rot hi
      omega
    rw [rotateAll]
    apply List.map_congr_left
    intro i hi
    rw [this i hi, rotateOne]
  | succ fuel ih =>
    rw [rotateAll]
    split_ifs with ha
    · rw [List.zipWith_map, List.zipWith_self, List.map_map]
      have hsum : (l.map (fun i => if rot i > 0 then rot i - 1 else rot i)).sum ≤ fuel := by
        have hgen : ∀ l : List ι, (l.map (fun i => if rot i > 0 then rot i - 1 else rot i)).sum ≤ (l.map rot).sum ∧
            ((∃ i ∈ l, rot i > 0) → (l.map (fun i => if rot i > 0 then rot i - 1 else rot i)).sum < (l.map rot).sum) := by
          intro l
          induction l with
          | nil => simp
          | cons a l ih =>
            simp only [List.map_cons, List.sum_cons, List.mem_cons, exists_eq_or_imp]
            refine ⟨by split_ifs <;> omega, ?_⟩
            rintro (h | h)
            · rw [if_pos h]; omega
            · have := ih.2 h
              split_ifs <;> omega
        have : ∃ i ∈ l, rot i > 0 := by simpa using ha
        have := (hgen l).2 this
        omega
      have := ih (fun i => if rot i > 0 then table.getD (rotation i) 0 else rotation i) (fun i => if rot i > 0 then rot i - 1 else rot i) hsum
      simp only [Function.comp_def]
      rw [this]
      apply List.map_congr_left
      intro i _
      by_cases hi : rot i > 0
      · simp only [if_pos hi]
        obtain ⟨k, hk⟩ : ∃ k, rot i = k + 1 := ⟨rot i - 1, by omega⟩
        rw [hk, rotateOne, Nat.add_sub_cancel]
      · simp only [if_neg hi]
    · apply List.map_congr_left
      intro i hi
      have : ¬ rot i > 0 := fun h => ha (by simpa using ⟨i, hi, h⟩)
      rw [show rot i = 0 by omega, rotateOne]

theorem phStepAll_eq {ι : Type*} (l : List ι) (p : ι → Int × Int × Int) (s : ι → PhState) (mask : Nat) :
    phStepAll (l.map p) mask (l.map s) = l.map (fun i => phStep (p i).1 (p i).2.1 (p i).2.2 mask (s i)) := by
  unfold phStepAll
  simp only [List.zipWith_map, List.zipWith_self, List.map_map, Function.comp_def, List.zip]
  rw [rotateAll_eq _ l _ _ _ (Nat.le_refl _), rotateAll_eq _ l _ _ _ (Nat.le_refl _)]
  simp only [List.zipWith_map, List.zipWith_self]
  rfl

theorem phLoopAll_eq {ι : Type*} (l : List ι) (p : ι → Int × Int × Int) (s : ι → PhState) (n mask : Nat) :
    phLoopAll (l.map p) n mask (l.map s) = l.map (fun i => phLoop (p i).1 (p i).2.1 (p i).2.2 n mask (s i)) := by
  induction n generalizing mask s with
  | zero => rfl
  | succ n ih => rw [phLoopAll, phStepAll_eq, ih]; rfl

theorem phInvStepAll_eq (keys : List Int) (s : Int → PhInvState) (shift : Nat) : phInvStepAll keys shift (keys.map s) = keys.map (fun k => phInvStep k shift (s k)) := by
  unfold phInvStepAll
  have e : ∀ {β γ : Type} (f : Int → β → γ) (g : Int → β), List.zipWith f keys (keys.map g) = keys.map (fun k => f k (g k)) := by
    intro β γ f g
    rw [List.zipWith_map_right, List.zipWith_self]
  simp only [e, List.zipWith_map, List.zipWith_self, List.map_map, Function.comp_def, List.zip]
  rw [rotateAll_eq _ keys _ _ _ (Nat.le_refl _), rotateAll_eq _ keys _ _ _ (Nat.le_refl _)]
  simp only [List.zipWith_map, List.zipWith_self]
  rfl

theorem phInvLoopAll_eq (keys : List Int) (s : Int → PhInvState) (n : Nat) : phInvLoopAll keys n (keys.map s) = keys.map (fun k => phInvLoop k n (s k)) := by
  induction n generalizing s with
  | zero => rfl
  | succ n ih => rw [phInvLoopAll, phInvStepAll_eq, ih]; rfl

/-! ### Blocks -/

section
variable {α β : Type*}

theorem mapM_ok (g : α → Except Err β) (h : α → β) (l : List α) (hg : ∀ a ∈ l, g a = .ok (h a)) : l.mapM g = .ok (l.map h) := by
  induction l with
  | nil => rfl
  | cons a l ih =>
    rw [List.mapM_cons, hg a (by simp), ih (fun b hb => hg b (by simp [hb]))]
    rfl

theorem mapM_error (g : α → Except Err β) (e : Err) {l : List α} (hl : l ≠ []) (hg : ∀ a, g a = .error e) : l.mapM g = .error e := by
  cases l with
  | nil => exact absurd rfl hl
  | cons a l => rw [List.mapM_cons, hg a]; rfl

theorem blockLoop_ok (f : List α → Except Err (List β)) (h : α → β) (hf : ∀ l, f l = .ok (l.map h)) {bs : Nat} (hb : 0 < bs) (input : List α) (m c : Nat) (tail : List β)
    (hc : c * bs ≤ input.length ∨ m = 0) (hm : m = 0 ∨ (c + m) * bs < input.length + bs) (hend : input.length ≤ (c + m) * bs) (ht : tail.length = input.length - c * bs) :
    blockLoop f bs input ((List.range' c m).map (fun k => k * bs)) ((input.take (c * bs)).map h ++ tail) = .ok (input.map h) := by
  induction m generalizing c tail with
  | zero =>
    rw [Nat.add_zero] at hend
    have : tail = [] := List.length_eq_zero_iff.1 (by omega)
    simp [blockLoop, this, List.take_of_length_le hend]
  | succ m ih =>
    have hc' : c * bs ≤ input.length := by omega
    have hcm : (c + 1 + m) * bs = (c + (m + 1)) * bs := by congr 1; omega
    have hc1 : (c + 1) * bs = c * bs + bs := by rw [Nat.add_mul, Nat.one_mul]
    rw [List.range'_succ, List.map_cons, blockLoop]
    simp only [hf]
    set i2 := if c * bs + bs > input.length then input.length else c * bs + bs with hi2
    have hle : i2 ≤ input.length := by rw [hi2]; split_ifs <;> omega
    have hge : c * bs ≤ i2 := by rw [hi2]; split_ifs <;> omega
    have htake : input.take (c * bs) ++ slice input (c * bs) (i2 - c * bs) = input.take ((c + 1) * bs) := by
      unfold slice
      have : input.take i2 = input.take ((c + 1) * bs) := by
        rw [hi2]
        split_ifs with hgt
        · rw [List.take_of_length_le (Nat.le_refl _), List.take_of_length_le (by omega)]
        · rw [hc1]
      rw [← this, ← List.take_add]
      congr 1
      omega
    have hlen : (slice input (c * bs) (i2 - c * bs)).length = i2 - c * bs := length_slice_of_le (by omega)
    have hov : overlay ((input.take (c * bs)).map h ++ tail) (c * bs) ((slice input (c * bs) (i2 - c * bs)).map h) =
        (input.take ((c + 1) * bs)).map h ++ tail.drop (i2 - c * bs) := by
      unfold overlay
      have l1 : ((input.take (c * bs)).map h).length = c * bs := by simp; omega
      rw [List.take_left' l1, List.length_map, hlen, ← htake, List.map_append]
      congr 1
      rw [List.drop_append, l1, List.drop_of_length_le (by rw [l1]; omega), List.nil_append]
      congr 1
      omega
    rw [hov]
    apply ih
    · by_cases h0 : m = 0
      · exact Or.inr h0
      · left
        have hm' : (c + (m + 1)) * bs < input.length + bs := by omega
        have : (c + 2) * bs ≤ (c + (m + 1)) * bs := Nat.mul_le_mul_right _ (by omega)
        rw [Nat.add_mul] at this
        omega
    · right; rw [hcm]; omega
    · rw [hcm]; exact hend
    · rw [List.length_drop, ht, hi2]
      split_ifs <;> omega

theorem blockwise_ok [Inhabited β] (f : List α → Except Err (List β)) (h : α → β) (hf : ∀ l, f l = .ok (l.map h)) {bs : Nat} (hb : 0 < bs) (input : List α) :
    blockwise f bs input = .ok (input.map h) := by
  unfold blockwise rangeStep
  rw [if_neg (by omega), List.range_eq_range']
  have hdm := Nat.div_add_mod (input.length + bs - 1) bs
  have hml := Nat.mod_lt (input.length + bs - 1) hb
  generalize hq : (input.length + bs - 1) / bs = q at *
  rw [Nat.mul_comm] at hdm
  have := blockLoop_ok f h hf hb input q 0 (List.replicate input.length default) (by simp) (by rw [Nat.zero_add]; omega) (by rw [Nat.zero_add]; omega) (by simp)
  simpa using this

theorem blockwise_error [Inhabited β] (f : List α → Except Err (List β)) (e : Err) (hf : ∀ l, f l = .error e) {bs : Nat} (hb : 0 < bs) {input : List α} (hi : input ≠ []) :
    blockwise f bs input = .error e := by
  unfold blockwise rangeStep
  rw [if_neg (by omega)]
  have hl : 0 < input.length := List.length_pos_iff.2 hi
  obtain ⟨q, hq⟩ : ∃ q, (input.length + bs - 1) / bs = q + 1 := by
    have : 0 < (input.length + bs - 1) / bs := Nat.div_pos (by omega) hb
    exact ⟨_, (Nat.succ_pred_eq_of_pos this).symm⟩
  rw [hq, List.range_succ_eq_map, List.map_cons, blockLoop]
  simp only [hf]

theorem blockwise_mapM [Inhabited β] (f : List α → Except Err (List β)) (g : α → Except Err β)
    (h : (∃ e, (∀ l, f l = .error e) ∧ ∀ a, g a = .error e) ∨ ∃ k : α → β, (∀ l, f l = .ok (l.map k)) ∧ ∀ a, g a = .ok (k a)) {bs : Nat} (hb : 0 < bs) (input : List α) :
    blockwise f bs input = input.mapM g := by
  rcases h with ⟨e, h1, h2⟩ | ⟨k, h1, h2⟩
  · by_cases hi : input = []
    · subst hi
      unfold blockwise rangeStep
      rw [if_neg (by omega)]
      have : (([] : List α).length + bs - 1) / bs = 0 := Nat.div_eq_of_lt (by simp; omega)
      rw [this]; rfl
    · rw [blockwise_error f e h1 hb hi, mapM_error g e hi h2]
  · rw [blockwise_ok f k h1 hb, mapM_ok g k input (fun a _ => h2 a)]

end

theorem phKeysBlock_cases (bits : Nat) : (∃ e, (∀ l, phKeysBlock l bits = .error e) ∧ ∀ x y z, phKeyScalar x y z bits = .error e) ∨
    ∃ k : Int × Int × Int → Int, (∀ l, phKeysBlock l bits = .ok (l.map k)) ∧ ∀ x y z, phKeyScalar x y z bits = .ok (k (x, y, z)) := by
  unfold phKeysBlock phKeyScalar
  by_cases h0 : bits = 0
  · left; exact ⟨.valueError, fun l => by rw [if_pos h0], fun x y z => by rw [if_pos h0]⟩
  by_cases h1 : bits > 31
  · left; exact ⟨.other, fun l => by rw [if_neg h0, if_pos h1], fun x y z => by rw [if_neg h0, if_pos h1]⟩
  right
  refine ⟨fun p => (phLoop (wrap32 p.1) (wrap32 p.2.1) (wrap32 p.2.2) bits (1 <<< (bits - 1)) ⟨0, 0, 1⟩).key, fun l => ?_, fun x y z => ?_⟩
  · rw [if_neg h0, if_neg h1, phLoopAll_eq, List.map_map]; rfl
  · rw [if_neg h0, if_neg h1]

theorem phInversesBlock_cases (bits : Nat) : (∃ e, (∀ l, phInversesBlock l bits = .error e) ∧ ∀ k, phInverseScalar k bits = .error e) ∨
    ∃ c : Int → Int × Int × Int, (∀ l, phInversesBlock l bits = .ok (l.map c)) ∧ ∀ k, phInverseScalar k bits = .ok (c k) := by
  unfold phInversesBlock phInverseScalar
  by_cases h0 : bits = 0
  · left; exact ⟨.valueError, fun l => by rw [if_pos h0], fun k => by rw [if_pos h0]⟩
  by_cases h1 : bits > 21
  · left; exact ⟨.other, fun l => by rw [if_neg h0, if_pos h1], fun k => by rw [if_neg h0, if_pos h1]⟩
  right
  refine ⟨fun k => ((phInvLoop k bits ⟨0, 0, 0, 0, 1⟩).x, (phInvLoop k bits ⟨0, 0, 0, 0, 1⟩).y, (phInvLoop k bits ⟨0, 0, 0, 0, 1⟩).z), fun l => ?_, fun k => ?_⟩
  · rw [if_neg h0, if_neg h1, phInvLoopAll_eq, List.map_map]; rfl
  · rw [if_neg h0, if_neg h1]

theorem phKeys_eq {bs : Nat} (hb : 0 < bs) (pts : List (Int × Int × Int)) (bits : Nat) : phKeys bs pts bits = pts.mapM (fun p => phKeyScalar p.1 p.2.1 p.2.2 bits) := by
  apply blockwise_mapM _ _ _ hb
  rcases phKeysBlock_cases bits with ⟨e, h1, h2⟩ | ⟨k, h1, h2⟩
  · exact Or.inl ⟨e, h1, fun a => h2 _ _ _⟩
  · exact Or.inr ⟨k, h1, fun a => h2 _ _ _⟩

theorem phInverses_eq {bs : Nat} (hb : 0 < bs) (keys : List Int) (bits : Nat) : phInverses bs keys bits = keys.mapM (fun k => phInverseScalar k bits) :=
  blockwise_mapM _ _ (phInversesBlock_cases bits) hb _

theorem phKeysFromCoords_eq {bs : Nat} (hb : 0 < bs) (pos : List (ℚ × ℚ × ℚ)) (boxsize : ℚ) (bits : Nat) :
    phKeysFromCoords bs pos boxsize bits = pos.mapM (fun p => phKeyScalar (wrap32 ⌊p.1 / (boxsize / 2 ^ bits)⌋) (wrap32 ⌊p.2.1 / (boxsize / 2 ^ bits)⌋)
      (wrap32 ⌊p.2.2 / (boxsize / 2 ^ bits)⌋) bits) := by
  apply blockwise_mapM _ _ _ hb
  rcases phKeysBlock_cases bits with ⟨e, h1, h2⟩ | ⟨k, h1, h2⟩
  · exact Or.inl ⟨e, fun l => h1 _, fun a => h2 _ _ _⟩
  · refine Or.inr ⟨fun p => k (wrap32 ⌊p.1 / (boxsize / 2 ^ bits)⌋, wrap32 ⌊p.2.1 / (boxsize / 2 ^ bits)⌋, wrap32 ⌊p.2.2 / (boxsize / 2 ^ bits)⌋), fun l => ?_, fun a => h2 _ _ _⟩
    rw [h1, List.map_map]; rfl

end Verif
