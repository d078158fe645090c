import Verif.Model.GroupIndex
import Verif.Spec.GroupIndex
import Verif.Proofs.ReduceElements

set_option linter.unusedSectionVars false

namespace Verif

variable {α β : Type*}

/-! ### The pointer walk -/

theorem whileInc_spec (c : Nat → Bool) (fuel x : Nat) (hc : ∀ y, x + fuel ≤ y → c y = false) :
    x ≤ whileInc c fuel x ∧ c (whileInc c fuel x) = false ∧ ∀ y, x ≤ y → y < whileInc c fuel x → c y = true := by
  induction fuel generalizing x with
  | zero => exact ⟨Nat.le_refl _, hc _ (Nat.le_refl _), fun y h1 h2 => by simp [whileInc] at h2; omega⟩
  | succ fuel ih =>
    rw [whileInc]
    by_cases h : c x = true
    · rw [if_pos h]
      obtain ⟨h1, h2, h3⟩ := ih (x + 1) (fun y hy => hc y (by omega))
      refine ⟨by omega, h2, fun y hy1 hy2 => ?_⟩
      by_cases hyx : y = x
      · rw [hyx]; exact h
      · exact h3 y (by omega) hy2
    · rw [if_neg h]
      exact ⟨Nat.le_refl _, by simpa using h, fun y h1 h2 => by omega⟩

/-- The inner loop over destinations. -/
theorem giDest_spec (i : Nat) (st0 : GiState) (F n : Nat) :
    let st := (List.range' F n).foldl (fun st dest =>
      { st with
        sendOffset := if st.sendOffset dest < 0 then Function.update st.sendOffset dest i else st.sendOffset
        sendCount := Function.update st.sendCount dest (st.sendCount dest + 1) }) st0
    st.first = st0.first ∧ st.lastNext = st0.lastNext ∧
    (∀ d, st.sendCount d = if F ≤ d ∧ d < F + n then st0.sendCount d + 1 else st0.sendCount d) ∧
    (∀ d, st.sendOffset d = if F ≤ d ∧ d < F + n ∧ st0.sendOffset d < 0 then (i : Int) else st0.sendOffset d) := by
  induction n with
  | zero => refine ⟨rfl, rfl, fun d => ?_, fun d => ?_⟩ <;> simp <;> omega
  | succ n ih =>
    obtain ⟨h1, h2, h3, h4⟩ := ih
    rw [List.range'_concat, List.foldl_append]
    simp only [Nat.one_mul, List.foldl_cons, List.foldl_nil]
    generalize hst : (List.range' F n).foldl _ st0 = st at h1 h2 h3 h4 ⊢
    refine ⟨h1, h2, fun d => ?_, fun d => ?_⟩
    · by_cases hd : d = F + n
      · subst hd
        rw [Function.update_self, h3, if_neg (by omega), if_pos (by omega)]
      · rw [Function.update_of_ne hd, h3]
        congr 1
        simp only [eq_iff_iff]; omega
    · by_cases hd : d = F + n
      · subst hd
        have h5 : st.sendOffset (F + n) = st0.sendOffset (F + n) := by rw [h4, if_neg (by omega)]
        by_cases hneg : st.sendOffset (F + n) < 0
        · rw [if_pos hneg, Function.update_self, if_pos ⟨by omega, by omega, by rw [← h5]; exact hneg⟩]
        · rw [if_neg hneg, h5, if_neg (by rw [← h5]; omega)]
      · have h5 : (if st.sendOffset (F + n) < 0 then Function.update st.sendOffset (F + n) (i : Int) else st.sendOffset) d = st.sendOffset d := by
          split
          · rw [Function.update_of_ne hd]
          · rfl
        rw [h5, h4]
        congr 1
        simp only [eq_iff_iff]; omega

/-- A group shares particles with rank `d`. -/
def overlaps (nids : Nat → Nat) (d : Nat) (g : Nat × Nat) : Prop := ∃ p, inGroup g p ∧ pre nids d ≤ p ∧ p < pre nids (d + 1)

/-- State after the first `m` groups `gs`: what is sent to each rank is an interval of the groups which includes all those that overlap the rank. -/
structure GiInv (P : Nat) (nids : Nat → Nat) (gs : List (Nat × Nat)) (m : Nat) (st : GiState) : Prop where
  first_le : ∀ x < st.first, x + 1 < P ∧ ∃ g ∈ (gs.take m).getLast?, pre nids (x + 1) ≤ g.1
  interval : ∀ d < P, ∃ a b, a ≤ b ∧ b ≤ m ∧ st.sendCount d = b - a ∧ (a < b → st.sendOffset d = a) ∧ (a = b → st.sendOffset d = -1) ∧
    (a < b → d < st.lastNext) ∧ (a < b → b < m → d < st.first) ∧ ∀ i g, i < m → gs[i]? = some g → overlaps nids d g → a ≤ i ∧ i < b

theorem giStep_inv {P : Nat} (nids : Nat → Nat) {gs : List (Nat × Nat)} (hs : gs.Pairwise (fun g g' => g.1 ≤ g'.1)) {m : Nat} {st : GiState}
    {o l : Nat} (hg : gs[m]? = some (o, l)) (h : GiInv P nids gs m st) : GiInv P nids gs (m + 1) (giStep P nids st m o l) := by
  have hml : m < gs.length := by
    by_contra hc
    rw [List.getElem?_eq_none (by omega)] at hg; cases hg
  have hprev : ∀ g ∈ (gs.take m).getLast?, g.1 ≤ o := by
    intro g hgm
    rw [List.pairwise_iff_getElem] at hs
    rw [Option.mem_def, List.getLast?_eq_getElem?, List.length_take, Nat.min_eq_left (by omega)] at hgm
    by_cases hm0 : m = 0
    · subst hm0; simp at hgm
    · rw [List.getElem?_take_of_lt (by omega), List.getElem?_eq_getElem (by omega)] at hgm
      rw [List.getElem?_eq_getElem hml] at hg
      have := hs (m - 1) m (by omega) hml (by omega)
      simp only [Option.some.injEq] at hgm hg
      rw [hgm, hg] at this
      exact this
  have hlast : (gs.take (m + 1)).getLast? = some (o, l) := by
    rw [List.getLast?_eq_getElem?, List.length_take, Nat.min_eq_left (by omega), Nat.add_sub_cancel, List.getElem?_take_of_lt (by omega), hg]
  unfold giStep
  simp only
  obtain ⟨hF1, hF2, hF3⟩ := whileInc_spec (fun r => decide ((r : Int) < (P : Int) - 1) && decide ((pre nids (r + 1) : Int) - 1 < o)) P st.first
    (fun y hy => by simp; intro h; omega)
  obtain ⟨hL1, hL2, -⟩ := whileInc_spec (fun r => decide ((r : Int) - 1 < (P : Int) - 1) && decide (pre nids r < o + l)) P st.lastNext
    (fun y hy => by simp; intro h; omega)
  generalize whileInc (fun r => decide ((r : Int) < (P : Int) - 1) && decide ((pre nids (r + 1) : Int) - 1 < o)) P st.first = F at hF1 hF2 hF3 ⊢
  generalize whileInc (fun r => decide ((r : Int) - 1 < (P : Int) - 1) && decide (pre nids r < o + l)) P st.lastNext = L at hL1 hL2 ⊢
  obtain ⟨h1, h2, h3, h4⟩ := giDest_spec m { st with first := F, lastNext := L } F (L - F)
  generalize (List.range' F (L - F)).foldl _ { st with first := F, lastNext := L } = st' at h1 h2 h3 h4 ⊢
  simp only at h1 h2 h3 h4
  have hFo : ∀ x < F, x + 1 < P ∧ pre nids (x + 1) ≤ o := by
    intro x hx
    by_cases hxs : x < st.first
    · obtain ⟨h5, g, hg1, hg2⟩ := h.first_le x hxs
      exact ⟨h5, Nat.le_trans hg2 (hprev g hg1)⟩
    · have := hF3 x (by omega) hx
      simp only [Bool.and_eq_true, decide_eq_true_eq] at this
      omega
  refine ⟨?_, ?_⟩
  · intro x hx
    rw [h1] at hx
    exact ⟨(hFo x hx).1, (o, l), hlast, (hFo x hx).2⟩
  · intro d hd
    obtain ⟨a, b, hab, hbm, hc, ho, ho1, hL, hF, hov⟩ := h.interval d hd
    have hmov : overlaps nids d (o, l) → F ≤ d ∧ d < L := by
      rintro ⟨p, ⟨hp1, hp2⟩, hp3, hp4⟩
      constructor
      · by_contra hc
        have := (hFo d (by omega)).2
        simp at hp1
        omega
      · by_contra hc
        simp only [Bool.and_eq_false_imp, decide_eq_true_eq, decide_eq_false_iff_not, not_lt] at hL2
        have h5 := hL2 (by omega)
        have h6 := pre_mono nids (show L ≤ d by omega)
        simp at hp2
        omega
    have hsplit : ∀ i g, i < m + 1 → gs[i]? = some g → overlaps nids d g → (i < m ∧ a ≤ i ∧ i < b) ∨ (i = m ∧ F ≤ d ∧ d < L) := by
      intro i g hi hgi hog
      by_cases him : i < m
      · exact Or.inl ⟨him, hov i g him hgi hog⟩
      · have : i = m := by omega
        subst this
        rw [hg] at hgi; cases hgi
        exact Or.inr ⟨rfl, hmov hog⟩
    have h3d := h3 d
    have h4d := h4 d
    by_cases hin : F ≤ d ∧ d < L
    · rw [if_pos (by omega)] at h3d
      by_cases hst : a < b
      · have hbm' : b = m := by
          by_contra hne
          have := hF hst (by omega)
          omega
        rw [if_neg (by rw [ho hst]; omega)] at h4d
        refine ⟨a, m + 1, by omega, by omega, by omega, fun _ => by rw [h4d, ho hst], by omega, fun _ => by omega, by omega, ?_⟩
        intro i g hi hgi hog
        rcases hsplit i g hi hgi hog with h | h <;> omega
      · rw [if_pos (by rw [ho1 (by omega)]; omega)] at h4d
        refine ⟨m, m + 1, by omega, by omega, by omega, fun _ => h4d, by omega, fun _ => by omega, by omega, ?_⟩
        intro i g hi hgi hog
        rcases hsplit i g hi hgi hog with h | h <;> omega
    · rw [if_neg (by omega)] at h3d
      rw [if_neg (by omega)] at h4d
      refine ⟨a, b, hab, by omega, by omega, fun h => by rw [h4d, ho h], fun h => by rw [h4d, ho1 h], fun h => ?_, fun h _ => ?_, ?_⟩
      · have := hL h; omega
      · have := hL h; omega
      · intro i g hi hgi hog
        rcases hsplit i g hi hgi hog with h | h <;> omega

theorem giLoop_inv {P : Nat} (nids : Nat → Nat) {gs : List (Nat × Nat)} (hs : gs.Pairwise (fun g g' => g.1 ≤ g'.1)) (rest : List (Nat × Nat)) (m : Nat)
    (st : GiState) (hm : m ≤ gs.length) (hr : gs.drop m = rest) (h : GiInv P nids gs m st) : GiInv P nids gs gs.length (giLoop P nids rest m st) := by
  induction rest generalizing m st with
  | nil =>
    have : m = gs.length := by
      have := congrArg List.length hr
      simp at this; omega
    subst this
    exact h
  | cons g rest ih =>
    obtain ⟨o, l⟩ := g
    have hml : m < gs.length := by
      have := congrArg List.length hr
      simp at this; omega
    have hg : gs[m]? = some (o, l) := by
      have := congrArg (fun l => l[0]?) hr
      simpa using this
    rw [giLoop]
    apply ih (m + 1) _ (by omega) _ (giStep_inv nids hs hg h)
    have := congrArg (fun l => l.drop 1) hr
    simpa [Nat.add_comm] using this

/-- What is sent to each rank. -/
theorem giLoop_ok {P : Nat} (nids : Nat → Nat) {gs : List (Nat × Nat)} (hs : gs.Pairwise (fun g g' => g.1 ≤ g'.1)) {d : Nat} (hd : d < P) :
    ((giLoop P nids gs 0 giInit).sendOffset d).toNat + (giLoop P nids gs 0 giInit).sendCount d ≤ gs.length ∧
    ∀ i g, gs[i]? = some g → overlaps nids d g → ((giLoop P nids gs 0 giInit).sendOffset d).toNat ≤ i ∧
      i < ((giLoop P nids gs 0 giInit).sendOffset d).toNat + (giLoop P nids gs 0 giInit).sendCount d := by
  have h0 : GiInv P nids gs 0 giInit := by
    refine ⟨fun x hx => by simp [giInit] at hx, fun d hd => ⟨0, 0, by omega, by omega, rfl, by omega, fun _ => rfl, by omega, by omega, ?_⟩⟩
    intro i g hi; omega
  obtain ⟨-, h⟩ := giLoop_inv nids hs gs 0 giInit (by omega) rfl h0
  obtain ⟨a, b, hab, hbm, hc, ho, ho1, -, -, hov⟩ := h d hd
  constructor
  · by_cases hlt : a < b
    · rw [ho hlt, hc]; simp; omega
    · rw [ho1 (by omega), hc]; simp; omega
  · intro i g hgi hog
    have hil : i < gs.length := by
      by_contra hc
      rw [List.getElem?_eq_none (by omega)] at hgi; cases hgi
    have := hov i g hil hgi hog
    rw [ho (by omega), hc]; simp; omega

/-! ### Assignment loops -/

theorem list_concat_rec {p : List α → Prop} (nil : p []) (concat : ∀ L e, p L → p (L ++ [e])) (L : List α) : p L := by
  rw [← List.reverse_reverse L]
  induction L.reverse with
  | nil => exact nil
  | cons e L ih => rw [List.reverse_cons]; exact concat _ _ ih

theorem zipIdx_gcat' (a : Nat → List α) (P : Nat) :
    (gcat P a).zipIdx = gcat P (fun p => (a p).zipIdx (pre (sizes a) p)) := by
  induction P with
  | zero => rfl
  | succ P ih => rw [gcat_succ, gcat_succ, List.zipIdx_append, ih, length_gcat]; simp

theorem foldl_point {n : Nat} (op : List Int → β → List Int) (c : β → Nat → Bool) (v : β → Nat → Int)
    (hlen : ∀ g e, g.length = n → (op g e).length = n)
    (hop : ∀ g e q, g.length = n → q < n → (op g e)[q]? = if c e q then some (v e q) else g[q]?) (L : List β) (g0 : List Int) (hg0 : g0.length = n) :
    (L.foldl op g0).length = n ∧
    ∀ q < n, (L.foldl op g0)[q]? = (L.filter (c · q)).getLast?.elim g0[q]? (fun e => some (v e q)) := by
  induction L using list_concat_rec with
  | nil => exact ⟨hg0, fun q hq => rfl⟩
  | concat L e ih =>
    obtain ⟨h1, h2⟩ := ih
    rw [List.foldl_append]
    simp only [List.foldl_cons, List.foldl_nil]
    refine ⟨hlen _ _ h1, fun q hq => ?_⟩
    rw [hop _ _ _ h1 hq, List.filter_append]
    by_cases hc : c e q = true
    · simp [hc]
    · rw [if_neg hc, h2 q hq]
      simp [hc]

/-- Two assignment loops agree at a position if they have the same members there. -/
theorem filter_slice_eq (p : α → Bool) (l : List α) (o n : Nat) (h : ∀ i x, l[i]? = some x → p x = true → o ≤ i ∧ i < o + n) :
    (slice l o n).filter p = l.filter p := by
  have h1 : l = l.take o ++ (slice l o n ++ l.drop (o + n)) := by
    unfold slice
    rw [← List.drop_drop, List.take_append_drop, List.take_append_drop]
  have h2 : (l.take o).filter p = [] := by
    apply List.filter_eq_nil_iff.2
    intro x hx hp
    obtain ⟨i, hi⟩ := List.mem_iff_getElem?.1 hx
    rw [List.getElem?_take] at hi
    split at hi
    · have := h _ _ hi hp
      omega
    · cases hi
  have h3 : (l.drop (o + n)).filter p = [] := by
    apply List.filter_eq_nil_iff.2
    intro x hx hp
    obtain ⟨i, hi⟩ := List.mem_iff_getElem?.1 hx
    rw [List.getElem?_drop] at hi
    have := h _ _ hi hp
    omega
  conv_rhs => rw [h1, List.filter_append, List.filter_append, h2, h3]
  simp

theorem giAssign_point {n : Nat} {g : List Int} (hg : g.length = n) {start stop : Int} (h0 : 0 ≤ start) (h1 : stop ≤ n) (vals : List Int)
    (hv : vals.length = (stop - start).toNat) : (giAssign g start stop vals).length = n ∧
    ∀ q < n, (giAssign g start stop vals)[q]? = if start ≤ q ∧ (q : Int) < stop then vals[q - start.toNat]? else g[q]? := by
  unfold giAssign
  by_cases h : stop > start
  · rw [if_pos h]
    have hle : start.toNat + vals.length ≤ g.length := by omega
    refine ⟨by rw [length_overlay hle, hg], fun q hq => ?_⟩
    rw [getElem?_overlay hle]
    split <;> split <;> first | rfl | omega
  · rw [if_neg h]
    exact ⟨hg, fun q hq => by rw [if_neg (by omega)]⟩

/-! ### The whole function -/

/-- Groups with their global numbers. -/
def giGroups (length offset : Nat → List Nat) (p : Nat) : List ((Nat × Nat) × Nat) :=
  ((offset p).zip (length p)).zipIdx (pre (sizes length) p)

theorem giGroups_gcat {P : Nat} {length offset : Nat → List Nat} (hl : ∀ p < P, (offset p).length = (length p).length) :
    gcat P (giGroups length offset) = ((gcat P offset).zip (gcat P length)).zipIdx := by
  rw [zip_gcat hl, zipIdx_gcat']
  apply gcat_congr
  intro p hp
  unfold giGroups
  congr 1
  apply pre_congr
  intro i hi
  have := hl i (by omega)
  simp [sizes]; omega

theorem map_slice (f : α → β) (l : List α) (o n : Nat) : (slice l o n).map f = slice (l.map f) o n := by
  unfold slice
  rw [List.map_take, List.map_drop]

/-- What rank `d` receives. -/
def giReceived (P : Nat) (length offset : Nat → List Nat) (nids : Nat → Nat) (d : Nat) : List ((Nat × Nat) × Nat) :=
  gcat P (fun s => slice (giGroups length offset s) ((giLoop P nids ((offset s).zip (length s)) 0 giInit).sendOffset d).toNat
    ((giLoop P nids ((offset s).zip (length s)) 0 giInit).sendCount d))

variable {P : Nat} {length offset : Nat → List Nat} {nids : Nat → Nat}

theorem giReceived_map [Inhabited β] (hl : ∀ p < P, (offset p).length = (length p).length)
    (hs : ∀ p < P, ((offset p).zip (length p)).Pairwise (fun g g' => g.1 ≤ g'.1)) {d : Nat} (hd : d < P) (f : (Nat × Nat) × Nat → β)
    (a : Nat → List β) (ha : ∀ s < P, a s = (giGroups length offset s).map f) :
    a2av P a (fun p => (giLoop P nids ((offset p).zip (length p)) 0 giInit).sendCount)
      (fun p d => ((giLoop P nids ((offset p).zip (length p)) 0 giInit).sendOffset d).toNat) d = (giReceived P length offset nids d).map f := by
  rw [a2av_eq]
  · unfold giReceived
    rw [map_gcat]
    apply gcat_congr
    intro s hsP
    rw [ha s hsP, map_slice]
  · intro s hsP
    rw [ha s hsP]
    have h1 := (giLoop_ok nids (hs s hsP) hd).1
    simpa [giGroups] using h1

theorem giReceived_filter (hl : ∀ p < P, (offset p).length = (length p).length)
    (hs : ∀ p < P, ((offset p).zip (length p)).Pairwise (fun g g' => g.1 ≤ g'.1)) {d : Nat} (hd : d < P) {q : Nat} (hq : q < nids d) :
    (giReceived P length offset nids d).filter (fun e => decide (inGroup e.1 (pre nids d + q))) =
      (((gcat P offset).zip (gcat P length)).zipIdx).filter (fun e => decide (inGroup e.1 (pre nids d + q))) := by
  rw [← giGroups_gcat hl]
  unfold giReceived
  rw [filter_gcat, filter_gcat]
  apply gcat_congr
  intro s hsP
  apply filter_slice_eq
  intro i x hx hp
  apply (giLoop_ok nids (hs s hsP) hd).2 i x.1
  · unfold giGroups at hx
    rw [List.getElem?_zipIdx] at hx
    cases hz : ((offset s).zip (length s))[i]? with
    | none => rw [hz] at hx; cases hx
    | some z => rw [hz] at hx; cases hx; rfl
  · exact ⟨pre nids d + q, of_decide_eq_true hp, by omega, by rw [pre_succ]; omega⟩

theorem serialLoop_point (value : Nat → Nat → Nat → Int) (n : Nat) (groups : List (Nat × Nat)) :
    (serialLoop value n groups).length = n ∧ ∀ p < n, (serialLoop value n groups)[p]? =
      (groups.zipIdx.filter (fun e => decide (inGroup e.1 p))).getLast?.elim (some (-1)) (fun e => some (value e.2 e.1.1 p)) := by
  unfold serialLoop
  have h := foldl_point (n := n) (fun arr (g : (Nat × Nat) × Nat) => arr.mapIdx (fun p x => if inGroup g.1 p then value g.2 g.1.1 p else x))
    (fun e p => decide (inGroup e.1 p)) (fun e p => value e.2 e.1.1 p) (by intro g e hg; simpa using hg)
    (by
      intro g e q hg hq
      rw [List.getElem?_mapIdx, List.getElem?_eq_getElem (by omega)]
      by_cases hc : inGroup e.1 q <;> simp [hc]) groups.zipIdx (List.replicate n (-1)) (by simp)
  refine ⟨h.1, fun p hp => ?_⟩
  rw [h.2 p hp, List.getElem?_replicate, if_pos hp]

theorem giFold_point (off : Int) (n : Nat) (hoff : 0 ≤ off) (v : (Nat × Nat) × Nat → Nat → Int) (w : (Nat × Nat) × Nat → List Int)
    (hw : ∀ e, (w e).length = ((if (e.1.1 : Int) + e.1.2 - off > n then (n : Int) else (e.1.1 : Int) + e.1.2 - off)
        - (if (e.1.1 : Int) - off < 0 then 0 else (e.1.1 : Int) - off)).toNat)
    (hv : ∀ e q, q < n → inGroup e.1 (off.toNat + q) →
      (w e)[q - (if (e.1.1 : Int) - off < 0 then 0 else (e.1.1 : Int) - off).toNat]? = some (v e q)) (R : List ((Nat × Nat) × Nat)) :
    (R.foldl (fun g e => giAssign g (if (e.1.1 : Int) - off < 0 then 0 else (e.1.1 : Int) - off)
      (if (e.1.1 : Int) + e.1.2 - off > n then (n : Int) else (e.1.1 : Int) + e.1.2 - off) (w e)) (List.replicate n (-1))).length = n ∧
    ∀ q < n, (R.foldl (fun g e => giAssign g (if (e.1.1 : Int) - off < 0 then 0 else (e.1.1 : Int) - off)
      (if (e.1.1 : Int) + e.1.2 - off > n then (n : Int) else (e.1.1 : Int) + e.1.2 - off) (w e)) (List.replicate n (-1)))[q]? =
      (R.filter (fun e => decide (inGroup e.1 (off.toNat + q)))).getLast?.elim (some (-1)) (fun e => some (v e q)) := by
  have h := foldl_point (n := n) (fun g (e : (Nat × Nat) × Nat) => giAssign g (if (e.1.1 : Int) - off < 0 then 0 else (e.1.1 : Int) - off)
      (if (e.1.1 : Int) + e.1.2 - off > n then (n : Int) else (e.1.1 : Int) + e.1.2 - off) (w e))
    (fun e q => decide (inGroup e.1 (off.toNat + q))) v
    (by
      intro g e hg
      exact (giAssign_point hg (by split <;> omega) (by split <;> omega) _ (hw e)).1)
    (by
      intro g e q hg hq
      rw [(giAssign_point hg (by split <;> omega) (by split <;> omega) _ (hw e)).2 q hq]
      by_cases hc : inGroup e.1 (off.toNat + q)
      · refine (if_pos ?_).trans ((hv e q hq hc).trans (if_pos (decide_eq_true hc)).symm)
        obtain ⟨h1, h2⟩ := hc
        constructor <;> split <;> omega
      · refine (if_neg ?_).trans (if_neg (by simpa only [decide_eq_true_eq] using hc)).symm
        intro ⟨h1, h2⟩
        apply hc
        constructor
        · split at h1 <;> omega
        · split at h2 <;> omega) R (List.replicate n (-1)) (by simp)
  refine ⟨h.1, fun q hq => ?_⟩
  rw [h.2 q hq, List.getElem?_replicate, if_pos hq]

theorem groupIndex_ok (hl : ∀ p < P, (offset p).length = (length p).length)
    (hs : ∀ p < P, ((offset p).zip (length p)).Pairwise (fun g g' => g.1 ≤ g'.1)) {d : Nat} (hd : d < P) :
    (((groupIndex P length offset nids).1 d).length = nids d ∧ ∀ q < nids d, ((groupIndex P length offset nids).1 d)[q]? =
      (serialGroupIndex (pre nids P) ((gcat P offset).zip (gcat P length)))[pre nids d + q]?) ∧
    (((groupIndex P length offset nids).2 d).length = nids d ∧ ∀ q < nids d, ((groupIndex P length offset nids).2 d)[q]? =
      (serialGroupRank (pre nids P) ((gcat P offset).zip (gcat P length)))[pre nids d + q]?) := by
  have hzip : ∀ s < P, ((offset s).zip (length s)).length = (length s).length := by
    intro s hsP
    rw [List.length_zip, hl s hsP, Nat.min_self]
  have hlen := giReceived_map (nids := nids) hl hs hd (fun e => e.1.2) length (by
    intro s hsP
    unfold giGroups
    rw [show (fun e : (Nat × Nat) × Nat => e.1.2) = Prod.snd ∘ Prod.fst from rfl, ← List.map_map, List.zipIdx_map_fst, List.map_snd_zip]
    rw [hl s hsP])
  have hoff := giReceived_map (nids := nids) hl hs hd (fun e => e.1.1) offset (by
    intro s hsP
    unfold giGroups
    rw [show (fun e : (Nat × Nat) × Nat => e.1.1) = Prod.fst ∘ Prod.fst from rfl, ← List.map_map, List.zipIdx_map_fst, List.map_fst_zip]
    rw [hl s hsP])
  have hidx := giReceived_map (nids := nids) hl hs hd (fun e => e.2) (fun p => (List.range (length p).length).map (fun k => k + pre (sizes length) p)) (by
    intro s hsP
    unfold giGroups
    rw [show (fun e : (Nat × Nat) × Nat => e.2) = Prod.snd from rfl, List.zipIdx_map_snd, hzip s hsP, List.range'_eq_map_range]
    apply List.map_congr_left
    intro k _
    omega)
  have hN : ∀ q < nids d, pre nids d + q < pre nids P := by
    intro q hq
    have := pre_mono nids (show d + 1 ≤ P by omega)
    rw [pre_succ] at this
    omega
  unfold groupIndex
  simp only [hlen, hoff, hidx, List.map_map, List.zip_map', List.foldl_map, Function.comp_def]
  have k1 := giFold_point (pre nids d : Int) (nids d) (by omega) (fun e q => (e.2 : Int))
    (fun e => List.replicate ((if (e.1.1 : Int) + e.1.2 - pre nids d > nids d then (nids d : Int) else (e.1.1 : Int) + e.1.2 - pre nids d)
        - (if (e.1.1 : Int) - pre nids d < 0 then 0 else (e.1.1 : Int) - pre nids d)).toNat (e.2 : Int)) (by intro e; simp)
    (by
      intro e q hq hin
      rw [List.getElem?_replicate, if_pos]
      obtain ⟨h1, h2⟩ := hin
      split <;> split <;> omega) (giReceived P length offset nids d)
  have k2 := giFold_point (pre nids d : Int) (nids d) (by omega) (fun e q => ((pre nids d + q : Nat) : Int) - e.1.1)
    (fun e => (List.range ((if (e.1.1 : Int) + e.1.2 - pre nids d > nids d then (nids d : Int) else (e.1.1 : Int) + e.1.2 - pre nids d)
        - (if (e.1.1 : Int) - pre nids d < 0 then 0 else (e.1.1 : Int) - pre nids d)).toNat).map
          (fun (k : Nat) => (if (e.1.1 : Int) - pre nids d < 0 then ((((e.1.1 : Int) - pre nids d).natAbs : Nat) : Int) else 0) + (k : Int))) (by intro e; simp)
    (by
      intro e q hq hin
      obtain ⟨h1, h2⟩ := hin
      rw [List.getElem?_map, List.getElem?_range]
      · simp only [Option.map_some, Option.some.injEq]
        split <;> omega
      · split <;> split <;> omega) (giReceived P length offset nids d)
  refine ⟨⟨k1.1, fun q hq => ?_⟩, ⟨k2.1, fun q hq => ?_⟩⟩
  · refine (k1.2 q hq).trans ?_
    rw [Int.toNat_natCast, giReceived_filter hl hs hd hq]
    exact ((serialLoop_point (fun i _ _ => (i : Int)) _ _).2 _ (hN q hq)).symm
  · refine (k2.2 q hq).trans ?_
    rw [Int.toNat_natCast, giReceived_filter hl hs hd hq]
    exact ((serialLoop_point (fun _ o p => (p : Int) - o) _ _).2 _ (hN q hq)).symm

/-- Array equal to a given one, from the parts on each rank. -/
theorem gcat_eq_of_points {a : Nat → List α} {n : Nat → Nat} {l : List α} (hlen : ∀ d < P, (a d).length = n d) (hl : l.length = pre n P)
    (h : ∀ d < P, ∀ q < n d, (a d)[q]? = l[pre n d + q]?) : gcat P a = l := by
  have hsz : ∀ r ≤ P, pre (sizes a) r = pre n r := fun r hr => pre_congr (fun i hi => hlen i (by omega))
  apply List.ext_getElem?
  intro i
  by_cases hi : i < pre n P
  · obtain ⟨r, hr, h1, h2⟩ := exists_block hi
    obtain ⟨k, rfl⟩ := Nat.exists_eq_add_of_le h1
    have hk : k < n r := by omega
    rw [← h r hr k hk, ← hsz r (by omega), getElem?_gcat hr (by rw [hlen r hr]; exact hk)]
  · rw [List.getElem?_eq_none (by rw [length_gcat, hsz P (Nat.le_refl _)]; omega), List.getElem?_eq_none (by omega)]

/-- The serial loop gives the last group which contains the particle. -/
theorem serialLoop_last (value : Nat → Nat → Nat → Int) (n : Nat) (groups : List (Nat × Nat)) {p : Nat} (hp : p < n) :
    (∃ i g, IsLastGroup groups p i ∧ groups[i]? = some g ∧ (serialLoop value n groups)[p]? = some (value i g.1 p)) ∨
    ((∀ g ∈ groups, ¬ inGroup g p) ∧ (serialLoop value n groups)[p]? = some (-1)) := by
  rw [(serialLoop_point value n groups).2 p hp]
  cases hL : (groups.zipIdx.filter (fun e => decide (inGroup e.1 p))).getLast? with
  | none =>
    right
    refine ⟨fun g hg hin => ?_, rfl⟩
    rw [List.getLast?_eq_none_iff, List.filter_eq_nil_iff] at hL
    obtain ⟨i, hi⟩ := List.mem_iff_getElem?.1 hg
    exact hL (g, i) (List.mem_zipIdx_iff_getElem?.2 hi) (by simpa using hin)
  | some e =>
    left
    obtain ⟨ys, hys⟩ := List.getLast?_eq_some_iff.1 hL
    have hmem : e ∈ groups.zipIdx.filter (fun e => decide (inGroup e.1 p)) := by rw [hys]; simp
    rw [List.mem_filter, List.mem_zipIdx_iff_getElem?] at hmem
    refine ⟨e.2, e.1, ⟨⟨e.1, hmem.1, by simpa using hmem.2⟩, ?_⟩, hmem.1, rfl⟩
    intro j g hj hg hin
    have h2 : (g, j) ∈ groups.zipIdx.filter (fun e => decide (inGroup e.1 p)) :=
      List.mem_filter.2 ⟨List.mem_zipIdx_iff_getElem?.2 hg, by simpa using hin⟩
    have hpw := (zipIdx_pairwise groups 0).sublist (List.filter_sublist (p := fun e => decide (inGroup e.1 p)))
    rw [hys] at h2 hpw
    rw [List.pairwise_append] at hpw
    rcases List.mem_append.1 h2 with h3 | h3
    · have := hpw.2.2 _ h3 e (by simp)
      simp at this; omega
    · simp at h3
      rw [← h3] at hj
      simp at hj

end Verif
