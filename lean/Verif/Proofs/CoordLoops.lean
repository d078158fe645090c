import Verif.Proofs.CoordCells

set_option linter.unusedSectionVars false

namespace Verif.GroupLib

open CPeano ReadParticles ReadRegion

/-! ### Flags -/

theorem sum_add_one (len : Nat → Nat) {P Q : Nat → Bool} {key : Nat} (hP : P key = false) (hQ : ∀ c, Q c = (P c || decide (c = key))) : ∀ size, 
    ((List.range size).map (fun c => if Q c then len c else 0)).sum = ((List.range size).map (fun c => if P c then len c else 0)).sum + (if key < size then len key else 0) := by
  intro size
  induction size with
  | zero => simp
  | succ m ih =>
    rw [List.range_succ, List.map_append, List.map_append, List.sum_append, List.sum_append, ih]
    simp only [List.map_cons, List.map_nil, List.sum_cons, List.sum_nil, Nat.add_zero]
    rw [hQ m]
    by_cases hm : m = key
    · subst hm
      simp [hP]
    · have : (key < m + 1) = (key < m) := propext ⟨fun _ => by omega, fun _ => by omega⟩
      simp only [hm, decide_false, Bool.or_false, this]
      omega

theorem sum_mono (len : Nat → Nat) {P Q : Nat → Bool} (h : ∀ c, P c = true → Q c = true) (size : Nat) :
    ((List.range size).map (fun c => if P c then len c else 0)).sum ≤ ((List.range size).map (fun c => if Q c then len c else 0)).sum := by
  induction size with
  | zero => simp
  | succ m ih =>
    rw [List.range_succ, List.map_append, List.map_append, List.sum_append, List.sum_append]
    simp only [List.map_cons, List.map_nil, List.sum_cons, List.sum_nil, Nat.add_zero]
    have : (if P m then len m else 0) ≤ (if Q m then len m else 0) := by
      by_cases hp : P m = true
      · rw [if_pos hp, if_pos (h m hp)]
      · rw [if_neg hp]; omega
    omega

/-- The array of files with flags -/
def flagTab (size : Nat) (file : Nat → Int) (P : Nat → Bool) : List Int := (List.range size).map (fun c => 2 * file c + (if P c then 1 else 0))

theorem flagTab_get {size : Nat} (file : Nat → Int) (P : Nat → Bool) {c : Nat} (hc : c < size) : (flagTab size file P)[c]? = some (2 * file c + (if P c then 1 else 0)) := by
  unfold flagTab; rw [List.getElem?_map, List.getElem?_range hc]; rfl

theorem flagTab_set {size : Nat} (file : Nat → Int) {P Q : Nat → Bool} {key : Nat} (hP : P key = false) (hQ : ∀ c, Q c = (P c || decide (c = key))) :
    (flagTab size file P).set key (2 * file key + 1) = flagTab size file Q := by
  apply List.ext_getElem?
  intro c
  rw [List.getElem?_set]
  by_cases hc : c < size
  · rw [flagTab_get _ _ hc, flagTab_get _ _ hc, hQ]
    by_cases hk : key = c
    · subst hk
      rw [if_pos rfl, if_pos (by simpa [flagTab] using hc)]
      simp
    · rw [if_neg hk]
      have : ¬c = key := fun h => hk h.symm
      simp [this]
  · have hl : ∀ P, (flagTab size file P).length = size := by intro P; simp [flagTab]
    rw [List.getElem?_eq_none (l := flagTab size file Q) (by rw [hl]; omega), List.getElem?_eq_none (l := flagTab size file P) (by rw [hl]; omega)]
    split_ifs with h1 h2
    · rw [hl] at h2; omega
    · rfl
    · rfl

variable {t : HashTab} {size : Nat} {file : Nat → Int} {len : Nat → Nat}

theorem markLoop_ok (hlen : ∀ c < size, cellLenIn t (file c) c = .ok (len c : Int)) : ∀ (ids : List Nat) (P Q : Nat → Bool), (∀ id ∈ ids, idCell id < size) →
    (∀ c, Q c = (P c || decide (c ∈ ids.map idCell))) → ((List.range size).map (fun c => if Q c then len c else 0)).sum < 2147483648 →
    markLoop t size ids (flagTab size file P) (((List.range size).map (fun c => if P c then len c else 0)).sum : Nat) =
      (.ok (((List.range size).map (fun c => if Q c then len c else 0)).sum : Nat), flagTab size file Q) := by
  intro ids
  induction ids with
  | nil =>
    intro P Q _ hQ _
    have : Q = P := by funext c; rw [hQ]; simp
    rw [this]; rfl
  | cons id ids ih =>
    intro P Q hid hQ hb
    have hk : id / 2 ^ 34 < size := hid id (by simp)
    unfold markLoop
    dsimp only
    rw [if_neg (by omega), flagTab_get _ _ hk]
    dsimp only
    by_cases hP : P (id / 2 ^ 34) = true
    · rw [if_pos hP, if_neg (by omega)]
      refine ih P Q (fun i hi => hid i (by simp [hi])) ?_ hb
      intro c
      rw [hQ c, List.map_cons]
      by_cases hc : c = idCell id
      · subst hc
        have : P (idCell id) = true := hP
        simp [this]
      · simp [hc]
    · have hP' : P (id / 2 ^ 34) = false := by simpa using hP
      rw [if_neg hP, Int.add_zero, if_pos (by omega), show 2 * file (id / 2 ^ 34) / 2 = file (id / 2 ^ 34) by omega]
      have hR : ∀ c, (fun c => P c || decide (c = id / 2 ^ 34)) c = (P c || decide (c = id / 2 ^ 34)) := fun _ => rfl
      have hsum := sum_add_one len hP' hR size
      rw [if_pos hk] at hsum
      have hQR : ∀ c, Q c = ((P c || decide (c = id / 2 ^ 34)) || decide (c ∈ ids.map idCell)) := by
        intro c
        rw [hQ c, List.map_cons]
        unfold idCell
        simp [List.mem_cons, Bool.or_assoc, Bool.decide_or]
      have hle := sum_mono len (P := fun c => P c || decide (c = id / 2 ^ 34)) (Q := Q) (fun c hc => by rw [hQR c]; simp only [Bool.or_eq_true] at hc ⊢; exact Or.inl hc) size
      rw [bindOk _ (hlen _ hk), cInt_ok (by omega) (by omega)]
      dsimp only
      rw [flagTab_set file hP' hR]
      have := ih (fun c => P c || decide (c = id / 2 ^ 34)) Q (fun i hi => hid i (by simp [hi])) hQR hb
      rw [← this, hsum]
      push_cast
      rfl

/-- A loop over the cells with flags -/
theorem cellLoop_ok {α : Type} {P : Nat → Bool} {read : Int → Int → Except Err (List α)} {g : Nat → List α} {room : Nat}
    (hr : ∀ c < size, P c = true → read (file c) c = .ok (g c)) (hroom : ((List.range size).flatMap (fun c => if P c then g c else [])).length ≤ room) :
    cellLoop (flagTab size file P) size room read = .ok ((List.range size).flatMap (fun c => if P c then g c else [])) := by
  have key : ∀ m ≤ size, (List.range m).foldlM (fun s (i : Nat) => do
      let v ← cGet (flagTab size file P) i
      if v % 2 = 1 then
        let r ← read (v / 2) i
        if room < s.length + r.length then .error .other else .ok (s ++ r)
      else .ok s) [] = (.ok ((List.range m).flatMap (fun c => if P c then g c else [])) : Except Err (List α)) := by
    intro m
    induction m with
    | zero => intro _; rfl
    | succ m ih =>
      intro hm
      rw [List.range_succ, List.foldlM_append, bindOk _ (ih (by omega)), List.flatMap_append]
      simp only [List.foldlM_cons, List.foldlM_nil, List.flatMap_cons, List.flatMap_nil, List.append_nil]
      rw [bindOk _ (cGet_ok (flagTab_get _ _ (show m < size by omega)))]
      by_cases hP : P m = true
      · rw [if_pos hP, if_pos (by omega), show (2 * file m + 1) / 2 = file m by omega, bindOk _ (hr m (by omega) hP), if_pos hP]
        have : ((List.range (m + 1)).flatMap (fun c => if P c then g c else [])).length ≤ ((List.range size).flatMap (fun c => if P c then g c else [])).length := by
          obtain ⟨d, rfl⟩ : ∃ d, size = m + 1 + d := ⟨size - (m + 1), by omega⟩
          rw [(List.range_add : List.range (m + 1 + d) = _), List.flatMap_append, List.length_append]
          omega
        rw [List.range_succ, List.flatMap_append, List.length_append] at this
        simp only [List.flatMap_cons, List.flatMap_nil, List.append_nil, if_pos hP] at this
        rw [if_neg (by omega)]
        rfl
      · rw [if_neg hP, if_neg (by omega), if_neg hP, List.append_nil]
        rfl
  exact key size (le_refl _)

/-- The loop ends at a cell whose file cannot be read. -/
theorem cellLoop_bad {α : Type} {P : Nat → Bool} {read : Int → Int → Except Err (List α)} {g : Nat → List α} {room : Nat} {e : Err}
    (hr : ∀ c < size, P c = true → read (file c) c = .ok (g c) ∨ read (file c) c = .error e) (hroom : ((List.range size).flatMap (fun c => if P c then g c else [])).length ≤ room)
    {c : Nat} (hc : c < size) (hP : P c = true) (hbad : read (file c) c = .error e) :
    cellLoop (flagTab size file P) size room read = .error e := by
  have key : ∀ m ≤ size, (List.range m).foldlM (fun s (i : Nat) => do
      let v ← cGet (flagTab size file P) i
      if v % 2 = 1 then
        let r ← read (v / 2) i
        if room < s.length + r.length then .error .other else .ok (s ++ r)
      else .ok s) [] = (.error e : Except Err (List α)) ∨ ((List.range m).foldlM (fun s (i : Nat) => do
      let v ← cGet (flagTab size file P) i
      if v % 2 = 1 then
        let r ← read (v / 2) i
        if room < s.length + r.length then .error .other else .ok (s ++ r)
      else .ok s) [] = (.ok ((List.range m).flatMap (fun c => if P c then g c else [])) : Except Err (List α)) ∧ ¬c < m) := by
    intro m
    induction m with
    | zero => intro _; exact Or.inr ⟨rfl, by omega⟩
    | succ m ih =>
      intro hm
      rw [List.range_succ, List.foldlM_append, List.flatMap_append]
      simp only [List.foldlM_cons, List.foldlM_nil, List.flatMap_cons, List.flatMap_nil, List.append_nil]
      rcases ih (by omega) with h | ⟨h, hcm⟩
      · left
        rw [bindErr _ h]
      · rw [bindOk _ h, bindOk _ (cGet_ok (flagTab_get _ _ (show m < size by omega)))]
        by_cases hPm : P m = true
        · rw [if_pos hPm, if_pos (by omega), show (2 * file m + 1) / 2 = file m by omega, if_pos hPm]
          rcases hr m (by omega) hPm with h1 | h1
          · right
            have hne : c ≠ m := by
              rintro rfl
              rw [h1] at hbad
              exact absurd hbad (by simp)
            refine ⟨?_, by omega⟩
            have : ((List.range (m + 1)).flatMap (fun c => if P c then g c else [])).length ≤ ((List.range size).flatMap (fun c => if P c then g c else [])).length := by
              obtain ⟨d, rfl⟩ : ∃ d, size = m + 1 + d := ⟨size - (m + 1), by omega⟩
              rw [(List.range_add : List.range (m + 1 + d) = _), List.flatMap_append, List.length_append]
              omega
            rw [List.range_succ, List.flatMap_append, List.length_append] at this
            simp only [List.flatMap_cons, List.flatMap_nil, List.append_nil, if_pos hPm] at this
            rw [bindOk _ h1, if_neg (by omega)]
            rfl
          · left
            rw [bindErr _ h1]
            rfl
        · right
          have hne : c ≠ m := by
            rintro rfl
            exact hPm hP
          refine ⟨?_, by omega⟩
          rw [if_neg hPm, if_neg (by omega), if_neg hPm, List.append_nil]
          rfl
  rcases key size (le_refl _) with h | ⟨_, h⟩
  · exact h
  · exact absurd hc h

end Verif.GroupLib
