import Verif.Proofs.CoordLoops
import Mathlib.Tactic.Linarith
import Mathlib.Tactic.FieldSimp

set_option linter.unusedSectionVars false

namespace Verif.GroupLib

open CPeano ReadParticles ReadRegion

/-! ### Matching IDs -/

variable {L : List Nat} {posRead : List Rat}

theorem advance_ok {target q : Nat} {vq : Nat} (hq : L[q]? = some vq) (hv : target ≤ vq / 2 ^ 29) : ∀ fuel n, n ≤ q → q < n + fuel →
    ∃ n' v, advance L target fuel n = .ok n' ∧ n ≤ n' ∧ n' ≤ q ∧ L[n']? = some v ∧ target ≤ v / 2 ^ 29 ∧ ∀ m u : Nat, n ≤ m → m < n' → L[m]? = some u → u / 2 ^ 29 < target := by
  intro fuel
  induction fuel with
  | zero => intro n h1 h2; omega
  | succ fuel ih =>
    intro n h1 h2
    have hlq : q < L.length := (List.getElem?_eq_some_iff.1 hq).1
    have hn : L[n]? = some L[n] := List.getElem?_eq_getElem (by omega)
    unfold advance
    rw [hn]
    dsimp only
    by_cases hlt : L[n] / 2 ^ 29 < target
    · rw [if_pos hlt]
      have hne : n ≠ q := by
        rintro rfl
        rw [hn] at hq
        have := Option.some.inj hq
        omega
      obtain ⟨n', v, e1, e2, e3, e4, e5, e6⟩ := ih (n + 1) (by omega) (by omega)
      refine ⟨n', v, e1, by omega, e3, e4, e5, ?_⟩
      intro m u hm1 hm2 hu
      by_cases hmn : m = n
      · subst hmn
        rw [hn] at hu
        rw [← Option.some.inj hu]
        exact hlt
      · exact e6 m u (by omega) hm2 hu
    · rw [if_neg hlt]
      exact ⟨n, L[n], rfl, le_refl _, h1, hn, by omega, fun m u h3 h4 => by omega⟩

theorem matchLoop_ok (hsort : ∀ a b u v : Nat, a ≤ b → L[a]? = some u → L[b]? = some v → u / 2 ^ 29 ≤ v / 2 ^ 29) (hvec : ∀ v ∈ L, ∃ p, vector posRead (v % 2 ^ 29) = .ok p) :
    ∀ (ids : List Nat) (n i : Nat) (pos : List Vec), ids.Pairwise (· ≤ ·) → (∀ id ∈ ids, ∃ v ∈ L, v / 2 ^ 29 = id) → (∀ id ∈ ids, ∀ m u : Nat, m < n → L[m]? = some u → u / 2 ^ 29 < id) →
      i + ids.length ≤ pos.length → ∃ ws, matchLoop L posRead ids n i pos = .ok (overlay pos i ws) ∧
        List.Forall₂ (fun id p => ∃ v ∈ L, v / 2 ^ 29 = id ∧ vector posRead (v % 2 ^ 29) = .ok p) ids ws := by
  intro ids
  induction ids with
  | nil =>
    intro n i pos _ _ _ _
    refine ⟨[], ?_, List.Forall₂.nil⟩
    unfold matchLoop overlay
    simp
  | cons id ids ih =>
    intro n i pos hs hex hlow hlen
    obtain ⟨vq, hvm, hvq⟩ := hex id (by simp)
    obtain ⟨q, hql, hqe⟩ := List.mem_iff_getElem.1 hvm
    have hq : L[q]? = some vq := by rw [List.getElem?_eq_getElem hql, hqe]
    have hnq : n ≤ q := by
      by_contra hc
      have := hlow id (by simp) q vq (by omega) hq
      omega
    obtain ⟨n', v, e1, e2, e3, e4, e5, e6⟩ := advance_ok (target := id) hq (by omega) (L.length + 1) n hnq (by omega)
    have hve : v / 2 ^ 29 = id := by
      have := hsort n' q v vq e3 e4 hq
      omega
    have hvL : v ∈ L := List.mem_of_getElem? e4
    obtain ⟨p, hp⟩ := hvec v hvL
    rw [List.length_cons] at hlen
    rw [List.pairwise_cons] at hs
    have hlow' : ∀ id' ∈ ids, ∀ m u : Nat, m < n' → L[m]? = some u → u / 2 ^ 29 < id' := by
      intro id' hid' m u hm hu
      by_cases hmn : m < n
      · exact hlow id' (by simp [hid']) m u hmn hu
      · have := e6 m u (by omega) hm hu
        have := hs.1 id' hid'
        omega
    obtain ⟨ws, h1, h2⟩ := ih n' (i + 1) (pos.set i p) hs.2 (fun id' h => hex id' (by simp [h])) hlow' (by rw [List.length_set]; omega)
    refine ⟨p :: ws, ?_, List.Forall₂.cons ⟨v, hvL, hve, hp⟩ h2⟩
    unfold matchLoop
    rw [if_neg (by omega), bindOk _ e1]
    have hg : L.getD n' 0 = v := by rw [List.getD_eq_getElem?_getD, e4]; rfl
    rw [hg, bindOk _ hp, if_neg (by omega), h1]
    refine congrArg Except.ok ?_
    unfold overlay
    rw [List.take_set, List.drop_set, if_pos (by omega)]
    have hl : (pos.take (i + 1)).length = i + 1 := by rw [List.length_take]; omega
    have e : (pos.take (i + 1)).set i p = pos.take i ++ [p] := by
      rw [List.take_succ, List.getElem?_eq_getElem (by omega)]
      have hl' : (pos.take i).length = i := by rw [List.length_take]; omega
      rw [List.set_append_right _ _ (by omega), hl', Nat.sub_self]
      rfl
    rw [e, List.length_cons, show i + 1 + ws.length = i + (ws.length + 1) by omega]
    simp

theorem advance_cases (target : Nat) : ∀ fuel n, n ≤ L.length → L.length < n + fuel → advance L target fuel n = .error .other ∨
    ∃ n' v, advance L target fuel n = .ok n' ∧ L[n']? = some v ∧ target ≤ v / 2 ^ 29 := by
  intro fuel
  induction fuel with
  | zero => intro n h1 h2; omega
  | succ fuel ih =>
    intro n h1 h2
    unfold advance
    by_cases hn : n < L.length
    · rw [List.getElem?_eq_getElem hn]
      dsimp only
      by_cases hlt : L[n] / 2 ^ 29 < target
      · rw [if_pos hlt]
        exact ih (n + 1) (by omega) (by omega)
      · rw [if_neg hlt]
        exact Or.inr ⟨n, L[n], rfl, List.getElem?_eq_getElem hn, by omega⟩
    · rw [List.getElem?_eq_none (by omega)]
      exact Or.inl rfl

/-- An ID which is larger than all others is looked for after the end of the array. -/
theorem matchLoop_bad (hvec : ∀ v ∈ L, ∃ p, vector posRead (v % 2 ^ 29) = .ok p) :
    ∀ (ids : List Nat) (n i : Nat) (pos : List Vec), (∃ id ∈ ids, ∀ v ∈ L, v / 2 ^ 29 < id) → n < L.length → i + ids.length ≤ pos.length →
      matchLoop L posRead ids n i pos = .error .other := by
  intro ids
  induction ids with
  | nil => rintro n i pos ⟨id, h, _⟩; simp at h
  | cons id ids ih =>
    rintro n i pos ⟨id', hid', hlt⟩ hn hlen
    rw [List.length_cons] at hlen
    unfold matchLoop
    rw [if_neg (by omega)]
    rcases advance_cases (L := L) id (L.length + 1) n (by omega) (by omega) with h | ⟨n', v, h, h1, h2⟩
    · rw [bindErr _ h]
    · have hvL : v ∈ L := List.mem_of_getElem? h1
      obtain ⟨p, hp⟩ := hvec v hvL
      have hg : L.getD n' 0 = v := by rw [List.getD_eq_getElem?_getD, h1]; rfl
      rw [bindOk _ h, hg, bindOk _ hp, if_neg (by omega)]
      refine ih n' (i + 1) _ ⟨id', ?_, hlt⟩ (List.getElem?_eq_some_iff.1 h1).1 (by rw [List.length_set]; omega)
      rcases List.mem_cons.1 hid' with h3 | h3
      · subst h3
        have := hlt v hvL
        omega
      · exact h3

/-! ### Centre of mass -/

theorem fofPeriodic_ok {box x : Rat} (hb : 0 < box) (h1 : -box ≤ x) (h2 : x ≤ box) :
    -(box / 2) ≤ fofPeriodic box x ∧ fofPeriodic box x ≤ box / 2 ∧ ∃ k : Int, fofPeriodic box x = x + k * box := by
  unfold fofPeriodic
  dsimp only
  split_ifs with h3 h4 h4
  · linarith
  · exact ⟨by linarith, by linarith, -1, by push_cast; ring⟩
  · exact ⟨by linarith, by linarith, 1, by push_cast; ring⟩
  · exact ⟨by linarith, by linarith, 0, by push_cast; ring⟩

theorem fofPeriodic_zero {box : Rat} (hb : 0 < box) : fofPeriodic box 0 = 0 := by
  unfold fofPeriodic
  dsimp only
  have h : ¬(0 : Rat) ≥ box / 2 := by intro h; linarith
  rw [if_neg h, if_neg (by linarith)]

theorem wrap_ok {box x : Rat} (hb : 0 < box) (h1 : -box ≤ x) (h2 : x < 2 * box) {fuel : Nat} (hf : 2 ≤ fuel) :
    ∃ c, fofPeriodicWrap box fuel x = .ok c ∧ 0 ≤ c ∧ c < box ∧ ∃ k : Int, c = x + k * box := by
  obtain ⟨fuel, rfl⟩ : ∃ g, fuel = g + 2 := ⟨fuel - 2, by omega⟩
  unfold fofPeriodicWrap
  by_cases h3 : x ≥ box
  · have e1 : wrapDown box (fuel + 2) x = .ok (x - box) := by
      unfold wrapDown
      rw [if_pos h3]
      unfold wrapDown
      rw [if_neg (by linarith)]
    have e2 : wrapUp box (fuel + 2) (x - box) = .ok (x - box) := by
      unfold wrapUp
      rw [if_neg (by linarith)]
    rw [bindOk _ e1, e2]
    exact ⟨_, rfl, by linarith, by linarith, -1, by push_cast; ring⟩
  · have e1 : wrapDown box (fuel + 2) x = .ok x := by
      unfold wrapDown
      rw [if_neg h3]
    rw [bindOk _ e1]
    by_cases h4 : x < 0
    · have e2 : wrapUp box (fuel + 2) x = .ok (x + box) := by
        unfold wrapUp
        rw [if_pos h4]
        unfold wrapUp
        rw [if_neg (by linarith)]
      rw [e2]
      exact ⟨_, rfl, by linarith, by linarith, 1, by push_cast; ring⟩
    · have e2 : wrapUp box (fuel + 2) x = .ok x := by
        unfold wrapUp
        rw [if_neg h4]
      rw [e2]
      exact ⟨_, rfl, by linarith, by linarith, 0, by push_cast; ring⟩

theorem sum_bounds {b : Rat} {l : List Rat} (h : ∀ d ∈ l, -b ≤ d ∧ d ≤ b) : -(l.length * b) ≤ l.sum ∧ l.sum ≤ l.length * b := by
  induction l with
  | nil => simp
  | cons a l ih =>
    have h1 := h a (by simp)
    have h2 := ih (fun d hd => h d (by simp [hd]))
    rw [List.sum_cons, List.length_cons]
    push_cast
    constructor <;> nlinarith

theorem sum_sub (l : List Rat) (s : Rat) : (l.map (· - s)).sum = l.sum - l.length * s := by
  induction l with
  | nil => simp
  | cons a l ih =>
    rw [List.map_cons, List.sum_cons, List.sum_cons, ih, List.length_cons]
    push_cast
    ring

theorem centred_one {box r : Rat} {tl : List Rat} (hb : 0 < box) (hx : ∀ x ∈ r :: tl, 0 ≤ x ∧ x ≤ box) {d : List Rat} (hd : d = (r :: tl).map (fun a => fofPeriodic box (a - r)))
    {s : Rat} (hs : s = d.sum / ((r :: tl).length : Nat)) {fuel : Nat} (hf : 2 ≤ fuel) :
    ∃ c, fofPeriodicWrap box fuel (s + r) = .ok c ∧ Centred box (r :: tl) (d.map (· - s)) c := by
  have hr := hx r (by simp)
  have hd1 : ∀ y ∈ d, -(box / 2) ≤ y ∧ y ≤ box / 2 := by
    intro y hy
    rw [hd] at hy
    obtain ⟨x, hxm, rfl⟩ := List.mem_map.1 hy
    have := hx x hxm
    obtain ⟨h1, h2, _⟩ := fofPeriodic_ok hb (x := x - r) (by linarith) (by linarith)
    exact ⟨h1, h2⟩
  have hl : d.length = (r :: tl).length := by rw [hd, List.length_map]
  have hpos : (0 : Rat) < ((r :: tl).length : Nat) := by
    rw [List.length_cons]; exact_mod_cast Nat.succ_pos _
  have hsum := sum_bounds hd1
  rw [hl] at hsum
  have hsl : ((r :: tl).length : Nat) * s = d.sum := by
    rw [hs]; field_simp
  have hs1 : -(box / 2) ≤ s ∧ s ≤ box / 2 := by
    constructor <;> nlinarith
  obtain ⟨c, h1, h2, h3, k, h4⟩ := wrap_ok hb (x := s + r) (by linarith) (by linarith) hf
  refine ⟨c, h1, ?_, ?_, ⟨h2, h3⟩, ?_, ?_⟩
  · rw [List.length_map, hl]
  · rw [sum_sub, hl, hsl]; ring
  · intro i x y hxi hyi
    rw [List.getElem?_map, hd, List.getElem?_map, hxi] at hyi
    simp only [Option.map_some, Option.some.injEq] at hyi
    have hxm := hx x (List.mem_of_getElem? hxi)
    obtain ⟨_, _, j, hj⟩ := fofPeriodic_ok hb (x := x - r) (by linarith) (by linarith)
    refine ⟨j + k, ?_⟩
    rw [← hyi, hj, h4]
    push_cast
    ring
  · intro y0 hy0 y hy
    have e0 : (d.map (· - s)).head? = some (0 - s) := by
      rw [hd, List.map_cons, List.map_cons, List.head?_cons, sub_self, fofPeriodic_zero hb]
    rw [e0] at hy0
    have hy0 : 0 - s = y0 := by simpa using hy0
    obtain ⟨a, ha, rfl⟩ := List.mem_map.1 hy
    have := hd1 a ha
    constructor <;> linarith

theorem foldl_vec (l : List Vec) : ∀ a : Vec, l.foldl (Vec.map2 (· + ·)) a = (a.1 + (l.map (·.1)).sum, a.2.1 + (l.map (·.2.1)).sum, a.2.2 + (l.map (·.2.2)).sum) := by
  induction l with
  | nil => intro a; simp
  | cons p l ih =>
    intro a
    rw [List.foldl_cons, ih]
    unfold Vec.map2
    simp only [List.map_cons, List.sum_cons]
    refine Prod.ext ?_ (Prod.ext ?_ ?_) <;> dsimp only <;> ring

theorem recentre_ok {box : Rat} (hb : 0 < box) {ws rest : List Vec} (hne : ws ≠ []) (hx : ∀ w ∈ ws, (0 ≤ w.1 ∧ w.1 ≤ box) ∧ (0 ≤ w.2.1 ∧ w.2.1 ≤ box) ∧ (0 ≤ w.2.2 ∧ w.2.2 ≤ box))
    {fuel : Nat} (hf : 2 ≤ fuel) : ∃ vs c, recentre box fuel ws.length (ws ++ rest) = .ok (vs ++ rest, c) ∧ Centred box (ws.map (·.1)) (vs.map (·.1)) c.1 ∧
      Centred box (ws.map (·.2.1)) (vs.map (·.2.1)) c.2.1 ∧ Centred box (ws.map (·.2.2)) (vs.map (·.2.2)) c.2.2 := by
  obtain ⟨r, tl, rfl⟩ : ∃ r tl, ws = r :: tl := by
    cases ws with
    | nil => exact absurd rfl hne
    | cons r tl => exact ⟨r, tl, rfl⟩
  generalize hd : (r :: tl).map (fun p => Vec.map2 (fun a r => fofPeriodic box (a - r)) p r) = d
  have d1 : d.map (·.1) = (r.1 :: tl.map (·.1)).map (fun a => fofPeriodic box (a - r.1)) := by
    rw [← hd, ← List.map_cons (f := fun w : Vec => w.1), List.map_map, List.map_map]; rfl
  have d2 : d.map (·.2.1) = (r.2.1 :: tl.map (·.2.1)).map (fun a => fofPeriodic box (a - r.2.1)) := by
    rw [← hd, ← List.map_cons (f := fun w : Vec => w.2.1), List.map_map, List.map_map]; rfl
  have d3 : d.map (·.2.2) = (r.2.2 :: tl.map (·.2.2)).map (fun a => fofPeriodic box (a - r.2.2)) := by
    rw [← hd, ← List.map_cons (f := fun w : Vec => w.2.2), List.map_map, List.map_map]; rfl
  obtain ⟨c1, e1, k1⟩ := centred_one hb (r := r.1) (tl := tl.map (·.1)) (by rw [← List.map_cons (f := fun w : Vec => w.1)]; intro x hxm; obtain ⟨w, hw, rfl⟩ := List.mem_map.1 hxm; exact (hx w hw).1) d1 rfl hf
  obtain ⟨c2, e2, k2⟩ := centred_one hb (r := r.2.1) (tl := tl.map (·.2.1)) (by rw [← List.map_cons (f := fun w : Vec => w.2.1)]; intro x hxm; obtain ⟨w, hw, rfl⟩ := List.mem_map.1 hxm; exact (hx w hw).2.1) d2 rfl hf
  obtain ⟨c3, e3, k3⟩ := centred_one hb (r := r.2.2) (tl := tl.map (·.2.2)) (by rw [← List.map_cons (f := fun w : Vec => w.2.2)]; intro x hxm; obtain ⟨w, hw, rfl⟩ := List.mem_map.1 hxm; exact (hx w hw).2.2) d3 rfl hf
  have l1 : (r.1 :: tl.map (·.1)).length = (r :: tl).length := by simp
  have l2 : (r.2.1 :: tl.map (·.2.1)).length = (r :: tl).length := by simp
  have l3 : (r.2.2 :: tl.map (·.2.2)).length = (r :: tl).length := by simp
  rw [l1] at e1 k1
  rw [l2] at e2 k2
  rw [l3] at e3 k3
  refine ⟨d.map (fun p => Vec.map2 (· - ·) p ((d.map (·.1)).sum / ((r :: tl).length : Nat), (d.map (·.2.1)).sum / ((r :: tl).length : Nat), (d.map (·.2.2)).sum / ((r :: tl).length : Nat))), (c1, c2, c3), ?_, ?_, ?_, ?_⟩
  · unfold recentre
    rw [List.cons_append]
    dsimp only
    rw [← List.cons_append, if_neg (by simp), List.take_left' rfl, List.drop_left' rfl, hd, foldl_vec]
    dsimp only
    rw [zero_add, zero_add, zero_add, bindOk _ e1, bindOk _ e2, bindOk _ e3]
  · rw [List.map_map]
    rw [List.map_map] at k1
    exact k1
  · rw [List.map_map]
    rw [List.map_map] at k2
    exact k2
  · rw [List.map_map]
    rw [List.map_map] at k3
    exact k3

end Verif.GroupLib
