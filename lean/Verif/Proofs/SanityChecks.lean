import Verif.Spec.SanityChecks
import Verif.Proofs.ParallelUnique
import Mathlib.Tactic.Linarith
import Mathlib.Tactic.Ring
import Mathlib.Tactic.FieldSimp
import Mathlib.Tactic.NormNum

set_option linter.unusedSectionVars false

namespace Verif

variable {α β γ : Type*}

theorem raiseIf_bind_ok {β : Type} {bad : Bool} {e : Err} {k : Unit → Except Err β} {r : β} :
    (raiseIf bad e >>= k) = .ok r ↔ bad = false ∧ k () = .ok r := by
  cases bad
  · simp only [true_and]; rfl
  · simp only [Bool.true_eq_false, false_and, iff_false]
    intro h; cases h

theorem raiseIf_ok {bad : Bool} {e : Err} : raiseIf bad e = .ok () ↔ bad = false := by
  cases bad
  · simp [raiseIf]
  · simp [raiseIf]

theorem any_zipWith_false {f : α → β → Bool} {a : List α} {b : List β} :
    (List.zipWith f a b).any id = false ↔ ∀ (i : Nat) x y, a[i]? = some x → b[i]? = some y → f x y = false := by
  rw [List.any_eq_false]
  constructor
  · intro h i x y hx hy
    have hm : f x y ∈ List.zipWith f a b := List.mem_iff_getElem?.2 ⟨i, by simp [List.getElem?_zipWith, hx, hy]⟩
    simpa using h _ hm
  · intro h v hv
    obtain ⟨i, hi⟩ := List.mem_iff_getElem?.1 hv
    rw [List.getElem?_zipWith] at hi
    cases ha : a[i]? with
    | none => rw [ha] at hi; cases hi
    | some x =>
      cases hb : b[i]? with
      | none => rw [ha, hb] at hi; cases hi
      | some y =>
        rw [ha, hb] at hi
        have := h i x y ha hb
        cases hi
        simp [this]

theorem any_zipWith_false' {f : α → β → γ} {p : γ → Bool} {a : List α} {b : List β} :
    (List.zipWith f a b).any p = false ↔ ∀ (i : Nat) x y, a[i]? = some x → b[i]? = some y → p (f x y) = false := by
  rw [← any_zipWith_false (f := fun x y => p (f x y))]
  rw [show List.zipWith (fun x y => p (f x y)) a b = (List.zipWith f a b).map p from (List.map_zipWith ..).symm]
  rw [List.any_map]; rfl

theorem anyNe_false {a b : List Int} :
    anyNe a b = false ↔ ∀ (i : Nat) x y, a[i]? = some x → b[i]? = some y → x = y := by
  unfold anyNe
  rw [any_zipWith_false]
  simp

theorem wrap32_of_range {x : Int} (h : InInt32 x) : wrap32 x = x := by
  unfold wrap32 InInt32 at *; omega

theorem wrap32_inInt32 (x : Int) : InInt32 (wrap32 x) := by
  unfold wrap32 InInt32; omega

theorem getElem?_dropLast_some {l : List α} {i : Nat} {x : α} :
    l.dropLast[i]? = some x ↔ l[i]? = some x ∧ i + 1 < l.length := by
  rw [List.getElem?_dropLast]
  constructor
  · intro h
    split at h
    · exact ⟨h, by omega⟩
    · cases h
  · rintro ⟨h, hl⟩
    rw [if_pos (by omega)]; exact h

/-! ### L-Gadget2 group tables -/

theorem pySum32_false (l : List Int) : pySum32 false l = l.sum := by
  have : ∀ s, l.foldl (fun s x => if false = true then wrap32 (s + x) else s + x) s = s + l.sum := by
    induction l with
    | nil => simp
    | cons x l ih => intro s; rw [List.foldl_cons, ih]; simp; omega
  have := this 0
  simpa [pySum32] using this

theorem pySum32_true (l : List Int) : pySum32 true l = wrap32 l.sum := by
  have : ∀ s, l.foldl (fun s x => if true = true then wrap32 (s + x) else s + x) (wrap32 s) = wrap32 (s + l.sum) := by
    induction l with
    | nil => simp
    | cons x l ih =>
      intro s
      rw [List.foldl_cons, if_pos rfl]
      have e : wrap32 (wrap32 s + x) = wrap32 (s + x) := by unfold wrap32; omega
      rw [e, ih, List.sum_cons]; congr 1; omega
  have := this 0
  simpa [pySum32, wrap32] using this

/-- Consecutive offsets: the sizes up to a group add up to the difference of the offsets. -/
theorem sum_take_of_next {off len : List Int}
    (h : ∀ (i : Nat) (a b n : Int), off[i]? = some a → off[i + 1]? = some b → len[i]? = some n → b = a + n)
    (hl : len.length = off.length) {a : Int} (ha : off[0]? = some a) (i : Nat) {o : Int} (ho : off[i]? = some o) :
    o = a + (len.take i).sum := by
  induction i generalizing o with
  | zero => rw [ha] at ho; cases ho; simp
  | succ i ih =>
    have hi : i + 1 < off.length := (List.getElem?_eq_some_iff.1 ho).1
    have h1 : off[i]? = some off[i] := List.getElem?_eq_getElem (by omega)
    have h2 : len[i]? = some (len[i]'(by omega)) := List.getElem?_eq_getElem (by omega)
    rw [h i _ _ _ h1 ho h2, ih h1, List.take_add_one, h2, Option.toList_some, List.sum_append, List.sum_singleton]
    omega

theorem sum_nonneg_int {l : List Int} (h : ∀ x ∈ l, 0 ≤ x) : 0 ≤ l.sum := by
  induction l with
  | nil => simp
  | cons x l ih =>
    have h1 := h x (by simp)
    have h2 := ih (fun y hy => h y (by simp [hy]))
    simp; omega

theorem next_iff_check {off len : List Int} {nids : Int} (hlen : len.length = off.length)
    (h1 : ∀ x ∈ off, InInt32 x) (h2 : ∀ x ∈ len, InInt32 x) (hr : ∀ o ∈ off, 0 ≤ o ∧ o < nids) :
    anyNe (off.drop 1) (add32 off.dropLast len.dropLast) = false ↔
      ∀ (i : Nat) (a b n : Int), off[i]? = some a → off[i + 1]? = some b → len[i]? = some n → b = a + n := by
  rw [anyNe_false]
  constructor
  · intro h i a b n ha hb hn
    have hbl := (List.getElem?_eq_some_iff.1 hb).1
    have := h i b (wrap32 (a + n)) (by rw [List.getElem?_drop, Nat.add_comm]; exact hb) (by
      unfold add32
      rw [List.getElem?_zipWith, getElem?_dropLast_some.2 ⟨ha, by omega⟩, getElem?_dropLast_some.2 ⟨hn, by omega⟩])
    have ra := hr a (List.mem_iff_getElem?.2 ⟨_, ha⟩)
    have rb := hr b (List.mem_iff_getElem?.2 ⟨_, hb⟩)
    have ia := h1 a (List.mem_iff_getElem?.2 ⟨_, ha⟩)
    have ib := h2 n (List.mem_iff_getElem?.2 ⟨_, hn⟩)
    unfold wrap32 InInt32 at *
    omega
  · intro h i x y hx hy
    rw [List.getElem?_drop, Nat.add_comm] at hx
    unfold add32 at hy
    rw [List.getElem?_zipWith] at hy
    cases ha : off.dropLast[i]? with
    | none => rw [ha] at hy; cases hy
    | some a =>
      cases hn : len.dropLast[i]? with
      | none => rw [ha, hn] at hy; cases hy
      | some n =>
        rw [ha, hn] at hy
        cases hy
        have e := h i a x n (getElem?_dropLast_some.1 ha).1 hx (getElem?_dropLast_some.1 hn).1
        rw [e]
        refine (wrap32_of_range ?_).symm
        rw [← e]
        exact h1 x (List.mem_iff_getElem?.2 ⟨_, hx⟩)

theorem groupTab2_check {numpy2 : Bool} {t : GroupTab2} (hlen : t.len.length = t.off.length) (hn : t.ngroups = t.off.length)
    (hid : InInt32 t.nids) (h1 : ∀ x ∈ t.off, InInt32 x) (h2 : ∀ x ∈ t.len, InInt32 x)
    (hpos : numpy2 = true → ∀ x ∈ t.len, 0 ≤ x) : t.check numpy2 = .ok () ↔ t.Sane := by
  have hnext : (∀ o ∈ t.off, 0 ≤ o ∧ o < t.nids) →
      ((if t.ngroups > 1 then raiseIf (anyNe (t.off.drop 1) (add32 t.off.dropLast t.len.dropLast)) .sanityCheck else pure ()) = Except.ok () ↔
        ∀ (i : Nat) (a b n : Int), t.off[i]? = some a → t.off[i + 1]? = some b → t.len[i]? = some n → b = a + n) := by
    intro hr
    split
    · rw [raiseIf_ok]; exact next_iff_check hlen h1 h2 hr
    · refine ⟨fun _ => ?_, fun _ => rfl⟩
      intro i a b n _ hb
      have := (List.getElem?_eq_some_iff.1 hb).1
      omega
  have hsum : ∀ (hr : ∀ o ∈ t.off, 0 ≤ o ∧ o < t.nids)
      (hx : ∀ (i : Nat) (a b n : Int), t.off[i]? = some a → t.off[i + 1]? = some b → t.len[i]? = some n → b = a + n),
      pySum32 numpy2 t.len = t.nids ↔ t.len.sum = t.nids := by
    intro hr hx
    cases numpy2 with
    | false => rw [pySum32_false]
    | true =>
      rw [pySum32_true]
      have hp := hpos rfl
      constructor
      · intro h
        by_cases h0 : t.off.length = 0
        · have : t.len = [] := List.length_eq_zero_iff.1 (by omega)
          rw [this] at h ⊢
          simpa [wrap32] using h
        · obtain ⟨k, hk⟩ : ∃ k, t.off.length = k + 1 := ⟨t.off.length - 1, by omega⟩
          have e0 : t.off[0]? = some t.off[0] := List.getElem?_eq_getElem (by omega)
          have ek : t.off[k]? = some t.off[k] := List.getElem?_eq_getElem (by omega)
          have s := sum_take_of_next hx hlen e0 k ek
          have el : t.len[k]? = some t.len[k] := List.getElem?_eq_getElem (by omega)
          have hs : t.len.sum = (t.len.take k).sum + t.len[k] := by
            conv_lhs => rw [← List.take_of_length_le (l := t.len) (i := k + 1) (by omega)]
            rw [List.take_add_one, el, Option.toList_some, List.sum_append, List.sum_singleton]
          have r0 := hr _ (List.mem_iff_getElem?.2 ⟨_, e0⟩)
          have rk := hr _ (List.mem_iff_getElem?.2 ⟨_, ek⟩)
          have i0 := h1 _ (List.mem_iff_getElem?.2 ⟨_, e0⟩)
          have ik := h1 _ (List.mem_iff_getElem?.2 ⟨_, ek⟩)
          have il := h2 _ (List.mem_iff_getElem?.2 ⟨_, el⟩)
          have hnn := sum_nonneg_int hp
          unfold wrap32 InInt32 at *
          omega
      · intro h; rw [h]; exact wrap32_of_range hid
  unfold GroupTab2.check
  rw [raiseIf_bind_ok, raiseIf_bind_ok]
  simp only [Bool.or_eq_false_iff, List.any_eq_false, decide_eq_true_eq, decide_eq_false_iff_not, ne_eq, not_not, not_lt, ge_iff_le, not_le]
  constructor
  · rintro ⟨h1, ⟨h2, h3⟩, h4⟩
    have hr : ∀ o ∈ t.off, 0 ≤ o ∧ o < t.nids := fun o ho => ⟨h2 o ho, h3 o ho⟩
    have hx := (hnext hr).1 h4
    exact ⟨(hsum hr hx).1 h1, hr, hx⟩
  · rintro ⟨h1, h2, h3⟩
    exact ⟨(hsum h2 h3).2 h1, ⟨fun o ho => (h2 o ho).1, fun o ho => (h2 o ho).2⟩, (hnext h2).2 h3⟩

/-- All checks raise the same exception. -/
theorem raiseIf_cases (bad : Bool) (e : Err) : raiseIf bad e = .ok () ∨ raiseIf bad e = .error e := by
  cases bad
  · exact Or.inl rfl
  · exact Or.inr rfl

theorem bind_cases {x : Except Err Unit} {k : Unit → Except Err Unit} {p : Err → Prop}
    (hx : x = .ok () ∨ ∃ e, x = .error e ∧ p e) (hk : k () = .ok () ∨ ∃ e, k () = .error e ∧ p e) :
    (x >>= k) = .ok () ∨ ∃ e, (x >>= k) = .error e ∧ p e := by
  rcases hx with h | ⟨e, h, he⟩
  · rw [h]; exact hk
  · rw [h]; exact Or.inr ⟨e, rfl, he⟩

theorem raiseIf_cases' (bad : Bool) {e : Err} {p : Err → Prop} (he : p e) : raiseIf bad e = .ok () ∨ ∃ e', raiseIf bad e = .error e' ∧ p e' := by
  rcases raiseIf_cases bad e with h | h
  · exact Or.inl h
  · exact Or.inr ⟨e, h, he⟩

/-! ### IDs of the Millennium simulation -/

theorem idsCheck2_ok (ids : List Nat) : idsCheck2 ids = .ok () ↔ SaneIDs2 ids := by
  have hz : List.zipWith (fun i k => i - (k <<< 34)) ids (ids.map (fun i => i >>> 34)) = ids.map (fun i => i % 2 ^ 34) := by
    rw [List.zipWith_map_right, List.zipWith_self]
    apply List.map_congr_left
    intro i _
    rw [Nat.shiftRight_eq_div_pow, Nat.shiftLeft_eq]
    have := Nat.div_add_mod i (2 ^ 34)
    omega
  unfold idsCheck2
  simp only [hz]
  rw [raiseIf_bind_ok, raiseIf_bind_ok, raiseIf_bind_ok, raiseIf_ok]
  simp only [Bool.or_eq_false_iff, List.any_eq_false, decide_eq_true_eq, decide_eq_false_iff_not, List.mem_map,
    forall_exists_index, and_imp, forall_apply_eq_imp_iff₂, not_lt, ge_iff_le, not_le, gt_iff_lt]
  have hcount : ((ids.map (fun i => i % 2 ^ 34)).filter (fun i => decide (i = 0))).length ≤ 1 ↔
      ∀ a b x y : Nat, ids[a]? = some x → ids[b]? = some y → x % 2 ^ 34 = 0 → y % 2 ^ 34 = 0 → a = b := by
    rw [List.filter_map, List.length_map]
    show (ids.filter (fun i => decide (i % 2 ^ 34 = 0))).length ≤ 1 ↔ _
    induction ids with
    | nil => simp
    | cons i ids ih =>
      have ih := ih (by
        rw [List.zipWith_map_right, List.zipWith_self]
        apply List.map_congr_left
        intro i _
        rw [Nat.shiftRight_eq_div_pow, Nat.shiftLeft_eq]
        have := Nat.div_add_mod i (2 ^ 34)
        omega)
      by_cases h : i % 2 ^ 34 = 0
      · rw [List.filter_cons_of_pos (by simpa using h), List.length_cons]
        constructor
        · intro hl a b x y ha hb hx hy
          have hnil : ids.filter (fun i => decide (i % 2 ^ 34 = 0)) = [] := List.length_eq_zero_iff.1 (by omega)
          rw [List.filter_eq_nil_iff] at hnil
          have key : ∀ (c : Nat) (z : Nat), (i :: ids)[c]? = some z → z % 2 ^ 34 = 0 → c = 0 := by
            intro c z hc hzz
            cases c with
            | zero => rfl
            | succ c =>
              rw [List.getElem?_cons_succ] at hc
              exact absurd (decide_eq_true hzz) (hnil z (List.mem_iff_getElem?.2 ⟨c, hc⟩))
          rw [key a x ha hx, key b y hb hy]
        · intro hall
          have hnil : ids.filter (fun i => decide (i % 2 ^ 34 = 0)) = [] := by
            rw [List.filter_eq_nil_iff]
            intro z hz' hzz
            obtain ⟨c, hc⟩ := List.mem_iff_getElem?.1 hz'
            have := hall 0 (c + 1) i z rfl (by simpa using hc) h (by simpa using hzz)
            omega
          rw [hnil]; simp
      · rw [List.filter_cons_of_neg (by simpa using h), ih]
        constructor
        · intro hall a b x y ha hb hx hy
          cases a with
          | zero => simp at ha; omega
          | succ a =>
            cases b with
            | zero => simp at hb; omega
            | succ b => rw [hall a b x y (by simpa using ha) (by simpa using hb) hx hy]
        · intro hall a b x y ha hb hx hy
          have := hall (a + 1) (b + 1) x y (by simpa using ha) (by simpa using hb) hx hy
          omega
  constructor
  · rintro ⟨-, ⟨-, h1⟩, ⟨-, h2⟩, h3⟩
    refine ⟨?_, h2, hcount.1 (by omega)⟩
    intro i hi
    have := h1 i hi
    rw [Nat.shiftRight_eq_div_pow] at this
    simpa using this
  · rintro ⟨h1, h2, h3⟩
    refine ⟨fun i _ => by omega, ⟨fun i _ => by omega, ?_⟩, ⟨fun i _ => by omega, h2⟩, by have := hcount.2 h3; omega⟩
    intro i hi
    have := h1 i hi
    rw [Nat.shiftRight_eq_div_pow]
    simpa using this


/-! ### IDs which appear once -/

theorem npUnique_ones (ids : List Nat) : (npUnique ids).any (fun e => decide (e.2 ≠ 1)) = false ↔ ids.Nodup := by
  simp only [List.any_eq_false, decide_eq_true_eq, ne_eq, not_not]
  rw [List.nodup_iff_count]
  constructor
  · intro h a
    by_cases ha : a ∈ ids
    · obtain ⟨e, he, rfl⟩ := List.mem_map.1 ((npUnique_mem ids a).2 ha)
      rw [← npUnique_count he, h e he]
    · rw [List.count_eq_zero_of_not_mem ha]; omega
  · intro h e he
    have h1 := npUnique_count he
    have h2 : e.1 ∈ ids := (npUnique_mem ids e.1).1 (List.mem_map_of_mem he)
    have h3 := List.count_pos_iff.2 h2
    have h4 := h e.1
    omega

theorem idsCheck3_ok (used : Bool) (ids : List Nat) : idsCheck3 used ids = .ok () ↔ used = true ∧ ids.Nodup := by
  unfold idsCheck3
  rw [raiseIf_bind_ok, raiseIf_ok, npUnique_ones]
  simp

/-! ### L-Gadget2 subhalo tables -/

theorem any_maskedBy {l a : List Int} {f : Int → Bool} {p : Int → Bool} :
    (maskedBy (l.map f) a).any p = false ↔
      ∀ (i : Nat) n x, l[i]? = some n → a[i]? = some x → f n = true → p x = false := by
  unfold maskedBy
  rw [List.any_map, List.any_filter, List.any_eq_false]
  constructor
  · intro h i n x hn hx hf
    have := h (f n, x) (List.mem_iff_getElem?.2 ⟨i, by simp [List.getElem?_zip_eq_some, hn, hx]⟩)
    simpa [hf] using this
  · rintro h ⟨m, x⟩ hm
    obtain ⟨i, hi⟩ := List.mem_iff_getElem?.1 hm
    rw [List.getElem?_zip_eq_some, List.getElem?_map] at hi
    obtain ⟨h1, h2⟩ := hi
    cases hn : l[i]? with
    | none => rw [hn] at h1; cases h1
    | some n =>
      rw [hn] at h1
      cases h1
      by_cases hf : f n = true
      · simp [hf, h i n x hn h2 hf]
      · simp [hf]

/-- The sums of elements chosen by a mask -/
theorem any_add32_maskedBy {l a b : List Int} {f : Int → Bool} {p : Int → Bool} (hab : a.length = l.length) (hbl : b.length = l.length) :
    (add32 (maskedBy (l.map f) a) (maskedBy (l.map f) b)).any p = false ↔
      ∀ (i : Nat) n x y, l[i]? = some n → a[i]? = some x → b[i]? = some y → f n = true → p (wrap32 (x + y)) = false := by
  have e : add32 (maskedBy (l.map f) a) (maskedBy (l.map f) b) = maskedBy (l.map f) (add32 a b) := by
    induction l generalizing a b with
    | nil => simp [maskedBy, add32]
    | cons n l ih =>
      cases a with
      | nil => simp at hab
      | cons x a =>
        cases b with
        | nil => simp at hbl
        | cons y b =>
          have := ih (a := a) (b := b) (by simpa using hab) (by simpa using hbl)
          unfold maskedBy add32 at *
          cases hf : f n
          · simpa [hf] using this
          · simpa [hf] using this
  rw [e, any_maskedBy]
  constructor
  · intro h i n x y hn hx hy hf
    exact h i n _ hn (by unfold add32; rw [List.getElem?_zipWith, hx, hy]) hf
  · intro h i n z hn hz hf
    unfold add32 at hz
    rw [List.getElem?_zipWith] at hz
    cases hx : a[i]? with
    | none => rw [hx] at hz; cases hz
    | some x =>
      cases hy : b[i]? with
      | none => rw [hx, hy] at hz; cases hz
      | some y => rw [hx, hy] at hz; cases hz; exact h i n x y hn hx hy hf

/-- `EndsBefore32` is what the check tests. -/
theorem endsBefore32_iff {o n total : Int} (ho : InInt32 o) (hn : InInt32 n) (ht : 0 ≤ total) :
    (0 ≤ o ∧ wrap32 (o + n) ≤ total) ↔ EndsBefore32 o n total := by
  unfold EndsBefore32 wrap32 InInt32 at *
  omega

/-- The test of offsets and sizes of all particle ranges -/
theorem ranges_check {off len : List Int} {total : Int} (hl : len.length = off.length) (h1 : ∀ x ∈ off, InInt32 x)
    (h2 : ∀ x ∈ len, InInt32 x) (ht : 0 ≤ total) :
    (off.any (fun o => decide (o < 0)) || (add32 off len).any (fun e => decide (e > total))) = false ↔
      ∀ (i : Nat) (o n : Int), off[i]? = some o → len[i]? = some n → EndsBefore32 o n total := by
  unfold add32
  rw [Bool.or_eq_false_iff, any_zipWith_false', List.any_eq_false]
  simp only [decide_eq_true_eq, decide_eq_false_iff_not, not_lt, gt_iff_lt]
  constructor
  · rintro ⟨h, h'⟩ i o n ho hn
    have m1 := List.mem_iff_getElem?.2 ⟨_, ho⟩
    have m2 := List.mem_iff_getElem?.2 ⟨_, hn⟩
    exact (endsBefore32_iff (h1 _ m1) (h2 _ m2) ht).1 ⟨h o m1, h' i o n ho hn⟩
  · intro h
    constructor
    · intro o ho
      obtain ⟨i, hi⟩ := List.mem_iff_getElem?.1 ho
      have hi' := (List.getElem?_eq_some_iff.1 hi).1
      exact (h i o _ hi (List.getElem?_eq_getElem (by omega))).1
    · intro i o n ho hn
      have m1 := List.mem_iff_getElem?.2 ⟨_, ho⟩
      have m2 := List.mem_iff_getElem?.2 ⟨_, hn⟩
      exact ((endsBefore32_iff (h1 _ m1) (h2 _ m2) ht).2 (h i o n ho hn)).2

theorem bind_ok {α β : Type} {x : Except Err α} {k : α → Except Err β} {r : β} :
    (x >>= k) = .ok r ↔ ∃ v, x = .ok v ∧ k v = .ok r := by
  cases x with
  | error e => constructor
               · intro h; cases h
               · rintro ⟨v, h, -⟩; cases h
  | ok v => constructor
            · intro h; exact ⟨v, rfl, h⟩
            · rintro ⟨w, h, h'⟩; cases h; exact h'

/-- The repeated numbers, starting from `k` -/
def repFrom (k : Nat) (counts : List Int) : List Int :=
  (counts.zipIdx k).flatMap (fun ci => List.replicate ci.1.toNat (ci.2 : Int))

theorem repFrom_cons (k : Nat) (c : Int) (cs : List Int) : repFrom k (c :: cs) = List.replicate c.toNat (k : Int) ++ repFrom (k + 1) cs := by
  simp [repFrom]

theorem repFrom_length (k : Nat) {counts : List Int} (h : ∀ c ∈ counts, 0 ≤ c) : ((repFrom k counts).length : Int) = counts.sum := by
  induction counts generalizing k with
  | nil => simp [repFrom]
  | cons c cs ih =>
    have h1 := h c (by simp)
    have h2 := ih (k + 1) (fun x hx => h x (by simp [hx]))
    rw [repFrom_cons, List.length_append, List.length_replicate, List.sum_cons]
    push_cast
    omega

theorem repFrom_getElem? (k : Nat) {counts : List Int} (h : ∀ c ∈ counts, 0 ≤ c) (j : Nat) (v : Int) :
    (repFrom k counts)[j]? = some v ↔ ∃ m : Nat, v = k + m ∧ m < counts.length ∧ (counts.take m).sum ≤ j ∧ (j : Int) < (counts.take (m + 1)).sum := by
  induction counts generalizing k j with
  | nil => simp [repFrom]
  | cons c cs ih =>
    have h1 := h c (by simp)
    have h0 : ∀ x ∈ cs, 0 ≤ x := fun x hx => h x (by simp [hx])
    rw [repFrom_cons]
    by_cases hj : (j : Int) < c
    · rw [List.getElem?_append_left (by rw [List.length_replicate]; omega), List.getElem?_replicate, if_pos (by omega)]
      constructor
      · intro e
        cases e
        exact ⟨0, by simp, by simp, by simp, by simpa using hj⟩
      · rintro ⟨m, rfl, -, hm, -⟩
        cases m with
        | zero => simp
        | succ m =>
          rw [List.take_succ_cons, List.sum_cons] at hm
          have := sum_nonneg_int (fun x hx => h0 x (List.mem_of_mem_take (i := m) hx))
          omega
    · rw [List.getElem?_append_right (by rw [List.length_replicate]; omega), List.length_replicate, ih (k + 1) h0]
      constructor
      · rintro ⟨m, rfl, hl, ha, hb⟩
        refine ⟨m + 1, by push_cast; omega, by simpa using hl, ?_, ?_⟩
        · rw [List.take_succ_cons, List.sum_cons]; omega
        · rw [List.take_succ_cons, List.sum_cons]; omega
      · rintro ⟨m, rfl, hl, ha, hb⟩
        cases m with
        | zero => simp at hb; omega
        | succ m =>
          rw [List.take_succ_cons, List.sum_cons] at ha hb
          exact ⟨m, by push_cast; omega, by simpa using hl, by omega, by omega⟩

theorem npRepeatRange_ok {counts v : List Int} : npRepeatRange counts = .ok v ↔ (∀ c ∈ counts, 0 ≤ c) ∧ v = repFrom 0 counts := by
  unfold npRepeatRange
  by_cases h : counts.any (fun c => decide (c < 0)) = true
  · rw [if_pos h]
    simp only [reduceCtorEq, false_iff, not_and]
    intro h'
    simp only [List.any_eq_true, decide_eq_true_eq] at h
    obtain ⟨c, hc, hn⟩ := h
    have := h' c hc
    omega
  · rw [if_neg h]
    simp only [List.any_eq_true, decide_eq_true_eq, not_exists, not_and, not_lt] at h
    constructor
    · intro e; cases e; exact ⟨h, rfl⟩
    · rintro ⟨-, rfl⟩; rfl

theorem subTab2_check {t : SubTab2} (hl1 : t.sublen.length = t.suboffset.length) (hl2 : (t.subparent.length : Int) = t.nsub)
    (hid : 0 ≤ t.nids) (h1 : ∀ x ∈ t.suboffset, InInt32 x) (h2 : ∀ x ∈ t.sublen, InInt32 x) : t.check = .ok () ↔ t.Sane := by
  unfold SubTab2.check
  rw [raiseIf_bind_ok, raiseIf_bind_ok, raiseIf_bind_ok, bind_ok]
  simp only [raiseIf_bind_ok, raiseIf_ok, npRepeatRange_ok]
  rw [ranges_check hl1 h1 h2 hid, Bool.or_eq_false_iff, any_maskedBy, any_maskedBy]
  simp only [decide_eq_false_iff_not, decide_eq_true_eq, ne_eq, not_not, not_lt, ge_iff_le, not_le, anyNe_false]
  have hfin : (t.finite.any (fun data => data.any (fun x => !x.isFinite))) = false ↔ ∀ data ∈ t.finite, ∀ x ∈ data, ∃ q, x = .fin q := by
    simp only [List.any_eq_false, Bool.not_eq_true, Bool.not_eq_false', List.any_eq_true, not_exists, not_and]
    constructor
    · intro h data hd x hx
      have := h data hd x hx
      cases x with
      | fin q => exact ⟨q, rfl⟩
      | inf _ => simp [Flt.isFinite] at this
      | nan => simp [Flt.isFinite] at this
    · intro h data hd x hx
      obtain ⟨q, rfl⟩ := h data hd x hx
      rfl
  rw [hfin]
  constructor
  · rintro ⟨e1, ⟨e2, e3⟩, e4, v, ⟨e5, rfl⟩, e6, e7⟩
    refine ⟨e5, e1, fun i n f hn hf hp => ⟨e2 i n f hn hf hp, e3 i n f hn hf hp⟩, e4, ?_, e7⟩
    intro j p hp
    have hj := (List.getElem?_eq_some_iff.1 hp).1
    have hlen := repFrom_length 0 e5
    have hj' : j < (repFrom 0 t.nsubperhalo).length := by omega
    have hg := List.getElem?_eq_getElem hj'
    rw [e6 j p _ hp hg]
    obtain ⟨m, a, b, c, d⟩ := (repFrom_getElem? 0 e5 j _).1 hg
    exact ⟨m, by rw [a]; simp, b, c, d⟩
  · intro s
    refine ⟨s.total, ⟨fun i n f hn hf hp => (s.first i n f hn hf hp).1, fun i n f hn hf hp => (s.first i n f hn hf hp).2⟩, s.particles, _, ⟨s.counts, rfl⟩, ?_, s.finite⟩
    intro i x y hx hy
    obtain ⟨m, rfl, hm⟩ := s.parent i x hx
    have := (repFrom_getElem? 0 s.counts i (m : Int)).2 ⟨m, by simp, hm⟩
    rw [hy] at this
    cases this
    rfl

/-! ### L-Gadget3 and P-Gadget3 subhalo tables -/

theorem propsCheck_ok {prop : String → List Flt} {positive names : List String} :
    propsCheck prop positive names = .ok () ↔
      ∀ name ∈ names, ∀ x ∈ prop name, ∃ q : ℚ, x = .fin q ∧ (name ∈ positive → 0 ≤ q) := by
  induction names with
  | nil => simp [propsCheck]
  | cons n names ih =>
    unfold propsCheck
    rw [raiseIf_bind_ok, raiseIf_bind_ok, ih]
    rw [List.forall_mem_cons, ← and_assoc]
    refine and_congr_left (fun _ => ?_)
    rw [Bool.not_eq_false', List.all_eq_true]
    constructor
    · rintro ⟨h1, h2⟩ x hx
      have hf := h1 x hx
      cases x with
      | fin q =>
        refine ⟨q, rfl, fun hn => ?_⟩
        have hc : positive.contains n = true := by simpa using hn
        rw [hc, Bool.and_true, Bool.not_eq_false', List.all_eq_true] at h2
        simpa [Flt.nonneg] using h2 _ hx
      | inf _ => simp [Flt.isFinite] at hf
      | nan => simp [Flt.isFinite] at hf
    · intro h
      constructor
      · intro x hx
        obtain ⟨q, rfl, -⟩ := h x hx
        rfl
      · by_cases hn : n ∈ positive
        · rw [Bool.and_eq_false_iff]
          left
          rw [Bool.not_eq_false', List.all_eq_true]
          intro x hx
          obtain ⟨q, rfl, hq⟩ := h x hx
          simpa [Flt.nonneg] using hq hn
        · rw [Bool.and_eq_false_iff]
          right
          simpa using hn

theorem order_check (l : List Int) : (List.zipWith (fun a b => decide (a < b)) (l.drop 1) l.dropLast).any id = false ↔ l.Pairwise (· ≤ ·) := by
  rw [← List.isChain_iff_pairwise, List.isChain_iff_getElem, any_zipWith_false]
  constructor
  · intro h i hi
    have := h i l[i + 1] l[i] (by rw [List.getElem?_drop, Nat.add_comm]; exact List.getElem?_eq_getElem hi)
      (getElem?_dropLast_some.2 ⟨List.getElem?_eq_getElem (by omega), hi⟩)
    simpa using this
  · intro h i x y hx hy
    rw [List.getElem?_drop, Nat.add_comm] at hx
    obtain ⟨hy, hi⟩ := getElem?_dropLast_some.1 hy
    obtain ⟨_, rfl⟩ := List.getElem?_eq_some_iff.1 hx
    obtain ⟨_, rfl⟩ := List.getElem?_eq_some_iff.1 hy
    simpa using h i hi

theorem ite_ok {c : Prop} [Decidable c] {x : Except Err Unit} : (if c then x else pure ()) = .ok () ↔ (c → x = .ok ()) := by
  split
  · rename_i h; simp [h]
  · rename_i h; simp only [h, false_implies, iff_true]; rfl

theorem bind_unit_ok {x : Except Err Unit} {k : Unit → Except Err Unit} : (x >>= k) = .ok () ↔ x = .ok () ∧ k () = .ok () := by
  rw [bind_ok]
  constructor
  · rintro ⟨⟨⟩, h⟩; exact h
  · intro h; exact ⟨(), h⟩

theorem and_false_imp {c : Prop} [Decidable c] {b : Bool} : (decide c && b) = false ↔ (c → b = false) := by
  by_cases h : c <;> simp [h]

theorem wide_check {off len : List Int} {total : Int} (hl : len.length = off.length) :
    (off.any (fun o => decide (o < 0)) || (addWide off len).any (fun e => decide (e > total))) = false ↔
      ∀ (i : Nat) (o n : Int), off[i]? = some o → len[i]? = some n → 0 ≤ o ∧ o + n ≤ total := by
  unfold addWide
  rw [Bool.or_eq_false_iff, any_zipWith_false', List.any_eq_false]
  simp only [decide_eq_true_eq, decide_eq_false_iff_not, not_lt, gt_iff_lt]
  constructor
  · rintro ⟨h, h'⟩ i o n ho hn
    exact ⟨h o (List.mem_iff_getElem?.2 ⟨_, ho⟩), h' i o n ho hn⟩
  · intro h
    refine ⟨fun o ho => ?_, fun i o n ho hn => (h i o n ho hn).2⟩
    obtain ⟨i, hi⟩ := List.mem_iff_getElem?.1 ho
    have hi' := (List.getElem?_eq_some_iff.1 hi).1
    exact (h i o _ hi (List.getElem?_eq_getElem (by omega))).1

theorem first_check {first nsubs : List Int} {total : Int} (hl : first.length = nsubs.length) (h1 : ∀ x ∈ first, InInt32 x)
    (h2 : ∀ x ∈ nsubs, InInt32 x) (ht : 0 ≤ total) :
    ((maskedBy (nsubs.map (fun n => decide (n > 0))) first).any (fun f => decide (f < 0)) ||
      (add32 (maskedBy (nsubs.map (fun n => decide (n > 0))) first) (maskedBy (nsubs.map (fun n => decide (n > 0))) nsubs)).any
        (fun e => decide (e > total))) = false ↔
      ∀ (i : Nat) (f n : Int), first[i]? = some f → nsubs[i]? = some n → 0 < n → EndsBefore32 f n total := by
  rw [Bool.or_eq_false_iff, any_maskedBy, any_add32_maskedBy hl rfl]
  simp only [decide_eq_true_eq, decide_eq_false_iff_not, not_lt, gt_iff_lt]
  constructor
  · rintro ⟨h, h'⟩ i f n hf hn hp
    have m1 := List.mem_iff_getElem?.2 ⟨_, hf⟩
    have m2 := List.mem_iff_getElem?.2 ⟨_, hn⟩
    exact (endsBefore32_iff (h1 _ m1) (h2 _ m2) ht).1 ⟨h i n f hn hf hp, h' i n f n hn hf hn hp⟩
  · intro h
    refine ⟨fun i n f hn hf hp => (h i f n hf hn hp).1, fun i n f y hn hf hy hp => ?_⟩
    rw [hn] at hy
    cases hy
    have m1 := List.mem_iff_getElem?.2 ⟨_, hf⟩
    have m2 := List.mem_iff_getElem?.2 ⟨_, hn⟩
    exact ((endsBefore32_iff (h1 _ m1) (h2 _ m2) ht).2 (h i f n hf hn hp)).2

theorem any_neg_false {l : List Int} : l.any (fun n => decide (n < 0)) = false ↔ ∀ n ∈ l, 0 ≤ n := by
  simp [List.any_eq_false]

theorem subTab3_check (wide : Bool) (gp sp : List String) {t : SubTab3} (hw : t.WellFormed wide) :
    t.checkWith (if wide then addWide else add32) gp sp = .ok () ↔ t.Sane wide gp sp := by
  have horder : (if t.subgrnr.length > 1 then raiseIf ((List.zipWith (fun a b => decide (a < b)) (t.subgrnr.drop 1) t.subgrnr.dropLast).any id) Err.sanityCheck
      else pure ()) = .ok () ↔ t.subgrnr.Pairwise (· ≤ ·) := by
    rw [ite_ok, raiseIf_ok, order_check]
    refine ⟨fun h => ?_, fun h _ => h⟩
    by_cases hl : t.subgrnr.length > 1
    · exact h hl
    · match hm : t.subgrnr, hl with
      | [], _ => simp
      | [x], _ => simp
      | _ :: _ :: _, hl => simp at hl
  have hgroups : 0 ≤ t.totnids → ((t.groupoffset.any (fun o => decide (o < 0)) || ((if wide then addWide else add32) t.groupoffset t.grouplen).any (fun e => decide (e > t.totnids))) = false ↔
      ∀ (i : Nat) (o n : Int), t.groupoffset[i]? = some o → t.grouplen[i]? = some n →
        if wide then 0 ≤ o ∧ o + n ≤ t.totnids else EndsBefore32 o n t.totnids) := by
    intro ht
    cases wide with
    | true => simpa using wide_check hw.len1.symm
    | false => simpa using ranges_check hw.len1.symm (by simpa using hw.int2) hw.int1 ht
  unfold SubTab3.checkWith
  simp only [raiseIf_bind_ok]
  rw [bind_unit_ok]
  simp only [raiseIf_bind_ok]
  rw [bind_unit_ok]
  simp only [raiseIf_bind_ok]
  rw [horder, propsCheck_ok, propsCheck_ok]
  simp only [and_false_imp, any_neg_false]
  constructor
  · rintro ⟨a1, a2, a3, a4, a5, a6, a7, a8, a9, a10, a11, a12⟩
    simp only [Bool.or_eq_false_iff, decide_eq_false_iff_not, not_lt] at a2
    obtain ⟨⟨t1, t2⟩, t3⟩ := a2
    rw [Bool.or_eq_false_iff, any_neg_false] at a11
    refine ⟨by simpa using a1, ⟨t1, t2, t3⟩, ⟨a3, a5, a8⟩, fun h => (hgroups t1).1 (a4 h), (first_check hw.len2 hw.int4 hw.int3 t3).1 a6,
      fun h => (ranges_check hw.len3.symm hw.int6 hw.int5 t1).1 (a9 h), ?_, a12, ?_, a10⟩
    · intro g hg
      refine ⟨a11.1 g hg, ?_⟩
      have := List.any_eq_false.1 a11.2 g hg
      simpa using this
    · intro name hn x hx
      obtain ⟨q, e, h⟩ := a7 name hn x hx
      exact ⟨q, e, h hn⟩
  · intro s
    obtain ⟨t1, t2, t3⟩ := s.header
    refine ⟨by simpa using s.used, by simp [t1, t2, t3], s.lengths.1, fun h => (hgroups t1).2 (s.groups h), s.lengths.2.1,
      (first_check hw.len2 hw.int4 hw.int3 t3).2 s.first, ?_, s.lengths.2.2, fun h => (ranges_check hw.len3.symm hw.int6 hw.int5 t1).2 (s.subs h),
      s.subProps, ?_, s.order⟩
    · intro name hn x hx
      obtain ⟨q, e, h⟩ := s.groupProps name hn x hx
      exact ⟨q, e, fun _ => h⟩
    · rw [Bool.or_eq_false_iff, any_neg_false]
      refine ⟨fun g hg => (s.grnr g hg).1, List.any_eq_false.2 fun g hg => ?_⟩
      simpa using (s.grnr g hg).2

/-! ### P-Gadget3 group tables -/

theorem foldl_add_fin (l : List ℚ) (s : ℚ) : (l.map Flt.fin).foldl Flt.add (.fin s) = .fin (s + l.sum) := by
  induction l generalizing s with
  | nil => simp
  | cons x l ih =>
    rw [List.map_cons, List.foldl_cons]
    show (l.map Flt.fin).foldl Flt.add (.fin (s + x)) = _
    rw [ih, List.sum_cons, add_assoc]

theorem massDiffers_false (l : List ℚ) (m : ℚ) :
    massDiffers (l.map Flt.fin) (.fin m) = false ↔ (0 < m → |l.sum - m| ≤ m / 100000) ∧ (m = 0 → l.sum = 0) := by
  unfold massDiffers
  rw [foldl_add_fin, zero_add]
  show Flt.gt (if m = 0 then (if |l.sum + -m| = 0 then Flt.nan else .inf (decide (|l.sum + -m| < 0))) else .fin (|l.sum + -m| / m)) _ = false ↔ _
  rw [← sub_eq_add_neg]
  rcases lt_trichotomy m 0 with h | h | h
  · rw [if_neg h.ne]
    have : ¬ (1 / 100000 : ℚ) < |l.sum - m| / m := by
      have := div_nonpos_of_nonneg_of_nonpos (abs_nonneg (l.sum - m)) h.le
      intro h'
      linarith [show (0 : ℚ) < 1 / 100000 by norm_num]
    simp [Flt.gt, h.not_gt, h.ne]
    simpa using this
  · subst h
    simp only [sub_zero, if_true, abs_eq_zero, lt_irrefl, false_implies, true_and, forall_const]
    by_cases hs : l.sum = 0
    · simp [hs, Flt.gt]
    · simp [hs, Flt.gt, abs_nonneg]
  · rw [if_neg h.ne']
    simp only [Flt.gt, decide_eq_false_iff_not, not_lt, h, h.ne', true_implies, false_implies, and_true]
    rw [div_le_iff₀ h]
    constructor <;> intro h' <;> linarith

theorem groupTab3_check {t : GroupTab3} (hl : t.len.length = t.off.length)
    (h1 : ∀ m ∈ t.mass, ∃ q, m = .fin q) (h2 : ∀ l ∈ t.massType, ∃ q : List ℚ, l = q.map .fin) : t.check = .ok () ↔ t.Sane := by
  unfold GroupTab3.check
  simp only [raiseIf_bind_ok, raiseIf_ok, and_false_imp, anyNe_false, any_zipWith_false]
  constructor
  · rintro ⟨a1, a2, a3, a4⟩
    refine ⟨by simpa using a1, ?_, ?_, ?_⟩
    · intro i l n hl hn
      exact a2 i _ _ (by rw [List.getElem?_map, hl]; rfl) hn
    · intro h i a b n ha hb hn
      have hbl := (List.getElem?_eq_some_iff.1 hb).1
      refine a3 h i b (a + n) (by rw [List.getElem?_drop, Nat.add_comm]; exact hb) ?_
      unfold addWide
      rw [List.getElem?_zipWith, getElem?_dropLast_some.2 ⟨ha, by omega⟩, getElem?_dropLast_some.2 ⟨hn, by omega⟩]
    · intro i l m hl hm
      exact (massDiffers_false l m).1 (a4 i _ _ hl hm)
  · intro s
    refine ⟨by simpa using s.used, ?_, ?_, ?_⟩
    · intro i x y hx hy
      rw [List.getElem?_map] at hx
      cases hl : t.lenType[i]? with
      | none => rw [hl] at hx; cases hx
      | some l => rw [hl] at hx; cases hx; exact s.types i l y hl hy
    · intro h i x y hx hy
      rw [List.getElem?_drop, Nat.add_comm] at hx
      unfold addWide at hy
      rw [List.getElem?_zipWith] at hy
      cases ha : t.off.dropLast[i]? with
      | none => rw [ha] at hy; cases hy
      | some a =>
        cases hn : t.len.dropLast[i]? with
        | none => rw [ha, hn] at hy; cases hy
        | some n =>
          rw [ha, hn] at hy
          cases hy
          exact s.next h i a x n (getElem?_dropLast_some.1 ha).1 hx (getElem?_dropLast_some.1 hn).1
    · intro i x y hx hy
      obtain ⟨l, rfl⟩ := h2 x (List.mem_iff_getElem?.2 ⟨_, hx⟩)
      obtain ⟨m, rfl⟩ := h1 y (List.mem_iff_getElem?.2 ⟨_, hy⟩)
      exact (massDiffers_false l m).2 (s.mass i l m hx hy)

end Verif
