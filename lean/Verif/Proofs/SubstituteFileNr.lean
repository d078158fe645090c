import Verif.Spec.SubstituteFileNr
import Verif.Model.SubstituteFileNr
import Verif.Proofs.PartialFormatter

/-! Proofs for C86 -/

namespace Verif

theorem isFlag_iff (c : Char) : isFlag c = true ↔ c ∈ "#0- +".toList := by
  have : "#0- +".toList = ['#', '0', '-', ' ', '+'] := by decide
  rw [this]
  simp [isFlag]
  tauto

theorem digit_not_flag {c : Char} (h : c.isDigit = true) (h0 : c ≠ '0') : isFlag c = false := by
  rw [← Bool.not_eq_true]
  intro hf
  simp only [isFlag, Bool.or_eq_true, beq_iff_eq] at hf
  rcases hf with (((rfl | rfl) | rfl) | rfl) | rfl
  · revert h; decide
  · exact h0 rfl
  all_goals revert h; decide

theorem alpha_other {c : Char} (h : c.isAlpha = true) : isFlag c = false ∧ c.isDigit = false ∧ c ≠ '*' ∧ c ≠ '.' ∧ c ≠ '%' ∧ c ≠ '{' ∧ c ≠ '}' ∧ c ≠ '(' := by
  have hd : c.isDigit = false := by
    rw [← Bool.not_eq_true]
    intro h2
    simp only [Char.isAlpha, Char.isUpper, Char.isLower, Char.isDigit, Bool.or_eq_true, Bool.and_eq_true, decide_eq_true_eq, UInt32.le_iff_toNat_le, ge_iff_le] at h h2
    simp at h h2
    omega
  refine ⟨?_, hd, ?_, ?_, ?_, ?_, ?_, ?_⟩
  · rw [← Bool.not_eq_true]
    intro hf
    simp only [isFlag, Bool.or_eq_true, beq_iff_eq] at hf
    rcases hf with (((rfl | rfl) | rfl) | rfl) | rfl <;> revert h <;> decide
  all_goals rintro rfl; revert h; decide

theorem takeWhile_stop {p : Char → Bool} {l rest : List Char} (h : ∀ c ∈ l, p c = true) (hr : ∀ c, rest.head? = some c → p c = false) : (l ++ rest).takeWhile p = l ∧ (l ++ rest).dropWhile p = rest := by
  induction l with
  | nil =>
    cases rest with
    | nil => simp
    | cons c rest => simp [hr c rfl]
  | cons c l ih =>
    obtain ⟨h1, h2⟩ := ih (fun d hd => h d (List.mem_cons_of_mem _ hd))
    rw [List.cons_append, List.takeWhile_cons_of_pos (h c List.mem_cons_self), List.dropWhile_cons_of_pos (h c List.mem_cons_self), h1, h2]
    exact ⟨rfl, rfl⟩

theorem percentMods_eq {mods : List Char} (hm : IsModifier mods) {conv : Char} (hc : conv.isAlpha = true) (hl : conv ∉ "hlL".toList) (rest : List Char) : percentMods (mods ++ conv :: rest) = .ok (mods, conv, rest) := by
  obtain ⟨flags, width, prec, rfl, hf, hw, hw0, hp⟩ := hm
  obtain ⟨a1, a2, a3, a4, -, -, -, -⟩ := alpha_other hc
  have e : "hlL".toList = ['h', 'l', 'L'] := by decide
  rw [e] at hl
  simp only [List.mem_cons, List.not_mem_nil, or_false, not_or] at hl
  obtain ⟨l1, l2, l3⟩ := hl
  have hne : ∀ d : Char, d.isDigit = true → d ≠ '*' ∧ d ≠ '.' := fun d hd => ⟨by rintro rfl; revert hd; decide, by rintro rfl; revert hd; decide⟩
  -- the first character after the flags
  have h1 : ∀ c, (width ++ (prec ++ conv :: rest)).head? = some c → isFlag c = false ∧ c ≠ '*' := by
    intro c h
    cases width with
    | cons d w =>
      simp only [List.cons_append, List.head?_cons, Option.some.injEq] at h
      subst h
      have hd := hw d List.mem_cons_self
      exact ⟨digit_not_flag hd (by rintro rfl; exact hw0 rfl), (hne d hd).1⟩
    | nil =>
      rcases hp with rfl | ⟨digits, rfl, -⟩
      · simp only [List.nil_append, List.head?_cons, Option.some.injEq] at h; subst h; exact ⟨a1, a3⟩
      · simp only [List.nil_append, List.cons_append, List.head?_cons, Option.some.injEq] at h; subst h; exact ⟨by decide, by decide⟩
  have h2 : ∀ c, (prec ++ conv :: rest).head? = some c → c.isDigit = false := by
    intro c h
    rcases hp with rfl | ⟨digits, rfl, -⟩
    · simp only [List.nil_append, List.head?_cons, Option.some.injEq] at h; subst h; exact a2
    · simp only [List.cons_append, List.head?_cons, Option.some.injEq] at h; subst h; decide
  obtain ⟨t1, d1⟩ := takeWhile_stop (p := isFlag) (l := flags) (rest := width ++ (prec ++ conv :: rest)) (fun c hc => (isFlag_iff c).2 (hf c hc)) (fun c h => (h1 c h).1)
  obtain ⟨t2, d2⟩ := takeWhile_stop (p := Char.isDigit) (l := width) (rest := prec ++ conv :: rest) hw h2
  unfold percentMods
  simp only [List.append_assoc]
  rw [t1, d1]
  rw [if_neg (by intro h; exact (h1 _ h).2 rfl), t2, d2]
  have hskip : skipLength (conv :: rest) = conv :: rest := by
    unfold skipLength
    rw [if_neg]
    simp [l1, l2, l3]
  have hprec : percentPrec (prec ++ conv :: rest) = .ok (prec, conv :: rest) := by
    unfold percentPrec
    rcases hp with rfl | ⟨digits, rfl, hdig⟩
    · rw [List.nil_append, if_neg (by simp [a4])]
    · have h3 : ∀ c, (conv :: rest).head? = some c → c.isDigit = false := by
        intro c h; simp only [List.head?_cons, Option.some.injEq] at h; subst h; exact a2
      obtain ⟨t3, d3⟩ := takeWhile_stop (p := Char.isDigit) (l := digits) (rest := conv :: rest) hdig h3
      have h4 : (digits ++ conv :: rest).head? ≠ some '*' := by
        cases digits with
        | nil => simp [a3]
        | cons d ds => simp only [List.cons_append, List.head?_cons, ne_eq, Option.some.injEq]; exact (hne d (hdig d List.mem_cons_self)).1
      rw [List.cons_append, if_pos (by rfl), List.tail_cons, if_neg h4, t3, d3]
  rw [hprec]
  dsimp only
  rw [hskip]

theorem percentKey_file (s : List Char) : percentKey 1 [] ("file_nr)".toList ++ s) = .ok ("file_nr".toList, s) := by
  have e : "file_nr)".toList = ['f', 'i', 'l', 'e', '_', 'n', 'r', ')'] := by decide
  have e2 : "file_nr".toList = ['f', 'i', 'l', 'e', '_', 'n', 'r'] := by decide
  rw [e, e2]
  simp [percentKey]

theorem percentLoop_text (ops : PercentOps) {t : List Char} (ht : '%' ∉ t) (s : List Char) (fuel : Nat) (arg : PercentArg) :
    percentLoop ops (fuel + t.length) arg (t ++ s) = (percentLoop ops fuel arg s).map (fun out => t ++ out) := by
  induction t with
  | nil =>
    rw [List.nil_append, List.length_nil, Nat.add_zero]
    cases percentLoop ops fuel arg s <;> rfl
  | cons c t ih =>
    rw [List.mem_cons, not_or] at ht
    rw [List.length_cons, ← Nat.add_assoc, List.cons_append, percentLoop, if_pos (fun h => ht.1 h.symm), ih ht.2]
    cases percentLoop ops fuel arg s <;> rfl

theorem percentLoop_percent (ops : PercentOps) {mods : List Char} (hm : IsModifier mods) {conv : Char} (hc : conv.isAlpha = true) (hl : conv ∉ "hlL".toList) (s : List Char) (fuel : Nat) (arg : PercentArg) {text : List Char}
    (ht : ops.number mods conv = .ok text) : percentLoop ops (fuel + 1) arg ((NamePiece.percent mods conv).show ++ s) = (percentLoop ops fuel .used s).map (fun out => text ++ out) := by
  have e : "%(file_nr)".toList = '%' :: '(' :: "file_nr)".toList := by decide
  have hne := (alpha_other hc).2.2.2.2.1
  unfold NamePiece.show
  rw [e]
  simp only [List.cons_append, List.append_assoc, List.nil_append]
  conv => lhs; unfold percentLoop
  simp only [ne_eq, not_true_eq_false, if_false, List.head?_cons, if_true, List.tail_cons]
  rw [percentKey_file]
  dsimp only
  rw [if_pos rfl]
  dsimp only
  rw [percentMods_eq hm hc hl]
  dsimp only
  rw [if_neg hne]
  dsimp only [PercentOps.format]
  rw [ht]
  cases percentLoop ops fuel .used s <;> rfl

theorem percentKey_suffix {depth : Nat} {acc s k r : List Char} (h : percentKey depth acc s = .ok (k, r)) : ∃ pre, s = pre ++ r := by
  induction s generalizing depth acc with
  | nil => simp [percentKey] at h
  | cons c s ih =>
    unfold percentKey at h
    split at h
    · split at h
      · cases h; exact ⟨[c], rfl⟩
      · obtain ⟨pre, hp⟩ := ih h; exact ⟨c :: pre, by rw [hp]; rfl⟩
    · split at h
      · obtain ⟨pre, hp⟩ := ih h; exact ⟨c :: pre, by rw [hp]; rfl⟩
      · obtain ⟨pre, hp⟩ := ih h; exact ⟨c :: pre, by rw [hp]; rfl⟩

theorem dropWhile_pre (p : Char → Bool) (s : List Char) : ∃ pre, s = pre ++ s.dropWhile p := ⟨s.takeWhile p, List.takeWhile_append_dropWhile.symm⟩

theorem percentMods_suffix {s m : List Char} {c : Char} {r : List Char} (h : percentMods s = .ok (m, c, r)) : ∃ pre, pre ≠ [] ∧ s = pre ++ r := by
  unfold percentMods at h
  dsimp only at h
  obtain ⟨p1, e1⟩ := dropWhile_pre isFlag s
  obtain ⟨p2, e2⟩ := dropWhile_pre Char.isDigit (s.dropWhile isFlag)
  have d3 : ∀ x p y, percentPrec x = .ok (p, y) → ∃ pre, x = pre ++ y := by
    intro x p y hx
    unfold percentPrec at hx
    split at hx
    · rename_i hh
      split at hx
      · cases hx
      · cases hx
        cases x with
        | nil => simp at hh
        | cons d x =>
          obtain ⟨p3, e3⟩ := dropWhile_pre Char.isDigit x
          exact ⟨d :: p3, by rw [List.tail_cons, List.cons_append, ← e3]⟩
    · cases hx; exact ⟨[], rfl⟩
  have d4 : ∀ x, ∃ pre, x = pre ++ skipLength x := by
    intro x
    unfold skipLength
    split
    · cases x with
      | nil => exact ⟨[], rfl⟩
      | cons d x => exact ⟨[d], rfl⟩
    · exact ⟨[], rfl⟩
  split at h
  · cases h
  · split at h
    · cases h
    · rename_i prec y hp
      split at h
      · cases h
      · rename_i c' y' hy
        cases h
        obtain ⟨p3, e3⟩ := d3 _ _ _ hp
        obtain ⟨p4, e4⟩ := d4 y
        rw [hy] at e4
        refine ⟨p1 ++ (p2 ++ (p3 ++ (p4 ++ [c]))), by simp, ?_⟩
        rw [e1, e2, e3, e4]
        simp

theorem percentLoop_mono (ops : PercentOps) (s : List Char) : ∀ (fuel : Nat) (arg : PercentArg), s.length < fuel → percentLoop ops fuel arg s = percentLoop ops (s.length + 1) arg s := by
  have key : ∀ n (s : List Char) (f1 f2 : Nat) (arg : PercentArg), s.length ≤ n → s.length < f1 → s.length < f2 → percentLoop ops f1 arg s = percentLoop ops f2 arg s := by
    intro n
    induction n with
    | zero =>
      intro s f1 f2 arg h h1 h2
      obtain rfl := List.length_eq_zero_iff.1 (Nat.le_zero.1 h)
      obtain ⟨f1, rfl⟩ : ∃ k, f1 = k + 1 := ⟨f1 - 1, by simp at h1; omega⟩
      obtain ⟨f2, rfl⟩ : ∃ k, f2 = k + 1 := ⟨f2 - 1, by simp at h2; omega⟩
      rfl
    | succ n ih =>
      intro s f1 f2 arg h h1 h2
      obtain ⟨f1, rfl⟩ : ∃ k, f1 = k + 1 := ⟨f1 - 1, by omega⟩
      obtain ⟨f2, rfl⟩ : ∃ k, f2 = k + 1 := ⟨f2 - 1, by omega⟩
      cases s with
      | nil => rfl
      | cons c rest =>
        rw [List.length_cons] at h h1 h2
        conv => lhs; unfold percentLoop
        conv => rhs; unfold percentLoop
        split
        · rw [ih rest f1 f2 arg (by omega) (by omega) (by omega)]
        · dsimp only
          have hkey : ∀ depth acc s k r, percentKey depth acc s = .ok (k, r) → r.length ≤ s.length := by
            intro depth acc s k r h
            obtain ⟨pre, rfl⟩ := percentKey_suffix h
            simp
          have hmods : ∀ s m c r, percentMods s = .ok (m, c, r) → r.length < s.length := by
            intro s m c r h
            obtain ⟨pre, hne, rfl⟩ := percentMods_suffix h
            have := List.length_pos_iff.2 hne
            rw [List.length_append]
            omega
          have hbody : ∀ (arg : PercentArg) (r : List Char), r.length ≤ rest.length → ∀ k,
              (match percentMods r with
              | .error e => .error e
              | .ok (mods, conv, rest) =>
                if conv = '%' then
                  match percentLoop ops f1 arg rest with
                  | .error e => .error e
                  | .ok out => .ok ('%' :: out)
                else
                  match ops.format arg mods conv with
                  | .error e => .error e
                  | .ok text =>
                    match percentLoop ops f1 .used rest with
                    | .error e => .error e
                    | .ok out => .ok (text ++ out) : Except Err (List Char)) = k →
              (match percentMods r with
              | .error e => .error e
              | .ok (mods, conv, rest) =>
                if conv = '%' then
                  match percentLoop ops f2 arg rest with
                  | .error e => .error e
                  | .ok out => .ok ('%' :: out)
                else
                  match ops.format arg mods conv with
                  | .error e => .error e
                  | .ok text =>
                    match percentLoop ops f2 .used rest with
                    | .error e => .error e
                    | .ok out => .ok (text ++ out) : Except Err (List Char)) = k := by
            intro arg r hr k hk
            rw [← hk]
            cases hm : percentMods r with
            | error e => rfl
            | ok x =>
              obtain ⟨m, cv, r'⟩ := x
              have := hmods r m cv r' hm
              dsimp only
              rw [ih r' f1 f2 arg (by omega) (by omega) (by omega), ih r' f1 f2 .used (by omega) (by omega) (by omega)]
          split
          · rfl
          · rename_i arg' r' hk
            refine (hbody arg' r' ?_ _ rfl).symm
            split at hk
            · split at hk
              · cases hk
              · rename_i key r'' hkk
                split at hk
                · cases hk
                  have := hkey _ _ _ _ _ hkk
                  simp at this
                  omega
                · cases hk
            · cases hk; exact le_refl _
  intro fuel arg h
  exact key s.length s _ _ arg (le_refl _) h (by omega)

/-- Only the fields of the first style are replaced. -/
def fillPercent (p : List Char → Char → List Char) : NamePiece → List Char
  | .percent mods conv => p mods conv
  | piece => piece.show

/-- Only the fields of the second style are replaced. -/
def fillBrace (b : List Char → List Char) : NamePiece → List Char
  | .brace spec => b spec
  | piece => piece.show

theorem modifier_plain {mods : List Char} (hm : IsModifier mods) : PlainText mods := by
  obtain ⟨flags, width, prec, rfl, hf, hw, -, hp⟩ := hm
  have hdig : ∀ c : Char, c.isDigit = true → c ≠ '%' ∧ c ≠ '{' ∧ c ≠ '}' := fun c h => ⟨by rintro rfl; revert h; decide, by rintro rfl; revert h; decide, by rintro rfl; revert h; decide⟩
  intro c hc
  rcases List.mem_append.1 hc with hc | hc
  · rcases List.mem_append.1 hc with hc | hc
    · have h := hf c hc
      refine ⟨?_, ?_, ?_⟩ <;> rintro rfl <;> revert h <;> decide
    · exact hdig c (hw c hc)
  · rcases hp with rfl | ⟨digits, rfl, hd⟩
    · cases hc
    · rcases List.mem_cons.1 hc with rfl | hc
      · decide
      · exact hdig c (hd c hc)

theorem brace_no_percent {spec : List Char} (hs : PlainText spec) : '%' ∉ (NamePiece.brace spec).show := by
  dsimp only [NamePiece.show, showField]
  have h : '%' ∉ spec := fun h => (hs _ h).1 rfl
  have e : '%' ∉ "file_nr".toList := by decide
  split <;> simp only [List.mem_append, not_or, List.mem_cons, List.not_mem_nil, not_false_eq_true, and_true]
  · exact ⟨⟨by decide, e⟩, by decide⟩
  · exact ⟨⟨⟨by decide, e⟩, by decide, h⟩, by decide⟩

theorem percent_no_brace {mods : List Char} {conv : Char} (hp : (NamePiece.percent mods conv).Plain) : NoBraces (NamePiece.percent mods conv).show := by
  obtain ⟨hm, hc, -⟩ := hp
  obtain ⟨-, -, -, -, -, h1, h2, -⟩ := alpha_other hc
  intro c hcm
  unfold NamePiece.show at hcm
  rcases List.mem_append.1 hcm with hcm | hcm
  · rcases List.mem_append.1 hcm with hcm | hcm
    · have : ∀ c ∈ "%(file_nr)".toList, c ≠ '{' ∧ c ≠ '}' := by decide
      exact this c hcm
    · exact (modifier_plain hm c hcm).2
  · rw [List.mem_singleton] at hcm
    subst hcm
    exact ⟨h1, h2⟩

theorem percentFormat_template (ops : PercentOps) {t : List NamePiece} (ht : ∀ x ∈ t, x.Plain) {p : List Char → Char → List Char} (hp : ∀ mods conv, NamePiece.percent mods conv ∈ t → ops.number mods conv = .ok (p mods conv)) :
    percentFormat ops (showName t) = .ok (t.flatMap (fillPercent p)) := by
  have key : ∀ (t : List NamePiece) (arg : PercentArg), (∀ x ∈ t, x.Plain) → (∀ mods conv, NamePiece.percent mods conv ∈ t → ops.number mods conv = .ok (p mods conv)) →
      percentLoop ops ((showName t).length + 1) arg (showName t) = .ok (t.flatMap (fillPercent p)) := by
    intro t
    induction t with
    | nil => intro arg _ _; rfl
    | cons x t ih =>
      intro arg hpl hpp
      have hi := fun arg => ih arg (fun y hy => hpl y (List.mem_cons_of_mem _ hy)) (fun m c h => hpp m c (List.mem_cons_of_mem _ h))
      have hs : showName (x :: t) = x.show ++ showName t := by simp [showName]
      have htext : ∀ s : List Char, '%' ∉ s → percentLoop ops ((s ++ showName t).length + 1) arg (s ++ showName t) = .ok (s ++ t.flatMap (fillPercent p)) := by
        intro s h
        have : (s ++ showName t).length + 1 = ((showName t).length + 1) + s.length := by rw [List.length_append]; omega
        rw [this, percentLoop_text ops h, hi arg]
        rfl
      rw [hs, List.flatMap_cons]
      cases x with
      | text s => exact htext s (fun h => (hpl _ List.mem_cons_self _ h).1 rfl)
      | brace spec => exact htext _ (brace_no_percent (hpl _ List.mem_cons_self))
      | percent mods conv =>
        have hpl' : (NamePiece.percent mods conv).Plain := hpl (.percent mods conv) List.mem_cons_self
        unfold NamePiece.Plain at hpl'
        obtain ⟨hm, hc, hl⟩ := hpl'
        have hn : ops.number mods conv = .ok (p mods conv) := hpp mods conv List.mem_cons_self
        have h1 := percentLoop_percent ops hm hc hl (showName t) (((NamePiece.percent mods conv).show ++ showName t).length) arg hn
        have hlen : (showName t).length < ((NamePiece.percent mods conv).show ++ showName t).length := by
          rw [List.length_append]
          have hpos : 0 < (NamePiece.percent mods conv).show.length := by
            unfold NamePiece.show
            exact List.length_pos_of_mem (List.mem_append_right _ List.mem_cons_self)
          exact Nat.lt_add_of_pos_left hpos
        have h2 := percentLoop_mono ops (showName t) _ .used hlen
        rw [h2, hi .used] at h1
        rw [h1]
        rfl
  exact key t .dict ht hp

/-- The template for the second style -/
def NamePiece.seg : NamePiece → Seg
  | .text t => .text t
  | .percent mods conv => .text (NamePiece.percent mods conv).show
  | .brace spec => .field "file_nr".toList spec

theorem strFormat_template {V : Type*} (ops : FormatOps V) (file_nr : V) {t : List NamePiece} (ht : ∀ x ∈ t, x.Plain) {b : List Char → List Char} (hb : ∀ spec, NamePiece.brace spec ∈ t → ops.format file_nr spec = .ok (b spec)) :
    strFormat ops file_nr (showName t) = .ok (t.flatMap (fillBrace b)) := by
  have hname : PlainName "file_nr".toList := ⟨by decide, 'f', by decide, by decide⟩
  have hshow : showName t = showTemplate (t.map NamePiece.seg) := by
    unfold showName showTemplate
    rw [List.flatMap_map]
    congr 1
    funext x
    cases x <;> rfl
  have hplain : ∀ s ∈ t.map NamePiece.seg, s.Plain := by
    intro s hs
    obtain ⟨x, hx, rfl⟩ := List.mem_map.1 hs
    have := ht x hx
    cases x with
    | text s => exact fun c hc => (this c hc).2
    | percent mods conv => exact percent_no_brace this
    | brace spec => exact ⟨hname, fun c hc => (this c hc).2⟩
  have h1 := partialFormat_plain ops false (fun key => if key = "file_nr".toList then some (some file_nr) else none) hplain
  unfold strFormat
  unfold partialFormat at h1
  rw [hshow, h1]
  clear h1 hplain hshow
  induction t with
  | nil => rfl
  | cons x t ih =>
    rw [List.map_cons, fillM, ih (fun y hy => ht y (List.mem_cons_of_mem _ hy)) (fun s h => hb s (List.mem_cons_of_mem _ h)), List.flatMap_cons]
    cases x with
    | text s => rfl
    | percent mods conv => rfl
    | brace spec =>
      have hv : getValue false (fun key => if key = "file_nr".toList then some (some file_nr) else none) "file_nr".toList = .ok (.value file_nr) := by
        unfold getValue
        rw [hname.not_digits]
        simp
      unfold NamePiece.seg fillSegM
      dsimp only
      rw [hv]
      dsimp only [formatField]
      rw [hb spec List.mem_cons_self]
      rfl

/-! ### Percent signs in names -/

/-- What happens at a percent sign: some text, followed by the result for the rest -/
theorem percentLoop_sign (ops : PercentOps) {fuel : Nat} {arg : PercentArg} {rest out : List Char} (h : percentLoop ops (fuel + 1) arg ('%' :: rest) = .ok out) :
    ∃ arg' pre rest' text out', pre ≠ [] ∧ rest = pre ++ rest' ∧ percentLoop ops fuel arg' rest' = .ok out' ∧ out = text ++ out' ∧ (text = ['%'] ∨ ∃ a m c, ops.format a m c = .ok text) := by
  conv at h => lhs; unfold percentLoop
  rw [if_neg (by simp)] at h
  dsimp only at h
  split at h
  · cases h
  · rename_i arg1 r1 hk
    have hpre : ∃ pre, rest = pre ++ r1 := by
      split at hk
      · split at hk
        · cases hk
        · rename_i hkk
          split at hk
          · cases hk
            obtain ⟨pre, hp⟩ := percentKey_suffix hkk
            cases rest with
            | nil => exact ⟨pre, hp⟩
            | cons d rest => exact ⟨d :: pre, by rw [List.tail_cons] at hp; rw [hp]; rfl⟩
          · cases hk
      · cases hk; exact ⟨[], rfl⟩
    obtain ⟨pre, hpre⟩ := hpre
    split at h
    · cases h
    · rename_i mods conv r2 hm
      obtain ⟨pre2, hne, hpre2⟩ := percentMods_suffix hm
      split at h
      · split at h
        · cases h
        · rename_i o ho
          cases h
          exact ⟨_, pre ++ pre2, r2, ['%'], o, by simp [hne], by rw [hpre, hpre2, List.append_assoc], ho, rfl, Or.inl rfl⟩
      · split at h
        · cases h
        · rename_i text htext
          split at h
          · cases h
          · rename_i o ho
            cases h
            exact ⟨_, pre ++ pre2, r2, text, o, by simp [hne], by rw [hpre, hpre2, List.append_assoc], ho, rfl, Or.inr ⟨_, _, _, htext⟩⟩

/-- The result is never some text followed by what has been formatted. -/
theorem percentLoop_longer (ops : PercentOps) (hops : ∀ arg mods conv out, ops.format arg mods conv = .ok out → '%' ∉ out) (n : Nat) :
    ∀ (s u : List Char) (fuel : Nat) (arg : PercentArg), s.length ≤ n → s.length < fuel → u ≠ [] → percentLoop ops fuel arg s ≠ .ok (u ++ s) := by
  induction n with
  | zero =>
    intro s u fuel arg h hf hu
    obtain rfl := List.length_eq_zero_iff.1 (Nat.le_zero.1 h)
    obtain ⟨fuel, rfl⟩ : ∃ k, fuel = k + 1 := ⟨fuel - 1, by simp at hf; omega⟩
    rw [percentLoop, List.append_nil]
    intro h
    exact hu (Except.ok.inj h).symm
  | succ n ih =>
    intro s u fuel arg h hf hu hk
    obtain ⟨fuel, rfl⟩ : ∃ k, fuel = k + 1 := ⟨fuel - 1, by omega⟩
    cases s with
    | nil =>
      rw [percentLoop, List.append_nil] at hk
      exact hu (Except.ok.inj hk).symm
    | cons c rest =>
      rw [List.length_cons] at h hf
      by_cases hc : c = '%'
      · subst hc
        obtain ⟨arg', pre, rest', text, out', hne, rfl, h1, h2, h3⟩ := percentLoop_sign ops hk
        rw [List.length_append] at h hf
        have hpos := List.length_pos_iff.2 hne
        have h4 : text ++ out' = u ++ ('%' :: pre ++ rest') := h2.symm
        rcases List.append_eq_append_iff.1 h4 with ⟨w, rfl, hw⟩ | ⟨w, rfl, hw⟩
        · -- u = text ++ w
          exact ih rest' (w ++ '%' :: pre) fuel arg' (by omega) (by omega) (by simp) (by rw [h1, hw]; simp)
        · -- text = u ++ w
          cases w with
          | nil => exact ih rest' ('%' :: pre) fuel arg' (by omega) (by omega) (by simp) (by rw [h1]; simpa using hw.symm)
          | cons d w =>
            rw [List.cons_append, List.cons_append, List.cons.injEq] at hw
            obtain ⟨rfl, hw⟩ := hw
            rcases h3 with h3 | ⟨a, m, cv, h3⟩
            · cases u with
              | nil => exact hu rfl
              | cons x u => simp at h3
            · exact hops _ _ _ _ h3 (by simp)
      · rw [percentLoop, if_pos hc] at hk
        cases hr : percentLoop ops fuel arg rest with
        | error e => rw [hr] at hk; cases hk
        | ok o =>
          rw [hr] at hk
          cases u with
          | nil => exact hu rfl
          | cons d u =>
            rw [Except.ok.injEq, List.cons_append, List.cons.injEq] at hk
            obtain ⟨rfl, rfl⟩ := hk
            exact ih rest (u ++ [c]) fuel arg (by omega) (by omega) (by simp) (by rw [hr]; simp)

/-- A string with a percent sign is changed. -/
theorem percentFormat_changes (ops : PercentOps) (hops : ∀ arg mods conv out, ops.format arg mods conv = .ok out → '%' ∉ out) {s : List Char} (hs : '%' ∈ s) : percentFormat ops s ≠ .ok s := by
  have key : ∀ (s : List Char) (fuel : Nat) (arg : PercentArg), '%' ∈ s → s.length < fuel → percentLoop ops fuel arg s ≠ .ok s := by
    intro s
    induction s with
    | nil => intro fuel arg h; cases h
    | cons c rest ih =>
      intro fuel arg h hf hk
      rw [List.length_cons] at hf
      obtain ⟨fuel, rfl⟩ : ∃ k, fuel = k + 1 := ⟨fuel - 1, by omega⟩
      by_cases hc : c = '%'
      · subst hc
        obtain ⟨arg', pre, rest', text, out', hne, rfl, h1, h2, h3⟩ := percentLoop_sign ops hk
        rw [List.length_append] at hf
        cases text with
        | nil => exact percentLoop_longer ops hops _ rest' ('%' :: pre) fuel arg' (le_refl _) (by omega) (by simp) (by rw [h1, List.cons_append]; rw [h2]; rfl)
        | cons d w =>
          rw [List.cons_append, List.cons.injEq] at h2
          obtain ⟨rfl, h2⟩ := h2
          rcases h3 with h3 | ⟨a, m, cv, h3⟩
          · simp only [List.cons.injEq, true_and] at h3
            subst h3
            exact percentLoop_longer ops hops _ rest' pre fuel arg' (le_refl _) (by omega) hne (by rw [h1, h2]; rfl)
          · exact hops _ _ _ _ h3 (by simp)
      · rw [percentLoop, if_pos hc] at hk
        cases hr : percentLoop ops fuel arg rest with
        | error e => rw [hr] at hk; cases hk
        | ok o =>
          rw [hr, Except.ok.injEq, List.cons.injEq] at hk
          obtain ⟨-, rfl⟩ := hk
          exact ih fuel arg (by rcases List.mem_cons.1 h with h | h; exacts [absurd h.symm hc, h]) (by omega) hr
  exact key s _ _ hs (by omega)

end Verif
