import Verif.Model.WrappedText
import Verif.Spec.WrappedText
import Verif.Proofs.FortranReaders

namespace Verif.WrappedText

open FortranReaders

/-! ### Words -/

theorem words_ne_nil {c : Char} (hc : c ≠ ' ') (s : Name) : words (c :: s) ≠ [] := by
  unfold words
  rw [if_neg hc]
  split
  · simp
  · split <;> simp

theorem words_blank (s : Name) : words (' ' :: s) = words s := by
  unfold words
  rw [if_pos rfl]
  cases s <;> rfl

theorem words_cons {c : Char} (hc : c ≠ ' ') (s : Name) : words (c :: s) = if s.head? = none ∨ s.head? = some ' ' then [c] :: words s else match words s with
    | [] => [[c]]
    | w :: ws => (c :: w) :: ws := by
  rw [words, if_neg hc]
  rfl

theorem words_append (a b : Name) : words (a ++ ' ' :: b) = words a ++ words b := by
  induction a with
  | nil => rw [List.nil_append, words_blank]; rfl
  | cons c a ih =>
    by_cases hc : c = ' '
    · rw [hc, List.cons_append, words_blank, words_blank, ih]
    · rw [List.cons_append, words_cons hc, words_cons hc, ih]
      cases a with
      | nil =>
        rw [if_pos (by simp), if_pos (by simp)]
        rfl
      | cons d a =>
        by_cases hd : d = ' '
        · rw [if_pos (by simp [hd]), if_pos (by simp [hd]), List.cons_append]
        · rw [if_neg (by simp [hd]), if_neg (by simp [hd])]
          cases hw : words (d :: a) with
          | nil => exact absurd hw (words_ne_nil hd a)
          | cons w ws => rfl

theorem words_append_blanks (a : Name) (k : Nat) : words (a ++ List.replicate k ' ') = words a := by
  induction k with
  | zero => rw [List.replicate_zero, List.append_nil]
  | succ k ih =>
    rw [List.replicate_succ, words_append]
    have h0 : words (List.replicate k ' ') = [] := by
      clear ih
      induction k with
      | zero => rfl
      | succ k ih => rw [List.replicate_succ, words_blank, ih]
    rw [h0, List.append_nil]

theorem words_blanks_append (k : Nat) (a : Name) : words (List.replicate k ' ' ++ a) = words a := by
  induction k with
  | zero => rfl
  | succ k ih => rw [List.replicate_succ, List.cons_append, words_blank, ih]

/-- A part without blanks is part of a word. -/
theorem word_long {a u b : Name} (hu : ' ' ∉ u) (h0 : u ≠ []) : ∃ w ∈ words (a ++ (u ++ b)), u.length ≤ w.length := by
  induction a with
  | nil =>
    rw [List.nil_append]
    have : ∃ w ws, words (u ++ b) = w :: ws ∧ u.length ≤ w.length := by
      induction u with
      | nil => exact absurd rfl h0
      | cons c u ih =>
        have hc : c ≠ ' ' := fun h => hu (by simp [h])
        rw [List.cons_append, words_cons hc]
        cases u with
        | nil =>
          split
          · exact ⟨_, _, rfl, by simp⟩
          · split
            · exact ⟨_, _, rfl, by simp⟩
            · exact ⟨_, _, rfl, by simp⟩
        | cons d u =>
          have hd : d ≠ ' ' := fun h => hu (by simp [h])
          obtain ⟨w, ws, h1, h2⟩ := ih (fun h => hu (List.mem_cons_of_mem _ h)) (by simp)
          rw [if_neg (by simp [hd]), h1]
          exact ⟨_, _, rfl, by simpa using h2⟩
    obtain ⟨w, ws, h1, h2⟩ := this
    exact ⟨w, by rw [h1]; simp, h2⟩
  | cons c a ih =>
    obtain ⟨w, h1, h2⟩ := ih
    rw [List.cons_append]
    by_cases hc : c = ' '
    · rw [hc, words_blank]
      exact ⟨w, h1, h2⟩
    rw [words_cons hc]
    split
    · exact ⟨w, List.mem_cons_of_mem _ h1, h2⟩
    · cases hs : words (a ++ (u ++ b)) with
      | nil => rw [hs] at h1; simp at h1
      | cons w0 ws =>
        rw [hs] at h1
        rcases List.mem_cons.1 h1 with rfl | h1
        · exact ⟨_, List.mem_cons_self, by simp; omega⟩
        · exact ⟨w, List.mem_cons_of_mem _ h1, h2⟩

/-! ### Blanks at both ends -/

theorem trim_parts (s : Name) : ∃ k, s = trimBlanks s ++ List.replicate k ' ' := by
  unfold trimBlanks
  have h := List.takeWhile_append_dropWhile (p := fun c => c == ' ') (l := s.reverse)
  have h2 : s = ((s.reverse.dropWhile (fun c => c == ' ')).reverse) ++ (s.reverse.takeWhile (fun c => c == ' ')).reverse := by
    rw [← List.reverse_append, h, List.reverse_reverse]
  refine ⟨(s.reverse.takeWhile (fun c => c == ' ')).length, ?_⟩
  conv_lhs => rw [h2]
  congr 1
  rw [List.eq_replicate_iff]
  refine ⟨by simp, fun c hc => ?_⟩
  have := List.mem_takeWhile_imp (List.mem_reverse.1 hc)
  simpa using this

theorem trim_noBlank (s : Name) : NoBlank (trimBlanks s) := by
  unfold NoBlank trimBlanks
  rw [List.getLast?_reverse]
  intro h
  have := List.head?_dropWhile_not (fun c => c == ' ') s.reverse
  rw [h] at this
  simp at this

theorem adjust_parts (s : Name) : ∃ k l, s = List.replicate k ' ' ++ trimAdjust s ++ List.replicate l ' ' := by
  unfold trimAdjust
  obtain ⟨l, hl⟩ := trim_parts (s.dropWhile (· == ' '))
  refine ⟨(s.takeWhile (· == ' ')).length, l, ?_⟩
  rw [List.append_assoc, ← hl]
  conv_lhs => rw [← List.takeWhile_append_dropWhile (p := (· == ' ')) (l := s)]
  congr 1
  rw [List.eq_replicate_iff]
  refine ⟨rfl, fun c hc => ?_⟩
  have := List.mem_takeWhile_imp hc
  simpa using this

theorem words_adjust (s : Name) : words (trimAdjust s) = words s := by
  obtain ⟨k, l, h⟩ := adjust_parts s
  conv_rhs => rw [h]
  rw [words_append_blanks, words_blanks_append]

theorem letters_append (a b : Name) : letters (a ++ b) = letters a ++ letters b := List.filter_append ..

theorem letters_blanks (k : Nat) : letters (List.replicate k ' ') = [] := by
  unfold letters
  rw [List.filter_replicate]
  simp

theorem letters_adjust (s : Name) : letters (trimAdjust s) = letters s := by
  obtain ⟨k, l, h⟩ := adjust_parts s
  conv_rhs => rw [h]
  rw [letters_append, letters_append, letters_blanks, letters_blanks, List.nil_append, List.append_nil]

theorem length_adjust (s : Name) : (trimAdjust s).length ≤ s.length := by
  obtain ⟨k, l, h⟩ := adjust_parts s
  conv_rhs => rw [h]
  simp only [List.length_append, List.length_replicate]
  omega

theorem length_adjust_lt (s : Name) : (trimAdjust (s ++ [' '])).length ≤ s.length := by
  obtain ⟨k, l, h⟩ := adjust_parts (s ++ [' '])
  have hn : NoBlank (trimAdjust (s ++ [' '])) := trim_noBlank _
  have hl := congrArg List.length h
  simp only [List.length_append, List.length_replicate, List.length_singleton] at hl
  rcases Nat.eq_zero_or_pos (k + l) with h0 | h0
  · exfalso
    have hk : k = 0 := by omega
    have hl0 : l = 0 := by omega
    rw [hk, hl0, List.replicate_zero, List.nil_append, List.append_nil] at h
    apply hn
    rw [← h]; simp
  · omega

/-! ### The last blank -/

theorem scan_none {s : Name} (h : ' ' ∉ s) : scanBack s = 0 := by
  unfold scanBack
  rw [List.findIdx_eq_length_of_false, List.length_reverse, Nat.sub_self]
  intro c hc
  have : c ≠ ' ' := fun he => h (by rw [← he]; exact List.mem_reverse.1 hc)
  simpa using this

theorem scan_some {s : Name} (h : ' ' ∈ s) : ∃ a b, s = a ++ ' ' :: b ∧ ' ' ∉ b ∧ scanBack s = a.length + 1 := by
  obtain ⟨p, q, hpq, hnot⟩ := List.eq_append_cons_of_mem (List.mem_reverse.2 h)
  refine ⟨q.reverse, p.reverse, ?_, by simpa using hnot, ?_⟩
  · have := congrArg List.reverse hpq
    rw [List.reverse_reverse] at this
    rw [this]; simp
  · unfold scanBack
    have h1 : s.length = p.length + q.length + 1 := by
      have := congrArg List.length hpq
      simp only [List.length_reverse, List.length_append, List.length_cons] at this
      omega
    have h2 : List.findIdx (fun c => c == ' ') (p ++ ' ' :: q) = p.length := by
      rw [List.findIdx_append, List.findIdx_cons]
      have : List.findIdx (fun c => c == ' ') p = p.length := List.findIdx_eq_length_of_false (fun c hc => by
        have : c ≠ ' ' := fun he => hnot (he ▸ hc)
        simpa using this)
      rw [this, if_neg (by omega)]
      simp
    rw [hpq, h2, h1, List.length_reverse]
    omega

/-! ### One line -/

/-- The characters of the next line: up to the last blank which fits, or else as many as fit -/
theorem chunk_of {rest : Name} {w : Nat} (hw : 2 ≤ w) (hlast : rest.getLast? = some ' ') : ∃ c tail, rest = c ++ tail ∧ 0 < c.length ∧
    (if (scanBack (rest.take w) : Int) < 1 then min ((w : Int) - 1) ((rest.length : Int) - 1) else (scanBack (rest.take w) : Int)) = (c.length : Int) ∧
    ((∃ c', c = c' ++ [' '] ∧ c'.length + 1 ≤ w) ∨ (c.length + 1 = w ∧ ' ' ∉ rest.take w ∧ (rest.take w).length = w)) := by
  by_cases hb : ' ' ∈ rest.take w
  · obtain ⟨a, b, h1, -, h3⟩ := scan_some hb
    refine ⟨a ++ [' '], b ++ rest.drop w, ?_, by simp, ?_, Or.inl ⟨a, rfl, ?_⟩⟩
    · conv_lhs => rw [← List.take_append_drop w rest, h1]
      simp
    · rw [h3, if_neg (by omega)]
      simp
    · have := congrArg List.length h1
      simp only [List.length_take, List.length_append, List.length_cons] at this
      omega
  · have hlen : w < rest.length := by
      by_contra hc
      rw [List.take_of_length_le (by omega)] at hb
      exact hb (List.mem_of_getLast? hlast)
    refine ⟨rest.take (w - 1), rest.drop (w - 1), (List.take_append_drop _ _).symm, by rw [List.length_take]; omega, ?_, Or.inr ⟨?_, hb, ?_⟩⟩
    · rw [scan_none hb, if_pos (by simp), List.length_take]
      omega
    · rw [List.length_take]; omega
    · rw [List.length_take]; omega

theorem line_short {c : Name} {w : Nat} (h : (∃ c', c = c' ++ [' '] ∧ c'.length + 1 ≤ w) ∨ c.length + 1 = w) : (trimAdjust c).length + 1 ≤ w := by
  rcases h with ⟨c', rfl, h⟩ | h
  · have := length_adjust_lt c'
    omega
  · have := length_adjust c
    omega

theorem trim_buf {t : Name} (ht : NoBlank t) (k : Nat) : trimBlanks (t ++ List.replicate k ' ') = t := trim_append ht k

/-- One turn of the loop -/
theorem loop_step {t : Name} {k : Nat} (hk : 0 < k) (ht : NoBlank t) {n : Int} {indent : Option Nat} {p ns ns' : Nat} (hns' : ns' = lineIndent indent ((p : Int) + 1) ns) (hw : 2 ≤ (n - 1 - ns').toNat) (hp : p < t.length)
    (fuel : Nat) : ∃ c tail : Name, (t ++ List.replicate k ' ').drop p = c ++ tail ∧ 0 < c.length ∧
      ((∃ c', c = c' ++ [' '] ∧ c'.length + 1 ≤ (n - 1 - ns').toNat) ∨ (c.length + 1 = (n - 1 - ns').toNat ∧ ' ' ∉ (c ++ tail).take (n - 1 - ns').toNat ∧ ((c ++ tail).take (n - 1 - ns').toNat).length = (n - 1 - ns').toNat)) ∧
      wrapLoop (t ++ List.replicate k ' ') n indent (fuel + 1) ((p : Int) + 1) ns = (do
        let rest ← wrapLoop (t ++ List.replicate k ' ') n indent fuel (((p + c.length : Nat) : Int) + 1) ns'
        .ok ((List.replicate ns' ' ' ++ trimAdjust c) :: rest)) := by
  obtain ⟨buf, hbuf⟩ : ∃ buf, buf = t ++ List.replicate k ' ' := ⟨_, rfl⟩
  have hlen : buf.length = t.length + k := by rw [hbuf]; simp
  have hlast : (buf.drop p).getLast? = some ' ' := by
    rw [hbuf, List.drop_append_of_le_length (by omega), List.getLast?_append_of_ne_nil _ (by simp; omega), List.getLast?_replicate, if_neg (by omega)]
  obtain ⟨c, tail, e1, e2, e3, e4⟩ := chunk_of hw hlast
  rw [← hbuf]
  refine ⟨c, tail, e1, e2, ?_, ?_⟩
  · rcases e4 with e4 | e4
    · exact Or.inl e4
    · rw [← e1]; exact Or.inr e4
  · clear e4
    rw [wrapLoop]
    have ht2 : trimBlanks buf = t := by rw [hbuf]; exact trim_buf ht k
    rw [ht2, if_pos (by omega)]
    dsimp only
    rw [← hns']
    have hj : substring buf ((p : Int) + 1) (min ((p : Int) + 1 + n - 2 - (ns' : Int)) (buf.length : Int)) = (buf.drop p).take (n - 1 - ns').toNat := by
      unfold substring
      rw [if_neg (by omega), show ((p : Int) + 1 - 1).toNat = p by omega]
      rcases Nat.le_total (n - 1 - ns').toNat (buf.drop p).length with hc | hc
      · rw [List.length_drop] at hc
        congr 1
        omega
      · rw [List.take_of_length_le hc, List.take_of_length_le]
        rw [List.length_drop] at hc ⊢
        omega
    rw [hj]
    have hm : (if (scanBack ((buf.drop p).take (n - 1 - ns').toNat) : Int) < 1 then min (n - 2 - (ns' : Int)) ((buf.length : Int) - ((p : Int) + 1)) else (scanBack ((buf.drop p).take (n - 1 - ns').toNat) : Int)) = (c.length : Int) := by
      rw [← e3, List.length_drop]
      congr 2 <;> omega
    rw [hm]
    have hs : substring buf ((p : Int) + 1) ((p : Int) + 1 + (c.length : Int) - 1) = c := by
      unfold substring
      rw [if_neg (by omega), show ((p : Int) + 1 - 1).toNat = p by omega, show ((p : Int) + 1 + (c.length : Int) - 1 - ((p : Int) + 1) + 1).toNat = c.length by omega, e1]
      exact List.take_left
    rw [hs, show (p : Int) + 1 + (c.length : Int) = ((p + c.length : Nat) : Int) + 1 by push_cast; omega]

theorem loop_end {t : Name} {k : Nat} (ht : NoBlank t) {n : Int} {indent : Option Nat} {i : Int} (hi : (t.length : Int) < i) (ns fuel : Nat) : wrapLoop (t ++ List.replicate k ' ') n indent (fuel + 1) i ns = .ok [] := by
  rw [wrapLoop, trim_buf ht, if_neg (by omega)]

theorem drop_end {t : Name} {k p : Nat} (hp : t.length ≤ p) : ∃ m, (t ++ List.replicate k ' ').drop p = List.replicate m ' ' :=
  ⟨k - (p - t.length), by rw [List.drop_append, List.drop_eq_nil_of_le hp, List.nil_append, List.drop_replicate]⟩

theorem loop_ok {t : Name} {k : Nat} (hk : 0 < k) (ht : NoBlank t) {n : Int} {indent : Option Nat} (hn : (indent.getD 0 : Int) + 3 ≤ n) (fuel : Nat) : ∀ (p ns : Nat), t.length < fuel + p → 0 < fuel → (ns = 0 ∨ indent = some ns) →
    ∃ lines, wrapLoop (t ++ List.replicate k ' ') n indent fuel ((p : Int) + 1) ns = .ok lines ∧ (∀ l ∈ lines, (l.length : Int) ≤ n - 2) ∧ lines.flatMap letters = letters ((t ++ List.replicate k ' ').drop p) ∧
      ((∀ w ∈ words ((t ++ List.replicate k ' ').drop p), (w.length : Int) ≤ n - 2 - (indent.getD 0 : Int)) → lines.flatMap words = words ((t ++ List.replicate k ' ').drop p)) ∧
      ∀ l ∈ (if p = 0 then lines.tail else lines), List.replicate (indent.getD 0) ' ' <+: l := by
  induction fuel with
  | zero => intro p ns _ h; omega
  | succ fuel ih =>
    intro p ns hf _ hns
    rcases Nat.lt_or_ge p t.length with hp | hp
    · obtain ⟨ns', hns'⟩ : ∃ ns' : Nat, ns' = lineIndent indent ((p : Int) + 1) ns := ⟨_, rfl⟩
      have h1 : ns' = 0 ∨ indent = some ns' := by
        rw [hns']
        unfold lineIndent
        cases indent with
        | none => simpa using hns
        | some d =>
          dsimp only
          split
          · exact Or.inr rfl
          · exact hns
      have h2 : 0 < p → ns' = indent.getD 0 := by
        intro h0
        rw [hns']
        unfold lineIndent
        cases indent with
        | none => simpa using hns
        | some d =>
          dsimp only
          rw [if_pos (by omega)]
          rfl
      have hw : 2 ≤ (n - 1 - ns').toNat := by
        rcases h1 with h1 | h1
        · rw [h1]; omega
        · rw [h1] at hn; simp only [Option.getD_some] at hn; omega
      obtain ⟨c, tail, h3, h4, h5, h6⟩ := loop_step hk ht hns' hw hp fuel
      obtain ⟨lines, g1, g2, g3, g4, g5⟩ := ih (p + c.length) ns' (by omega) (by omega) h1
      have htail : (t ++ List.replicate k ' ').drop (p + c.length) = tail := by
        rw [← List.drop_drop, h3, List.drop_left]
      rw [htail] at g3 g4
      rw [if_neg (by omega)] at g5
      have hle : ns' ≤ indent.getD 0 := by
        rcases h1 with h1 | h1
        · omega
        · rw [h1]; exact le_refl _
      refine ⟨(List.replicate ns' ' ' ++ trimAdjust c) :: lines, ?_, ?_, ?_, ?_, ?_⟩
      · rw [h6, g1]; rfl
      · intro l hl
        rcases List.mem_cons.1 hl with rfl | hl
        · have := line_short (c := c) (w := (n - 1 - ns').toNat) (by
            rcases h5 with h5 | h5
            · exact Or.inl h5
            · exact Or.inr h5.1)
          rw [List.length_append, List.length_replicate]
          push_cast
          omega
        · exact g2 l hl
      · rw [List.flatMap_cons, g3, h3, letters_append, letters_append, letters_blanks, List.nil_append, letters_adjust]
      · intro hw
        rw [h3] at hw
        have hcut : ∃ c', c = c' ++ [' '] := by
          rcases h5 with ⟨c', h5, -⟩ | ⟨-, h7, h8⟩
          · exact ⟨c', h5⟩
          · exfalso
            have hne : (c ++ tail).take (n - 1 - ns').toNat ≠ [] := by
              intro he
              rw [he] at h8
              simp only [List.length_nil] at h8
              omega
            obtain ⟨w, w1, w2⟩ := word_long (a := []) (b := (c ++ tail).drop (n - 1 - ns').toNat) h7 hne
            rw [List.nil_append, List.take_append_drop] at w1
            have := hw w w1
            rw [h8] at w2
            omega
        obtain ⟨c', rfl⟩ := hcut
        have hsplit : words (c' ++ [' '] ++ tail) = words c' ++ words tail := by
          rw [List.append_assoc, List.singleton_append, words_append]
        have hc : words (c' ++ [' ']) = words c' := words_append_blanks c' 1
        rw [hsplit] at hw
        rw [List.flatMap_cons, g4 (fun w hw' => hw w (List.mem_append_right _ hw')), h3, hsplit, words_blanks_append, words_adjust, hc]
      · intro l hl
        by_cases hp0 : p = 0
        · rw [if_pos hp0, List.tail_cons] at hl
          exact g5 l hl
        · rw [if_neg hp0] at hl
          rcases List.mem_cons.1 hl with rfl | hl
          · rw [h2 (by omega)]
            exact List.prefix_append _ _
          · exact g5 l hl
    · obtain ⟨m, hm⟩ := drop_end (t := t) (k := k) hp
      refine ⟨[], loop_end ht (by omega) ns fuel, by simp, ?_, ?_, by simp⟩
      · rw [hm, letters_blanks]; rfl
      · intro _
        rw [hm]
        have := words_append_blanks [] m
        rw [List.nil_append] at this
        rw [this]; rfl

end Verif.WrappedText
