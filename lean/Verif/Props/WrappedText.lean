import Verif.Proofs.WrappedText

/-! C113: error messages of the Fortran wrapper -/

namespace Verif.WrappedText

open FortranReaders

theorem adjust_noBlank (s : Name) : NoBlank (trimAdjust s) := trim_noBlank _

theorem buf_eq (str : Name) : ∃ k, 0 < k ∧ assignChar ((trimBlanks str).length + 1) (trimAdjust str) = trimAdjust str ++ List.replicate k ' ' := by
  have hlen : (trimAdjust str).length ≤ (trimBlanks str).length := by
    obtain ⟨a, b, h⟩ := adjust_parts str
    rcases eq_or_ne (trimAdjust str) [] with h0 | h0
    · rw [h0]; exact Nat.zero_le _
    · have : trimBlanks str = List.replicate a ' ' ++ trimAdjust str := by
        conv_lhs => rw [h]
        refine trim_append ?_ b
        have := adjust_noBlank str
        unfold NoBlank at this ⊢
        rwa [List.getLast?_append_of_ne_nil _ h0]
      rw [this, List.length_append]
      omega
  refine ⟨(trimBlanks str).length + 1 - (trimAdjust str).length, by omega, ?_⟩
  unfold assignChar
  rw [List.take_of_length_le (by omega)]

/-- C113: with room for at least one character beside the indentation the text is written completely, in lines of at most `n - 2` characters; words which fit into a line are not divided, and all lines but
the first one are indented. -/
theorem C113_lines {fuel : Nat} {str : Name} (hf : str.length + 1 < fuel) {n : Int} {indent : Option Nat} (hn : (indent.getD 0 : Int) + 3 ≤ n) :
    ∃ lines, writeWrappedText fuel str n indent = .ok lines ∧ (∀ l ∈ lines, (l.length : Int) ≤ n - 2) ∧ lines.flatMap letters = letters str ∧
      ((∀ w ∈ words str, (w.length : Int) ≤ n - 2 - (indent.getD 0 : Int)) → lines.flatMap words = words str) ∧ ∀ l ∈ lines.tail, List.replicate (indent.getD 0) ' ' <+: l := by
  obtain ⟨k, hk, hb⟩ := buf_eq str
  have hl := length_adjust str
  obtain ⟨lines, h1, h2, h3, h4, h5⟩ := loop_ok hk (adjust_noBlank str) hn fuel 0 0 (by omega) (by omega) (Or.inl rfl)
  rw [List.drop_zero] at h3 h4
  rw [letters_append, letters_blanks, List.append_nil, letters_adjust] at h3
  rw [words_append_blanks, words_adjust] at h4
  refine ⟨lines, ?_, h2, h3, h4, h5⟩
  unfold writeWrappedText
  rw [hb]
  exact h1

theorem scan_last {s : Name} (h : s.getLast? = some ' ') : scanBack s = s.length := by
  unfold scanBack
  have : s.reverse.findIdx (· == ' ') = 0 := by
    rw [List.getLast?_eq_head?_reverse] at h
    cases hr : s.reverse with
    | nil => rw [hr] at h; cases h
    | cons c r =>
      rw [hr] at h
      cases h
      simp [List.findIdx_cons]
  rw [this]; rfl

theorem adjust_head (s : Name) : (trimAdjust s).head? ≠ some ' ' := by
  intro h
  obtain ⟨k, hk⟩ := trim_parts (s.dropWhile (· == ' '))
  have h1 : (s.dropWhile (· == ' ')).head? = some ' ' := by
    rw [hk]
    unfold trimAdjust at h
    rw [List.head?_append, h]; rfl
  have := List.head?_dropWhile_not (· == ' ') s
  rw [h1] at this
  simp at this

theorem adjust_adjusted {t : Name} (h1 : t.head? ≠ some ' ') (h2 : NoBlank t) (m : Nat) : trimAdjust (t ++ List.replicate m ' ') = t := by
  unfold trimAdjust
  cases t with
  | nil =>
    have : (List.replicate m ' ').dropWhile (· == ' ') = [] := by rw [List.dropWhile_eq_nil_iff]; intro c hc; rw [List.eq_of_mem_replicate hc]; rfl
    rw [List.nil_append, this]; rfl
  | cons c t =>
    rw [List.cons_append, List.dropWhile_cons_of_neg (by simpa using h1), ← List.cons_append]
    exact trim_append h2 m

/-- C113: a text which fits is written as one line. -/
theorem C113_one_line {fuel : Nat} (hf : 1 < fuel) {str : Name} (h0 : trimAdjust str ≠ []) {n : Int} (hn : ((trimAdjust str).length : Int) ≤ n - 2) (indent : Option Nat) :
    writeWrappedText fuel str n indent = .ok [trimAdjust str] := by
  obtain ⟨k, hk, hb⟩ := buf_eq str
  obtain ⟨t, ht⟩ : ∃ t, t = trimAdjust str := ⟨_, rfl⟩
  have ht1 := adjust_noBlank str
  have ht2 := adjust_head str
  rw [← ht] at h0 hn hb ht1 ht2 ⊢
  have hpos := List.length_pos_of_ne_nil h0
  obtain ⟨f, rfl⟩ : ∃ f, fuel = f + 1 + 1 := ⟨fuel - 2, by omega⟩
  unfold writeWrappedText
  rw [← ht, hb, wrapLoop, trim_buf ht1, if_pos (by omega)]
  dsimp only
  have hi : lineIndent indent 1 0 = 0 := by
    unfold lineIndent
    cases indent <;> rfl
  rw [hi]
  obtain ⟨m, hm1, hm2, hm3⟩ : ∃ m, 0 < m ∧ m ≤ k ∧ min (1 + n - 2 - ((0 : Nat) : Int)) ((t ++ List.replicate k ' ').length : Int) = ((t.length + m : Nat) : Int) := by
    rw [List.length_append, List.length_replicate]
    refine ⟨min (n - 1 - t.length).toNat k, by omega, by omega, ?_⟩
    push_cast
    omega
  rw [hm3]
  have hsub : ∀ j : Int, j = ((t.length + m : Nat) : Int) → substring (t ++ List.replicate k ' ') 1 j = t ++ List.replicate m ' ' := by
    intro j hj
    unfold substring
    rw [hj, if_neg (by omega), show ((1 : Int) - 1).toNat = 0 by rfl, List.drop_zero, show (((t.length + m : Nat) : Int) - 1 + 1).toNat = t.length + m by omega, List.take_length_add_append, List.take_replicate, Nat.min_eq_left hm2]
  rw [hsub _ rfl, scan_last (by rw [List.getLast?_append_of_ne_nil _ (by simp; omega), List.getLast?_replicate, if_neg (by omega)]), List.length_append, List.length_replicate, if_neg (by omega)]
  rw [hsub _ (by omega), adjust_adjusted ht2 ht1, loop_end ht1 (by push_cast; omega)]
  rfl

theorem stuck_narrow {t : Name} {k : Nat} (ht : NoBlank t) {n : Int} {d : Nat} (hn : n < d + 2) (fuel : Nat) : ∀ (i : Int) (ns : Nat), i ≤ t.length → (1 < i ∨ ns = d) →
    wrapLoop (t ++ List.replicate k ' ') n (some d) fuel i ns = .error .diverges := by
  induction fuel with
  | zero => intro i ns _ _; rfl
  | succ fuel ih =>
    intro i ns hi hd
    rw [wrapLoop, trim_buf ht, if_pos hi]
    dsimp only
    have hns : lineIndent (some d) i ns = d := by
      unfold lineIndent
      dsimp only
      split
      · rfl
      · rcases hd with hd | hd
        · omega
        · exact hd
    rw [hns]
    have hlen : (t ++ List.replicate k ' ').length = t.length + k := by simp
    have he : substring (t ++ List.replicate k ' ') i (min (i + n - 2 - (d : Int)) ((t ++ List.replicate k ' ').length : Int)) = [] := by
      unfold substring
      rw [if_pos (by omega)]
    rw [he, show scanBack [] = 0 from rfl, if_pos (by simp), ih _ d (by rw [hlen]; push_cast; omega) (Or.inr rfl)]
    rfl

theorem stuck_one {t : Name} {k : Nat} (hk : 0 < k) (ht : NoBlank t) {n : Int} {d : Nat} (hn : n = d + 2) (fuel : Nat) : ∀ (p ns : Nat), p < t.length → (0 < p ∨ ns = d) →
    wrapLoop (t ++ List.replicate k ' ') n (some d) fuel ((p : Int) + 1) ns = .error .diverges := by
  induction fuel with
  | zero => intro p ns _ _; rfl
  | succ fuel ih =>
    intro p ns hp hd
    rw [wrapLoop, trim_buf ht, if_pos (by omega)]
    dsimp only
    have hns : lineIndent (some d) ((p : Int) + 1) ns = d := by
      unfold lineIndent
      dsimp only
      split
      · rfl
      · rcases hd with hd | hd
        · omega
        · exact hd
    rw [hns]
    have hlen : (t ++ List.replicate k ' ').length = t.length + k := by simp
    have he : substring (t ++ List.replicate k ' ') ((p : Int) + 1) (min ((p : Int) + 1 + n - 2 - (d : Int)) ((t ++ List.replicate k ' ').length : Int)) = [t[p]] := by
      unfold substring
      rw [if_neg (by omega), show ((p : Int) + 1 - 1).toNat = p by omega, show (min ((p : Int) + 1 + n - 2 - (d : Int)) ((t ++ List.replicate k ' ').length : Int) - ((p : Int) + 1) + 1).toNat = 1 by omega]
      rw [List.drop_eq_getElem_cons (by omega), List.getElem_append_left hp]
      rfl
    rw [he]
    by_cases hb : t[p] = ' '
    · have hs : scanBack [t[p]] = 1 := by rw [hb]; rfl
      have hp1 : p + 1 < t.length := by
        by_contra hc
        have : p = t.length - 1 := by omega
        apply ht
        rw [List.getLast?_eq_getElem?, ← this, List.getElem?_eq_getElem hp, hb]
      rw [hs, if_neg (by simp), show (p : Int) + 1 + ((1 : Nat) : Int) = ((p + 1 : Nat) : Int) + 1 by push_cast; ring, ih (p + 1) d hp1 (Or.inr rfl)]
      rfl
    · have hs : scanBack [t[p]] = 0 := scan_none (by simpa using fun h => hb h.symm)
      rw [hs, if_pos (by simp), show (p : Int) + 1 + min (n - 2 - (d : Int)) (((t ++ List.replicate k ' ').length : Int) - ((p : Int) + 1)) = (p : Int) + 1 by rw [hlen]; push_cast; omega, ih p d hp (Or.inr rfl)]
      rfl

/-- C113: without room beside the indentation the loop never ends, unless one line is enough. -/
theorem C113_narrow_defect {str : Name} {n : Int} {d : Nat} (h3 : 3 ≤ n) (hn : n ≤ d + 2) (hlong : n - 1 ≤ ((trimAdjust str).length : Int)) (fuel : Nat) : writeWrappedText fuel str n (some d) = .error .diverges := by
  obtain ⟨k, hk, hb⟩ := buf_eq str
  obtain ⟨t, ht⟩ : ∃ t, t = trimAdjust str := ⟨_, rfl⟩
  have ht1 := adjust_noBlank str
  unfold writeWrappedText
  rw [← ht] at hlong hb ht1 ⊢
  rw [hb]
  cases fuel with
  | zero => rfl
  | succ fuel =>
    obtain ⟨c, tail, e1, e2, e3, e4⟩ := loop_step hk ht1 (n := n) (indent := some d) (p := 0) (ns := 0) (ns' := 0) rfl (by omega) (by omega) fuel
    have hc : 0 + c.length < t.length := by
      rw [List.drop_zero] at e1
      rcases e3 with ⟨c', h1, h2⟩ | ⟨h1, -, -⟩
      · have h4 : c.length = c'.length + 1 := by rw [h1]; simp
        by_contra hcon
        have h5 : c.length = t.length := by omega
        have h6 : t = c := by
          have := congrArg (List.take t.length) e1
          rw [List.take_left, ← h5, List.take_left] at this
          exact this
        apply ht1
        rw [h6, h1]; simp
      · omega
    have e4' : wrapLoop (t ++ List.replicate k ' ') n (some d) (fuel + 1) 1 0 = _ := e4
    rw [e4']
    rcases Int.lt_or_eq_of_le hn with hlt | heq
    · rw [stuck_narrow ht1 hlt fuel _ 0 (by push_cast; omega) (Or.inl (by push_cast; omega))]
      rfl
    · rw [stuck_one hk ht1 heq fuel (0 + c.length) 0 hc (Or.inl (by omega))]
      rfl

/-- A text with a label, if there is one -/
def labelled (label : Name) : Option Name → Name
  | some s => label ++ s
  | none => []

/-- The text of an error message -/
def abortText (message : Name) (name fname : Option Name) : Name :=
  "***Abort HDF5 : ".toList ++ message ++ labelled "   identifier : ".toList name ++ labelled "   file name  : ".toList fname

theorem letters_trim (s : Name) : letters (trimBlanks s) = letters s := by
  obtain ⟨k, h⟩ := trim_parts s
  conv_rhs => rw [h]
  rw [letters_append, letters_blanks, List.append_nil]

theorem length_trim (s : Name) : (trimBlanks s).length ≤ s.length := by
  obtain ⟨k, h⟩ := trim_parts s
  conv_rhs => rw [h]
  simp

/-- C113: `hdf5_abort` always comes to its end; it writes the message, the name and the name of the file completely, in lines of at most 78 characters. -/
theorem C113_abort {fuel : Nat} (message : Name) (name fname : Option Name) (hf : message.length + (name.getD []).length + (fname.getD []).length + 17 < fuel) :
    ∃ lines, hdf5Abort fuel message name fname = .ok lines ∧ (∀ l ∈ lines, l.length ≤ 78) ∧ lines.flatMap letters = letters (abortText message name fname) := by
  have part : ∀ (pre : Name) (s : Name), pre.length = 16 → s.length + 17 < fuel → ∀ indent : Option Nat, (indent.getD 0 : Int) + 3 ≤ 80 →
      ∃ lines, writeWrappedText fuel (pre ++ trimBlanks s) 80 indent = .ok lines ∧ (∀ l ∈ lines, l.length ≤ 78) ∧ lines.flatMap letters = letters (pre ++ s) := by
    intro pre s hp hs indent hi
    have := length_trim s
    obtain ⟨lines, h1, h2, h3, -, -⟩ := C113_lines (fuel := fuel) (str := pre ++ trimBlanks s) (by rw [List.length_append]; omega) hi
    refine ⟨lines, h1, fun l hl => by have := h2 l hl; omega, ?_⟩
    rw [h3, letters_append, letters_append, letters_trim]
  have opt : ∀ (pre : Name) (s : Option Name), pre.length = 16 → (s.getD []).length + 17 < fuel → ∃ lines : List Name, abortLine fuel pre s = .ok lines ∧ (∀ l ∈ lines, l.length ≤ 78) ∧
      lines.flatMap letters = letters (labelled pre s) := by
    intro pre s hp hs
    cases s with
    | none => exact ⟨[], rfl, by simp, rfl⟩
    | some s => exact part pre s hp hs none (by decide)
  obtain ⟨m, m1, m2, m3⟩ := part "***Abort HDF5 : ".toList message (by decide +kernel) (by omega) (some 16) (by decide)
  obtain ⟨a, a1, a2, a3⟩ := opt "   identifier : ".toList name (by decide +kernel) (by omega)
  obtain ⟨b, b1, b2, b3⟩ := opt "   file name  : ".toList fname (by decide +kernel) (by omega)
  refine ⟨[" ".toList] ++ m ++ [" ".toList] ++ a ++ b ++ [" ".toList], ?_, ?_, ?_⟩
  · unfold hdf5Abort
    rw [m1, a1, b1]
    rfl
  · intro l hl
    have h1 : (" ".toList).length ≤ 78 := by decide +kernel
    simp only [List.mem_append, List.mem_singleton] at hl
    rcases hl with ((((rfl | hl) | rfl) | hl) | hl) | rfl
    · exact h1
    · exact m2 l hl
    · exact h1
    · exact a2 l hl
    · exact b2 l hl
    · exact h1
  · have h1 : letters " ".toList = [] := by decide +kernel
    simp only [List.flatMap_append, List.flatMap_cons, List.flatMap_nil, h1, m3, a3, b3, List.nil_append, List.append_nil]
    unfold abortText
    simp only [letters_append]

/-! ### Examples -/

namespace ExWrappedText

example : words "  one two   three ".toList = ["one".toList, "two".toList, "three".toList] := by decide +kernel

example : writeWrappedText 50 "  The quick brown fox jumps over ".toList 14 (some 3) = .ok ["The quick".toList, "   brown fox".toList, "   jumps".toList, "   over".toList] := by decide +kernel

example : ∃ lines, writeWrappedText 50 "  The quick brown fox jumps over ".toList 14 (some 3) = .ok lines ∧ lines.flatMap words = words "  The quick brown fox jumps over ".toList := by
  obtain ⟨lines, h1, -, -, h2, -⟩ := C113_lines (fuel := 50) (str := "  The quick brown fox jumps over ".toList) (n := 14) (indent := some 3) (by decide +kernel) (by decide)
  exact ⟨lines, h1, h2 (by decide +kernel)⟩

/-- A word which is too long is divided. -/
example : writeWrappedText 50 "abcdefghijklm no".toList 8 none = .ok ["abcdef".toList, "ghijkl".toList, "m no".toList] := by decide +kernel

example : writeWrappedText 5 " abc ".toList 5 none = .ok ["abc".toList] := C113_one_line (by decide) (by decide +kernel) (by decide +kernel) none

example (fuel : Nat) : writeWrappedText fuel "abc def".toList 6 (some 4) = .error .diverges := C113_narrow_defect (by decide) (by decide) (by decide +kernel) fuel

example : hdf5Abort 100 "Unable to open file!".toList (some "a/b ".toList) none =
    .ok [" ".toList, "***Abort HDF5 : Unable to open file!".toList, " ".toList, "identifier : a/b".toList, " ".toList] := by decide +kernel

end ExWrappedText

end Verif.WrappedText
