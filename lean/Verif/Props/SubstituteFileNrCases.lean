import Mathlib.Tactic.FinCases
import Verif.Props.SubstituteFileNr

/-! Cases of C86 -/

namespace Verif

namespace ExSubst

/-- Formatting of file number 12, padded with zeros to three digits by `03d` -/
def pops : PercentOps where
  number mods conv := if conv = 'd' then .ok (if mods = "03".toList then "012".toList else "12".toList) else .error .typeError
  dict _ conv := if conv = 's' then .ok "{'file_nr': 12}".toList else .error .typeError

def ops : FormatOps Nat where
  format _ spec := if spec = "03d".toList then .ok "012".toList else if spec = [] then .ok "12".toList else .error .valueError
  convert _ v := v
  convertKey _ _ := 0
  lookup _ _ := .error .attributeError

def tPercent : List NamePiece := [.text "snap.".toList, .percent "03".toList 'd', .text "/".toList, .percent [] 'd', .text ".hdf5".toList]
def tBrace : List NamePiece := [.text "snap.".toList, .brace "03d".toList, .text "/".toList, .brace [], .text ".hdf5".toList]
def tBoth : List NamePiece := [.text "snap.".toList, .percent "03".toList 'd', .brace []]

example : showName tPercent = "snap.%(file_nr)03d/%(file_nr)d.hdf5".toList := by decide +kernel
example : showName tBrace = "snap.{file_nr:03d}/{file_nr}.hdf5".toList := by decide +kernel

theorem plainText {t : List Char} (h : t.all (fun c => c != '%' && c != '{' && c != '}') = true) : PlainText t := by
  intro c hc
  have := List.all_eq_true.1 h c hc
  simpa [Bool.and_eq_true, and_assoc] using this

theorem modifier : IsModifier "03".toList := ⟨['0'], ['3'], [], by decide, by decide, by decide, by decide, Or.inl rfl⟩
theorem noModifier : IsModifier [] := ⟨[], [], [], rfl, by decide, by decide, by decide, Or.inl rfl⟩

theorem plainPercent : ∀ x ∈ tPercent, x.Plain := by
  intro x hx
  fin_cases hx
  · exact plainText (by decide)
  · exact ⟨modifier, by decide, by decide⟩
  · exact plainText (by decide)
  · exact ⟨noModifier, by decide, by decide⟩
  · exact plainText (by decide)

theorem plainBrace : ∀ x ∈ tBrace, x.Plain := by
  intro x hx
  fin_cases hx <;> exact plainText (by decide)

theorem plainBoth : ∀ x ∈ tBoth, x.Plain := by
  intro x hx
  fin_cases hx
  · exact plainText (by decide)
  · exact ⟨modifier, by decide, by decide⟩
  · exact plainText (by decide)

/-- What the fields look like -/
def p (mods : List Char) (_ : Char) : List Char := if mods = "03".toList then "012".toList else "12".toList
def b (spec : List Char) : List Char := if spec = "03d".toList then "012".toList else "12".toList

example : substituteFileNr pops ops 12 (showName tPercent) = .ok "snap.012/12.hdf5".toList := by
  rw [C86_percent pops ops 12 plainPercent (by intro s h; simp [tPercent] at h) (p := p) (by
    intro m c h
    simp only [tPercent, List.mem_cons, reduceCtorEq, NamePiece.percent.injEq, List.not_mem_nil, or_false, false_or] at h
    rcases h with ⟨rfl, rfl⟩ | ⟨rfl, rfl⟩ <;> rfl) b]
  decide +kernel

example : substituteFileNr pops ops 12 (showName tBrace) = .ok "snap.012/12.hdf5".toList := by
  rw [C86_braces pops ops 12 plainBrace (by intro m c h; simp [tBrace] at h) (b := b) (by
    intro s h
    simp only [tBrace, List.mem_cons, reduceCtorEq, NamePiece.brace.injEq, List.not_mem_nil, or_false, false_or] at h
    rcases h with rfl | rfl <;> rfl) p]
  decide +kernel

example : substituteFileNr pops ops 12 (showName tBoth) = .error .other :=
  C86_both pops ops 12 plainBoth (p := p) (b := b) (by
    intro m c h
    simp only [tBoth, List.mem_cons, reduceCtorEq, NamePiece.percent.injEq, List.not_mem_nil, or_false, false_or] at h
    obtain ⟨rfl, rfl⟩ := h
    exact ⟨rfl, plainText (by decide)⟩) (by
    intro s h
    simp only [tBoth, List.mem_cons, reduceCtorEq, NamePiece.brace.injEq, List.not_mem_nil, or_false, false_or] at h
    subst h
    exact ⟨rfl, plainText (by decide)⟩) ⟨"03".toList, 'd', by simp [tBoth]⟩ ⟨[], by simp [tBoth]⟩

theorem no_percent : ∀ arg mods conv out, pops.format arg mods conv = .ok out → '%' ∉ out := by
  intro arg mods conv out h
  cases arg with
  | dict =>
    simp only [PercentOps.format, pops] at h
    split at h
    · cases h; decide
    · cases h
  | number =>
    simp only [PercentOps.format, pops] at h
    split at h
    · cases h
      split <;> decide
    · cases h
  | used => cases h

/-- A directory with a percent sign, written twice or once, cannot be used. -/
example : ∀ result, substituteFileNr pops ops 12 "10%%/snap.{file_nr}".toList ≠ .ok result :=
  C86_percent_sign_defect pops ops 12 no_percent (out := "10%%/snap.12".toList) (by decide) (by decide +kernel) (by decide)
example : substituteFileNr pops ops 12 "10%%/snap.{file_nr}".toList = .error .other := by decide +kernel
example : substituteFileNr pops ops 12 "10%/snap.{file_nr}".toList = .error .typeError ∨ substituteFileNr pops ops 12 "10%/snap.{file_nr}".toList = .error .valueError := by decide +kernel

/-- With the other style a percent sign is written twice, and a brace must be written twice for `str.format`, which then changes the string. -/
example : substituteFileNr pops ops 12 "10%%/snap.%(file_nr)d".toList = .ok "10%/snap.12".toList := by decide +kernel
example : substituteFileNr pops ops 12 "{{a}}/snap.%(file_nr)d".toList = .error .other := by decide +kernel

end ExSubst

end Verif
