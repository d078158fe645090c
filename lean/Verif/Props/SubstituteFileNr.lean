import Verif.Proofs.SubstituteFileNr

/-! C86: The number of a file is put into its name. -/

namespace Verif

/-- C86: With fields in the style of the operator `%` only, every one of them is replaced by the number, and everything else is kept. -/
theorem C86_percent {V : Type*} (pops : PercentOps) (ops : FormatOps V) (file_nr : V) {t : List NamePiece} (ht : ∀ x ∈ t, x.Plain) (hno : ∀ spec, NamePiece.brace spec ∉ t) {p : List Char → Char → List Char}
    (hp : ∀ mods conv, NamePiece.percent mods conv ∈ t → pops.number mods conv = .ok (p mods conv)) (b : List Char → List Char) :
    substituteFileNr pops ops file_nr (showName t) = .ok (t.flatMap (NamePiece.fill p b)) := by
  have h1 := percentFormat_template pops ht hp
  have h2 := strFormat_template ops file_nr ht (b := b) (fun spec h => absurd h (hno spec))
  have e1 : t.flatMap (fillPercent p) = t.flatMap (NamePiece.fill p b) := by
    apply List.flatMap_congr
    intro x hx
    cases x with
    | text s => rfl
    | percent m c => rfl
    | brace spec => exact absurd hx (hno spec)
  have e2 : t.flatMap (fillBrace b) = showName t := by
    unfold showName
    apply List.flatMap_congr
    intro x hx
    cases x with
    | text s => rfl
    | percent m c => rfl
    | brace spec => exact absurd hx (hno spec)
  rw [e1] at h1
  rw [e2] at h2
  unfold substituteFileNr
  rw [h1, h2]
  by_cases h : t.flatMap (NamePiece.fill p b) = showName t
  · simp [h]
  · simp [h]

/-- C86: The same for fields in the style of `str.format` only. -/
theorem C86_braces {V : Type*} (pops : PercentOps) (ops : FormatOps V) (file_nr : V) {t : List NamePiece} (ht : ∀ x ∈ t, x.Plain) (hno : ∀ mods conv, NamePiece.percent mods conv ∉ t) {b : List Char → List Char}
    (hb : ∀ spec, NamePiece.brace spec ∈ t → ops.format file_nr spec = .ok (b spec)) (p : List Char → Char → List Char) :
    substituteFileNr pops ops file_nr (showName t) = .ok (t.flatMap (NamePiece.fill p b)) := by
  have h1 := percentFormat_template pops ht (p := p) (fun m c h => absurd h (hno m c))
  have h2 := strFormat_template ops file_nr ht hb
  have e1 : t.flatMap (fillPercent p) = showName t := by
    unfold showName
    apply List.flatMap_congr
    intro x hx
    cases x with
    | text s => rfl
    | percent m c => exact absurd hx (hno m c)
    | brace spec => rfl
  have e2 : t.flatMap (fillBrace b) = t.flatMap (NamePiece.fill p b) := by
    apply List.flatMap_congr
    intro x hx
    cases x with
    | text s => rfl
    | percent m c => exact absurd hx (hno m c)
    | brace spec => rfl
  rw [e1] at h1
  rw [e2] at h2
  unfold substituteFileNr
  rw [h1, h2]
  by_cases h : t.flatMap (NamePiece.fill p b) = showName t
  · simp [h]
  · simp [h]

/-- C86: A name with fields in both styles is refused, as long as formatted numbers have no percent signs and braces. -/
theorem C86_both {V : Type*} (pops : PercentOps) (ops : FormatOps V) (file_nr : V) {t : List NamePiece} (ht : ∀ x ∈ t, x.Plain) {p : List Char → Char → List Char} {b : List Char → List Char}
    (hp : ∀ mods conv, NamePiece.percent mods conv ∈ t → pops.number mods conv = .ok (p mods conv) ∧ PlainText (p mods conv))
    (hb : ∀ spec, NamePiece.brace spec ∈ t → ops.format file_nr spec = .ok (b spec) ∧ PlainText (b spec)) (h1 : ∃ mods conv, NamePiece.percent mods conv ∈ t) (h2 : ∃ spec, NamePiece.brace spec ∈ t) :
    substituteFileNr pops ops file_nr (showName t) = .error .other := by
  have e1 := percentFormat_template pops ht (fun m c h => (hp m c h).1)
  have e2 := strFormat_template ops file_nr ht (fun s h => (hb s h).1)
  obtain ⟨mods, conv, hm⟩ := h1
  obtain ⟨spec, hs⟩ := h2
  have n1 : t.flatMap (fillPercent p) ≠ showName t := by
    intro h
    have hsign : '%' ∈ (NamePiece.percent mods conv).show := by
      unfold NamePiece.show
      exact List.mem_append_left _ (List.mem_append_left _ (by decide))
    have hin : '%' ∈ showName t := List.mem_flatMap.2 ⟨_, hm, hsign⟩
    rw [← h] at hin
    obtain ⟨x, hx, hin⟩ := List.mem_flatMap.1 hin
    cases x with
    | text s => exact (ht _ hx _ hin).1 rfl
    | percent m c => exact ((hp m c hx).2 _ hin).1 rfl
    | brace spec => exact brace_no_percent (ht _ hx) hin
  have n2 : t.flatMap (fillBrace b) ≠ showName t := by
    intro h
    have hbrace : '{' ∈ (NamePiece.brace spec).show := by
      unfold NamePiece.show showField
      dsimp only
      split <;> simp
    have hin : '{' ∈ showName t := List.mem_flatMap.2 ⟨_, hs, hbrace⟩
    rw [← h] at hin
    obtain ⟨x, hx, hin⟩ := List.mem_flatMap.1 hin
    cases x with
    | text s => exact (ht _ hx _ hin).2.1 rfl
    | percent m c => exact (percent_no_brace (ht _ hx) _ hin).1 rfl
    | brace spec => exact ((hb spec hx).2 _ hin).2.1 rfl
  unfold substituteFileNr
  rw [e1, e2]
  exact if_pos ⟨n1, n2⟩

/-- C86, defect: A name with a percent sign cannot be used with fields in the style of `str.format`, not even if the percent sign is doubled: no such name with a field gives the name it gives in
`str.format`. -/
theorem C86_percent_sign_defect {V : Type*} (pops : PercentOps) (ops : FormatOps V) (file_nr : V) (hops : ∀ arg mods conv out, pops.format arg mods conv = .ok out → '%' ∉ out) {name out : List Char}
    (hpercent : '%' ∈ name) (hfmt : strFormat ops file_nr name = .ok out) (hfield : out ≠ name) : ∀ result, substituteFileNr pops ops file_nr name ≠ .ok result := by
  intro result h
  unfold substituteFileNr at h
  rw [hfmt] at h
  cases hp : percentFormat pops name with
  | error e => rw [hp] at h; cases h
  | ok str1 =>
    rw [hp] at h
    have hne : str1 ≠ name := fun e => percentFormat_changes pops hops hpercent (by rw [hp, e])
    simp [hne, hfield] at h

end Verif
