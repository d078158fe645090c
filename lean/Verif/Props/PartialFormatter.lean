import Verif.Proofs.PartialFormatter
import Verif.Proofs.PeanoBlocks

/-!
C42: `PartialFormatter`.
-/

namespace Verif

variable {V : Type*}

/-- Fields with a value are replaced, fields which are `None`, or missing if that is allowed, are kept with their format specification. -/
theorem C42_format (ops : FormatOps V) (ignore_missing : Bool) (kwargs : List Char → Option (Option V)) {t : List Seg} (ht : ∀ s ∈ t, s.Plain)
    (hk : ignore_missing = true ∨ ∀ n s, Seg.field n s ∈ t → kwargs n ≠ none) :
    partialFormat ops ignore_missing kwargs (showTemplate t) = fill ops.format (fun n => (kwargs n).join) t := by
  rw [partialFormat_plain ops _ _ ht, fillM_eq ops _ _ ht hk]

/-- A missing field is a `KeyError` unless that is allowed. -/
theorem C42_missing (ops : FormatOps V) (kwargs : List Char → Option (Option V)) {t : List Seg} (ht : ∀ s ∈ t, s.Plain) {n s : List Char} (hn : Seg.field n s ∈ t)
    (hk : kwargs n = none) (hf : ∀ v sp, ∃ out, ops.format v sp = .ok out) : partialFormat ops false kwargs (showTemplate t) = .error .keyError := by
  rw [partialFormat_plain ops _ _ ht]
  have hseg : ∀ s ∈ t, fillSegM ops false kwargs s = .error .keyError ∨ ∃ out, fillSegM ops false kwargs s = .ok out := by
    intro s hs
    cases s with
    | text x => exact Or.inr ⟨x, rfl⟩
    | field m sp =>
      simp only [fillSegM, getValue]
      rw [(ht _ hs).1.not_digits, if_neg (by simp), if_neg (by simp)]
      cases kwargs m with
      | none => exact Or.inl rfl
      | some o =>
        cases o with
        | none => exact Or.inr ⟨_, formatField_key ops m sp⟩
        | some v => exact Or.inr (hf v sp)
  have hbad : fillSegM ops false kwargs (.field n s) = .error .keyError := by
    simp only [fillSegM, getValue]
    rw [(ht _ hn).1.not_digits, if_neg (by simp), if_neg (by simp), hk]
  clear ht
  induction t with
  | nil => simp at hn
  | cons a t ih =>
    rw [fillM]
    rcases hseg a (by simp) with h | ⟨out, h⟩
    · rw [h]
    · rw [h]
      rcases List.mem_cons.1 hn with rfl | hn'
      · rw [hbad] at h; cases h
      · rw [ih hn' (fun s hs => hseg s (by simp [hs]))]

/-- The pieces after the first step -/
def substSeg (format : V → List Char → Except Err (List Char)) (val : List Char → Option V) (s : Seg) : Seg :=
  match s with
  | .text t => .text t
  | .field name spec => match val name with
    | some v => .text ((format v spec).toOption.getD [])
    | none => .field name spec

/-- Formatting in two steps is the same as formatting once with the fields of both, if the values filled in first contain no braces. -/
theorem C42_two_steps (ops : FormatOps V) {im1 im2 im : Bool} {kw1 kw2 kw : List Char → Option (Option V)} {t : List Seg} (ht : ∀ s ∈ t, s.Plain)
    (hkw : ∀ n s, Seg.field n s ∈ t → (kw n).join = ((kw1 n).join <|> (kw2 n).join))
    (h1 : im1 = true ∨ ∀ n s, Seg.field n s ∈ t → kw1 n ≠ none) (h2 : im2 = true ∨ ∀ n s, Seg.field n s ∈ t → (kw1 n).join = none → kw2 n ≠ none)
    (h : im = true ∨ ∀ n s, Seg.field n s ∈ t → kw n ≠ none)
    (hval : ∀ n s, Seg.field n s ∈ t → ∀ v, kw1 n = some (some v) → ∃ out, ops.format v s = .ok out ∧ NoBraces out) :
    ∃ s1, partialFormat ops im1 kw1 (showTemplate t) = .ok s1 ∧ partialFormat ops im2 kw2 s1 = partialFormat ops im kw (showTemplate t) := by
  have hjoin : ∀ n v, (kw1 n).join = some v ↔ kw1 n = some (some v) := by
    intro n v
    cases kw1 n with
    | none => simp
    | some o => simp
  have hseg : ∀ s ∈ t, fillSeg ops.format (fun n => (kw1 n).join) s = .ok (substSeg ops.format (fun n => (kw1 n).join) s).show ∧
      (substSeg ops.format (fun n => (kw1 n).join) s).Plain ∧
      fillSeg ops.format (fun n => (kw2 n).join) (substSeg ops.format (fun n => (kw1 n).join) s) = fillSeg ops.format (fun n => (kw n).join) s := by
    intro s hs
    have hp := ht s hs
    cases s with
    | text x => exact ⟨rfl, hp, rfl⟩
    | field n sp =>
      have hk := hkw n sp hs
      simp only [fillSeg, substSeg]
      cases hv : (kw1 n).join with
      | some v =>
        obtain ⟨out, ho, hb⟩ := hval n sp hs v ((hjoin n v).1 hv)
        simp only [ho, Seg.show, Seg.Plain, Except.toOption, Option.getD_some]
        refine ⟨trivial, hb, ?_⟩
        rw [hk, hv]
        simp [ho, fillSeg]
      | none =>
        refine ⟨rfl, hp, ?_⟩
        rw [hk, hv]
        simp [fillSeg]
  refine ⟨showTemplate (t.map (substSeg ops.format (fun n => (kw1 n).join))), ?_, ?_⟩
  · rw [C42_format ops im1 kw1 ht h1]
    unfold fill
    rw [mapM_ok _ (fun s => (substSeg ops.format (fun n => (kw1 n).join) s).show) t (fun s hs => (hseg s hs).1)]
    simp only [showTemplate, List.flatMap_def, List.map_map, Function.comp_def]
  · rw [C42_format ops im kw ht h, C42_format ops im2 kw2]
    · unfold fill
      have : (t.map (substSeg ops.format (fun n => (kw1 n).join))).mapM (fillSeg ops.format (fun n => (kw2 n).join)) = t.mapM (fillSeg ops.format (fun n => (kw n).join)) := by
        clear h1 h2 h hval hkw ht
        induction t with
        | nil => rfl
        | cons a t ih =>
          rw [List.map_cons, List.mapM_cons, List.mapM_cons, (hseg a (by simp)).2.2, ih (fun s hs => hseg s (by simp [hs]))]
      rw [this]
    · intro s hs
      obtain ⟨s', hs', rfl⟩ := List.mem_map.1 hs
      exact (hseg s' hs').2.1
    · refine h2.imp id (fun h2 n s hs => ?_)
      obtain ⟨s', hs', he⟩ := List.mem_map.1 hs
      cases s' with
      | text x => simp [substSeg] at he
      | field m sp =>
        simp only [substSeg] at he
        cases hv : (kw1 m).join with
        | some v => rw [hv] at he; simp at he
        | none =>
          rw [hv] at he
          simp only [Seg.field.injEq] at he
          obtain ⟨rfl, rfl⟩ := he
          exact h2 m sp hs' hv

/-! ### Cases, and what the theorems leave out -/

/-- Strings as values; `format` ignores the specification, conversions mark the value. -/
def testOps : FormatOps (List Char) := ⟨fun v _ => .ok v, fun c v => c :: v, fun _ _ => "<FormatKey object>".toList, fun _ _ => .error .attributeError⟩

def testArgs (l : List (String × Option String)) : List Char → Option (Option (List Char)) := fun k => (l.find? (fun e => e.1.toList == k)).map (fun e => e.2.map String.toList)

def testTemplate : List Seg := [.text "snap_".toList, .field "nr".toList "03d".toList, .text ".".toList, .field "file_nr".toList [], .text ".hdf5".toList]

example : showTemplate testTemplate = "snap_{nr:03d}.{file_nr}.hdf5".toList := by decide +kernel
example : partialFormat testOps true (testArgs [("nr", some "007")]) (showTemplate testTemplate) = .ok "snap_007.{file_nr}.hdf5".toList := by decide +kernel
example : partialFormat testOps false (testArgs [("nr", none), ("file_nr", some "5")]) (showTemplate testTemplate) = .ok "snap_{nr:03d}.5.hdf5".toList := by decide +kernel
example : partialFormat testOps false (testArgs [("nr", some "007")]) (showTemplate testTemplate) = .error .keyError := by decide +kernel

example : (∀ s ∈ testTemplate, s.Plain) := by
  unfold testTemplate Seg.Plain PlainName NoBraces
  intro s hs
  simp only [List.mem_cons, List.not_mem_nil, or_false] at hs
  rcases hs with rfl | rfl | rfl | rfl | rfl <;> decide +kernel

/-- Doubled braces are lost in the first step, so that with them the two steps differ. -/
theorem C42_escapes_lost : partialFormat testOps true (testArgs []) "{{x}}{a}".toList = .ok "{x}{a}".toList ∧
    partialFormat testOps true (testArgs [("a", some "1"), ("x", some "9")]) "{x}{a}".toList = .ok "91".toList ∧
    partialFormat testOps true (testArgs [("a", some "1"), ("x", some "9")]) "{{x}}{a}".toList = .ok "{x}1".toList := by
  refine ⟨?_, ?_, ?_⟩ <;> decide +kernel

/-- A field with a conversion is not kept, and one with attribute access fails. -/
theorem C42_conversion_lost : partialFormat testOps true (testArgs []) "{a!r}".toList = .ok "<FormatKey object>".toList ∧
    partialFormat testOps true (testArgs []) "{a.b}".toList = .error .attributeError := by
  constructor <;> decide +kernel

/-- The parser on a nested field, which the theorems above leave out -/
example : readField "a:{w}}x".toList = .ok (⟨"a".toList, none, "{w}".toList⟩, "x".toList) := by decide +kernel

end Verif
