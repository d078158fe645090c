import Verif.Model.PartialFormatter
import Verif.Spec.PartialFormatter

set_option linter.unusedSectionVars false

namespace Verif

variable {V : Type*}

theorem readLiteral_text {t : List Char} (h : NoBraces t) (acc rest : List Char) : readLiteral acc (t ++ rest) = readLiteral (acc ++ t) rest := by
  induction t generalizing acc with
  | nil => simp
  | cons c t ih =>
    obtain ⟨h1, h2⟩ := h c (by simp)
    rw [List.cons_append]
    conv_lhs => unfold readLiteral
    simp only [if_neg h1, if_neg h2]
    rw [ih (fun d hd => h d (by simp [hd]))]
    simp

theorem readName_plain {n : List Char} (h : ∀ c ∈ n, c ≠ '{' ∧ c ≠ '}' ∧ c ≠ '[' ∧ c ≠ ':' ∧ c ≠ '!' ∧ c ≠ '.') (acc : List Char) {d : Char} (hd : d = '}' ∨ d = ':') (rest : List Char) :
    readName false acc (n ++ d :: rest) = .ok (acc ++ n, d, rest) := by
  induction n generalizing acc with
  | nil =>
    rw [List.nil_append, readName]
    have h1 : d ≠ '{' := by rcases hd with rfl | rfl <;> decide
    rw [if_neg (by simp), if_neg h1, if_pos (by tauto), List.append_nil]
  | cons c n ih =>
    obtain ⟨h1, h2, h3, h4, h5, h6⟩ := h c (by simp)
    rw [List.cons_append, readName, if_neg (by simp), if_neg h1, if_neg (by tauto)]
    have e : (decide (c = '[')) = false := by simpa using h3
    rw [e, ih (fun d hd => h d (by simp [hd]))]
    simp

theorem readSpec_plain {n : List Char} (h : NoBraces n) (acc rest : List Char) : readSpec 1 acc (n ++ '}' :: rest) = .ok (acc ++ n, rest) := by
  induction n generalizing acc with
  | nil => simp [readSpec]
  | cons c n ih =>
    obtain ⟨h1, h2⟩ := h c (by simp)
    rw [List.cons_append, readSpec, if_neg h1, if_neg h2, ih (fun d hd => h d (by simp [hd]))]
    simp

theorem readField_plain {name spec : List Char} (hn : PlainName name) (hs : NoBraces spec) (rest : List Char) :
    readField (name ++ ((if spec = [] then [] else [':'] ++ spec) ++ '}' :: rest)) = .ok (⟨name, none, spec⟩, rest) := by
  unfold readField
  by_cases h : spec = []
  · subst h
    rw [if_pos rfl, List.nil_append, readName_plain hn.1 [] (Or.inl rfl)]
    simp
  · rw [if_neg h, List.append_assoc, List.singleton_append, readName_plain hn.1 [] (Or.inr rfl)]
    simp only [List.nil_append]
    rw [if_neg (by decide), if_pos trivial, readSpec_plain hs]
    simp

theorem PlainName.ne_nil {n : List Char} (h : PlainName n) : n ≠ [] := by
  rintro rfl
  obtain ⟨c, hc, _⟩ := h.2
  simp at hc

theorem readLiteral_open {acc rest : List Char} {c : Char} (hc : c ≠ '{') : readLiteral acc ('{' :: c :: rest) = .ok (acc, c :: rest, true) := by
  unfold readLiteral
  simp only [if_pos, if_neg hc]

theorem takeWhile_all {p : Char → Bool} {l : List Char} (h : ∀ c ∈ l, p c = true) : l.takeWhile p = l := by
  induction l with
  | nil => rfl
  | cons c l ih => rw [List.takeWhile_cons_of_pos (h c (by simp)), ih (fun d hd => h d (by simp [hd]))]

theorem dropWhile_all {p : Char → Bool} {l : List Char} (h : ∀ c ∈ l, p c = true) : l.dropWhile p = [] := by
  induction l with
  | nil => rfl
  | cons c l ih => rw [List.dropWhile_cons_of_pos (h c (by simp)), ih (fun d hd => h d (by simp [hd]))]

theorem getField_plain (ops : FormatOps V) (im : Bool) (kw : List Char → Option (Option V)) {n : List Char} (h : PlainName n) : getField ops im kw n = getValue im kw n := by
  unfold getField
  have ht : n.takeWhile (fun c => c != '.' && c != '[') = n := by
    exact takeWhile_all (fun c hc => by
      obtain ⟨-, -, h3, -, -, h6⟩ := h.1 c hc
      simp [h3, h6])
  have hd : n.dropWhile (fun c => c != '.' && c != '[') = [] := by
    exact dropWhile_all (fun c hc => by
      obtain ⟨-, -, h3, -, -, h6⟩ := h.1 c hc
      simp [h3, h6])
  simp only [ht, hd]
  cases getValue im kw n <;> rfl

/-- A specification without braces is unchanged. -/
theorem vformat_text (ops : FormatOps V) (im : Bool) (kw : List Char → Option (Option V)) (d : Nat) {t : List Char} (h : NoBraces t) : vformat ops im kw (d + 1) t = .ok t := by
  rw [vformat, vformatLoop]
  have := readLiteral_text h [] []
  rw [List.append_nil] at this
  rw [this]
  simp [readLiteral]

/-- What the loop does with one plain field. -/
def fillSegM (ops : FormatOps V) (im : Bool) (kw : List Char → Option (Option V)) : Seg → Except Err (List Char)
  | .text t => .ok t
  | .field name spec => match getValue im kw name with
    | .error e => .error e
    | .ok v => formatField ops v spec

def fillM (ops : FormatOps V) (im : Bool) (kw : List Char → Option (Option V)) : List Seg → Except Err (List Char)
  | [] => .ok []
  | s :: rest => match fillSegM ops im kw s with
    | .error e => .error e
    | .ok t => match fillM ops im kw rest with
      | .error e => .error e
      | .ok out => .ok (t ++ out)

theorem vformatLoop_plain (ops : FormatOps V) (im : Bool) (kw : List Char → Option (Option V)) (d : Nat) (segs : List Seg) (h : ∀ s ∈ segs, s.Plain) (fuel : Nat) (pref : List Char)
    (hp : NoBraces pref) (hf : (showTemplate segs).length < fuel) :
    vformatLoop ops im kw (vformat ops im kw (d + 1)) fuel (pref ++ showTemplate segs) =
      match fillM ops im kw segs with
      | .error e => .error e
      | .ok out => .ok (pref ++ out) := by
  induction segs generalizing fuel pref with
  | nil =>
    obtain ⟨fuel, rfl⟩ : ∃ f, fuel = f + 1 := ⟨fuel - 1, by omega⟩
    rw [vformatLoop, readLiteral_text hp]
    simp [showTemplate, readLiteral, fillM]
  | cons s segs ih =>
    have hs := h s (by simp)
    have ih := ih (fun t ht => h t (by simp [ht]))
    cases s with
    | text t =>
      have e : pref ++ showTemplate (Seg.text t :: segs) = (pref ++ t) ++ showTemplate segs := by simp [showTemplate, Seg.show]
      rw [e, ih fuel (pref ++ t) (by
        intro c hc
        rcases List.mem_append.1 hc with hc | hc
        · exact hp c hc
        · exact hs c hc) (by simp [showTemplate, Seg.show] at hf ⊢; omega)]
      simp only [fillM, fillSegM]
      cases fillM ops im kw segs with
      | error e => rfl
      | ok out => simp
    | field name spec =>
      obtain ⟨hn, hsp⟩ := hs
      obtain ⟨fuel, rfl⟩ : ∃ f, fuel = f + 1 := ⟨fuel - 1, by omega⟩
      have e : pref ++ showTemplate (Seg.field name spec :: segs) = pref ++ '{' :: (name ++ ((if spec = [] then [] else [':'] ++ spec) ++ '}' :: showTemplate segs)) := by
        simp [showTemplate, Seg.show, showField]
      have hne : ∃ c n', name = c :: n' ∧ c ≠ '{' := by
        cases hnm : name with
        | nil => exact absurd hnm hn.ne_nil
        | cons c n' => exact ⟨c, n', rfl, (hn.1 c (by simp [hnm])).1⟩
      have hlit : readLiteral [] (pref ++ '{' :: (name ++ ((if spec = [] then [] else [':'] ++ spec) ++ '}' :: showTemplate segs))) =
          .ok (pref, name ++ ((if spec = [] then [] else [':'] ++ spec) ++ '}' :: showTemplate segs), true) := by
        obtain ⟨c, n', rfl, hc⟩ := hne
        rw [readLiteral_text hp, List.nil_append, List.cons_append, readLiteral_open hc]
      rw [e, vformatLoop, hlit]
      simp only [readField_plain hn hsp, getField_plain ops im kw hn, convertField, fillM, fillSegM]
      cases getValue im kw name with
      | error e => rfl
      | ok v =>
        simp only [vformat_text ops im kw d hsp]
        cases formatField ops v spec with
        | error e => rfl
        | ok t =>
          have hlen : (showTemplate segs).length < fuel := by
            simp only [showTemplate, List.flatMap_cons, Seg.show, showField, List.length_append, List.length_cons, List.length_nil] at hf ⊢
            omega
          have := ih fuel [] (by intro c hc; simp at hc) hlen
          rw [List.nil_append] at this
          simp only [this]
          cases fillM ops im kw segs with
          | error e => rfl
          | ok out => simp

theorem partialFormat_plain (ops : FormatOps V) (im : Bool) (kw : List Char → Option (Option V)) {segs : List Seg} (h : ∀ s ∈ segs, s.Plain) :
    partialFormat ops im kw (showTemplate segs) = fillM ops im kw segs := by
  have := vformatLoop_plain ops im kw 1 segs h ((showTemplate segs).length + 1) [] (by intro c hc; simp at hc) (by omega)
  rw [List.nil_append] at this
  unfold partialFormat
  rw [vformat, this]
  cases fillM ops im kw segs <;> simp

theorem PlainName.not_digits {n : List Char} (h : PlainName n) : n.all Char.isDigit = false := by
  obtain ⟨c, hc, hd⟩ := h.2
  rw [List.all_eq_false]
  exact ⟨c, hc, by simp [hd]⟩

theorem formatField_key (ops : FormatOps V) (name spec : List Char) : formatField ops (.key name) spec = .ok (showField name spec) := by
  unfold formatField showField
  cases spec <;> simp

theorem fillM_eq (ops : FormatOps V) (im : Bool) (kw : List Char → Option (Option V)) {segs : List Seg} (h : ∀ s ∈ segs, s.Plain)
    (hk : im = true ∨ ∀ n s, Seg.field n s ∈ segs → kw n ≠ none) : fillM ops im kw segs = fill ops.format (fun n => (kw n).join) segs := by
  have hseg : ∀ s ∈ segs, fillSegM ops im kw s = fillSeg ops.format (fun n => (kw n).join) s := by
    intro s hs
    have hp := h s hs
    cases s with
    | text t => rfl
    | field n sp =>
      simp only [fillSegM, fillSeg, getValue]
      rw [hp.1.not_digits, if_neg (by simp)]
      cases hkw : kw n with
      | none =>
        rcases hk with hk | hk
        · rw [if_pos ⟨rfl, hk⟩]
          simp [formatField_key]
        · exact absurd hkw (hk n sp hs)
      | some o =>
        rw [if_neg (by simp)]
        cases o with
        | none => simp [formatField_key]
        | some v => simp [formatField]
  unfold fill
  induction segs with
  | nil => rfl
  | cons s segs ih =>
    have i := ih (fun t ht => h t (by simp [ht])) (hk.imp id (fun hk n s hs => hk n s (by simp [hs]))) (fun t ht => hseg t (by simp [ht]))
    rw [fillM, List.mapM_cons, hseg s (by simp), i]
    cases fillSeg ops.format (fun n => (kw n).join) s with
    | error e => rfl
    | ok t =>
      cases List.mapM (fillSeg ops.format (fun n => (kw n).join)) segs with
      | error e => rfl
      | ok parts => rfl

end Verif
