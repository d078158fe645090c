import Verif.Proofs.MpiUtil
import Mathlib.Data.Nat.Find

namespace Verif

variable {α τ ν : Type*}

/-- C23: if some rank has an array then after `replace_none_with_zero_size` every rank has one: its own, or an empty one with the type and dimensions of
the first rank with an array. -/
theorem C23_replace_none {P : Nat} {arr : Nat → Option (TypedArray τ α)} {r : Nat} {a : TypedArray τ α} (hr : r < P) (ha : arr r = some a)
    (hn : ∀ q < r, arr q = none) (p : Nat) : replaceNone P arr p = .ok (some ((arr p).getD ⟨a.dtype, a.dims, []⟩)) := by
  cases hp : arr p with
  | none => exact replaceNone_none hp hr ha hn
  | some b => exact replaceNone_some hp

/-- C23: all ranks have `None` afterwards or none has, the former exactly if they all had before. No rank raises. -/
theorem C23_replace_none_uniform (P : Nat) (arr : Nat → Option (TypedArray τ α)) :
    ((∀ p < P, arr p = none) ∧ ∀ p < P, replaceNone P arr p = .ok none) ∨
    ((∃ p < P, arr p ≠ none) ∧ ∀ p < P, ∃ b, replaceNone P arr p = .ok (some b)) := by
  by_cases h : ∀ p < P, arr p = none
  · exact Or.inl ⟨h, fun p hp => replaceNone_all hp h⟩
  · right
    have hex : ∃ p, p < P ∧ arr p ≠ none := by
      by_contra hc
      apply h
      intro p hp
      by_contra hne
      exact hc ⟨p, hp, hne⟩
    refine ⟨hex, fun p hp => ?_⟩
    haveI : DecidablePred (fun p => p < P ∧ arr p ≠ none) := fun _ => Classical.propDecidable _
    obtain ⟨h1, h2⟩ := Nat.find_spec hex
    obtain ⟨a, ha⟩ := Option.ne_none_iff_exists'.1 h2
    refine ⟨_, C23_replace_none h1 ha (fun q hq => ?_) p⟩
    by_contra hne
    exact Nat.find_min hex hq ⟨by omega, hne⟩

example : (List.range 4).map (replaceNone 4 (fun p => [none, some ⟨"f8", [3], [[1, 2, 3]]⟩, none, some ⟨"f8", [3], []⟩].getD p none)) =
    ([.ok (some ⟨"f8", [3], []⟩), .ok (some ⟨"f8", [3], [[1, 2, 3]]⟩), .ok (some ⟨"f8", [3], []⟩), .ok (some ⟨"f8", [3], []⟩)] :
      List (Except Err (Option (TypedArray String (List Nat))))) := by decide +kernel

/-- C24: the root gets the concatenation along the axis, as do all ranks with `root=None`; the arrays may differ in length along the axis only. -/
theorem C24_gather_array [Inhabited α] {P : Nat} {root : Option Nat} {axis : Nat} {a : Nat → NdArray α} {p : Nat} (hp : p < P)
    (hax : ∀ q < P, axis < (a q).shape.length) (hsh : ∀ q < P, ∀ r < P, (a q).shape.set axis 0 = (a r).shape.set axis 0) (hr : root = some p ∨ root = none) :
    ∃ out, gatherArray P root axis a p = some out ∧ IsConcat P axis a out := gatherArray_ok hp hax hsh hr

/-- C24: the other ranks get `None`. -/
theorem C24_gather_array_other [Inhabited α] (P : Nat) {r p : Nat} (axis : Nat) (a : Nat → NdArray α) (hp : p ≠ r) : gatherArray P (some r) axis a p = none := by
  rw [gatherArray_eq, if_neg]
  simp only [Option.some.injEq, reduceCtorEq, or_false]
  exact fun h => hp h.symm

/-- C24 for `allgather_array`. -/
theorem C24_allgather_array [Inhabited α] {P : Nat} {axis : Nat} {a : Nat → NdArray α} {p : Nat} (hp : p < P)
    (hax : ∀ q < P, axis < (a q).shape.length) (hsh : ∀ q < P, ∀ r < P, (a q).shape.set axis 0 = (a r).shape.set axis 0) :
    ∃ out, allgatherArray P axis a p = some out ∧ IsConcat P axis a out := gatherArray_ok hp hax hsh (Or.inr rfl)

/-- The concatenation is unique, up to elements outside the shape: every index inside the result comes from one rank. -/
theorem C24_concat_unique {P axis : Nat} {a : Nat → NdArray α} {out out' : NdArray α} (hP : 0 < P) (hax : ∀ q < P, axis < (a q).shape.length)
    (hsh : ∀ q < P, ∀ r < P, (a q).shape.set axis 0 = (a r).shape.set axis 0)
    (h : IsConcat P axis a out) (h' : IsConcat P axis a out') : out.shape = out'.shape ∧ ∀ idx, InShape out.shape idx → out.get idx = out'.get idx := by
  refine ⟨by rw [h.1 0 hP, h'.1 0 hP], fun idx hidx => ?_⟩
  rw [h.1 0 hP, inShape_iff] at hidx
  obtain ⟨h1, h2⟩ := hidx
  rw [List.length_set] at h1
  have hai : axis < idx.length := by rw [h1]; exact hax 0 hP
  have hlt := h2 axis idx[axis] (pre (fun q => (a q).shape.getD axis 0) P) (List.getElem?_eq_getElem hai) (by
    rw [List.getElem?_set, if_pos rfl, if_pos (hax 0 hP)])
  obtain ⟨p, hp, h3, h4⟩ := exists_block hlt
  have hlen : (a p).shape.length = (a 0).shape.length := by
    have := congrArg List.length (hsh p hp 0 hP)
    simpa using this
  have hin : InShape (a p).shape (idx.set axis (idx[axis] - pre (fun q => (a q).shape.getD axis 0) p)) := by
    rw [inShape_iff]
    refine ⟨by rw [List.length_set]; omega, fun j i s hi hs => ?_⟩
    rw [List.getElem?_set] at hi
    by_cases hj : axis = j
    · subst hj
      rw [if_pos rfl, if_pos hai] at hi
      have hs' : (a p).shape.getD axis 0 = s := by rw [List.getD_eq_getElem?_getD, hs]; rfl
      simp only [Option.some.injEq] at hi
      rw [hs'] at h4
      omega
    · rw [if_neg hj] at hi
      apply h2 j i s hi
      rw [List.getElem?_set, if_neg hj]
      have := congrArg (fun l => l[j]?) (hsh p hp 0 hP)
      simp only [List.getElem?_set, if_neg hj] at this
      rw [← this, hs]
  have e1 := h.2 p hp _ hin
  have e2 := h'.2 p hp _ hin
  have hm : (idx.set axis (idx[axis] - pre (fun q => (a q).shape.getD axis 0) p)).modify axis (fun i => pre (fun q => (a q).shape.getD axis 0) p + i) = idx := by
    rw [List.modify_eq_set_getElem?, List.getElem?_set, if_pos rfl, if_pos hai]
    simp only [Option.map_eq_map, Option.map_some, Option.getD_some, List.set_set]
    rw [Nat.add_sub_cancel' h3, List.set_getElem_self]
  rw [hm] at e1 e2
  rw [e1, e2]

/-- Arrays of 2 × 1, 2 × 0 and 2 × 2 elements gathered along the second axis. -/
example : ((gatherArray 3 (some 1) 1 (fun p => ⟨[2, [1, 0, 2].getD p 0], fun idx => (p, idx)⟩) 1).map (fun a => (a.shape, (allIndexes a.shape).map a.get))) =
    some ([2, 3], [(0, [0, 0]), (2, [0, 0]), (2, [0, 1]), (0, [1, 0]), (2, [1, 0]), (2, [1, 1])]) := by decide +kernel

/-- C25: unless the parser of some rank leaves by an exception of its own (such as `SystemExit` for `--help`), the arguments of rank 0 are returned on all ranks, or all ranks
exit because rank 0 had an error. What the other ranks' parsers make of their arguments does not matter. -/
theorem C25_parse_args {P : Nat} {outcome : Nat → ParseOutcome ν} (hP : 0 < P) (h : ∀ p < P, outcome p ≠ .raises) :
    (∃ args, outcome 0 = .parsed args ∧ ∀ p < P, mpiParseArgs outcome p = .returns args) ∨
    (outcome 0 = .callsError ∧ ∀ p < P, mpiParseArgs outcome p = .exits) := by
  have h0 := h 0 hP
  cases ho : outcome 0 with
  | parsed args =>
    refine Or.inl ⟨args, rfl, fun p hp => ?_⟩
    have := h p hp
    unfold mpiParseArgs
    rw [ho]
    cases hpo : outcome p <;> simp_all
  | callsError =>
    refine Or.inr ⟨rfl, fun p hp => ?_⟩
    have := h p hp
    unfold mpiParseArgs
    rw [ho]
    cases hpo : outcome p <;> simp_all
  | raises => exact absurd ho h0

/-- C25: if all ranks have the same command line the outcome is the same on all ranks in any case, and no rank waits for ever. -/
theorem C25_parse_args_same {outcome : Nat → ParseOutcome ν} {o : ParseOutcome ν} (h : ∀ p, outcome p = o) :
    ∃ r, r ≠ .hangs ∧ ∀ p, mpiParseArgs outcome p = r := by
  cases o with
  | parsed args => exact ⟨.returns args, by simp, fun p => by simp [mpiParseArgs, h]⟩
  | callsError => exact ⟨.exits, by simp, fun p => by simp [mpiParseArgs, h]⟩
  | raises => exact ⟨.raises, by simp, fun p => by simp [mpiParseArgs, h]⟩

/-- Without this proviso there is no agreement: `--help` seen by rank 0 only leaves the others waiting. -/
theorem C25_help_on_root_hangs : ∃ outcome : Nat → ParseOutcome Nat, mpiParseArgs outcome 0 = .raises ∧ mpiParseArgs outcome 1 = .hangs :=
  ⟨fun p => if p = 0 then .raises else .parsed 1, by decide +kernel, by decide +kernel⟩

example : (List.range 3).map (mpiParseArgs (fun p => [.parsed 7, .callsError, .parsed 8].getD p .raises)) =
    [.returns 7, .returns 7, .returns 7] := by decide +kernel

end Verif
