import Verif.Proofs.MultiFileRead
import Verif.Model.MultiFileInit

namespace Verif.MultiFileInit

open Verif.MultiFileRead

/-- All ranks know all files, each file is read by some rank, and the files of a rank come before those of the next. -/
def Good (P : Nat) (names : List Name) (idx : List Nat) (r : Nat → Except Err MultiFile) : Prop :=
  ∃ lay : Nat → FileLayout, (∀ p < P, r p = .ok ⟨names, idx, lay p⟩ ∧ multiFileLayout names.length P p = .ok (lay p)) ∧
    (∀ f < names.length, ∃ p < P, ReadsFile names.length P p f) ∧ (∀ p < P, ∀ f, ReadsFile names.length P p f → f < names.length) ∧
    ∀ p q, p < q → q < P → ∀ f g, ReadsFile names.length P p f → ReadsFile names.length P q g → f ≤ g

theorem layout_ok {P F : Nat} (hF : 0 < F) {p : Nat} (hp : p < P) : ∃ l, multiFileLayout F P p = .ok l := by
  by_cases h : P ≤ F
  · obtain ⟨num, -, -, h3⟩ := layout_independent (by omega) h
    exact ⟨_, h3 p hp⟩
  · obtain ⟨f, k, n, h1, -⟩ := C27_collective_total hF (show F < P by omega) hp
    exact ⟨_, h1⟩

theorem finish_good {P : Nat} (hP : 0 < P) {names : List Name} (hn : 0 < names.length) (idx : List Nat) : Good P names idx (finish P (.ok names) idx) := by
  have h := fun p (hp : p < P) => layout_ok hn hp
  haveI : Nonempty FileLayout := ⟨.independent 0 0⟩
  choose! lay hlay using h
  obtain ⟨h1, h2, h3⟩ := readsFile_order hP hn
  refine ⟨lay, fun p hp => ⟨?_, hlay p hp⟩, h1, h2, ?_⟩
  · unfold finish
    simp only [Except.andThen, hlay p hp]
  · exact h3

/-- C107: with a format string, the number of files in the attribute (or, if no attribute is named, in the dataset) of the file with number zero gives the files with numbers below it. -/
theorem C107_format {P : Nat} (hP : 0 < P) {substitute : Name → Nat → Except Err Name} {fs : Name → Option FirstFile} {fmt : Name} {out : Nat → Name} {F : Nat} (hF : 0 < F)
    (hout : ∀ i < F, substitute fmt i = .ok (out i)) {first : FirstFile} (hfs : fs (out 0) = some first) {attr : Option (Name × Name)} {dataset : Option Name}
    (hnr : (∃ o a, attr = some (o, a) ∧ first.attr o a = .ok F) ∨ (attr = none ∧ ∃ d, dataset = some d ∧ first.dataset d = .ok F)) :
    Good P ((List.range F).map out) (List.range F) (multiFileInit P substitute fs (.format fmt) attr dataset none) := by
  have h1 : readFileIdx substitute fs fmt attr dataset = .ok (List.range F) := by
    unfold readFileIdx
    rw [hout 0 hF]
    simp only [Except.andThen, hfs]
    rcases hnr with ⟨o, a, rfl, h⟩ | ⟨rfl, d, rfl, h⟩ <;> simp [h, arange]
  have h2 : (List.range F).mapM (substitute fmt) = .ok ((List.range F).map out) := mapM_ok (fun i hi => hout i (List.mem_range.1 hi))
  have : multiFileInit P substitute fs (.format fmt) attr dataset none = finish P (.ok ((List.range F).map out)) (List.range F) := by
    funext p
    simp only [multiFileInit, h1, h2]
  rw [this]
  exact finish_good hP (by simpa using hF) _

/-- C107: with a format string and `file_idx` these are the numbers of the files, and no file is opened. -/
theorem C107_indexes {P : Nat} (hP : 0 < P) {substitute : Name → Nat → Except Err Name} (fs : Name → Option FirstFile) {fmt : Name} {out : Nat → Name} {idx : List Nat} (hidx : idx ≠ [])
    (hout : ∀ i ∈ idx, substitute fmt i = .ok (out i)) (attr : Option (Name × Name)) (dataset : Option Name) :
    Good P (idx.map out) idx (multiFileInit P substitute fs (.format fmt) attr dataset (some idx)) := by
  have h2 : idx.mapM (substitute fmt) = .ok (idx.map out) := mapM_ok hout
  have : multiFileInit P substitute fs (.format fmt) attr dataset (some idx) = finish P (.ok (idx.map out)) idx := by
    funext p
    simp only [multiFileInit, h2]
  rw [this]
  exact finish_good hP (by simpa using List.length_pos_iff.2 hidx) _

/-- C107: with a sequence of names, these are the files and their numbers are the places in the sequence. -/
theorem C107_sequence {P : Nat} (hP : 0 < P) (substitute : Name → Nat → Except Err Name) (fs : Name → Option FirstFile) {l : List Name} (hl : l ≠ []) (attr : Option (Name × Name)) (dataset : Option Name) :
    Good P l (List.range l.length) (multiFileInit P substitute fs (.sequence l) attr dataset none) := by
  exact finish_good hP (List.length_pos_iff.2 hl) _

/-- File numbers given together with a sequence of names are ignored: numbers returned by `read` are the places in the sequence. -/
theorem C107_ignored_defect (P : Nat) (substitute : Name → Nat → Except Err Name) (fs : Name → Option FirstFile) (l : List Name) (attr : Option (Name × Name)) (dataset : Option Name) (idx : List Nat) :
    multiFileInit P substitute fs (.sequence l) attr dataset (some idx) = multiFileInit P substitute fs (.sequence l) attr dataset none ∧
      ∀ p m, multiFileInit P substitute fs (.sequence l) attr dataset (some idx) p = .ok m → m.all_file_indexes = List.range l.length := by
  refine ⟨rfl, ?_⟩
  intro p m h
  simp only [multiFileInit, finish, Except.andThen] at h
  cases hl : multiFileLayout l.length P p with
  | error e => rw [hl] at h; cases h
  | ok x => rw [hl] at h; cases h; rfl

/-- If the number of files is not found - there is no first file, or no argument says where it is - the first rank raises an exception and all other ranks wait forever. -/
theorem C107_hang_defect {P : Nat} {substitute : Name → Nat → Except Err Name} {fs : Name → Option FirstFile} {fmt name : Name} (h0 : substitute fmt 0 = .ok name) {attr : Option (Name × Name)}
    {dataset : Option Name} (h : fs name = none ∨ (attr = none ∧ dataset = none)) :
    (∃ e, e ≠ .deadlock ∧ multiFileInit P substitute fs (.format fmt) attr dataset none 0 = .error e) ∧
      ∀ p, 0 < p → multiFileInit P substitute fs (.format fmt) attr dataset none p = .error .deadlock := by
  have : ∃ e, e ≠ .deadlock ∧ readFileIdx substitute fs fmt attr dataset = .error e := by
    unfold readFileIdx
    rw [h0]
    simp only [Except.andThen]
    rcases h with h | ⟨rfl, rfl⟩
    · exact ⟨.ioError, by decide, by rw [h]⟩
    · cases fs name with
      | none => exact ⟨.ioError, by decide, rfl⟩
      | some f => exact ⟨.other, by decide, rfl⟩
  obtain ⟨e, he, h⟩ := this
  refine ⟨⟨e, he, by simp [multiFileInit, h]⟩, ?_⟩
  intro p hp
  simp [multiFileInit, h, show p ≠ 0 by omega]

/-- An empty set of files is not an error with a message: the division by the number of files fails. -/
theorem C107_no_files_defect {P : Nat} (hP : 0 < P) (substitute : Name → Nat → Except Err Name) (fs : Name → Option FirstFile) (attr : Option (Name × Name)) (dataset : Option Name)
    (file_idx : Option (List Nat)) (p : Nat) : multiFileInit P substitute fs (.sequence []) attr dataset file_idx p = .error .zeroDivision := by
  simp only [multiFileInit, finish, Except.andThen, multiFileLayout, List.length_nil]
  rw [if_neg (by omega)]
  simp [assignFiles]

namespace ExMultiFileInit

def subst : Name → Nat → Except Err Name := fun fmt i => .ok (fmt ++ [Char.ofNat (48 + i)])
def fs : Name → Option FirstFile := fun n => if n = ['f', '0'] then some ⟨fun _ _ => .ok 3, fun _ => .error .keyError⟩ else none

/-- Two ranks and three files -/
example : multiFileInit 2 subst fs (.format ['f']) (some (['H'], ['N'])) none none 1 = .ok ⟨[['f', '0'], ['f', '1'], ['f', '2']], [0, 1, 2], .independent 2 1⟩ := by decide +kernel
/-- Four ranks and two files -/
example : multiFileInit 4 subst fs (.format ['f']) none none (some [7, 5]) 3 = .ok ⟨[['f', '7'], ['f', '5']], [7, 5], .collective 1 1 2⟩ := by decide +kernel
example : multiFileInit 2 subst fs (.format ['g']) (some (['H'], ['N'])) none none 1 = .error .deadlock := by decide +kernel

end ExMultiFileInit

end Verif.MultiFileInit
