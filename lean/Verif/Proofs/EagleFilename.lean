import Verif.Model.EagleFilename
import Verif.Spec.EagleFilename
import Mathlib.Data.List.Induction
import Mathlib.Data.List.TakeWhile
import Mathlib.Data.List.Nodup

set_option linter.unusedSectionVars false

namespace Verif

theorem decimal_eq (n : Nat) : decimal n = digitsOf n := by
  show Nat.toDigits 10 n = (n.repr).toList
  rw [Nat.toList_repr]

theorem decimal3_eq (n : Nat) : decimal3 n = threeDigits n := by
  have hpos : 0 < (Nat.toDigits 10 n).length := Nat.length_toDigits_pos
  have h1 := Nat.length_toDigits_le_iff (b := 10) (n := n) (k := 1) (by decide) (by decide)
  have h2 := Nat.length_toDigits_le_iff (b := 10) (n := n) (k := 2) (by decide) (by decide)
  have h3 := Nat.length_toDigits_le_iff (b := 10) (n := n) (k := 3) (by decide) (by decide)
  unfold decimal3 threeDigits
  rw [← decimal_eq]
  unfold decimal
  by_cases c1 : n < 10
  · rw [if_pos c1]
    have : (Nat.toDigits 10 n).length = 1 := by have := h1.2 (by omega); omega
    rw [this]; rfl
  · rw [if_neg c1]
    by_cases c2 : n < 100
    · rw [if_pos c2]
      have a : ¬ (Nat.toDigits 10 n).length ≤ 1 := fun h => c1 (by have := h1.1 h; omega)
      have b := h2.2 (by omega)
      have : (Nat.toDigits 10 n).length = 2 := by omega
      rw [this]; rfl
    · rw [if_neg c2]
      have a : ¬ (Nat.toDigits 10 n).length ≤ 2 := fun h => c2 (by have := h2.1 h; omega)
      have : 3 - (Nat.toDigits 10 n).length = 0 := by omega
      rw [this]; rfl

theorem digitsOf_digit {n : Nat} {c : Char} (h : c ∈ digitsOf n) : c.isDigit = true := by
  rw [← decimal_eq] at h
  exact Nat.isDigit_of_mem_toDigits (by decide) (by decide) h

theorem digitsOf_ne_nil (n : Nat) : digitsOf n ≠ [] := by
  rw [← decimal_eq]; exact Nat.toDigits_ne_nil

theorem dirNames_eq (n : String) : dget eagleDirNames n.toList = (eagleDirectory n).map String.toList := by
  have key : ∀ m : String, (m.toList == n.toList) = decide (n = m) := by
    intro m
    rw [Bool.eq_iff_iff, beq_iff_eq, decide_eq_true_iff, String.toList_inj]
    exact eq_comm
  unfold dget eagleDirNames eagleDirectory
  simp only [List.find?_cons, key, List.find?_nil]
  by_cases h1 : n = "eagle_subfind_tab"
  · subst h1; rfl
  by_cases h2 : n = "eagle_subfind_snip_tab"
  · subst h2; rfl
  by_cases h3 : n = "group_tab"
  · subst h3; rfl
  by_cases h4 : n = "group_snip_tab"
  · subst h4; rfl
  by_cases h5 : n = "eagle_subfind_particles"
  · subst h5; rfl
  by_cases h6 : n = "eagle_subfind_snip_particles"
  · subst h6; rfl
  by_cases h7 : n = "snapshot"
  · subst h7; rfl
  by_cases h8 : n = "snipshot"
  · subst h8; rfl
  simp only [h1, h2, h3, h4, h5, h6, h7, h8, decide_false, or_self, if_false, Option.map_none]

theorem globMatch_lit (s : Name) (p : GlobPattern) (x : Name) : globMatch (lit s ++ p) x = true ↔ ∃ y, x = s ++ y ∧ globMatch p y = true := by
  induction s generalizing x with
  | nil => exact ⟨fun h => ⟨x, rfl, h⟩, fun ⟨y, e, h⟩ => by rw [e]; exact h⟩
  | cons c s ih =>
    cases x with
    | nil =>
      constructor
      · intro h; exact absurd h (by simp [lit, globMatch])
      · rintro ⟨y, e, _⟩; cases e
    | cons d x =>
      have e : globMatch (lit (c :: s) ++ p) (d :: x) = (c == d && globMatch (lit s ++ p) x) := rfl
      rw [e, Bool.and_eq_true, beq_iff_eq, ih x]
      constructor
      · rintro ⟨rfl, y, rfl, h⟩; exact ⟨y, rfl, h⟩
      · rintro ⟨y, e, h⟩
        injection e with e1 e2
        exact ⟨e1.symm, y, e2, h⟩

theorem globMatch_label (p : GlobPattern) (x : Name) : globMatch (labelPattern ++ p) x = true ↔ ∃ z y, x = z ++ y ∧ LooksLikeLabel z ∧ globMatch p y = true := by
  constructor
  · intro h
    match x, h with
    | z :: a :: b :: c :: q :: d :: e :: f :: y, h =>
      have h' : ('z' == z && ('p' == q && globMatch p y)) = true := h
      simp only [Bool.and_eq_true, beq_iff_eq] at h'
      obtain ⟨rfl, rfl, h'⟩ := h'
      exact ⟨['z', a, b, c, 'p', d, e, f], y, rfl, ⟨[a, b, c], [d, e, f], rfl, rfl, rfl⟩, h'⟩
    | [], h => exact absurd h (by simp [labelPattern, globMatch])
    | [_], h => exact absurd h (by simp [labelPattern, globMatch])
    | [_, _], h => exact absurd h (by simp [labelPattern, globMatch])
    | [_, _, _], h => exact absurd h (by simp [labelPattern, globMatch])
    | [_, _, _, _], h => exact absurd h (by simp [labelPattern, globMatch])
    | [_, _, _, _, _], h => exact absurd h (by simp [labelPattern, globMatch])
    | [_, _, _, _, _, _], h => exact absurd h (by simp [labelPattern, globMatch])
    | [_, _, _, _, _, _, _], h => exact absurd h (by simp [labelPattern, globMatch])
  · rintro ⟨z, y, rfl, ⟨w, v, rfl, hw, hv⟩, h⟩
    match w, v, hw, hv with
    | [a, b, c], [d, e, f], _, _ => exact h

theorem globMatch_nil (x : Name) : globMatch [] x = true ↔ x = [] := by
  cases x with
  | nil => exact ⟨fun _ => rfl, fun _ => rfl⟩
  | cons c x => exact ⟨fun h => by simp [globMatch] at h, fun h => by cases h⟩

theorem globMatch_dir (dir : String) (s : Nat) (d : Name) :
    globMatch (dirPattern dir.toList s) d = true ↔ ∃ z, LooksLikeLabel z ∧ d = eagleDirFor dir s z := by
  unfold dirPattern
  rw [globMatch_lit]
  constructor
  · rintro ⟨y, rfl, h⟩
    rw [← List.append_nil labelPattern, globMatch_label] at h
    obtain ⟨z, y', rfl, hz, h⟩ := h
    rw [globMatch_nil] at h
    subst h
    refine ⟨z, hz, ?_⟩
    unfold eagleDirFor
    rw [decimal3_eq]
    simp only [List.append_assoc, List.cons_append, List.nil_append, List.append_nil]
  · rintro ⟨z, hz, rfl⟩
    refine ⟨z, ?_, ?_⟩
    · unfold eagleDirFor
      rw [decimal3_eq]
      simp only [List.append_assoc, List.cons_append, List.nil_append]
    · rw [← List.append_nil labelPattern, globMatch_label]
      exact ⟨z, [], (List.append_nil z).symm, hz, rfl⟩

theorem globMatch_file (n : String) (s i : Nat) (f : Name) :
    globMatch (filePattern n.toList s i) f = true ↔ ∃ z, LooksLikeLabel z ∧ f = eagleFileFor n s i z := by
  unfold filePattern
  rw [List.append_assoc, globMatch_lit]
  constructor
  · rintro ⟨y, rfl, h⟩
    rw [globMatch_label] at h
    obtain ⟨z, y', rfl, hz, h⟩ := h
    rw [← List.append_nil (lit _), globMatch_lit] at h
    obtain ⟨y'', rfl, h⟩ := h
    rw [globMatch_nil] at h
    subst h
    refine ⟨z, hz, ?_⟩
    unfold eagleFileFor
    rw [decimal3_eq, decimal_eq]
    simp only [List.append_assoc, List.cons_append, List.nil_append, List.append_nil]
  · rintro ⟨z, hz, rfl⟩
    refine ⟨z ++ ('.' :: decimal i ++ ".hdf5".toList), ?_, ?_⟩
    · unfold eagleFileFor
      rw [decimal3_eq, decimal_eq]
      simp only [List.append_assoc, List.cons_append, List.nil_append]
    · rw [globMatch_label]
      refine ⟨z, _, rfl, hz, ?_⟩
      rw [← List.append_nil (lit _), globMatch_lit]
      exact ⟨[], (List.append_nil _).symm, rfl⟩

/-- The end of a file name determines the label. -/
theorem label_inj {a l ds a' l' ds' : Name} (hds : ∀ c ∈ ds, c.isDigit = true) (hds' : ∀ c ∈ ds', c.isDigit = true) (hl : l.length = l'.length)
    (e : a ++ l ++ '.' :: ds = a' ++ l' ++ '.' :: ds') : a = a' ∧ l = l' ∧ ds = ds' := by
  have er := congrArg List.reverse e
  simp only [List.reverse_append, List.reverse_cons, List.append_assoc, List.singleton_append, List.cons_append, List.nil_append] at er
  have tw : ∀ (x y : Name), (∀ c ∈ x, c.isDigit = true) → (x.reverse ++ '.' :: y).takeWhile Char.isDigit = x.reverse := by
    intro x y hx
    rw [List.takeWhile_append_of_pos (fun c hc => hx c (List.mem_reverse.1 hc)), List.takeWhile_cons_of_neg (by decide), List.append_nil]
  have e1 : ds.reverse = ds'.reverse := by
    rw [← tw ds (l.reverse ++ a.reverse) hds, ← tw ds' (l'.reverse ++ a'.reverse) hds', er]
  rw [e1] at er
  have e2 := List.append_cancel_left er
  injection e2 with _ e3
  have e4 := List.append_inj e3 (by rw [List.length_reverse, List.length_reverse, hl])
  exact ⟨List.reverse_injective e4.2, List.reverse_injective e4.1, List.reverse_injective e1⟩

theorem reTail_some {t g : Name} (h : reTail t = some g) : IsRedshiftLabel g ∧ ∃ ds : Name, ds ≠ [] ∧ (∀ c ∈ ds, c.isDigit = true) ∧
    (t = g ++ '.' :: ds ++ ".hdf5".toList ∨ t = g ++ '.' :: ds ++ ".hdf5\n".toList) := by
  unfold reTail at h
  simp only [] at h
  split at h
  · next z a b c p d e f hl =>
    split at h
    · next hc =>
      obtain ⟨rfl, ha, hb, hc', rfl, hd, he, hf⟩ := hc
      split at h
      · next r hr =>
        split at h
        · next hh =>
          injection h with h
          have hg : g = ['z', a, b, c, 'p', d, e, f] := by rw [← h, hl]
          have ht : t = g ++ '.' :: r := by rw [← h, ← hr, List.take_append_drop]
          have hrr : r = r.takeWhile reDigit ++ r.dropWhile reDigit := (List.takeWhile_append_dropWhile).symm
          refine ⟨⟨[a, b, c], [d, e, f], hg, rfl, rfl, ?_, ?_⟩, r.takeWhile reDigit, hh.1, ?_, ?_⟩
          · intro x hx
            simp only [List.mem_cons, List.not_mem_nil, or_false] at hx
            rcases hx with rfl | rfl | rfl <;> assumption
          · intro x hx
            simp only [List.mem_cons, List.not_mem_nil, or_false] at hx
            rcases hx with rfl | rfl | rfl <;> assumption
          · intro x hx
            exact List.mem_takeWhile_imp hx
          · rcases hh.2 with h2 | h2
            · left
              rw [ht, List.append_assoc, List.cons_append, ← h2]
              exact congrArg (fun r => g ++ '.' :: r) hrr
            · right
              rw [ht, List.append_assoc, List.cons_append, ← h2]
              exact congrArg (fun r => g ++ '.' :: r) hrr
        · cases h
      · cases h
    · cases h
  · cases h

theorem reTail_of {g ds : Name} (hg : IsRedshiftLabel g) (hne : ds ≠ []) (hds : ∀ c ∈ ds, c.isDigit = true) :
    reTail (g ++ '.' :: ds ++ ".hdf5".toList) = some g := by
  obtain ⟨w, v, rfl, hw, hv, hdw, hdv⟩ := hg
  match w, v, hw, hv, hdw, hdv with
  | [a, b, c], [d, e, f], _, _, hdw, hdv =>
    have tw : (ds ++ ".hdf5".toList).takeWhile reDigit = ds := by
      rw [List.takeWhile_append_of_pos (p := reDigit) hds]
      show ds ++ List.takeWhile reDigit ('.' :: "hdf5".toList) = ds
      rw [List.takeWhile_cons_of_neg (by decide), List.append_nil]
    have dw : (ds ++ ".hdf5".toList).dropWhile reDigit = ".hdf5".toList := by
      rw [List.dropWhile_append_of_pos (p := reDigit) hds]
      show List.dropWhile reDigit ('.' :: "hdf5".toList) = _
      rw [List.dropWhile_cons_of_neg (by decide)]
      rfl
    have hd : ∀ x, x ∈ [a, b, c] → reDigit x = true := hdw
    have hd' : ∀ x, x ∈ [d, e, f] → reDigit x = true := hdv
    show (if 'z' = 'z' ∧ reDigit a = true ∧ reDigit b = true ∧ reDigit c = true ∧ 'p' = 'p' ∧ reDigit d = true ∧ reDigit e = true ∧ reDigit f = true then
      (if (ds ++ ".hdf5".toList).takeWhile reDigit ≠ [] ∧ ((ds ++ ".hdf5".toList).dropWhile reDigit = ".hdf5".toList ∨
        (ds ++ ".hdf5".toList).dropWhile reDigit = ".hdf5\n".toList) then some (['z', a, b, c, 'p', d, e, f] : Name) else none) else none) = _
    rw [if_pos ⟨rfl, hd a (by simp), hd b (by simp), hd c (by simp), rfl, hd' d (by simp), hd' e (by simp), hd' f (by simp)⟩,
      if_pos ⟨by rw [tw]; exact hne, Or.inl dw⟩]
    rfl

theorem reMatch_some {s g : Name} (h : reMatch s = some g) : ∃ x t, s = x ++ t ∧ reTail t = some g := by
  induction s with
  | nil => exact ⟨[], [], rfl, h⟩
  | cons c cs ih =>
    unfold reMatch at h
    split at h
    · exact ⟨[], c :: cs, rfl, h⟩
    · split at h
      · next g' hg =>
        injection h with h
        subst h
        obtain ⟨x, t, e, ht⟩ := ih hg
        exact ⟨c :: x, t, by rw [e]; rfl, ht⟩
      · exact ⟨[], c :: cs, rfl, h⟩

theorem reMatch_isSome {x t g : Name} (hx : '\n' ∉ x) (h : reTail t = some g) : ∃ g', reMatch (x ++ t) = some g' := by
  induction x with
  | nil =>
    cases t with
    | nil => exact ⟨g, h⟩
    | cons c t =>
      show ∃ g', reMatch (c :: t) = some g'
      unfold reMatch
      split
      · exact ⟨g, h⟩
      · split
        · next g' hg => exact ⟨g', rfl⟩
        · exact ⟨g, h⟩
  | cons c x ih =>
    obtain ⟨g', hg⟩ := ih (fun hm => hx (List.mem_cons_of_mem _ hm))
    show ∃ g', reMatch (c :: (x ++ t)) = some g'
    unfold reMatch
    rw [if_neg (fun e => hx (by rw [e]; exact List.mem_cons_self)), hg]
    exact ⟨g', rfl⟩

theorem IsRedshiftLabel.length {z : Name} (h : IsRedshiftLabel z) : z.length = 8 := by
  obtain ⟨w, v, rfl, hw, hv, _, _⟩ := h
  simp only [List.length_append, List.length_cons]; omega

theorem LooksLikeLabel.length {z : Name} (h : LooksLikeLabel z) : z.length = 8 := by
  obtain ⟨w, v, rfl, hw, hv⟩ := h
  simp only [List.length_append, List.length_cons]; omega

theorem IsRedshiftLabel.looks {z : Name} (h : IsRedshiftLabel z) : LooksLikeLabel z := by
  obtain ⟨w, v, e, hw, hv, _, _⟩ := h
  exact ⟨w, v, e, hw, hv⟩

/-- The label found in a name which ends like that of an output file is the label in that name. -/
theorem reMatch_label {x z g ds : Name} (hz : z.length = 8) (hds : ∀ c ∈ ds, c.isDigit = true)
    (h : reMatch (x ++ z ++ '.' :: ds ++ ".hdf5".toList) = some g) : g = z ∧ IsRedshiftLabel z := by
  obtain ⟨x', t, e, ht⟩ := reMatch_some h
  obtain ⟨hg, ds', hne, hds', h' | h'⟩ := reTail_some ht
  · rw [h', ← List.append_assoc, ← List.append_assoc] at e
    have e' := List.append_cancel_right e
    obtain ⟨_, e2, _⟩ := label_inj hds hds' (by rw [hz, hg.length]) e'
    exact ⟨e2.symm, by rw [e2]; exact hg⟩
  · exfalso
    rw [h', ← List.append_assoc] at e
    have := congrArg List.getLast? e
    have e1 : ".hdf5".toList = ".hdf".toList ++ ['5'] := rfl
    have e2 : ".hdf5\n".toList = ".hdf5".toList ++ ['\n'] := rfl
    rw [e2, e1, ← List.append_assoc, ← List.append_assoc, List.getLast?_concat] at this
    rw [List.getLast?_concat] at this
    exact absurd this (by decide)

theorem reMatch_of {x z ds : Name} (hx : '\n' ∉ x) (hz : IsRedshiftLabel z) (hne : ds ≠ []) (hds : ∀ c ∈ ds, c.isDigit = true) :
    reMatch (x ++ z ++ '.' :: ds ++ ".hdf5".toList) = some z := by
  obtain ⟨g, hg⟩ := reMatch_isSome hx (reTail_of hz hne hds)
  have e : x ++ (z ++ '.' :: ds ++ ".hdf5".toList) = x ++ z ++ '.' :: ds ++ ".hdf5".toList := by simp only [List.append_assoc]
  rw [e] at hg
  rw [hg, (reMatch_label hz.length hds hg).1]

/-- The part of a path before its last label -/
def pathStem (b : Name) (dir n : String) (s : Nat) (z : Name) : Name :=
  b ++ ['/'] ++ eagleDirFor dir s z ++ ['/'] ++ (n.toList ++ ['_'] ++ threeDigits s ++ ['_'])

theorem path_split (b : Name) (dir n : String) (s i : Nat) (z z' : Name) :
    b ++ '/' :: eagleDirFor dir s z ++ '/' :: eagleFileFor n s i z' = pathStem b dir n s z ++ z' ++ '.' :: digitsOf i ++ ".hdf5".toList := by
  unfold pathStem eagleFileFor
  simp only [List.append_assoc, List.cons_append, List.nil_append]

theorem threeDigits_digit {n : Nat} {c : Char} (h : c ∈ threeDigits n) : c.isDigit = true := by
  unfold threeDigits at h
  split at h
  · simp only [List.mem_cons] at h
    rcases h with rfl | rfl | h
    · decide
    · decide
    · exact digitsOf_digit h
  · split at h
    · simp only [List.mem_cons] at h
      rcases h with rfl | h
      · decide
      · exact digitsOf_digit h
    · exact digitsOf_digit h

theorem directory_plain {n dir : String} (h : eagleDirectory n = some dir) : '\n' ∉ n.toList ∧ '\n' ∉ dir.toList := by
  unfold eagleDirectory at h
  split at h
  · next hh => injection h with h; subst h; rcases hh with rfl | rfl <;> exact ⟨by decide +kernel, by decide +kernel⟩
  split at h
  · next hh => injection h with h; subst h; rcases hh with rfl | rfl <;> exact ⟨by decide +kernel, by decide +kernel⟩
  split at h
  · next hh => injection h with h; subst h; subst hh; exact ⟨by decide +kernel, by decide +kernel⟩
  split at h
  · next hh => injection h with h; subst h; subst hh; exact ⟨by decide +kernel, by decide +kernel⟩
  split at h
  · next hh => injection h with h; subst h; rcases hh with rfl | rfl <;> exact ⟨by decide +kernel, by decide +kernel⟩
  · cases h

theorem stem_plain {b : Name} {n dir : String} {s : Nat} {z : Name} (hd : eagleDirectory n = some dir) (hb : '\n' ∉ b) (hz : IsRedshiftLabel z) :
    '\n' ∉ pathStem b dir n s z := by
  obtain ⟨h1, h2⟩ := directory_plain hd
  have h3 : '\n' ∉ threeDigits s := fun h => absurd (threeDigits_digit h) (by decide)
  have h4 : '\n' ∉ z := by
    obtain ⟨w, v, rfl, _, _, hw, hv⟩ := hz
    intro h
    simp only [List.mem_append, List.mem_cons] at h
    rcases h with (h | h) | h | h
    · exact absurd h (by decide)
    · exact absurd (hw _ h) (by decide)
    · exact absurd h (by decide)
    · exact absurd (hv _ h) (by decide)
  intro h
  unfold pathStem eagleDirFor at h
  simp only [List.mem_append, List.mem_singleton] at h
  have d1 : ('\n' : Char) ≠ '/' := by decide
  have d2 : ('\n' : Char) ≠ '_' := by decide
  simp only [hb, h1, h2, h3, h4, d1, d2, or_self] at h

/-- The result of `glob` in a file system with one label for each output -/
theorem glob_present {fs : EagleFS} {label : Name → String → Nat → Name} (hfs : OneLabel fs label) {b : Name} {n dir : String} {s i : Nat}
    (hd : eagleDirectory n = some dir) :
    globFiles fs b (dirPattern dir.toList s) (filePattern n.toList s i) =
      if (eagleDirFor dir s (label b n s), eagleFileFor n s i (label b n s)) ∈ fs b then [eaglePath b dir n s i (label b n s)] else [] := by
  have hp : ∀ e : Name × Name, e ∈ fs b → ((globMatch (dirPattern dir.toList s) e.1 && globMatch (filePattern n.toList s i) e.2) = true ↔
      e = (eagleDirFor dir s (label b n s), eagleFileFor n s i (label b n s))) := by
    intro e he
    rw [Bool.and_eq_true, globMatch_dir, globMatch_file]
    constructor
    · rintro ⟨⟨z, hz, e1⟩, z', hz', e2⟩
      have : e = (eagleDirFor dir s z, eagleFileFor n s i z') := Prod.ext e1 e2
      rw [this] at he
      obtain ⟨r1, r2⟩ := hfs.only b n dir s i z z' hd hz hz' he
      rw [this, r1, r2]
    · rintro rfl
      exact ⟨⟨_, (hfs.isLabel b n s).looks, rfl⟩, _, (hfs.isLabel b n s).looks, rfl⟩
  have hf : (fs b).filter (fun e => globMatch (dirPattern dir.toList s) e.1 && globMatch (filePattern n.toList s i) e.2) =
      (fs b).filter (fun e => e == (eagleDirFor dir s (label b n s), eagleFileFor n s i (label b n s))) := by
    apply List.filter_congr
    intro e he
    rw [Bool.eq_iff_iff, hp e he, beq_iff_eq]
  unfold globFiles
  rw [hf, List.filter_beq, List.map_replicate]
  split
  · next hm =>
    rw [List.count_eq_one_of_mem (hfs.nodup b) hm]
    show [_] = [_]
    unfold eaglePath
    simp only [List.append_assoc, List.cons_append, List.nil_append]
  · next hm =>
    rw [List.count_eq_zero_of_not_mem hm]
    rfl

/-- Contents of the cache in terms of the calls made -/
def CacheRight (label : Name → String → Nat → Name) (calls : List (EagleFS × EagleCall)) (cache : EagleCache) : Prop :=
  ∀ b (n : String) s, cache.get (b, n.toList, s) =
    open Classical in if ∃ c ∈ calls, c.2.basedir = b ∧ c.2.basename = n.toList ∧ c.2.isnap = s ∧ EaglePresent c.1 label b n s c.2.ifile then some (label b n s) else none

theorem eagleFilename_step {fs : EagleFS} {label : Name → String → Nat → Name} (hfs : OneLabel fs label) {b : Name} {n dir : String} {s i : Nat}
    (hd : eagleDirectory n = some dir) (hb : '\n' ∉ b) (cache : EagleCache) :
    (cache.get (b, n.toList, s) = none → EaglePresent fs label b n s i →
      eagleFilename fs cache ⟨b, n.toList, s, i⟩ = (.ok (eaglePath b dir n s i (label b n s)), ((b, n.toList, s), label b n s) :: cache)) ∧
    (cache.get (b, n.toList, s) = none → ¬ EaglePresent fs label b n s i → eagleFilename fs cache ⟨b, n.toList, s, i⟩ = (.error .ioError, cache)) ∧
    (cache.get (b, n.toList, s) = some (label b n s) → eagleFilename fs cache ⟨b, n.toList, s, i⟩ = (.ok (eaglePath b dir n s i (label b n s)), cache)) := by
  have hdir : dget eagleDirNames n.toList = some dir.toList := by rw [dirNames_eq, hd]; rfl
  have hpres : EaglePresent fs label b n s i ↔ (eagleDirFor dir s (label b n s), eagleFileFor n s i (label b n s)) ∈ fs b := by
    constructor
    · rintro ⟨dir', hd', h⟩
      rw [hd] at hd'
      injection hd' with hd'
      rw [hd']; exact h
    · intro h; exact ⟨dir, hd, h⟩
  have hpath : eaglePath b dir n s i (label b n s) = pathStem b dir n s (label b n s) ++ label b n s ++ '.' :: digitsOf i ++ ".hdf5".toList := by
    rw [← path_split]
    unfold eaglePath
    simp only [List.append_assoc, List.cons_append, List.nil_append]
  refine ⟨?_, ?_, ?_⟩
  · intro hc hp
    unfold eagleFilename
    simp only [hdir, hc]
    rw [glob_present hfs hd, if_pos (hpres.1 hp)]
    simp only []
    have hre : reMatch (eaglePath b dir n s i (label b n s)) = some (label b n s) := by
      rw [hpath]
      exact reMatch_of (stem_plain hd hb (hfs.isLabel b n s)) (hfs.isLabel b n s) (digitsOf_ne_nil i) (fun c hc => digitsOf_digit hc)
    rw [hre]
  · intro hc hp
    unfold eagleFilename
    simp only [hdir, hc]
    rw [glob_present hfs hd, if_neg (fun h => hp (hpres.2 h))]
  · intro hc
    unfold eagleFilename
    simp only [hdir, hc]
    refine Prod.ext ?_ rfl
    refine congrArg Except.ok ?_
    unfold eaglePath eagleDirFor eagleFileFor
    rw [decimal3_eq, decimal_eq]
    simp only [List.append_assoc, List.cons_append, List.nil_append]

theorem cacheGet_cons (cache : EagleCache) (k key : EagleKey) (z : Name) :
    EagleCache.get ((k, z) :: cache) key = if k = key then some z else EagleCache.get cache key := by
  unfold EagleCache.get
  rw [List.find?_cons]
  by_cases h : k = key
  · have : (k == key) = true := by rw [beq_iff_eq]; exact h
    simp only [this, if_pos h, Option.map_some]
  · have : (k == key) = false := by rw [beq_eq_false_iff_ne]; exact h
    simp only [this, if_neg h]

theorem eagleFilename_unknown {fs : EagleFS} {cache : EagleCache} {q : EagleCall} {n : String} (hn : q.basename = n.toList) (hd : eagleDirectory n = none) :
    eagleFilename fs cache q = (.error .keyError, cache) := by
  unfold eagleFilename
  rw [hn, dirNames_eq, hd]
  rfl

theorem cache_right {label : Name → String → Nat → Name} {calls : List (EagleFS × EagleCall)} (hfs : ∀ c ∈ calls, OneLabel c.1 label)
    (hb : ∀ c ∈ calls, '\n' ∉ c.2.basedir) : CacheRight label calls (eagleCacheAfter calls) := by
  classical
  induction calls using List.reverseRecOn with
  | nil =>
    intro b n s
    rw [if_neg (by rintro ⟨c, hc, _⟩; cases hc)]
    rfl
  | append_singleton calls c ih =>
    have ih' := ih (fun d hd => hfs d (List.mem_append_left _ hd)) (fun d hd => hb d (List.mem_append_left _ hd))
    have e : eagleCacheAfter (calls ++ [c]) = (eagleFilename c.1 (eagleCacheAfter calls) c.2).2 := by
      unfold eagleCacheAfter
      rw [List.foldl_append]
      rfl
    rw [e]
    generalize eagleCacheAfter calls = cache at ih' ⊢
    obtain ⟨fs, b0, n0, s0, i0⟩ := c
    have hfs0 : OneLabel fs label := hfs (fs, ⟨b0, n0, s0, i0⟩) (by simp)
    have hb0 : '\n' ∉ b0 := hb (fs, ⟨b0, n0, s0, i0⟩) (by simp)
    obtain ⟨n1, rfl⟩ : ∃ n1 : String, n0 = n1.toList := ⟨String.ofList n0, by rw [String.toList_ofList]⟩
    have split : ∀ b (n : String) s, (∃ c ∈ calls ++ [((fs, ⟨b0, n1.toList, s0, i0⟩) : EagleFS × EagleCall)], c.2.basedir = b ∧ c.2.basename = n.toList ∧ c.2.isnap = s ∧ EaglePresent c.1 label b n s c.2.ifile) ↔
        (∃ c ∈ calls, c.2.basedir = b ∧ c.2.basename = n.toList ∧ c.2.isnap = s ∧ EaglePresent c.1 label b n s c.2.ifile) ∨
        (b0 = b ∧ n1 = n ∧ s0 = s ∧ EaglePresent fs label b n s i0) := by
      intro b n s
      constructor
      · rintro ⟨d, hd, h⟩
        rcases List.mem_append.1 hd with hd | hd
        · exact Or.inl ⟨d, hd, h⟩
        · rw [List.mem_singleton] at hd
          subst hd
          exact Or.inr ⟨h.1, String.toList_inj.1 h.2.1, h.2.2.1, h.2.2.2⟩
      · rintro (⟨d, hd, h⟩ | ⟨h1, h2, h3, h4⟩)
        · exact ⟨d, List.mem_append_left _ hd, h⟩
        · exact ⟨(fs, ⟨b0, n1.toList, s0, i0⟩), by simp, h1, by rw [h2], h3, h4⟩
    by_cases hpres : EaglePresent fs label b0 n1 s0 i0
    · have hpres' := hpres
      obtain ⟨dir, hd, _⟩ := hpres'
      obtain ⟨st1, st2, st3⟩ := eagleFilename_step (i := i0) hfs0 hd hb0 cache (s := s0)
      have key : cache.get (b0, n1.toList, s0) = none ∨ cache.get (b0, n1.toList, s0) = some (label b0 n1 s0) := by
        rw [ih' b0 n1 s0]
        split
        · exact Or.inr rfl
        · exact Or.inl rfl
      intro b n s
      rcases key with hk | hk
      · rw [st1 hk hpres]
        show EagleCache.get (((b0, n1.toList, s0), label b0 n1 s0) :: cache) (b, n.toList, s) = _
        rw [cacheGet_cons]
        by_cases hkey : (b0, n1.toList, s0) = (b, n.toList, s)
        · have hk1 : b0 = b := congrArg Prod.fst hkey
          have hk2 : n1 = n := String.toList_inj.1 (congrArg (fun x => x.2.1) hkey)
          have hk3 : s0 = s := congrArg (fun x => x.2.2) hkey
          subst hk1; subst hk2; subst hk3
          rw [if_pos rfl, if_pos ((split b0 n1 s0).2 (Or.inr ⟨rfl, rfl, rfl, hpres⟩))]
        · rw [if_neg hkey, ih' b n s]
          have : (∃ c ∈ calls, c.2.basedir = b ∧ c.2.basename = n.toList ∧ c.2.isnap = s ∧ EaglePresent c.1 label b n s c.2.ifile) ↔
              (∃ c ∈ calls ++ [((fs, ⟨b0, n1.toList, s0, i0⟩) : EagleFS × EagleCall)], c.2.basedir = b ∧ c.2.basename = n.toList ∧ c.2.isnap = s ∧ EaglePresent c.1 label b n s c.2.ifile) := by
            rw [split b n s]
            constructor
            · exact Or.inl
            · rintro (h | ⟨h1, h2, h3, _⟩)
              · exact h
              · exact absurd (by rw [h1, h2, h3]) hkey
          exact if_congr this rfl rfl
      · rw [st3 hk, ih' b n s]
        have : (∃ c ∈ calls, c.2.basedir = b ∧ c.2.basename = n.toList ∧ c.2.isnap = s ∧ EaglePresent c.1 label b n s c.2.ifile) ↔
            (∃ c ∈ calls ++ [((fs, ⟨b0, n1.toList, s0, i0⟩) : EagleFS × EagleCall)], c.2.basedir = b ∧ c.2.basename = n.toList ∧ c.2.isnap = s ∧ EaglePresent c.1 label b n s c.2.ifile) := by
          rw [split b n s]
          constructor
          · exact Or.inl
          · rintro (h | ⟨h1, h2, h3, h4⟩)
            · exact h
            · subst h1; subst h2; subst h3
              have := ih' b0 n1 s0
              rw [hk] at this
              by_contra hno
              rw [if_neg hno] at this
              cases this
        exact if_congr this rfl rfl
    · have hsame : (eagleFilename fs cache ⟨b0, n1.toList, s0, i0⟩).2 = cache := by
        cases hd : eagleDirectory n1 with
        | none => rw [eagleFilename_unknown rfl hd]
        | some dir =>
          obtain ⟨st1, st2, st3⟩ := eagleFilename_step (i := i0) hfs0 hd hb0 cache (s := s0)
          have key : cache.get (b0, n1.toList, s0) = none ∨ cache.get (b0, n1.toList, s0) = some (label b0 n1 s0) := by
            rw [ih' b0 n1 s0]
            split
            · exact Or.inr rfl
            · exact Or.inl rfl
          rcases key with hk | hk
          · rw [st2 hk hpres]
          · rw [st3 hk]
      rw [hsame]
      intro b n s
      rw [ih' b n s]
      have : (∃ c ∈ calls, c.2.basedir = b ∧ c.2.basename = n.toList ∧ c.2.isnap = s ∧ EaglePresent c.1 label b n s c.2.ifile) ↔
          (∃ c ∈ calls ++ [((fs, ⟨b0, n1.toList, s0, i0⟩) : EagleFS × EagleCall)], c.2.basedir = b ∧ c.2.basename = n.toList ∧ c.2.isnap = s ∧ EaglePresent c.1 label b n s c.2.ifile) := by
        rw [split b n s]
        constructor
        · exact Or.inl
        · rintro (h | ⟨h1, h2, h3, h4⟩)
          · exact h
          · subst h1; subst h2; subst h3
            exact absurd h4 hpres
      exact if_congr this rfl rfl

end Verif
