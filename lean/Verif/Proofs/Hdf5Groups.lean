import Verif.Proofs.Hdf5Table
import Verif.Proofs.SwiftWrapper

/-!
Proofs about groups and attributes of the Fortran wrapper of HDF5
-/

namespace Verif.Hdf5

open FortranReaders

/-! ### Names -/

theorem trimBlanks_last {s : Name} (h : s.getLast? ≠ some ' ') : trimBlanks s = s := by
  unfold trimBlanks
  cases hr : s.reverse with
  | nil => rw [List.reverse_eq_nil_iff.1 hr]; rfl
  | cons c r =>
    rw [List.dropWhile_cons_of_neg, ← hr, List.reverse_reverse]
    intro hc
    apply h
    rw [List.getLast?_eq_head?_reverse, hr]
    have : c = ' ' := by simpa using hc
    rw [this]; rfl

theorem Part.trim {c : Name} (h : Part c) : trimBlanks c = c := trimBlanks_last h.blank

theorem cutSlash_append {c : Name} (h : '/' ∉ c) (rest : Name) : cutSlash (c ++ '/' :: rest) = some (c, rest) := by
  induction c with
  | nil => rw [List.nil_append, cutSlash, if_pos rfl]
  | cons d c ih =>
    rw [List.cons_append, cutSlash, if_neg (fun hd => h (by rw [hd]; exact List.mem_cons_self)), ih (fun hm => h (List.mem_cons_of_mem _ hm))]
    rfl

/-- Parts with a slash after each of them -/
def slashed (cs : List Name) : Name := cs.flatMap (fun c => c ++ ['/'])

theorem slashed_cons (c : Name) (cs : List Name) : slashed (c :: cs) = c ++ '/' :: slashed cs := by
  unfold slashed
  rw [List.flatMap_cons, List.append_assoc]; rfl

theorem pathName_slash {cs : List Name} (h : cs ≠ []) : pathName cs ++ ['/'] = slashed cs := by
  induction cs with
  | nil => exact absurd rfl h
  | cons c cs ih =>
    cases cs with
    | nil => rw [slashed_cons]; rfl
    | cons d cs =>
      rw [slashed_cons, ← ih (by simp), pathName]
      simp

theorem pathName_last {cs : List Name} (h : cs ≠ []) (hp : ∀ c ∈ cs, Part c) : (pathName cs).getLast? = (cs.getLast h).getLast? := by
  induction cs with
  | nil => exact absurd rfl h
  | cons c cs ih =>
    cases cs with
    | nil => rfl
    | cons d cs =>
      rw [List.getLast_cons (by simp), ← ih (by simp) (fun c hc => hp c (List.mem_cons_of_mem _ hc)), pathName]
      have hne : pathName (d :: cs) ≠ [] := by
        cases cs with
        | nil => exact (hp d (by simp)).ne
        | cons e cs => rw [pathName]; simp
      obtain ⟨x, l, hx⟩ := List.exists_cons_of_ne_nil hne
      rw [hx, List.getLast?_append]
      simp [List.getLast?_cons_cons]
      cases hl : (x :: l).getLast? with
      | none => simp at hl
      | some y => simp

theorem getLast_part {c : Name} (h : Part c) : ∃ x, c.getLast? = some x ∧ x ≠ '/' ∧ x ≠ ' ' := by
  cases hl : c.getLast? with
  | none => exact absurd (List.getLast?_eq_none_iff.1 hl) h.ne
  | some x =>
    refine ⟨x, rfl, ?_, ?_⟩
    · rintro rfl
      exact h.slash (List.mem_of_getLast? hl)
    · rintro rfl
      exact h.blank hl

theorem pathName_end {cs : List Name} (h : cs ≠ []) (hp : ∀ c ∈ cs, Part c) : ∃ x, (pathName cs).getLast? = some x ∧ x ≠ '/' ∧ x ≠ ' ' := by
  rw [pathName_last h hp]
  exact getLast_part (hp _ (List.getLast_mem h))

theorem pathName_head {cs : List Name} (h : cs ≠ []) (hp : ∀ c ∈ cs, Part c) : ∃ x l, pathName cs = x :: l ∧ x ≠ '/' := by
  obtain ⟨c, cs, rfl⟩ := List.exists_cons_of_ne_nil h
  have hc := hp c (by simp)
  obtain ⟨x, l, hx⟩ := List.exists_cons_of_ne_nil hc.ne
  have hs : x ≠ '/' := by
    rintro rfl
    exact hc.slash (by rw [hx]; simp)
  cases cs with
  | nil => exact ⟨x, l, hx, hs⟩
  | cons d cs => exact ⟨x, l ++ '/' :: pathName (d :: cs), by rw [pathName, hx]; rfl, hs⟩

theorem pathName_trim {cs : List Name} (h : cs ≠ []) (hp : ∀ c ∈ cs, Part c) : trimBlanks (pathName cs) = pathName cs := by
  obtain ⟨x, h1, _, h3⟩ := pathName_end h hp
  exact trimBlanks_last (by rw [h1]; simpa using h3)

theorem components_path {cs : List Name} (hp : ∀ c ∈ cs, Part c) : h5Components (pathName cs) = cs := by
  induction cs with
  | nil => decide
  | cons c cs ih =>
    have hc := hp c (by simp)
    have hone : h5Components c = [c] := by
      unfold h5Components
      rw [slashParts_name [] c hc.slash, List.reverse_nil, List.nil_append, List.filter_cons_of_pos (by simp [hc.ne, hc.dot])]
      rfl
    cases cs with
    | nil => exact hone
    | cons d cs =>
      have := ih (fun c hc => hp c (List.mem_cons_of_mem _ hc))
      rw [pathName]
      unfold h5Components at hone this ⊢
      rw [slashParts_append, List.filter_append, hone, this]
      rfl

theorem components_slash (s : Name) : h5Components ('/' :: s) = h5Components s := by
  unfold h5Components
  rw [slashParts, if_pos rfl, List.reverse_nil, List.filter_cons_of_neg (by simp)]

theorem groupString_path {cs : List Name} (h : cs ≠ []) (hp : ∀ c ∈ cs, Part c) (hl : (pathName cs).length ≤ 255) (lead : Bool) :
    groupString ((if lead then ['/'] else []) ++ pathName cs) = .ok (slashed cs) := by
  obtain ⟨x, h1, h2, h3⟩ := pathName_end h hp
  obtain ⟨y, l, hy, hy2⟩ := pathName_head h hp
  have key : (if (pathName cs).getLast? = some '/' ∨ pathName cs = [] then .ok (pathName cs) else if 256 ≤ (pathName cs).length then (.error .other : Except Err Name) else .ok (pathName cs ++ ['/'])) = .ok (slashed cs) := by
    rw [if_neg, if_neg (by omega), pathName_slash h]
    rintro (h4 | h4)
    · rw [h1] at h4; exact h2 (Option.some.inj h4)
    · rw [hy] at h4; simp at h4
  unfold groupString
  cases lead with
  | false =>
    simp only [Bool.false_eq_true, if_false, List.nil_append]
    rw [List.take_of_length_le (by omega), pathName_trim h hp]
    have : stripSlash (pathName cs) = pathName cs := by
      rw [hy, stripSlash, if_neg hy2]
    rw [this]
    exact key
  | true =>
    simp only [if_true, List.cons_append, List.nil_append]
    rw [List.take_of_length_le (by simp; omega)]
    have ht : trimBlanks ('/' :: pathName cs) = '/' :: pathName cs := by
      apply trimBlanks_last
      rw [hy, List.getLast?_cons_cons, ← hy, h1]
      simpa using h3
    rw [ht, stripSlash, if_pos rfl]
    exact key

/-! ### Creation of groups -/

/-- After the groups along a path were created -/
structure Made (f f' : H5File) (path cs : List Name) : Prop where
  groups : ∀ k, k ≤ cs.length → f'.link (path ++ cs.take k) = some .group
  others : ∀ p, (∀ k, 1 ≤ k → k ≤ cs.length → p ≠ path ++ cs.take k) → f'.link p = f.link p

theorem groupLoop_succ {fuel : Nat} {f : H5File} {path : List Name} {n : Nat} {c : Name} {rest : Name} (hc : Part c) :
    groupLoop (fuel + 1) f path n (c ++ '/' :: rest) =
      if ((f.add (path ++ [c]) .group).getD f).link (path ++ [c]) = some .group then
        if 10 ≤ n then .error .other else groupLoop fuel ((f.add (path ++ [c]) .group).getD f) (path ++ [c]) (n + 1) rest
      else .error .abort := by
  rw [groupLoop, cutSlash_append hc.slash]
  simp only
  rw [hc.trim, if_neg hc.ne, if_neg hc.dot, if_neg hc.dot]

theorem add_group_step {f : H5File} {path : List Name} {c : Name} (hr : f.reach [] path = some .group) :
    (f.link (path ++ [c]) = none ∨ f.link (path ++ [c]) = some .group →
      (∀ p, ((f.add (path ++ [c]) .group).getD f).link p = if p = path ++ [c] then some .group else f.link p) ∧ ((f.add (path ++ [c]) .group).getD f).reach [] (path ++ [c]) = some .group) ∧
    (∀ a, f.link (path ++ [c]) = some (.dset a) → (f.add (path ++ [c]) .group).getD f = f) := by
  have hg : Grows f ((f.add (path ++ [c]) .group).getD f) := grows_add f _
  have hlink : f.link (path ++ [c]) = none ∨ f.link (path ++ [c]) = some .group → ∀ p, ((f.add (path ++ [c]) .group).getD f).link p = if p = path ++ [c] then some .group else f.link p := by
    rintro (h | h) p
    · have : f.add (path ++ [c]) .group = some { f with links := (path ++ [c], .group) :: f.links } := by
        unfold H5File.add
        rw [if_neg (by simp), if_pos ⟨by simpa using hr, h⟩]
      rw [this]
      exact link_add (by simp) p
    · have : f.add (path ++ [c]) .group = none := by
        unfold H5File.add
        rw [if_neg (by simp), if_neg (by rw [h]; simp)]
      rw [this]
      show f.link p = _
      split
      · next hp => rw [hp, h]
      · rfl
  refine ⟨fun h => ⟨hlink h, ?_⟩, fun a ha => ?_⟩
  · rw [reach_snoc, if_pos (reach_mono (fun _ => False) (fun h => h) (fun p x hx _ => hg.old p x hx) (fun h => h) hr), List.nil_append, hlink h, if_pos rfl]
  · have : f.add (path ++ [c]) .group = none := by
      unfold H5File.add
      rw [if_neg (by simp), if_neg (by rw [ha]; simp)]
    rw [this]; rfl

theorem take_ne {path cs : List Name} {c : Name} {k : Nat} (hk : 1 ≤ k) (hl : k ≤ cs.length) : path ++ [c] ++ cs.take k ≠ path ++ [c] := by
  intro h
  have := congrArg List.length h
  rw [List.length_append, List.length_take] at this
  omega

theorem groupLoop_made {cs : List Name} {fuel : Nat} {f : H5File} {path : List Name} {n : Nat} (hp : ∀ c ∈ cs, Part c) (hr : f.reach [] path = some .group) (hn : n + cs.length ≤ 10) (hf : cs.length < fuel)
    (hl : ∀ k, 1 ≤ k → k ≤ cs.length → f.link (path ++ cs.take k) = none ∨ f.link (path ++ cs.take k) = some .group) :
    ∃ f', groupLoop fuel f path n (slashed cs) = .ok f' ∧ Made f f' path cs := by
  induction cs generalizing fuel f path n with
  | nil =>
    obtain ⟨fuel, rfl⟩ : ∃ m, fuel = m + 1 := ⟨fuel - 1, by simp at hf; omega⟩
    refine ⟨f, rfl, fun k hk => ?_, fun p _ => rfl⟩
    simpa using reach_link hr
  | cons c cs ih =>
    obtain ⟨fuel, rfl⟩ : ∃ m, fuel = m + 1 := ⟨fuel - 1, by simp at hf; omega⟩
    simp only [List.length_cons] at hn hf
    have h1 := hl 1 (by omega) (by simp)
    simp only [List.take_succ_cons, List.take_zero] at h1
    obtain ⟨h2, h3⟩ := (add_group_step hr).1 h1
    have h2c := h2 (path ++ [c])
    rw [if_pos rfl] at h2c
    rw [slashed_cons, groupLoop_succ (hp c (by simp)), if_pos h2c, if_neg (by omega)]
    obtain ⟨f', h4, h5⟩ := ih (fuel := fuel) (path := path ++ [c]) (n := n + 1) (fun d hd => hp d (List.mem_cons_of_mem _ hd)) h3 (by omega) (by omega) (fun k hk1 hk2 => by
      rw [h2, if_neg (take_ne hk1 hk2)]
      have := hl (k + 1) (by omega) (by simp; omega)
      simpa using this)
    refine ⟨f', h4, fun k hk => ?_, fun p hpn => ?_⟩
    · rcases k with _ | k
      · simp only [List.take_zero, List.append_nil]
        rw [h5.others path (fun k hk1 hk2 h => by have := congrArg List.length h; simp at this), h2, if_neg (fun h => by have := congrArg List.length h; simp at this)]
        simpa using reach_link hr
      · have := h5.groups k (by simpa using hk)
        simpa using this
    · rw [h5.others p (fun k hk1 hk2 => by
        have := hpn (k + 1) (by omega) (by simp; omega)
        simpa using this), h2, if_neg]
      have := hpn 1 (by omega) (by simp)
      simpa using this

theorem groupLoop_fails {cs : List Name} {fuel : Nat} {f : H5File} {path : List Name} {n : Nat} (hp : ∀ c ∈ cs, Part c) (hr : f.reach [] path = some .group) (hf : cs.length < fuel) (hn : n ≤ 10)
    (j : Nat) (hj : 1 ≤ j) (hj2 : j ≤ cs.length)
    (hl : ∀ k, 1 ≤ k → k < j → f.link (path ++ cs.take k) = none ∨ f.link (path ++ cs.take k) = some .group) :
    (∀ a, f.link (path ++ cs.take j) = some (.dset a) → n + j ≤ 11 → groupLoop fuel f path n (slashed cs) = .error .abort) ∧
      (f.link (path ++ cs.take j) = none ∨ f.link (path ++ cs.take j) = some .group → n + j = 11 → groupLoop fuel f path n (slashed cs) = .error .other) := by
  induction cs generalizing fuel f path n j with
  | nil => simp at hj2; omega
  | cons c cs ih =>
    obtain ⟨fuel, rfl⟩ : ∃ m, fuel = m + 1 := ⟨fuel - 1, by simp at hf; omega⟩
    simp only [List.length_cons] at hf hj2
    rw [slashed_cons, groupLoop_succ (hp c (by simp))]
    by_cases h1 : j = 1
    · subst h1
      simp only [List.take_succ_cons, List.take_zero]
      refine ⟨fun a ha _ => ?_, fun h hn' => ?_⟩
      · rw [(add_group_step hr).2 a ha, if_neg (by rw [ha]; simp)]
      · obtain ⟨h2, _⟩ := (add_group_step hr).1 h
        have h2c := h2 (path ++ [c])
        rw [if_pos rfl] at h2c
        rw [if_pos h2c, if_pos (by omega)]
    · have h0 := hl 1 (by omega) (by omega)
      simp only [List.take_succ_cons, List.take_zero] at h0
      obtain ⟨h2, h3⟩ := (add_group_step hr).1 h0
      have h2c := h2 (path ++ [c])
      rw [if_pos rfl] at h2c
      obtain ⟨j, rfl⟩ : ∃ m, j = m + 1 := ⟨j - 1, by omega⟩
      have hstep : ∀ k, 1 ≤ k → k ≤ cs.length → ((f.add (path ++ [c]) .group).getD f).link (path ++ [c] ++ cs.take k) = f.link (path ++ (c :: cs).take (k + 1)) := by
        intro k hk1 hk2
        rw [h2, if_neg (take_ne hk1 hk2)]
        simp
      have hrec := fun hn' : n + 1 ≤ 10 => ih (fuel := fuel) (path := path ++ [c]) (n := n + 1) (fun d hd => hp d (List.mem_cons_of_mem _ hd)) h3 (by omega) hn' j (by omega) (by omega) (fun k hk1 hk2 => by
        rw [hstep k hk1 (by omega)]
        exact hl (k + 1) (by omega) (by omega))
      rw [if_pos h2c]
      refine ⟨fun a ha hn' => ?_, fun h hn' => ?_⟩
      · rw [if_neg (by omega)]
        exact (hrec (by omega)).1 a (by rw [hstep j (by omega) (by omega)]; exact ha) (by omega)
      · rw [if_neg (by omega)]
        exact (hrec (by omega)).2 (by rw [hstep j (by omega) (by omega)]; exact h) (by omega)

theorem slashed_length {cs : List Name} (hp : ∀ c ∈ cs, Part c) : cs.length ≤ (slashed cs).length := by
  induction cs with
  | nil => simp
  | cons c cs ih =>
    rw [slashed_cons]
    have := ih (fun d hd => hp d (List.mem_cons_of_mem _ hd))
    simp
    omega

end Verif.Hdf5
