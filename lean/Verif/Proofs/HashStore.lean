import Mathlib.Data.List.Perm.Subperm
import Mathlib.Data.List.Nodup
import Verif.Proofs.HashDirs
import Verif.Spec.HashDirs

/-! What the hashing tool stores and writes. -/

set_option linter.unusedSectionVars false

namespace Verif

/-! ### Dictionaries -/

section dict
variable {κ v : Type*} [DecidableEq κ]

theorem kget_kset (d : List (κ × v)) (k k' : κ) (x : v) : kget (kset d k x) k' = if k = k' then some x else kget d k' := by
  induction d with
  | nil => simp only [kset, kget]
  | cons e d ih =>
    obtain ⟨a, w⟩ := e
    simp only [kset]
    by_cases h : a = k
    · subst h
      rw [if_pos rfl]
      simp only [kget]
      by_cases h2 : a = k'
      · rw [if_pos h2, if_pos h2]
      · rw [if_neg h2, if_neg h2, if_neg h2]
    · rw [if_neg h]
      simp only [kget, ih]
      by_cases h2 : a = k'
      · rw [if_pos h2, if_pos h2, if_neg (fun h3 => h (h2.trans h3.symm))]
      · rw [if_neg h2, if_neg h2]

theorem mem_keys_kset (d : List (κ × v)) (k k' : κ) (x : v) : k' ∈ (kset d k x).map Prod.fst ↔ k' = k ∨ k' ∈ d.map Prod.fst := by
  induction d with
  | nil => simp [kset]
  | cons e d ih =>
    obtain ⟨a, w⟩ := e
    simp only [kset]
    by_cases h : a = k
    · subst h
      rw [if_pos rfl]
      simp only [List.map_cons, List.mem_cons]
      constructor
      · exact fun h => Or.inr h
      · rintro (h | h)
        · exact Or.inl h
        · exact h
    · rw [if_neg h]
      simp only [List.map_cons, List.mem_cons, ih]
      constructor
      · rintro (h | h | h)
        · exact Or.inr (Or.inl h)
        · exact Or.inl h
        · exact Or.inr (Or.inr h)
      · rintro (h | h | h)
        · exact Or.inr (Or.inl h)
        · exact Or.inl h
        · exact Or.inr (Or.inr h)

theorem nodup_kset (d : List (κ × v)) (k : κ) (x : v) (hd : (d.map Prod.fst).Nodup) : ((kset d k x).map Prod.fst).Nodup := by
  induction d with
  | nil => simp [kset]
  | cons e d ih =>
    obtain ⟨a, w⟩ := e
    rw [List.map_cons, List.nodup_cons] at hd
    simp only [kset]
    by_cases h : a = k
    · rw [if_pos h, List.map_cons, List.nodup_cons]; exact hd
    · rw [if_neg h, List.map_cons, List.nodup_cons]
      refine ⟨fun hm => ?_, ih hd.2⟩
      rcases (mem_keys_kset d k a x).1 hm with h1 | h1
      · exact h h1
      · exact hd.1 h1

theorem kget_none {d : List (κ × v)} {k : κ} : kget d k = none ↔ k ∉ d.map Prod.fst := by
  induction d with
  | nil => simp [kget]
  | cons e d ih =>
    obtain ⟨a, w⟩ := e
    simp only [kget, List.map_cons, List.mem_cons, not_or]
    by_cases h : a = k
    · rw [if_pos h]; simp [h]
    · rw [if_neg h, ih]
      exact ⟨fun h1 => ⟨fun h2 => h h2.symm, h1⟩, fun h1 => h1.2⟩

theorem kget_mem {d : List (κ × v)} {k : κ} {x : v} (h : kget d k = some x) : (k, x) ∈ d := by
  induction d with
  | nil => cases h
  | cons e d ih =>
    obtain ⟨a, w⟩ := e
    simp only [kget] at h
    by_cases h1 : a = k
    · rw [if_pos h1] at h; cases h; subst h1; exact List.mem_cons_self
    · rw [if_neg h1] at h; exact List.mem_cons_of_mem _ (ih h)

theorem kget_of_mem {d : List (κ × v)} (hd : (d.map Prod.fst).Nodup) {k : κ} {x : v} (h : (k, x) ∈ d) : kget d k = some x := by
  induction d with
  | nil => cases h
  | cons e d ih =>
    obtain ⟨a, w⟩ := e
    rw [List.map_cons, List.nodup_cons] at hd
    simp only [kget]
    rcases List.mem_cons.1 h with h1 | h1
    · cases h1; rw [if_pos rfl]
    · rw [if_neg (fun h2 => hd.1 (by rw [show (a, w).1 = k from h2]; exact List.mem_map_of_mem (f := Prod.fst) h1))]
      exact ih hd.2 h1

theorem nodup_kupdate (other : List (κ × v)) : ∀ (d : List (κ × v)), (d.map Prod.fst).Nodup → ((kupdate d other).map Prod.fst).Nodup := by
  induction other with
  | nil => exact fun d h => h
  | cons e other ih => exact fun d h => ih _ (nodup_kset d e.1 e.2 h)

/-- `d.update(other)` where the values in `other` are a function of the key -/
theorem kget_kupdate (val : κ → v) (p : κ) (other : List (κ × v)) : ∀ (d : List (κ × v)), (∀ e ∈ other, e.2 = val e.1) →
    kget (kupdate d other) p = if p ∈ other.map Prod.fst then some (val p) else kget d p := by
  induction other with
  | nil => exact fun d h => rfl
  | cons e other ih =>
    intro d h
    have h1 := ih (kset d e.1 e.2) (fun e' he => h e' (List.mem_cons_of_mem _ he))
    have h2 : kupdate d (e :: other) = kupdate (kset d e.1 e.2) other := rfl
    rw [h2, h1, kget_kset]
    by_cases h3 : p ∈ other.map Prod.fst
    · rw [if_pos h3, if_pos (by rw [List.map_cons]; exact List.mem_cons_of_mem _ h3)]
    · rw [if_neg h3]
      by_cases h4 : e.1 = p
      · rw [if_pos h4, if_pos (by rw [List.map_cons, h4]; exact List.mem_cons_self), h e List.mem_cons_self, h4]
      · rw [if_neg h4, if_neg]
        rw [List.map_cons, List.mem_cons, not_or]
        exact ⟨fun h5 => h4 h5.symm, h3⟩

end dict

/-! ### Sorted lines -/

theorem hashLines_spec {κ v : Type*} [LinearOrder κ] (d : List (κ × Option v)) (hd : (d.map Prod.fst).Nodup) :
    (hashLines d).Pairwise (fun a b => a.1 < b.1) ∧ ∀ k x, (k, x) ∈ hashLines d ↔ kget d k = some x := by
  constructor
  · unfold hashLines
    rw [List.pairwise_map]
    have h1 : ((d.map Prod.fst).insertionSort (· ≤ ·)).Pairwise (· ≤ ·) := List.pairwise_insertionSort _ _
    have h2 : ((d.map Prod.fst).insertionSort (· ≤ ·)).Nodup := (List.perm_insertionSort _ _).nodup_iff.2 hd
    exact (h1.and h2).imp (fun h => lt_of_le_of_ne h.1 h.2)
  · intro k x
    unfold hashLines
    simp only [List.mem_map, Prod.mk.injEq]
    constructor
    · rintro ⟨k', hk, rfl, rfl⟩
      have hk2 := (List.mem_insertionSort _).1 hk
      cases hg : kget d k' with
      | none => exact absurd hk2 (kget_none.1 hg)
      | some y => rfl
    · intro hg
      refine ⟨k, (List.mem_insertionSort _).2 ?_, rfl, by rw [hg]; rfl⟩
      by_contra hc
      rw [kget_none.2 hc] at hg
      cases hg

/-! ### One directory -/

section data
variable {ν π η β : Type*} [DecidableEq ν] [DecidableEq π] [DecidableEq β]

theorem selected_iff (o : HashOpts ν π) (name : ν) (path : π) : (isOutFile o name path = false ∧ doFile o path = true) ↔ Selected o name path := by
  have h1 : isOutFile o name path = false ↔ o.all_dirs_file ≠ some path ∧ o.per_dir_file ≠ some name := by
    unfold isOutFile
    cases ha : o.all_dirs_file with
    | none =>
      cases hp : o.per_dir_file with
      | none => simp
      | some g =>
        by_cases hg : name = g
        · simp [hg]
        · simp [hg, Ne.symm hg]
    | some f =>
      cases hp : o.per_dir_file with
      | none =>
        by_cases hf : path = f
        · simp [hf]
        · simp [hf, Ne.symm hf]
      | some g =>
        by_cases hg : name = g
        · simp [hg]
        · by_cases hf : path = f
          · simp [hf, hg]
          · simp [hf, hg, Ne.symm hf, Ne.symm hg]
  have h2 : doFile o path = true ↔ (∀ pats, o.incl = some pats → ∃ p ∈ pats, p path = true) ∧ ∀ pats, o.excl = some pats → ∀ p ∈ pats, p path = false := by
    unfold doFile
    cases hi : o.incl with
    | none =>
      cases he : o.excl with
      | none => simp
      | some ex => simp
    | some inc =>
      cases he : o.excl with
      | none => simp
      | some ex => simp [and_comm]
  rw [h1, h2]
  unfold Selected
  exact and_assoc

theorem hashDirLoop_names (o : HashOpts ν π) (cache : List (π × η)) (hash_file : π → Option η) (files : List (ν × π)) :
    ∀ acc, (acc.1.map Prod.fst).Nodup → (acc.2.map Prod.fst).Nodup →
      ((hashDirLoop o cache hash_file files acc).1.map Prod.fst).Nodup ∧ ((hashDirLoop o cache hash_file files acc).2.map Prod.fst).Nodup := by
  induction files with
  | nil => exact fun acc h1 h2 => ⟨h1, h2⟩
  | cons f files ih =>
    obtain ⟨name, path⟩ := f
    intro acc h1 h2
    simp only [hashDirLoop]
    split
    · exact ih _ (nodup_kset _ _ _ h1) (nodup_kset _ _ _ h2)
    · exact ih _ h1 h2

/-- The keys of the result of `hash_dir` are the paths of the files to be hashed, its values are their hashes. -/
theorem hashDirLoop_paths (o : HashOpts ν π) (cache : List (π × η)) (hash_file : π → Option η) (p : π) (x : Option η) (files : List (ν × π)) :
    ∀ acc, kget (hashDirLoop o cache hash_file files acc).2 p = some x ↔
      ((∃ name, (name, p) ∈ files ∧ Selected o name p) ∧ x = hashOf cache hash_file p) ∨
        ((¬ ∃ name, (name, p) ∈ files ∧ Selected o name p) ∧ kget acc.2 p = some x) := by
  induction files with
  | nil => intro acc; simp [hashDirLoop]
  | cons f files ih =>
    obtain ⟨name, path⟩ := f
    intro acc
    simp only [hashDirLoop]
    by_cases hs : isOutFile o name path = false ∧ doFile o path = true
    · rw [if_pos hs, ih, kget_kset]
      rw [selected_iff] at hs
      by_cases hp : path = p
      · subst hp
        rw [if_pos rfl]
        have h1 : ∃ name', (name', path) ∈ (name, path) :: files ∧ Selected o name' path := ⟨name, List.mem_cons_self, hs⟩
        constructor
        · rintro (h | h)
          · exact Or.inl ⟨h1, h.2⟩
          · exact Or.inl ⟨h1, (Option.some.inj h.2).symm⟩
        · rintro (h | h)
          · by_cases h2 : ∃ name, (name, path) ∈ files ∧ Selected o name path
            · exact Or.inl ⟨h2, h.2⟩
            · exact Or.inr ⟨h2, by rw [h.2]⟩
          · exact absurd h1 h.1
      · rw [if_neg hp]
        have h1 : (∃ name', (name', p) ∈ (name, path) :: files ∧ Selected o name' p) ↔ ∃ name', (name', p) ∈ files ∧ Selected o name' p := by
          constructor
          · rintro ⟨n, hn, h2⟩
            rcases List.mem_cons.1 hn with h3 | h3
            · cases h3; exact absurd rfl hp
            · exact ⟨n, h3, h2⟩
          · rintro ⟨n, hn, h2⟩
            exact ⟨n, List.mem_cons_of_mem _ hn, h2⟩
        rw [h1]
    · rw [if_neg hs, ih]
      rw [selected_iff] at hs
      have h1 : (∃ name', (name', p) ∈ (name, path) :: files ∧ Selected o name' p) ↔ ∃ name', (name', p) ∈ files ∧ Selected o name' p := by
        constructor
        · rintro ⟨n, hn, h2⟩
          rcases List.mem_cons.1 hn with h3 | h3
          · cases h3; exact absurd h2 hs
          · exact ⟨n, h3, h2⟩
        · rintro ⟨n, hn, h2⟩
          exact ⟨n, List.mem_cons_of_mem _ hn, h2⟩
      rw [h1]

theorem hashDir_nodup (o : HashOpts ν π) (cache : List (π × η)) (hash_file : π → Option η) (files : List (ν × π)) :
    ((hashDir o cache hash_file files).map Prod.fst).Nodup :=
  (hashDirLoop_names o cache hash_file files ([], []) List.nodup_nil List.nodup_nil).2

theorem mem_hashDir (o : HashOpts ν π) (cache : List (π × η)) (hash_file : π → Option η) (files : List (ν × π)) (p : π) (x : Option η) :
    (p, x) ∈ hashDir o cache hash_file files ↔ (∃ name, (name, p) ∈ files ∧ Selected o name p) ∧ x = hashOf cache hash_file p := by
  have h1 := hashDirLoop_paths o cache hash_file p x files ([], [])
  constructor
  · intro h
    rcases h1.1 (kget_of_mem (hashDir_nodup o cache hash_file files) h) with h2 | h2
    · exact h2
    · cases h2.2
  · exact fun h => kget_mem (h1.2 (Or.inl h))

theorem mem_keys_hashDir (o : HashOpts ν π) (cache : List (π × η)) (hash_file : π → Option η) (files : List (ν × π)) (p : π) :
    p ∈ (hashDir o cache hash_file files).map Prod.fst ↔ ∃ name, (name, p) ∈ files ∧ Selected o name p := by
  rw [List.mem_map]
  constructor
  · rintro ⟨⟨p', x⟩, h, rfl⟩
    exact ((mem_hashDir o cache hash_file files p' x).1 h).1
  · exact fun h => ⟨(p, _), (mem_hashDir o cache hash_file files p _).2 ⟨h, rfl⟩, rfl⟩

/-- `hashes` in `hash_dir`, for files with different names -/
theorem hashDirLoop_fst (o : HashOpts ν π) (cache : List (π × η)) (hash_file : π → Option η) (n : ν) (x : Option η) (files : List (ν × π)) (hn : (files.map Prod.fst).Nodup) :
    ∀ acc, (∀ n' ∈ files.map Prod.fst, n' ∉ acc.1.map Prod.fst) →
      (kget (hashDirLoop o cache hash_file files acc).1 n = some x ↔
        (∃ p, (n, p) ∈ files ∧ Selected o n p ∧ x = hashOf cache hash_file p) ∨ kget acc.1 n = some x) := by
  induction files with
  | nil => intro acc _; simp [hashDirLoop]
  | cons f files ih =>
    obtain ⟨name, path⟩ := f
    rw [List.map_cons, List.nodup_cons] at hn
    intro acc hacc
    simp only [hashDirLoop]
    have hnot : kget acc.1 name = none := kget_none.2 (hacc name (by rw [List.map_cons]; exact List.mem_cons_self))
    by_cases hs : isOutFile o name path = false ∧ doFile o path = true
    · rw [if_pos hs, ih hn.2, kget_kset]
      · rw [selected_iff] at hs
        by_cases hp : name = n
        · subst hp
          rw [if_pos rfl]
          constructor
          · rintro (⟨p, h1, h2⟩ | h)
            · exact absurd (List.mem_map_of_mem (f := Prod.fst) h1) hn.1
            · exact Or.inl ⟨path, List.mem_cons_self, hs, (Option.some.inj h).symm⟩
          · rintro (⟨p, h1, h2, h3⟩ | h)
            · rcases List.mem_cons.1 h1 with h4 | h4
              · cases h4; exact Or.inr (by rw [h3])
              · exact absurd (List.mem_map_of_mem (f := Prod.fst) h4) hn.1
            · rw [hnot] at h; cases h
        · rw [if_neg hp]
          have h1 : (∃ p, (n, p) ∈ (name, path) :: files ∧ Selected o n p ∧ x = hashOf cache hash_file p) ↔ ∃ p, (n, p) ∈ files ∧ Selected o n p ∧ x = hashOf cache hash_file p := by
            constructor
            · rintro ⟨p, hm, h2⟩
              rcases List.mem_cons.1 hm with h3 | h3
              · cases h3; exact absurd rfl hp
              · exact ⟨p, h3, h2⟩
            · rintro ⟨p, hm, h2⟩
              exact ⟨p, List.mem_cons_of_mem _ hm, h2⟩
          rw [h1]
      · intro n' hn' hm
        rcases (mem_keys_kset _ _ _ _).1 hm with h1 | h1
        · subst h1; exact hn.1 hn'
        · exact hacc n' (by rw [List.map_cons]; exact List.mem_cons_of_mem _ hn') h1
    · rw [if_neg hs, ih hn.2 _ (fun n' hn' => hacc n' (by rw [List.map_cons]; exact List.mem_cons_of_mem _ hn'))]
      rw [selected_iff] at hs
      have h1 : (∃ p, (n, p) ∈ (name, path) :: files ∧ Selected o n p ∧ x = hashOf cache hash_file p) ↔ ∃ p, (n, p) ∈ files ∧ Selected o n p ∧ x = hashOf cache hash_file p := by
        constructor
        · rintro ⟨p, hm, h2⟩
          rcases List.mem_cons.1 hm with h3 | h3
          · cases h3; exact absurd h2.1 hs
          · exact ⟨p, h3, h2⟩
        · rintro ⟨p, hm, h2⟩
          exact ⟨p, List.mem_cons_of_mem _ hm, h2⟩
      rw [h1]

/-! ### All directories -/

/-- `all_hashes` after storing some results -/
theorem all_hashes_fold (con : Bool) (run : β) (cache : List (π × η)) (val : π → Option η) (log : List (List (π × Option η))) :
    ∀ st : HashStore β π η, (∀ h ∈ log, ∀ e ∈ h, e.2 = val e.1) → (st.all_hashes.map Prod.fst).Nodup →
      ((log.foldl (fun s h => storeHashes con run cache s (some h)) st).all_hashes.map Prod.fst).Nodup ∧
      ∀ p x, kget (log.foldl (fun s h => storeHashes con run cache s (some h)) st).all_hashes p = some x ↔
        ((∃ h ∈ log, p ∈ h.map Prod.fst) ∧ x = val p) ∨ ((¬ ∃ h ∈ log, p ∈ h.map Prod.fst) ∧ kget st.all_hashes p = some x) := by
  induction log with
  | nil => intro st _ hn; exact ⟨hn, fun p x => by simp⟩
  | cons a log ih =>
    intro st hv hn
    obtain ⟨h1, h2⟩ := ih (storeHashes con run cache st (some a)) (fun h hh => hv h (List.mem_cons_of_mem _ hh)) (nodup_kupdate a _ hn)
    refine ⟨h1, fun p x => ?_⟩
    rw [List.foldl_cons, h2 p x]
    have h3 : kget (storeHashes con run cache st (some a)).all_hashes p = if p ∈ a.map Prod.fst then some (val p) else kget st.all_hashes p :=
      kget_kupdate val p a st.all_hashes (hv a List.mem_cons_self)
    have h4 : (∃ h ∈ a :: log, p ∈ h.map Prod.fst) ↔ p ∈ a.map Prod.fst ∨ ∃ h ∈ log, p ∈ h.map Prod.fst := by
      constructor
      · rintro ⟨h, hm, hp⟩
        rcases List.mem_cons.1 hm with rfl | hm
        · exact Or.inl hp
        · exact Or.inr ⟨h, hm, hp⟩
      · rintro (hp | ⟨h, hm, hp⟩)
        · exact ⟨a, List.mem_cons_self, hp⟩
        · exact ⟨h, List.mem_cons_of_mem _ hm, hp⟩
    rw [h3, h4]
    by_cases ha : p ∈ a.map Prod.fst
    · rw [if_pos ha]
      by_cases hl : ∃ h ∈ log, p ∈ h.map Prod.fst
      · simp only [hl, ha, true_or, true_and, not_true, false_and, or_false, or_self]
      · simp only [hl, ha, true_or, true_and, not_true, not_false_iff, false_and, false_or, or_false, Option.some.injEq]
        exact eq_comm
    · rw [if_neg ha]
      simp only [ha, false_or]

theorem mem_newRows (run : β) (cache : List (π × η)) (row : HashRow β π η) (h : List (π × Option η)) :
    row ∈ newRows run cache h ↔ row.run = run ∧ kget cache row.path = none ∧ (row.path, some row.hash) ∈ h := by
  induction h with
  | nil => simp [newRows]
  | cons e h ih =>
    obtain ⟨name, x⟩ := e
    simp only [newRows]
    cases hc : kget cache name with
    | some y =>
      simp only [ih, List.mem_cons, Prod.mk.injEq]
      constructor
      · exact fun h => ⟨h.1, h.2.1, Or.inr h.2.2⟩
      · rintro ⟨h1, h2, h3 | h3⟩
        · rw [h3.1, hc] at h2; cases h2
        · exact ⟨h1, h2, h3⟩
    | none =>
      cases x with
      | none =>
        simp only [ih, List.mem_cons, Prod.mk.injEq]
        constructor
        · exact fun h => ⟨h.1, h.2.1, Or.inr h.2.2⟩
        · rintro ⟨h1, h2, h3 | h3⟩
          · cases h3.2
          · exact ⟨h1, h2, h3⟩
      | some y =>
        simp only [ih, List.mem_cons, Prod.mk.injEq]
        constructor
        · rintro (h | h)
          · subst h; exact ⟨rfl, hc, Or.inl ⟨rfl, rfl⟩⟩
          · exact ⟨h.1, h.2.1, Or.inr h.2.2⟩
        · rintro ⟨h1, h2, h3 | h3⟩
          · left
            obtain ⟨a, b, d⟩ := row
            simp only at h1 h3
            rw [h1, h3.1, Option.some.inj h3.2]
          · exact Or.inr ⟨h1, h2, h3⟩

theorem newRows_sublist (run : β) (cache : List (π × η)) (h : List (π × Option η)) :
    ((newRows run cache h).map HashRow.path).Sublist (h.map Prod.fst) := by
  induction h with
  | nil => exact List.Sublist.refl _
  | cons e h ih =>
    obtain ⟨name, x⟩ := e
    simp only [newRows]
    cases kget cache name with
    | some y => exact ih.cons _
    | none =>
      cases x with
      | none => exact ih.cons _
      | some y => exact ih.cons_cons _

theorem db_fold (run : β) (cache : List (π × η)) (log : List (List (π × Option η))) :
    ∀ st : HashStore β π η, (log.foldl (fun s h => storeHashes true run cache s (some h)) st).db = st.db ++ log.flatMap (newRows run cache) := by
  induction log with
  | nil => intro st; simp
  | cons a log ih =>
    intro st
    rw [List.foldl_cons, ih]
    simp [storeHashes]

theorem subperm_map {α γ : Type*} {l₁ l₂ : List α} (h : l₁.Subperm l₂) (f : α → γ) : (l₁.map f).Subperm (l₂.map f) := by
  obtain ⟨l, hp, hs⟩ := h
  exact ⟨l.map f, hp.map f, hs.map f⟩

theorem sublist_flatMap {α γ : Type*} {l₁ l₂ : List α} (h : l₁.Sublist l₂) (f : α → List γ) : (l₁.flatMap f).Sublist (l₂.flatMap f) := by
  induction h with
  | slnil => exact List.Sublist.refl _
  | cons a _ ih => rw [List.flatMap_cons]; exact ih.trans (List.sublist_append_right _ _)
  | cons_cons a _ ih => rw [List.flatMap_cons, List.flatMap_cons]; exact (List.Sublist.refl _).append ih

/-- What has been stored at any time is part of the results of the directories. -/
theorem stored_subperm {D H σ : Type*} {S : HashSys D H σ} {dirs : List D} {store : σ} {c : HashState D H σ} (hi : HashInv S dirs store c) :
    (c.hashed.map Prod.snd).Subperm dirs ∧
      ∃ log : List H, c.store = log.foldl (fun s h => S.storeHashes s (some h)) store ∧ log.Subperm (dirs.map S.hash) := by
  classical
  have h1 : (c.hashed.map Prod.snd).Subperm dirs := by
    rw [List.subperm_iff_count]
    intro x
    have := hi.dirs x
    convert (show List.count x (c.hashed.map Prod.snd) ≤ List.count x dirs by omega)
  refine ⟨h1, ?_⟩
  obtain ⟨log, hl, hy⟩ := hi.results
  refine ⟨log, hl, List.Subperm.trans ?_ (subperm_map h1 S.hash)⟩
  rw [List.map_map, List.subperm_iff_count]
  intro y
  have := hy y
  have h2 : (List.map (S.hash ∘ Prod.snd) c.hashed).count y = (List.map (fun e => S.hash e.2) c.hashed).count y := rfl
  omega

theorem mem_of_log {o : HashOpts ν π} {cache : List (π × η)} {hash_file : π → Option η} {dirs : List (List (ν × π))} {log : List (List (π × Option η))}
    (hlog : log.Subperm (dirs.map (hashDir o cache hash_file))) {h : List (π × Option η)} (hh : h ∈ log) : ∃ d ∈ dirs, hashDir o cache hash_file d = h :=
  List.mem_map.1 (hlog.subset hh)

theorem log_values {o : HashOpts ν π} {cache : List (π × η)} {hash_file : π → Option η} {dirs : List (List (ν × π))} {log : List (List (π × Option η))}
    (hlog : log.Subperm (dirs.map (hashDir o cache hash_file))) : ∀ h ∈ log, ∀ e ∈ h, e.2 = hashOf cache hash_file e.1 := by
  intro h hh e he
  obtain ⟨d, hd, rfl⟩ := mem_of_log hlog hh
  exact ((mem_hashDir o cache hash_file d e.1 e.2).1 he).2

/-- The lines written to the output file -/
theorem output_lines {π : Type*} [LinearOrder π] {o : HashOpts ν π} {cache : List (π × η)} {hash_file : π → Option η} {dirs : List (List (ν × π))} {log : List (List (π × Option η))}
    (hlog : log.Perm (dirs.map (hashDir o cache hash_file))) (hcache : ∀ p h, kget cache p = some h → hash_file p = some h) (con : Bool) (run : β) (db : List (HashRow β π η)) :
    IsHashList o hash_file dirs (hashLines (log.foldl (fun s h => storeHashes con run cache s (some h)) (⟨[], db⟩ : HashStore β π η)).all_hashes) := by
  have hval : ∀ p, hashOf cache hash_file p = hash_file p := by
    intro p
    unfold hashOf
    cases hc : kget cache p with
    | none => rfl
    | some h => exact (hcache p h hc).symm
  obtain ⟨h1, h2⟩ := all_hashes_fold con run cache (hashOf cache hash_file) log (⟨[], db⟩ : HashStore β π η) (log_values hlog.subperm) List.nodup_nil
  obtain ⟨h3, h4⟩ := hashLines_spec _ h1
  refine ⟨h3, fun p x => ?_⟩
  rw [h4, h2, ← hval]
  have h5 : (∃ h ∈ log, p ∈ h.map Prod.fst) ↔ SelectedIn o dirs p := by
    unfold SelectedIn
    constructor
    · rintro ⟨h, hh, hp⟩
      obtain ⟨d, hd, rfl⟩ := mem_of_log hlog.subperm hh
      exact ⟨d, hd, (mem_keys_hashDir o cache hash_file d p).1 hp⟩
    · rintro ⟨d, hd, hp⟩
      exact ⟨hashDir o cache hash_file d, hlog.mem_iff.2 (List.mem_map_of_mem hd), (mem_keys_hashDir o cache hash_file d p).2 hp⟩
  rw [h5]
  constructor
  · rintro (h | h)
    · exact h
    · cases h.2
  · exact Or.inl

/-! ### The database -/

theorem readCache_fold (run : β) (db : List (HashRow β π η)) : ∀ acc : List (π × η), (acc.map Prod.fst).Nodup →
    db.Pairwise (fun a b => a.run = run → b.run = run → a.path ≠ b.path) → (∀ row ∈ db, row.run = run → row.path ∉ acc.map Prod.fst) →
    ∀ p h, kget (db.foldl (fun acc row => if row.run = run then kset acc row.path row.hash else acc) acc) p = some h ↔
      ⟨run, p, h⟩ ∈ db ∨ kget acc p = some h := by
  induction db with
  | nil => intro acc _ _ _ p h; simp
  | cons row db ih =>
    intro acc hn hp hacc p h
    rw [List.pairwise_cons] at hp
    rw [List.foldl_cons]
    by_cases hr : row.run = run
    · rw [if_pos hr, ih _ (nodup_kset _ _ _ hn) hp.2, kget_kset]
      · by_cases he : row.path = p
        · rw [if_pos he]
          have h1 : kget acc p = none := kget_none.2 (by rw [← he]; exact hacc row List.mem_cons_self hr)
          rw [h1, List.mem_cons]
          constructor
          · rintro (h2 | h2)
            · exact Or.inl (Or.inr h2)
            · refine Or.inl (Or.inl ?_)
              obtain ⟨a, b, d⟩ := row
              simp only at hr he h2
              rw [hr, he, Option.some.inj h2]
          · rintro ((h2 | h2) | h2)
            · exact Or.inr (by rw [← h2])
            · exact Or.inl h2
            · cases h2
        · rw [if_neg he, List.mem_cons]
          constructor
          · rintro (h2 | h2)
            · exact Or.inl (Or.inr h2)
            · exact Or.inr h2
          · rintro ((h2 | h2) | h2)
            · exact absurd (by rw [← h2]) he
            · exact Or.inl h2
            · exact Or.inr h2
      · intro row' hr' hrun hm
        rcases (mem_keys_kset _ _ _ _).1 hm with h1 | h1
        · exact hp.1 row' hr' hr hrun h1.symm
        · exact hacc row' (List.mem_cons_of_mem _ hr') hrun h1
    · rw [if_neg hr, ih _ hn hp.2 (fun row' hr' => hacc row' (List.mem_cons_of_mem _ hr')), List.mem_cons]
      constructor
      · rintro (h2 | h2)
        · exact Or.inl (Or.inr h2)
        · exact Or.inr h2
      · rintro ((h2 | h2) | h2)
        · exact absurd (by rw [← h2]) hr
        · exact Or.inl h2
        · exact Or.inr h2

/-- The hashes read from a database in which no path is there twice -/
theorem kget_readCache {run : β} {db : List (HashRow β π η)} (hdb : db.Pairwise (fun a b => a.run = run → b.run = run → a.path ≠ b.path)) (p : π) (h : η) :
    kget (readCache run db) p = some h ↔ ⟨run, p, h⟩ ∈ db := by
  unfold readCache
  rw [readCache_fold run db [] List.nodup_nil hdb (fun _ _ _ h => by cases h)]
  simp [kget]

theorem keys_sublist (o : HashOpts ν π) (cache : List (π × η)) (hash_file : π → Option η) (files : List (ν × π)) (hn : (files.map Prod.snd).Nodup) :
    ((hashDir o cache hash_file files).map Prod.fst).Subperm (files.map Prod.snd) := by
  refine (hashDir_nodup o cache hash_file files).subperm (fun p hp => ?_)
  obtain ⟨name, hm, _⟩ := (mem_keys_hashDir o cache hash_file files p).1 hp
  exact List.mem_map_of_mem (f := Prod.snd) hm

theorem keys_all (o : HashOpts ν π) (cache : List (π × η)) (hash_file : π → Option η) (dirs : List (List (ν × π))) (hd : PathsDistinct dirs) :
    ((dirs.map (hashDir o cache hash_file)).flatMap (fun h => h.map Prod.fst)).Nodup := by
  unfold PathsDistinct at hd
  rw [List.nodup_flatMap]
  constructor
  · intro h hh
    obtain ⟨d, _, rfl⟩ := List.mem_map.1 hh
    exact hashDir_nodup o cache hash_file d
  · rw [List.pairwise_map]
    rw [List.map_flatten, List.nodup_flatten] at hd
    rw [List.pairwise_map] at hd
    refine hd.2.imp (fun {a b} hab p hp hq => ?_)
    obtain ⟨n1, hm1, _⟩ := (mem_keys_hashDir o cache hash_file a p).1 hp
    obtain ⟨n2, hm2, _⟩ := (mem_keys_hashDir o cache hash_file b p).1 hq
    exact hab (List.mem_map.2 ⟨(n1, p), hm1, rfl⟩) (List.mem_map.2 ⟨(n2, p), hm2, rfl⟩)

theorem nodup_of_subperm {α : Type*} {l₁ l₂ : List α} (h : l₁.Subperm l₂) (hn : l₂.Nodup) : l₁.Nodup := by
  obtain ⟨l, hp, hs⟩ := h
  exact hp.nodup_iff.1 (hn.sublist hs)

theorem subperm_flatMap {α γ : Type*} {l₁ l₂ : List α} (h : l₁.Subperm l₂) (f : α → List γ) : (l₁.flatMap f).Subperm (l₂.flatMap f) := by
  obtain ⟨l, hp, hs⟩ := h
  exact ⟨l.flatMap f, hp.flatMap_right f, sublist_flatMap hs f⟩

theorem flatMap_sublist {α γ : Type*} {f g : α → List γ} (h : ∀ a, (f a).Sublist (g a)) (l : List α) : (l.flatMap f).Sublist (l.flatMap g) := by
  induction l with
  | nil => exact List.Sublist.refl _
  | cons a l ih => rw [List.flatMap_cons, List.flatMap_cons]; exact (h a).append ih

/-- Rows stored by a run which read the hashes `cache` from the rows that are there already -/
theorem rows_correct {o : HashOpts ν π} {cache : List (π × η)} {hash_file : π → Option η} {run : β} {dirs : List (List (ν × π))} {log : List (List (π × Option η))}
    {db : List (HashRow β π η)} (hd : PathsDistinct dirs) (hlog : log.Subperm (dirs.map (hashDir o cache hash_file))) (hdb : RowsCorrect o hash_file run dirs db)
    (hcache : ∀ row ∈ db, row.run = run → kget cache row.path ≠ none) :
    RowsCorrect o hash_file run dirs (db ++ log.flatMap (newRows run cache)) := by
  have hnew : ∀ row ∈ log.flatMap (newRows run cache), row.run = run ∧ kget cache row.path = none ∧ SelectedIn o dirs row.path ∧ hash_file row.path = some row.hash := by
    intro row hrow
    obtain ⟨h, hh, hr⟩ := List.mem_flatMap.1 hrow
    obtain ⟨h1, h2, h3⟩ := (mem_newRows run cache row h).1 hr
    obtain ⟨d, hd, rfl⟩ := mem_of_log hlog hh
    obtain ⟨h4, h5⟩ := (mem_hashDir o cache hash_file d _ _).1 h3
    refine ⟨h1, h2, ⟨d, hd, h4⟩, ?_⟩
    unfold hashOf at h5
    rw [h2] at h5
    exact h5.symm
  refine ⟨List.pairwise_append.2 ⟨hdb.1, ?_, ?_⟩, ?_⟩
  · have h1 : ((log.flatMap (newRows run cache)).map HashRow.path).Nodup := by
      rw [List.map_flatMap]
      have h2 : (log.flatMap (fun h => (newRows run cache h).map HashRow.path)).Sublist (log.flatMap (fun h => h.map Prod.fst)) :=
        flatMap_sublist (fun h => newRows_sublist run cache h) log
      exact (nodup_of_subperm (subperm_flatMap hlog _) (keys_all o cache hash_file dirs hd)).sublist h2
    exact (List.pairwise_map.1 h1).imp (fun h _ _ => h)
  · intro a ha b hb h1 _ he
    exact hcache a ha h1 (by rw [he]; exact (hnew b hb).2.1)
  · intro row hrow hrun
    rcases List.mem_append.1 hrow with h | h
    · exact hdb.2 row h hrun
    · exact (hnew row h).2.2

/-- After a complete run all files which can be read are in the database. -/
theorem rows_complete {o : HashOpts ν π} {cache : List (π × η)} {hash_file : π → Option η} {run : β} {dirs : List (List (ν × π))} {log : List (List (π × Option η))}
    {db : List (HashRow β π η)} (hlog : log.Perm (dirs.map (hashDir o cache hash_file))) (hcache : ∀ p h, kget cache p = some h → ⟨run, p, h⟩ ∈ db)
    (hval : ∀ p h, kget cache p = some h → hash_file p = some h) :
    RowsComplete o hash_file run dirs (db ++ log.flatMap (newRows run cache)) := by
  rintro p h ⟨d, hd, hsel⟩ hh
  rw [List.mem_append]
  cases hc : kget cache p with
  | some h' =>
    have := hval p h' hc
    rw [this] at hh
    cases hh
    exact Or.inl (hcache p h hc)
  | none =>
    refine Or.inr (List.mem_flatMap.2 ⟨hashDir o cache hash_file d, hlog.mem_iff.2 (List.mem_map_of_mem hd), ?_⟩)
    rw [mem_newRows]
    refine ⟨rfl, hc, (mem_hashDir o cache hash_file d _ _).2 ⟨hsel, ?_⟩⟩
    unfold hashOf
    simp only []
    rw [hc]
    exact hh.symm

theorem openDatabase_fresh {run : β} {db0 db : List (HashRow β π η)} {cache : List (π × η)} (h : openDatabase true false run db0 = .ok (cache, db)) : cache = [] ∧ db = [] := by
  cases h; exact ⟨rfl, rfl⟩

theorem openDatabase_resume {run : β} {db0 db : List (HashRow β π η)} {cache : List (π × η)} (h : openDatabase true true run db0 = .ok (cache, db)) :
    cache = readCache run db0 ∧ db = db0 := by
  simp only [openDatabase, Bool.and_self, if_true, Bool.not_true, Bool.and_false, Bool.true_and] at h
  split at h
  · cases h
  · cases h; exact ⟨rfl, rfl⟩

theorem crashes_correct {o : HashOpts ν π} {hash_file : π → Option η} {run : β} {dirs : List (List (ν × π))} (hd : PathsDistinct dirs) {db : List (HashRow β π η)}
    (h : HashCrashes o hash_file run dirs db) : RowsCorrect o hash_file run dirs db := by
  induction h with
  | first P db0 cache db polls sync c hopen hreach =>
    obtain ⟨rfl, rfl⟩ := openDatabase_fresh hopen
    obtain ⟨_, log, hl, hs⟩ := stored_subperm (inv_reach (S := hashTool P o hash_file true run [] polls) (fun _ => rfl) hreach)
    rw [hl]
    have h1 := db_fold run ([] : List (π × η)) log (⟨[], []⟩ : HashStore β π η)
    have h2 := rows_correct (db := []) (run := run) hd hs ⟨List.Pairwise.nil, fun _ h => by cases h⟩ (fun _ h => by cases h)
    exact h1 ▸ h2
  | resumed P db0 cache db polls sync c h0 hopen hreach ih =>
    obtain ⟨rfl, rfl⟩ := openDatabase_resume hopen
    obtain ⟨_, log, hl, hs⟩ := stored_subperm (inv_reach (S := hashTool P o hash_file true run (readCache run db) polls) (fun _ => rfl) hreach)
    rw [hl]
    have h1 := db_fold run (readCache run db) log (⟨[], db⟩ : HashStore β π η)
    have h2 := rows_correct (db := db) (run := run) hd hs ih (fun row hrow hrun hc => by
      have := (kget_readCache ih.1 row.path row.hash).2 (by rw [← hrun]; exact hrow)
      rw [hc] at this; cases this)
    exact h1 ▸ h2
  | other db0 rows h0 hrows ih =>
    refine ⟨List.pairwise_append.2 ⟨ih.1, ?_, ?_⟩, ?_⟩
    · exact List.Pairwise.imp_of_mem (R := fun _ _ => True) (fun {a b} ha _ _ h => absurd h (hrows a ha)) (List.pairwise_of_forall (fun _ _ => trivial))
    · exact fun a _ b hb _ h => absurd h (hrows b hb)
    · intro row hrow hrun
      rcases List.mem_append.1 hrow with h | h
      · exact ih.2 row h hrun
      · exact absurd hrun (hrows row h)

end data

end Verif
