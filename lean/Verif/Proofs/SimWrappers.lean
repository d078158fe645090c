import Verif.Spec.SimWrappers
import Verif.Proofs.SwiftWrapper
import Mathlib.Data.List.Nodup

/-!
Lemmas for C92.
-/

namespace Verif

theorem boundValue_of_mem {env : List (String × PyVal)} (h : (env.map (·.1)).Nodup) {n : String} {v : PyVal} (hm : (n, v) ∈ env) : boundValue env n = some v := by
  unfold boundValue
  rw [find_of_mem env h hm]; rfl

theorem mem_of_boundValue {env : List (String × PyVal)} {n : String} {v : PyVal} (h : boundValue env n = some v) : (n, v) ∈ env := by
  unfold boundValue at h
  obtain ⟨x, hx, rfl⟩ := Option.map_eq_some_iff.1 h
  have h1 := List.mem_of_find?_eq_some hx
  have h2 := List.find?_some hx
  rw [decide_eq_true_iff] at h2
  rwa [← h2]

theorem boundValue_isSome (env : List (String × PyVal)) (n : String) : (boundValue env n).isSome = true ↔ n ∈ env.map (·.1) := by
  constructor
  · intro h
    obtain ⟨v, hv⟩ := Option.isSome_iff_exists.1 h
    exact List.mem_map_of_mem (f := (·.1)) (mem_of_boundValue hv)
  · intro h
    by_contra hn
    rw [Option.not_isSome_iff_eq_none] at hn
    unfold boundValue at hn
    rw [Option.map_eq_none_iff, List.find?_eq_none] at hn
    obtain ⟨x, hx, rfl⟩ := List.mem_map.1 h
    exact hn x hx (by simp)

theorem bindKeywords_ok (names : List String) (kw env : List (String × PyVal)) (h1 : ∀ k ∈ kw, k.1 ∈ names) (h2 : (kw.map (·.1)).Nodup) (h3 : ∀ k ∈ kw, k.1 ∉ env.map (·.1)) :
    bindKeywords names env kw = .ok (env ++ kw) := by
  induction kw generalizing env with
  | nil => rw [List.append_nil]; rfl
  | cons k kw ih =>
    obtain ⟨n, v⟩ := k
    rw [List.map_cons, List.nodup_cons] at h2
    unfold bindKeywords
    rw [if_neg (by simpa using h1 _ List.mem_cons_self), if_neg (by rw [boundValue_isSome]; exact h3 _ List.mem_cons_self),
      ih (env ++ [(n, v)]) (fun k hk => h1 k (List.mem_cons_of_mem _ hk)) h2.2, List.append_assoc]
    · rfl
    · intro k hk hm
      rw [List.map_append, List.mem_append] at hm
      rcases hm with hm | hm
      · exact h3 k (List.mem_cons_of_mem _ hk) hm
      · rw [List.map_cons, List.map_nil, List.mem_singleton] at hm
        exact h2.1 (hm ▸ List.mem_map_of_mem (f := (·.1)) hk)

theorem bindKeywords_error (names : List String) (kw env : List (String × PyVal)) (h : ¬((∀ k ∈ kw, k.1 ∈ names) ∧ (kw.map (·.1)).Nodup ∧ ∀ k ∈ kw, k.1 ∉ env.map (·.1))) :
    bindKeywords names env kw = .error .typeError := by
  induction kw generalizing env with
  | nil => exact absurd ⟨fun _ h => (by cases h), List.nodup_nil, fun _ h => (by cases h)⟩ h
  | cons k kw ih =>
    obtain ⟨n, v⟩ := k
    unfold bindKeywords
    split
    · rfl
    · next hn =>
      split
      · rfl
      · next hb =>
        apply ih
        rintro ⟨h1, h2, h3⟩
        apply h
        rw [boundValue_isSome] at hb
        refine ⟨?_, ?_, ?_⟩
        · intro k hk
          rcases List.mem_cons.1 hk with rfl | hk
          · simpa using hn
          · exact h1 k hk
        · rw [List.map_cons, List.nodup_cons]
          refine ⟨?_, h2⟩
          intro hm
          obtain ⟨k, hk, hk2⟩ := List.mem_map.1 hm
          apply h3 k hk
          rw [List.map_append, List.mem_append]
          exact Or.inr (by simp [hk2])
        · intro k hk
          rcases List.mem_cons.1 hk with rfl | hk
          · exact hb
          · intro hm
            apply h3 k hk
            rw [List.map_append, List.mem_append]
            exact Or.inl hm

theorem bindDefaults_ok (env : List (String × PyVal)) (params : List (String × Option PyVal)) (h : ∀ n, (n, none) ∈ params → n ∈ env.map (·.1)) :
    ∃ l, bindDefaults env params = .ok l ∧ l.map (·.1) = params.map (·.1) ∧ ∀ n v, (n, v) ∈ l → boundValue env n = some v ∨ (boundValue env n = none ∧ (n, some v) ∈ params) := by
  induction params with
  | nil => exact ⟨[], rfl, rfl, fun _ _ h => by cases h⟩
  | cons p params ih =>
    obtain ⟨n, d⟩ := p
    obtain ⟨l, hl, hm, hv⟩ := ih (fun n hn => h n (List.mem_cons_of_mem _ hn))
    have hhead : ∃ v, (boundValue env n).or d = some v ∧ (boundValue env n = some v ∨ (boundValue env n = none ∧ d = some v)) := by
      cases hb : boundValue env n with
      | some v => exact ⟨v, rfl, Or.inl rfl⟩
      | none =>
        cases d with
        | some v => exact ⟨v, rfl, Or.inr ⟨rfl, rfl⟩⟩
        | none =>
          have := (boundValue_isSome env n).2 (h n List.mem_cons_self)
          rw [hb] at this
          cases this
    obtain ⟨v, hv1, hv2⟩ := hhead
    refine ⟨(n, v) :: l, ?_, ?_, ?_⟩
    · unfold bindDefaults
      rw [hv1, hl]
    · rw [List.map_cons, List.map_cons, hm]
    · intro n' v' hin
      rcases List.mem_cons.1 hin with he | hin
      · cases he
        rcases hv2 with hv2 | ⟨hv2, rfl⟩
        · exact Or.inl hv2
        · exact Or.inr ⟨hv2, List.mem_cons_self⟩
      · rcases hv n' v' hin with h' | ⟨h1, h2⟩
        · exact Or.inl h'
        · exact Or.inr ⟨h1, List.mem_cons_of_mem _ h2⟩

theorem bindDefaults_error (env : List (String × PyVal)) (params : List (String × Option PyVal)) {n : String} (hn : (n, none) ∈ params) (hne : n ∉ env.map (·.1)) :
    bindDefaults env params = .error .typeError := by
  induction params with
  | nil => cases hn
  | cons p params ih =>
    obtain ⟨m, d⟩ := p
    unfold bindDefaults
    rcases List.mem_cons.1 hn with he | hn
    · cases he
      have : boundValue env n = none := by
        rw [← Option.not_isSome_iff_eq_none, boundValue_isSome]; exact hne
      rw [this]
      rfl
    · rw [ih hn]
      split
      · rfl
      · rfl

theorem mem_zip_iff {names : List String} {pos : List PyVal} {n : String} {v : PyVal} : (n, v) ∈ names.zip pos ↔ ∃ i : Nat, names[i]? = some n ∧ pos[i]? = some v := by
  constructor
  · intro h
    obtain ⟨i, hi⟩ := List.mem_iff_getElem?.1 h
    rw [List.getElem?_zip_eq_some] at hi
    exact ⟨i, hi⟩
  · rintro ⟨i, h1, h2⟩
    exact List.mem_iff_getElem?.2 ⟨i, List.getElem?_zip_eq_some.2 ⟨h1, h2⟩⟩

theorem zip_names (names : List String) (pos : List PyVal) : (names.zip pos).map (·.1) = names.take pos.length := by
  induction names generalizing pos with
  | nil => simp
  | cons a names ih =>
    cases pos with
    | nil => simp
    | cons b pos => simp [ih]

theorem take_iff {names : List String} (h : names.Nodup) {i k : Nat} {n : String} (hi : names[i]? = some n) : n ∈ names.take k ↔ i < k := by
  constructor
  · intro hm
    obtain ⟨j, hj⟩ := List.mem_iff_getElem?.1 hm
    rw [List.getElem?_take] at hj
    split at hj
    · next hjk =>
      have hjl := (List.getElem?_eq_some_iff.1 hj).1
      have hil := (List.getElem?_eq_some_iff.1 hi).1
      have := (List.Nodup.getElem_inj_iff h (hi := hjl) (hj := hil)).1 (by rw [(List.getElem?_eq_some_iff.1 hj).2, (List.getElem?_eq_some_iff.1 hi).2])
      omega
    · cases hj
  · intro hik
    exact List.mem_iff_getElem?.2 ⟨i, by rw [List.getElem?_take, if_pos hik, hi]⟩

end Verif
