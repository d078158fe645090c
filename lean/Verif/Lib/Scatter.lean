import Verif.Lib.Mpi

namespace Verif

variable {α β : Type*}

@[simp] theorem length_scatter (out : List α) (idx : List Nat) (vals : List α) :
    (scatter out idx vals).length = out.length := by
  unfold scatter
  generalize idx.zip vals = z
  induction z generalizing out with
  | nil => rfl
  | cons p z ih => simp [ih]

theorem scatter_cons (out : List α) (i : Nat) (idx : List Nat) (v : α) (vals : List α) :
    scatter out (i :: idx) (v :: vals) = scatter (out.set i v) idx vals := rfl

theorem getElem?_scatter_not_mem {out : List α} {idx : List Nat} {vals : List α} {i : Nat}
    (h : i ∉ idx) : (scatter out idx vals)[i]? = out[i]? := by
  induction idx generalizing out vals with
  | nil => rfl
  | cons j idx ih =>
    cases vals with
    | nil => rfl
    | cons v vals =>
      rw [scatter_cons, ih (fun h' => h (by simp [h']))]
      rw [List.getElem?_set_ne]
      intro h'; exact h (by simp [h'])

theorem getElem?_scatter {out : List α} {idx : List Nat} {vals : List α} {i k : Nat}
    (hn : idx.Nodup) (hlen : idx.length = vals.length) (hk : idx[k]? = some i) (hi : i < out.length) :
    (scatter out idx vals)[i]? = vals[k]? := by
  induction idx generalizing out vals k with
  | nil => simp at hk
  | cons j idx ih =>
    cases vals with
    | nil => simp at hlen
    | cons v vals =>
      have hn' := List.nodup_cons.1 hn
      rw [scatter_cons]
      cases k with
      | zero =>
        simp only [List.getElem?_cons_zero, Option.some.injEq] at hk
        subst hk
        rw [getElem?_scatter_not_mem hn'.1, List.getElem?_set_self hi]
        simp
      | succ k =>
        simp only [List.getElem?_cons_succ] at hk ⊢
        exact ih hn'.2 (by simpa using hlen) hk (by simpa using hi)

/-- Scattering back with a permutation undoes gathering with it. -/
theorem scatter_fancy [Inhabited α] {out l : List α} {idx : List Nat}
    (hp : idx.Perm (List.range l.length)) (ho : out.length = l.length) :
    scatter out idx (fancy l idx) = l := by
  apply List.ext_getElem?
  intro i
  by_cases hi : i < l.length
  · have hm : i ∈ idx := hp.mem_iff.2 (List.mem_range.2 hi)
    obtain ⟨k, hk⟩ := List.mem_iff_getElem?.1 hm
    rw [getElem?_scatter (hp.nodup_iff.2 List.nodup_range) (by simp) hk (by omega)]
    simp [fancy, hk, List.getD_eq_getElem?_getD, List.getElem?_eq_getElem hi]
  · rw [List.getElem?_eq_none (by simp; omega), List.getElem?_eq_none (by omega)]

theorem scatter_fancy_map [Inhabited α] [Inhabited β] {out : List β} {l : List α} {idx : List Nat} (g : α → β)
    (hp : idx.Perm (List.range l.length)) (ho : out.length = l.length) :
    scatter out idx ((fancy l idx).map g) = l.map g := by
  have : (fancy l idx).map g = fancy (l.map g) idx := by
    unfold fancy
    rw [List.map_map]
    apply List.map_congr_left
    intro i hi
    have : i < l.length := List.mem_range.1 (hp.mem_iff.1 hi)
    simp [List.getD_eq_getElem?_getD, List.getElem?_eq_getElem this]
  rw [this]
  exact scatter_fancy (by simpa using hp) (by simpa using ho)

theorem mem_fancy_of_perm [Inhabited α] {l : List α} {idx : List Nat}
    (hp : idx.Perm (List.range l.length)) {x : α} : x ∈ fancy l idx ↔ x ∈ l := by
  unfold fancy
  simp only [List.mem_map]
  constructor
  · rintro ⟨i, hi, rfl⟩
    have : i < l.length := List.mem_range.1 (hp.mem_iff.1 hi)
    simp [List.getD_eq_getElem?_getD, List.getElem?_eq_getElem this]
  · intro hx
    obtain ⟨i, hi⟩ := List.mem_iff_getElem?.1 hx
    refine ⟨i, hp.mem_iff.2 (List.mem_range.2 ?_), by simp [List.getD_eq_getElem?_getD, hi]⟩
    exact (List.getElem?_eq_some_iff.1 hi).1

/-- Storing blocks which fill the buffer consecutively gives their concatenation. -/
theorem a2avInto_consecutive {P : Nat} {send : Nat → List α} {scnt soff roff : Nat → Nat → Nat}
    {recv : Nat → List α} {d : Nat} (x : Nat → List α)
    (hx : ∀ s < P, slice (send s) (soff s d) (scnt s d) = x s)
    (hoff : ∀ s < P, roff d s = pre (sizes x) s)
    (hlen : (recv d).length = pre (sizes x) P) :
    a2avInto P send scnt soff recv roff d = gcat P x := by
  unfold a2avInto
  have := foldl_overlay_consecutive P x (recv d) (by omega)
  rw [List.drop_of_length_le (by omega), List.append_nil] at this
  rw [← this]
  apply List.foldl_ext
  intro b s hs
  have hs := List.mem_range.1 hs
  rw [hx s hs, hoff s hs]

end Verif
