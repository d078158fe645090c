import Verif.Spec.MultiFile
import Verif.Model.MultiFile
import Verif.Proofs.CollectiveIO
import Verif.Proofs.MpiUtil

set_option linter.unusedSectionVars false

namespace Verif

variable {α β τ : Type*}

/-! ### assign_files -/

theorem sum_modify_succ (l : List Nat) (i : Nat) (hi : i < l.length) : (l.modify i (fun n => n + 1)).sum = l.sum + 1 := by
  induction l generalizing i with
  | nil => simp at hi
  | cons x l ih =>
    cases i with
    | zero => simp [List.modify_zero_cons]; omega
    | succ i => simp only [List.modify_succ_cons, List.sum_cons]; rw [ih i (by simpa using hi)]; omega

theorem modify_le {l : List Nat} {i b : Nat} (h : ∀ x ∈ l, b ≤ x) : ∀ x ∈ l.modify i (fun n => n + 1), b ≤ x := by
  intro x hx
  obtain ⟨j, hj⟩ := List.mem_iff_getElem?.1 hx
  rw [List.getElem?_modify] at hj
  cases hl : l[j]? with
  | none => rw [hl] at hj; simp at hj
  | some y =>
    rw [hl] at hj
    have := h y (List.mem_of_getElem? hl)
    by_cases hij : i = j
    · simp [hij] at hj; omega
    · simp [hij] at hj; omega

theorem modify_ge {l : List Nat} {i b : Nat} (h : ∀ x ∈ l, x ≤ b) : ∀ x ∈ l.modify i (fun n => n + 1), x ≤ b + 1 := by
  intro x hx
  obtain ⟨j, hj⟩ := List.mem_iff_getElem?.1 hx
  rw [List.getElem?_modify] at hj
  cases hl : l[j]? with
  | none => rw [hl] at hj; simp at hj
  | some y =>
    rw [hl] at hj
    have := h y (List.mem_of_getElem? hl)
    by_cases hij : i = j
    · simp [hij] at hj; omega
    · simp [hij] at hj; omega

theorem assignFiles_ok (nr_files : Nat) {nr_ranks : Nat} (h : 0 < nr_ranks) :
    ∃ l, assignFiles nr_files nr_ranks = .ok l ∧ l.length = nr_ranks ∧ l.sum = nr_files ∧ (∀ x ∈ l, nr_files / nr_ranks ≤ x) ∧
      ∀ x ∈ l, x ≤ nr_files / nr_ranks + nr_files % nr_ranks := by
  unfold assignFiles
  rw [if_neg (by omega)]
  simp only
  have key : ∀ step m : Nat, ∀ l : List Nat, l = (List.range m).foldl (fun f i => f.modify ((i * step) % nr_ranks) (fun n => n + 1))
      (List.replicate nr_ranks (nr_files / nr_ranks)) →
      l.length = nr_ranks ∧ l.sum = nr_ranks * (nr_files / nr_ranks) + m ∧ (∀ x ∈ l, nr_files / nr_ranks ≤ x) ∧ ∀ x ∈ l, x ≤ nr_files / nr_ranks + m := by
    intro step m
    induction m with
    | zero => rintro l rfl; simp
    | succ m ih =>
      obtain ⟨h1, h2, h3, h4⟩ := ih _ rfl
      rintro l rfl
      simp only [List.range_succ, List.foldl_append, List.foldl_cons, List.foldl_nil]
      refine ⟨by rw [List.length_modify, h1], ?_, modify_le h3, modify_ge h4⟩
      rw [sum_modify_succ _ _ (by rw [h1]; exact Nat.mod_lt _ h), h2]
      omega
  have hmod := Nat.div_add_mod nr_files nr_ranks
  by_cases hr : nr_files % nr_ranks > 0
  · rw [if_pos hr]
    obtain ⟨h1, h2, h3, h4⟩ := key (max (nr_files / (nr_files % nr_ranks + 1)) 1) (nr_files % nr_ranks) _ rfl
    rw [if_pos (by rw [h2]; exact hmod)]
    exact ⟨_, rfl, h1, by rw [h2]; exact hmod, h3, h4⟩
  · rw [if_neg hr]
    obtain ⟨h1, h2, h3, h4⟩ := key 1 0 _ rfl
    simp only [List.range_zero, List.foldl_nil] at h1 h2 h3 h4
    rw [if_pos (by rw [h2]; omega)]
    exact ⟨_, rfl, h1, by rw [h2]; omega, h3, fun x hx => by have := h4 x hx; omega⟩

/-! ### Assignment of ranks -/

theorem sum_take_eq_pre (l : List Nat) {i : Nat} (hi : i ≤ l.length) : (l.take i).sum = pre (fun j => l.getD j 0) i := by
  induction i with
  | zero => simp
  | succ i ih =>
    rw [List.take_add_one, List.sum_append, ih (by omega), pre_succ, List.getElem?_eq_getElem (by omega), List.getD_eq_getElem?_getD,
      List.getElem?_eq_getElem (by omega)]
    simp

theorem findFile_ok (n : Nat → Nat) (r : Nat) (m s f : Nat) (h1 : s ≤ f) (h2 : f < s + m) (h3 : pre n f ≤ r) (h4 : r < pre n f + n f) :
    findFile r ((List.range' s m).map (fun i => (pre n i, n i))) s = some (.collective f (r - pre n f) (n f)) := by
  induction m generalizing s with
  | zero => omega
  | succ m ih =>
    rw [List.range'_succ, List.map_cons, findFile]
    by_cases hs : s = f
    · subst hs
      rw [if_pos ⟨h3, h4⟩]
    · rw [if_neg, ih (s + 1) (by omega) (by omega)]
      intro ⟨h5, h6⟩
      exact hs (block_unique (f := n) h5 h6 h3 h4)

theorem offsetsOf_zip (l : List Nat) : (offsetsOf l).zip l = (List.range' 0 l.length).map (fun i => (pre (fun j => l.getD j 0) i, l.getD i 0)) := by
  apply List.ext_getElem?
  intro i
  by_cases hi : i < l.length
  · rw [List.getElem?_map, List.getElem?_range' hi]
    rw [List.getElem?_eq_getElem (by simp [offsetsOf]; omega)]
    simp only [offsetsOf, List.getElem_zip, List.getElem_map, List.getElem_range, Nat.zero_add, Nat.one_mul, Option.map_some]
    rw [sum_take_eq_pre l (by omega), List.getD_eq_getElem?_getD, List.getElem?_eq_getElem hi]
    rfl
  · rw [List.getElem?_eq_none (by simp [offsetsOf]; omega), List.getElem?_eq_none (by simp; omega)]

theorem layout_independent {F P : Nat} (hP : 0 < P) (hF : P ≤ F) : ∃ num : Nat → Nat, pre num P = F ∧ (∀ p < P, 0 < num p) ∧
    ∀ p < P, multiFileLayout F P p = .ok (.independent (pre num p) (num p)) := by
  obtain ⟨l, h1, h2, h3, h4, -⟩ := assignFiles_ok F hP
  refine ⟨fun j => l.getD j 0, ?_, fun p hp => ?_, fun p hp => ?_⟩
  · rw [← sum_take_eq_pre l (by omega), ← h2, List.take_length, h3]
  · have h5 : F / P ≤ l.getD p 0 := by
      rw [List.getD_eq_getElem?_getD, List.getElem?_eq_getElem (by omega)]
      exact h4 _ (List.getElem_mem _)
    exact Nat.lt_of_lt_of_le (Nat.div_pos hF hP) h5
  · unfold multiFileLayout
    rw [if_pos hF, h1]
    simp only
    have e1 : (offsetsOf l)[p]? = some (pre (fun j => l.getD j 0) p) := by
      rw [offsetsOf, List.getElem?_map, List.getElem?_range (by omega), Option.map_some, sum_take_eq_pre l (by omega)]
    have e2 : l[p]? = some (l.getD p 0) := by
      rw [List.getD_eq_getElem?_getD, List.getElem?_eq_getElem (by omega)]; rfl
    rw [e1, e2]

theorem layout_collective {F P : Nat} (hF : 0 < F) (hP : F < P) : ∃ l : List Nat, assignFiles P F = .ok l ∧ l.length = F ∧ pre (fun j => l.getD j 0) F = P ∧ (∀ f < F, 0 < l.getD f 0) ∧
    ∀ f < F, ∀ k < l.getD f 0, multiFileLayout F P (pre (fun j => l.getD j 0) f + k) = .ok (.collective f k (l.getD f 0)) := by
  obtain ⟨l, h1, h2, h3, h4, -⟩ := assignFiles_ok P hF
  refine ⟨l, h1, h2, ?_, fun p hp => ?_, fun f hf k hk => ?_⟩
  · rw [← sum_take_eq_pre l (by omega), ← h2, List.take_length, h3]
  · have h5 : P / F ≤ l.getD p 0 := by
      rw [List.getD_eq_getElem?_getD, List.getElem?_eq_getElem (by omega)]
      exact h4 _ (List.getElem_mem _)
    exact Nat.lt_of_lt_of_le (Nat.div_pos (by omega) hF) h5
  · unfold multiFileLayout
    rw [if_neg (by omega), h1]
    simp only
    rw [offsetsOf_zip, findFile_ok (fun j => l.getD j 0) _ _ _ f (by omega) (by omega) (by omega) (by omega)]
    simp

/-! ### Concatenation -/

theorem gcat_eq_flatMap (P : Nat) (a : Nat → List α) : gcat P a = (List.range P).flatMap a := by
  induction P with
  | zero => rfl
  | succ P ih => rw [gcat_succ, ih, List.range_succ, List.flatMap_append]; simp

theorem gcat_add (m n : Nat) (a : Nat → List α) : gcat (m + n) a = gcat m a ++ gcat n (fun k => a (m + k)) := by
  induction n with
  | zero => simp
  | succ n ih => rw [← Nat.add_assoc, gcat_succ, ih, gcat_succ, List.append_assoc]

theorem gcat_blocks (n : Nat → Nat) (F : Nat) (a : Nat → List α) : gcat (pre n F) a = gcat F (fun f => gcat (n f) (fun k => a (pre n f + k))) := by
  induction F with
  | zero => rfl
  | succ F ih => rw [pre_succ, gcat_add, ih, gcat_succ]

theorem flatMap_range' (a : Nat → List α) (s n : Nat) : (List.range' s n).flatMap a = gcat n (fun k => a (s + k)) := by
  rw [gcat_eq_flatMap, List.range'_eq_map_range, List.flatMap_map]

theorem filterMap_flatMap {γ : Type*} (l : List Nat) (f : Nat → Option γ) (g : γ → List α) : (l.filterMap f).flatMap g = l.flatMap (fun i => (f i).elim [] g) := by
  induction l with
  | nil => rfl
  | cons i l ih =>
    rw [List.filterMap_cons, List.flatMap_cons]
    cases h : f i with
    | none => simp [ih]
    | some x => simp [ih]

/-- File number of each element in a file. -/
def fileNrs (files : Nat → Option (TypedArray τ α)) (idx : Nat → Nat) (f : Nat) : List Nat := List.replicate (fileRows files f).length (idx f)

/-- What the ranks have after reading their parts. -/
structure ReadLocalOk (P F : Nat) (files : Nat → Option (TypedArray τ α)) (idx : Nat → Nat) (t : τ) (d : List Nat)
    (has : Nat → Bool) (rows : Nat → List α) (nr : Nat → List Nat) : Prop where
  absent : ∀ p < P, has p = false → rows p = [] ∧ nr p = []
  rows_eq : gcat P rows = gcat F (fileRows files)
  nr_eq : gcat P nr = gcat F (fileNrs files idx)
  len_eq : ∀ p < P, (nr p).length = (rows p).length
  some_has : (∃ p < P, has p = true) ↔ ∃ f < F, files f ≠ none
  epf : ∀ p < P, ∃ e, elementsPerFile P F files idx p = .ok e ∧ (rows p).length = (e.map Prod.snd).sum

theorem sum_map_range (f : Nat → Nat) (n : Nat) : ((List.range n).map f).sum = pre f n := by
  induction n with
  | zero => rfl
  | succ n ih => rw [List.range_succ, List.map_append, List.sum_append, ih, pre_succ]; simp

theorem elim_length (files : Nat → Option (TypedArray τ α)) (i : Nat) : (files i).elim 0 (fun a => a.rows.length) = (fileRows files i).length := by
  unfold fileRows; cases files i <;> rfl

theorem concatParts_ok {parts : List (TypedArray τ α)} {t : τ} {d : List Nat} (h : ∀ a ∈ parts, a.dtype = t ∧ a.dims = d) :
    concatParts parts = .ok (if parts.isEmpty then none else some ⟨t, d, parts.flatMap TypedArray.rows⟩) := by
  cases parts with
  | nil => rfl
  | cons a rest =>
    unfold concatParts
    simp only
    rw [if_pos]
    · have := h a (by simp)
      simp [this.1, this.2]
    · simp only [List.all_eq_true, decide_eq_true_eq]
      intro b hb
      rw [(h b (by simp [hb])).2, (h a (by simp)).2]

theorem readLocal_independent [DecidableEq τ] [Inhabited α] {F P : Nat} (hP : 0 < P) (hF : P ≤ F) {files : Nat → Option (TypedArray τ α)} (idx : Nat → Nat) (itemsize : τ → Nat)
    (buffer_size : Nat) {t : τ} {d : List Nat} (hc : ∀ f < F, ∀ a, files f = some a → a.dtype = t ∧ a.dims = d) :
    ∃ has rows nr, ReadLocalOk P F files idx t d has rows nr ∧ ∀ p < P, readLocal P F files idx itemsize buffer_size p =
      .ok (if has p then some ⟨t, d, rows p⟩ else none, false, if has p then some (nr p) else none) := by
  obtain ⟨num, h1, h2, h3⟩ := layout_independent hP hF
  have hlt : ∀ p < P, ∀ i ∈ List.range' (pre num p) (num p), i < F := by
    intro p hp i hi
    rw [List.mem_range'_1] at hi
    have := pre_lt_total (f := num) hp
    omega
  refine ⟨fun p => !((List.range' (pre num p) (num p)).filterMap files).isEmpty, fun p => gcat (num p) (fun k => fileRows files (pre num p + k)),
    fun p => gcat (num p) (fun k => fileNrs files idx (pre num p + k)), ⟨?_, ?_, ?_, ?_, ?_, ?_⟩, ?_⟩
  · intro p hp hh
    simp only [Bool.not_eq_eq_eq_not, Bool.not_false, List.isEmpty_iff, List.filterMap_eq_nil_iff] at hh
    have h0 : ∀ k < num p, fileRows files (pre num p + k) = [] := by
      intro k hk
      unfold fileRows
      rw [hh _ (by rw [List.mem_range'_1]; omega)]
      rfl
    constructor
    · rw [gcat_congr (b := fun _ => []) h0, gcat_eq_flatMap]; simp
    · rw [gcat_congr (b := fun _ => []) (fun k hk => by unfold fileNrs; rw [h0 k hk]; rfl), gcat_eq_flatMap]; simp
  · rw [← gcat_blocks, h1]
  · rw [← gcat_blocks, h1]
  · intro p hp
    simp only [length_gcat]
    apply pre_congr
    intro k hk
    simp [sizes, fileNrs]
  · constructor
    · rintro ⟨p, hp, hh⟩
      simp only [Bool.not_eq_eq_eq_not, Bool.not_true, List.isEmpty_eq_false_iff, ne_eq, List.filterMap_eq_nil_iff, not_forall] at hh
      obtain ⟨i, hi, hne⟩ := hh
      exact ⟨i, hlt p hp i hi, hne⟩
    · rintro ⟨f, hf, hne⟩
      obtain ⟨p, hp, h5, h6⟩ := exists_block (f := num) (show f < pre num P by omega)
      refine ⟨p, hp, ?_⟩
      simp only [Bool.not_eq_eq_eq_not, Bool.not_true, List.isEmpty_eq_false_iff, ne_eq, List.filterMap_eq_nil_iff, not_forall]
      exact ⟨f, by rw [List.mem_range'_1]; omega, hne⟩
  · intro p hp
    refine ⟨_, by unfold elementsPerFile; rw [h3 p hp], ?_⟩
    rw [List.map_map, List.range'_eq_map_range, List.map_map, length_gcat]
    refine Eq.trans (pre_congr (fun k hk => ?_)) (sum_map_range _ _).symm
    simp only [Function.comp_apply, elim_length, sizes]
  · intro p hp
    unfold readLocal
    rw [h3 p hp]
    simp only
    unfold readIndependent
    simp only
    have hparts : ∀ a ∈ (List.range' (pre num p) (num p)).filterMap files, a.dtype = t ∧ a.dims = d := by
      intro a ha
      obtain ⟨i, hi, hia⟩ := List.mem_filterMap.1 ha
      exact hc i (hlt p hp i hi) a hia
    have e1 : ((List.range' (pre num p) (num p)).filterMap files).flatMap TypedArray.rows = gcat (num p) (fun k => fileRows files (pre num p + k)) := by
      rw [filterMap_flatMap, flatMap_range']; rfl
    have e2 : ((List.range' (pre num p) (num p)).filterMap (fun i => (files i).map (fun a => List.replicate a.rows.length (idx i)))).flatten =
        gcat (num p) (fun k => fileNrs files idx (pre num p + k)) := by
      rw [← List.flatMap_id, filterMap_flatMap, flatMap_range']
      apply gcat_congr
      intro k hk
      unfold fileNrs fileRows
      cases files (pre num p + k) <;> simp
    have e3 : ((List.range' (pre num p) (num p)).filterMap (fun i => (files i).map (fun a => List.replicate a.rows.length (idx i)))).isEmpty =
        ((List.range' (pre num p) (num p)).filterMap files).isEmpty := by
      rw [Bool.eq_iff_iff]
      simp [List.isEmpty_iff, List.filterMap_eq_nil_iff]
    rw [concatParts_ok hparts]
    simp only
    rw [e1, e2, e3]
    have e4 : typesDiffer ((List.range' (pre num p) (num p)).filterMap files) = false := by
      cases hl : (List.range' (pre num p) (num p)).filterMap files with
      | nil => rfl
      | cons a rest =>
        rw [hl] at hparts
        simp only [typesDiffer, List.any_eq_false, decide_eq_true_eq, ne_eq, not_not]
        intro b hb
        rw [(hparts b (by simp [hb])).1, (hparts a (by simp)).1]
    rw [e4]
    cases ((List.range' (pre num p) (num p)).filterMap files).isEmpty <;> rfl

theorem gcat_replicate (n : Nat) (l : Nat → Nat) (v : β) : gcat n (fun k => List.replicate (l k) v) = List.replicate (pre l n) v := by
  induction n with
  | zero => rfl
  | succ n ih => rw [gcat_succ, ih, pre_succ, List.replicate_append_replicate]

theorem readLocal_collective [DecidableEq τ] [Inhabited α] {F P : Nat} (hF : 0 < F) (hP : F < P) {files : Nat → Option (TypedArray τ α)} (idx : Nat → Nat) {itemsize : τ → Nat}
    {buffer_size : Nat} {t : τ} {d : List Nat} (hc : ∀ f < F, ∀ a, files f = some a → a.dtype = t ∧ a.dims = d)
    (h0 : 0 < elementSize (itemsize t) d) (hb : elementSize (itemsize t) d ≤ buffer_size) :
    ∃ has rows nr, ReadLocalOk P F files idx t d has rows nr ∧ (∀ p < P, readLocal P F files idx itemsize buffer_size p =
      .ok (if has p then some ⟨t, d, rows p⟩ else none, false, if has p then some (nr p) else none)) := by
  obtain ⟨l, h1, h2, h3, h4, h5⟩ := layout_collective hF hP
  -- file and rank in file
  have hblock : ∀ p, p < P → ∃ f, f < F ∧ pre (fun j => l.getD j 0) f ≤ p ∧ p < pre (fun j => l.getD j 0) f + l.getD f 0 := by
    intro p hp
    exact exists_block (f := fun j => l.getD j 0) (by omega)
  choose! fl hfl1 hfl2 hfl3 using hblock
  have huniq : ∀ f < F, ∀ k < l.getD f 0, fl (pre (fun j => l.getD j 0) f + k) = f := by
    intro f hf k hk
    have hlt : pre (fun j => l.getD j 0) f + k < P := by
      have := pre_lt_total (f := fun j => l.getD j 0) hf
      omega
    exact block_unique (f := fun j => l.getD j 0) (hfl2 _ hlt) (hfl3 _ hlt) (by omega) (by omega)
  generalize hn : (fun j => l.getD j 0) = n at *
  have hn' : ∀ j, l.getD j 0 = n j := fun j => by rw [← hn]
  simp only [hn'] at *
  have hdecomp : ∀ p < P, pre n (fl p) + (p - pre n (fl p)) = p ∧ p - pre n (fl p) < n (fl p) := by
    intro p hp
    have := hfl2 p hp
    have := hfl3 p hp
    omega
  have hpart : ∀ f < F, gcat (n f) (fun k => slice (fileRows files f) (pre (numOnTask (fileRows files f).length (n f)) k) (numOnTask (fileRows files f).length (n f) k)) = fileRows files f := by
    intro f hf
    have := gcat_slice (fileRows files f) (numOnTask (fileRows files f).length (n f)) 0 (n f)
    simp only [Nat.zero_add] at this
    rw [this, pre_numOnTask _ _ (h4 f hf), slice_all]
  refine ⟨fun p => (files (fl p)).isSome,
    fun p => slice (fileRows files (fl p)) (pre (numOnTask (fileRows files (fl p)).length (n (fl p))) (p - pre n (fl p))) (numOnTask (fileRows files (fl p)).length (n (fl p)) (p - pre n (fl p))),
    fun p => List.replicate (slice (fileRows files (fl p)) (pre (numOnTask (fileRows files (fl p)).length (n (fl p))) (p - pre n (fl p))) (numOnTask (fileRows files (fl p)).length (n (fl p)) (p - pre n (fl p)))).length (idx (fl p)),
    ⟨?_, ?_, ?_, ?_, ?_, ?_⟩, ?_⟩
  · intro p hp hh
    have hnone : files (fl p) = none := by simpa using hh
    have : fileRows files (fl p) = [] := by unfold fileRows; rw [hnone]; rfl
    simp [this, slice]
  · rw [← h3, gcat_blocks]
    apply gcat_congr
    intro f hf
    rw [← hpart f hf]
    apply gcat_congr
    intro k hk
    simp only [huniq f hf k hk, Nat.add_sub_cancel_left, hpart f hf]
  · rw [← h3, gcat_blocks]
    apply gcat_congr
    intro f hf
    have e1 : gcat (n f) (fun k => (fun p => List.replicate (slice (fileRows files (fl p)) (pre (numOnTask (fileRows files (fl p)).length (n (fl p))) (p - pre n (fl p))) (numOnTask (fileRows files (fl p)).length (n (fl p)) (p - pre n (fl p)))).length (idx (fl p))) (pre n f + k)) =
        gcat (n f) (fun k => List.replicate (slice (fileRows files f) (pre (numOnTask (fileRows files f).length (n f)) k) (numOnTask (fileRows files f).length (n f) k)).length (idx f)) := by
      apply gcat_congr
      intro k hk
      simp only [huniq f hf k hk, Nat.add_sub_cancel_left]
    rw [e1, gcat_replicate]
    unfold fileNrs
    congr 1
    have e2 := congrArg List.length (hpart f hf)
    rw [length_gcat] at e2
    exact e2
  · intro p hp
    simp
  · constructor
    · rintro ⟨p, hp, hh⟩
      refine ⟨fl p, hfl1 p hp, fun hnone => ?_⟩
      simp [hnone] at hh
    · rintro ⟨f, hf, hne⟩
      refine ⟨pre n f + 0, ?_, ?_⟩
      · have := pre_lt_total (f := n) hf
        have := h4 f hf
        omega
      · simp only [huniq f hf 0 (h4 f hf)]
        exact Option.isSome_iff_ne_none.2 hne
  · intro p hp
    obtain ⟨hd1, hd2⟩ := hdecomp p hp
    have hl := h5 (fl p) (hfl1 p hp) (p - pre n (fl p)) hd2
    rw [hd1] at hl
    refine ⟨_, by unfold elementsPerFile; rw [hl], ?_⟩
    simp only [List.map_cons, List.map_nil, List.sum_cons, List.sum_nil, Nat.add_zero]
    have e1 : (files (fl p)).elim 0 (fun a => numOnTask a.rows.length (n (fl p)) (p - pre n (fl p))) = numOnTask (fileRows files (fl p)).length (n (fl p)) (p - pre n (fl p)) := by
      unfold fileRows
      cases files (fl p) with
      | none => simp [numOnTask]
      | some a => rfl
    rw [e1, length_slice_of_le]
    have := pre_lt_total (f := numOnTask (fileRows files (fl p)).length (n (fl p))) hd2
    rw [pre_numOnTask _ _ (h4 _ (hfl1 p hp))] at this
    exact this
  · intro p hp
    obtain ⟨hd1, hd2⟩ := hdecomp p hp
    have hl := h5 (fl p) (hfl1 p hp) (p - pre n (fl p)) hd2
    rw [hd1] at hl
    unfold readLocal
    rw [hl]
    simp only
    unfold readCollective
    cases hfile : files (fl p) with
    | none => rfl
    | some a =>
      obtain ⟨ht, hd⟩ := hc (fl p) (hfl1 p hp) a hfile
      simp only
      have hrows : fileRows files (fl p) = a.rows := by unfold fileRows; rw [hfile]; rfl
      obtain ⟨out, ho1, ho2, -⟩ := collectiveRead_ok (P := n (fl p)) (h4 _ (hfl1 p hp)) a.rows (itemsize := itemsize a.dtype) (dims := a.dims) (buffer_size := buffer_size)
        (by rw [ht, hd]; exact h0) (by rw [ht, hd]; exact hb)
      rw [ho1]
      simp only [ho2 _ hd2, hrows, ht, hd, Option.isSome_some, if_true]

/-! ### read -/

theorem allRanks_ok {P : Nat} {f : Nat → Except Err β} {g : Nat → β} (h : ∀ p < P, f p = .ok (g p)) : allRanks P f = .ok ((List.range P).map g) := by
  unfold allRanks
  have : ∀ l : List Nat, (∀ p ∈ l, f p = .ok (g p)) → l.mapM f = .ok (l.map g) := by
    intro l hl
    induction l with
    | nil => rfl
    | cons p l ih =>
      rw [List.mapM_cons, hl p (by simp), ih (fun q hq => hl q (by simp [hq]))]
      rfl
  exact this _ (fun p hp => h p (List.mem_range.1 hp))

theorem multiFileRead_of_local [DecidableEq τ] [Inhabited α] {P F : Nat} {files : Nat → Option (TypedArray τ α)} {idx : Nat → Nat} {itemsize : τ → Nat} {native : τ → τ}
    {buffer_size : Nat} {t : τ} {d : List Nat} {has : Nat → Bool} {rows : Nat → List α} {nr : Nat → List Nat} (h : ReadLocalOk P F files idx t d has rows nr)
    (hl : ∀ p < P, readLocal P F files idx itemsize buffer_size p = .ok (if has p then some ⟨t, d, rows p⟩ else none, false, if has p then some (nr p) else none)) :
    ((∀ f < F, files f = none) ∧ multiFileRead P F files idx itemsize native buffer_size = .ok ((List.range P).map (fun _ => (none, none)))) ∨
    ((∃ f < F, files f ≠ none) ∧ multiFileRead P F files idx itemsize native buffer_size =
      .ok ((List.range P).map (fun p => (some ⟨native t, d, rows p⟩, some ⟨(), [], nr p⟩)))) := by
  have hloc := allRanks_ok hl
  have hget : ∀ p < P, ((List.range P).map (fun p => ((if has p then some (⟨t, d, rows p⟩ : TypedArray τ α) else none), false, (if has p then some (nr p) else none))))[p]? =
      some ((if has p then some ⟨t, d, rows p⟩ else none), false, (if has p then some (nr p) else none)) := by
    intro p hp
    rw [List.getElem?_map, List.getElem?_range hp]; rfl
  unfold multiFileRead
  rw [hloc]
  simp only [Except.andThen]
  rw [if_neg (by simp)]
  by_cases hex : ∃ f < F, files f ≠ none
  · right
    refine ⟨hex, ?_⟩
    obtain ⟨p0, hp0, hh0⟩ := h.some_has.2 hex
    -- the first rank with data
    have hfirst : ∃ r, r < P ∧ has r = true ∧ ∀ q < r, has q = false := by
      have : ∀ n, ∀ p, p ≤ n → p < P → has p = true → ∃ r, r < P ∧ has r = true ∧ ∀ q < r, has q = false := by
        intro n
        induction n with
        | zero => intro p hp hpP hh; exact ⟨p, hpP, hh, fun q hq => by omega⟩
        | succ n ih =>
          intro p hp hpP hh
          by_cases hmin : ∀ q < p, has q = false
          · exact ⟨p, hpP, hh, hmin⟩
          · simp only [not_forall, Bool.not_eq_false] at hmin
            obtain ⟨q, hq, hhq⟩ := hmin
            exact ih q (by omega) (by omega) hhq
      exact this p0 p0 (Nat.le_refl _) hp0 hh0
    obtain ⟨r, hr, hhr, hrmin⟩ := hfirst
    rw [allRanks_ok (g := fun p => some (⟨native t, d, rows p⟩ : TypedArray τ α))]
    · simp only
      rw [allRanks_ok (g := fun p => some (⟨(), [], nr p⟩ : TypedArray Unit Nat))]
      · simp only
        rw [if_neg]
        · rw [List.zip_map']
        · simp only [List.filterMap_map, List.any_eq_true, decide_eq_true_eq, not_exists, not_and, not_not]
          intro x hx
          obtain ⟨q, hq, hqx⟩ := List.mem_filterMap.1 hx
          simp only [Function.comp_apply, Option.map_some, Option.some.injEq] at hqx
          have : (List.range P).filterMap ((fun a => a.map TypedArray.dtype) ∘ fun p => some (⟨native t, d, rows p⟩ : TypedArray τ α)) = List.replicate P (native t) := by
            rw [show ((fun a => a.map TypedArray.dtype) ∘ fun p => some (⟨native t, d, rows p⟩ : TypedArray τ α)) = fun _ => some (native t) from rfl]
            rw [show (fun _ : Nat => some (native t)) = some ∘ (fun _ => native t) from rfl, List.filterMap_eq_map, List.map_const', List.length_range]
          rw [this, List.head?_replicate, if_neg (by omega), hqx]
      · intro p hp
        cases hpp : has p with
        | true => exact replaceNone_some (by rw [hget p hp]; simp [hpp])
        | false =>
          rw [(h.absent p hp hpp).2]
          exact replaceNone_none (r := r) (a := ⟨(), [], nr r⟩) (by rw [hget p hp]; simp [hpp]) hr (by rw [hget r hr]; simp [hhr])
            (fun q hq => by rw [hget q (by omega)]; simp [hrmin q hq])
    · intro p hp
      cases hpp : has p with
      | true => exact replaceNone_some (by rw [hget p hp]; simp [hpp])
      | false =>
        rw [(h.absent p hp hpp).1]
        exact replaceNone_none (r := r) (a := ⟨native t, d, rows r⟩) (by rw [hget p hp]; simp [hpp]) hr (by rw [hget r hr]; simp [hhr])
          (fun q hq => by rw [hget q (by omega)]; simp [hrmin q hq])
  · left
    have hno : ∀ p < P, has p = false := by
      intro p hp
      by_contra hne
      exact hex (h.some_has.1 ⟨p, hp, by simpa using hne⟩)
    refine ⟨fun f hf => by by_contra hne; exact hex ⟨f, hf, hne⟩, ?_⟩
    rw [allRanks_ok (g := fun _ => none)]
    · simp only
      rw [allRanks_ok (g := fun _ => none)]
      · simp only
        rw [if_neg]
        · rw [List.zip_map']
        · simp [List.filterMap_map]
      · intro p hp
        exact replaceNone_all hp (fun q hq => by rw [hget q hq]; simp [hno q hq])
    · intro p hp
      exact replaceNone_all hp (fun q hq => by rw [hget q hq]; simp [hno q hq])

end Verif
