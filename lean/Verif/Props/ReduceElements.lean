import Verif.Proofs.Bincount

/-! C16, C17: `reduce_elements` and `parallel_bincount` -/

namespace Verif

variable {α : Type*}

/-- All updates for global index `j`, in rank order and then in the order given on the rank. -/
def updatesFor (P : Nat) (index : Nat → List Int) (updates : Nat → List α) (j : Nat) : List α :=
  ((gcat P (fun p => (index p).zip (updates p))).filter (fun e => decide (e.1 = (j : Int)))).map Prod.snd

/-- C16. For a commutative and associative operator, `reduce_elements` combines each element with every update for it, from whatever rank, exactly once; the sizes of all
ranks stay the same. This holds for numpy ufuncs and MPI operators, and whatever the (unstable) sorts do with equal indexes. -/
theorem C16_reduce_elements [Inhabited α] (P : Nat) (hP : 0 < P) (op : α → α → α) (ufunc : Bool)
    (hcomm : ∀ a b, op a b = op b a) (hassoc : ∀ a b c, op (op a b) c = op a (op b c))
    (order : Nat → List Nat) (arr updates : Nat → List α) (index : Nat → List Int)
    (horder : ∀ p < P, IsArgsort (index p) (order p))
    (hlen : ∀ p < P, (index p).length = (updates p).length)
    (hin : ∀ p < P, ∀ i ∈ index p, 0 ≤ i ∧ i < ((gcat P arr).length : Int)) :
    ∃ out, reduceElements P op ufunc order arr updates index = .ok out ∧
      (∀ p < P, (out p).length = (arr p).length) ∧
      gcat P out = (gcat P arr).mapIdx (fun j a => (updatesFor P index updates j).foldl op a) := by
  obtain ⟨out, h1, h2⟩ := reduceElements_ok (ufunc := ufunc) hP (fun _ => hcomm)
    (fun a u v => by rw [hassoc, hcomm u v, ← hassoc]) horder hlen
    (fun p hp i hi => by have := hin p hp i hi; rwa [length_gcat] at this)
  refine ⟨out, h1, fun p hp => by rw [h2 p hp]; simp, ?_⟩
  rw [gcat_congr h2]
  exact gcat_mapIdx (fun j a => (upsFor (gcat P (fun q => (index q).zip (updates q))) (j : Int)).foldl op a) P arr

/-- C16, invalid input: if on some rank the numbers of indexes and updates differ, or an index is negative or not less than the length of the global array, the
call ends in an error. -/
theorem C16_reduce_elements_invalid [Inhabited α] (P : Nat) (op : α → α → α) (ufunc : Bool)
    (order : Nat → List Nat) (arr updates : Nat → List α) (index : Nat → List Int)
    (horder : ∀ p < P, IsArgsort (index p) (order p))
    (hbad : ∃ p < P, (index p).length ≠ (updates p).length ∨
      ∃ i ∈ index p, i < 0 ∨ ((gcat P arr).length : Int) ≤ i) :
    ∃ e, reduceElements P op ufunc order arr updates index = .error e := by
  by_cases hl : ∀ p < P, (index p).length = (updates p).length
  · by_cases h0 : ∀ p < P, ∀ i ∈ index p, 0 ≤ i
    · obtain ⟨p, hp, h | ⟨i, hi, h | h⟩⟩ := hbad
      · exact (h (hl p hp)).elim
      · have := h0 p hp i hi; omega
      · exact reduceElements_too_large horder hl h0 hp ⟨i, hi, by rwa [length_gcat] at h⟩
    · push Not at h0
      obtain ⟨p, hp, i, hi, hneg⟩ := h0
      exact ⟨_, reduceElements_negative horder hl hp ⟨i, hi, hneg⟩⟩
  · push Not at hl
    obtain ⟨p, hp, h⟩ := hl
    exact ⟨_, reduceElements_lengths hp h⟩

/-- Total weight of the elements equal to `k`. -/
def totalWeight [AddCommMonoid α] (P : Nat) (x : Nat → List Int) (w : Nat → List α) (k : Nat) : α :=
  (((gcat P x).zip (gcat P w)).filter (fun e => decide (e.1 = (k : Int)))).map Prod.snd |>.sum

theorem totalWeight_eq [AddCommMonoid α] {P : Nat} {x : Nat → List Int} {w : Nat → List α}
    (h : ∀ p < P, (x p).length = (w p).length) (k : Nat) :
    totalWeight P x w k = (upsFor (gcat P (fun q => (x q).zip (w q))) k).sum := by
  unfold totalWeight upsFor
  rw [zip_gcat h]

/-- C17 (new result array). With `n = max(max(x) + 1, minlength)` bins (0 counts as largest value if there are no values), the global result is the list of
total weights of `0, ..., n-1` and is distributed as evenly as possible, larger parts first. -/
theorem C17_parallel_bincount [AddCommMonoid α] [Inhabited α] (P : Nat) (hP : 0 < P) (one : α)
    (order1 order2 : Nat → List Int → List Nat) (h1 : ∀ p l, IsArgsort l (order1 p l))
    (h2 : ∀ p l, IsArgsort l (order2 p l)) (x : Nat → List Int) (w : Nat → List α)
    (hlen : ∀ p < P, (x p).length = (w p).length) (h0 : ∀ p < P, ∀ v ∈ x p, 0 ≤ v) (minlength : Option Int) :
    let n := (max ((gcat P x).foldl max 0 + 1) (minlength.getD 0)).toNat
    ∃ out, parallelBincount P one order1 order2 x (some w) minlength none = .ok out ∧
      (∀ p < P, (out p).length = n / P + if p < n % P then 1 else 0) ∧
      gcat P out = (List.range n).map (totalWeight P x w) := by
  intro n
  have hb := binCountBins_eq hP h0 minlength
  obtain ⟨-, g2⟩ := foldl_max_spec (gcat P x) 0
  have hnn : 0 ≤ (gcat P x).foldl max 0 := g2 0 (by simp)
  have hbn : binCountBins P x minlength = (n : Int) := by
    rw [hb]; simp only [n]; omega
  have hloc : ∀ p : Nat, binCountBins P x minlength / P + (if (p : Int) < binCountBins P x minlength % P then 1 else 0)
      = ((n / P + if p < n % P then 1 else 0 : Nat) : Int) := by
    intro p
    rw [hbn, ← Int.natCast_mod, ← Int.natCast_ediv]
    by_cases h : p < n % P
    · rw [if_pos (by exact_mod_cast h), if_pos h]; simp
    · rw [if_neg (by exact_mod_cast h), if_neg h]; simp
  let r : Nat → List α := fun p => List.replicate (n / P + if p < n % P then 1 else 0) 0
  have hsr : sizes r = fun p => n / P + if p < n % P then 1 else 0 := by funext p; simp [r, sizes]
  have hpre : pre (sizes r) P = n := by rw [hsr]; exact pre_balanced n P hP
  obtain ⟨out, ho, hs, hv⟩ := bincount_accumulate (r := r) hP h1 h2 hlen (by
    intro p hp v hv
    refine ⟨h0 p hp v hv, ?_⟩
    have := g2 v (List.mem_cons_of_mem _ (mem_gcat.2 ⟨p, hp, hv⟩))
    rw [hpre, ← hbn, hb]
    omega)
  refine ⟨out, ?_, fun p hp => by rw [hs p hp]; simp [r], ?_⟩
  · unfold parallelBincount
    simp only
    rw [if_pos (by intro me _; rw [hloc]; exact Int.natCast_nonneg _)]
    simp only
    rw [if_neg (not_not.2 (fun me hme => (hlen me hme).le))]
    rw [← ho]
    congr 1
    funext me
    rw [hloc]
    rfl
  · rw [hv]
    have hr : gcat P r = List.replicate n 0 := by
      rw [List.eq_replicate_iff]
      refine ⟨by rw [length_gcat, hpre], ?_⟩
      intro b hb
      obtain ⟨p, _, hp⟩ := mem_gcat.1 hb
      exact List.eq_of_mem_replicate hp
    rw [hr]
    apply List.ext_getElem?
    intro i
    rw [List.getElem?_mapIdx, List.getElem?_map]
    by_cases hi : i < n
    · rw [List.getElem?_replicate, if_pos hi, List.getElem?_range hi]
      simp only [Option.map_some, zero_add]
      rw [totalWeight_eq hlen]
    · rw [List.getElem?_eq_none (by simpa using hi), List.getElem?_eq_none (by simpa using hi)]
      rfl

/-- C17 (supplied result array). If the array is large enough the total weights are added to its previous contents. -/
theorem C17_parallel_bincount_result [AddCommMonoid α] [Inhabited α] (P : Nat) (hP : 0 < P) (one : α)
    (order1 order2 : Nat → List Int → List Nat) (h1 : ∀ p l, IsArgsort l (order1 p l))
    (h2 : ∀ p l, IsArgsort l (order2 p l)) (x : Nat → List Int) (w r : Nat → List α)
    (hlen : ∀ p < P, (x p).length = (w p).length) (h0 : ∀ p < P, ∀ v ∈ x p, 0 ≤ v) (minlength : Option Int)
    (hn : max ((gcat P x).foldl max 0 + 1) (minlength.getD 0) ≤ ((gcat P r).length : Int)) :
    ∃ out, parallelBincount P one order1 order2 x (some w) minlength (some r) = .ok out ∧
      (∀ p < P, (out p).length = (r p).length) ∧
      gcat P out = (gcat P r).mapIdx (fun k a => a + totalWeight P x w k) := by
  have hb := binCountBins_eq hP h0 minlength
  obtain ⟨-, g2⟩ := foldl_max_spec (gcat P x) 0
  rw [length_gcat] at hn
  obtain ⟨out, ho, hs, hv⟩ := bincount_accumulate (r := r) hP h1 h2 hlen (by
    intro p hp v hv
    refine ⟨h0 p hp v hv, ?_⟩
    have := g2 v (List.mem_cons_of_mem _ (mem_gcat.2 ⟨p, hp, hv⟩))
    omega)
  refine ⟨out, ?_, hs, ?_⟩
  · unfold parallelBincount
    simp only
    rw [if_neg (by omega)]
    simp only
    rw [if_neg (not_not.2 (fun me hme => (hlen me hme).le))]
    exact ho
  · rw [hv]
    congr 1
    funext k a
    rw [totalWeight_eq hlen]

/-- C17 (result array too small). -/
theorem C17_parallel_bincount_small [AddCommMonoid α] [Inhabited α] (P : Nat) (hP : 0 < P) (one : α)
    (order1 order2 : Nat → List Int → List Nat) (x : Nat → List Int) (w : Option (Nat → List α)) (r : Nat → List α)
    (h0 : ∀ p < P, ∀ v ∈ x p, 0 ≤ v) (minlength : Option Int)
    (hn : ((gcat P r).length : Int) < max ((gcat P x).foldl max 0 + 1) (minlength.getD 0)) :
    parallelBincount P one order1 order2 x w minlength (some r) = .error .valueError := by
  have hb := binCountBins_eq hP h0 minlength
  rw [length_gcat] at hn
  unfold parallelBincount
  simp only
  rw [if_pos (by omega)]

/-- C17 (no weights): the bins of a new result array are the numbers of elements. -/
theorem C17_parallel_bincount_unweighted (P : Nat) (hP : 0 < P)
    (order1 order2 : Nat → List Int → List Nat) (h1 : ∀ p l, IsArgsort l (order1 p l))
    (h2 : ∀ p l, IsArgsort l (order2 p l)) (x : Nat → List Int)
    (h0 : ∀ p < P, ∀ v ∈ x p, 0 ≤ v) (minlength : Option Int) :
    ∃ out, parallelBincount P (1 : Nat) order1 order2 x none minlength none = .ok out ∧
      gcat P out = (List.range (max ((gcat P x).foldl max 0 + 1) (minlength.getD 0)).toNat).map
        (fun k : Nat => (gcat P x).count (k : Int)) := by
  obtain ⟨out, h3, -, h4⟩ := C17_parallel_bincount P hP 1 order1 order2 h1 h2 x
    (fun p => List.replicate (x p).length 1) (by simp) h0 minlength
  refine ⟨out, h3, ?_⟩
  rw [h4]
  apply List.map_congr_left
  intro k hk
  rw [totalWeight_eq (by simp)]
  clear h3 h4 hk
  have : ∀ l : List Int, (upsFor (l.zip (List.replicate l.length 1)) (k : Int)).sum = l.count (k : Int) := by
    intro l
    induction l with
    | nil => rfl
    | cons y l ih =>
      rw [List.length_cons, List.replicate_succ, List.zip_cons_cons, List.count_cons, ← ih]
      unfold upsFor
      rw [List.filter_cons]
      by_cases h : y = (k : Int)
      · simp [h, Nat.add_comm]
      · simp [h]
  induction P with
  | zero => omega
  | succ P ih =>
    rw [gcat_succ, gcat_succ, upsFor_append, List.sum_append, List.count_append, this]
    congr 1
    by_cases hP' : P = 0
    · subst hP'; rfl
    · exact ih (by omega) (fun p hp => h0 p (by omega))

/-- C17 (negative values): the call ends in an error. -/
theorem C17_parallel_bincount_negative [AddCommMonoid α] [Inhabited α] (P : Nat) (one : α)
    (order1 order2 : Nat → List Int → List Nat) (h1 : ∀ p l, IsArgsort l (order1 p l))
    (h2 : ∀ p l, IsArgsort l (order2 p l)) (x : Nat → List Int) (w r : Option (Nat → List α))
    (minlength : Option Int) (hneg : ∃ p < P, ∃ v ∈ x p, v < 0) :
    ∃ e, parallelBincount P one order1 order2 x w minlength r = .error e := by
  obtain ⟨p, hp, v, hv, hneg⟩ := hneg
  unfold parallelBincount
  simp only
  split
  · exact ⟨_, rfl⟩
  · cases w <;>
    · simp only
      split
      · exact ⟨_, rfl⟩
      · exact ⟨_, reduceElements_negative (fun me _ => h2 _ _) (by simp) hp
          ⟨v, (binCountLocal_fst (h1 _ _) v).2 hv, hneg⟩⟩

/-! ### Examples -/

def reduceExampleArr : Nat → List Int
  | 0 => [10, 20]
  | 1 => []
  | _ => [30]

def reduceExampleIndex : Nat → List Int
  | 0 => [2, 0, 2]
  | 1 => [1]
  | _ => [2]

def reduceExampleUpdates : Nat → List Int
  | 0 => [1, 2, 3]
  | 1 => [4]
  | _ => [5]

/-- Equal indexes not in stable order. -/
def reduceExampleOrder : Nat → List Nat
  | 0 => [1, 2, 0]
  | 1 => [0]
  | _ => [0]

example : ∀ p < 3, IsArgsort (reduceExampleIndex p) (reduceExampleOrder p) := by
  unfold IsArgsort; decide +kernel

example : (match reduceElements 3 (· + ·) false reduceExampleOrder reduceExampleArr reduceExampleUpdates reduceExampleIndex with
    | .ok out => (List.range 3).map out
    | .error _ => []) = [[12, 24], [], [39]] := by decide +kernel

/-- The index just past the end passes the assertion `index_recv <= len(arr)` and is only caught by the indexing. -/
example : (match reduceElements 2 (· + ·) true (fun _ => [0]) (fun _ => [(1 : Int), 2]) (fun _ => [7]) (fun _ => [4]) with
    | .ok _ => none
    | .error e => some e) = some .indexError := by decide +kernel

example : (match parallelBincount 3 (1 : Nat) (fun _ => argsort) (fun _ => argsort)
      (fun p => if p = 1 then [] else [5, 2, 5]) none (some 4) none with
    | .ok out => (List.range 3).map out
    | .error _ => []) = [[0, 0], [2, 0], [0, 4]] := by decide +kernel

/-- The hypotheses on the sorts can be met. -/
example : ∀ (p : Nat) (l : List Int), IsArgsort l ((fun _ => argsort) p l) :=
  fun _ l => ⟨argsort_perm l, fancy_argsort_sorted l⟩

end Verif
