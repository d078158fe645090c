import Verif.Spec.MassFunction
import Verif.Props.GroupLib

/-! C115: the cumulative mass function of groups -/

namespace Verif.MassFunction

open GroupLib IdlReaders SnapshotPrograms

theorem above_succ (sizes : List Nat) (k : Nat) : above sizes (k : Int) = sizes.count k + above sizes ((k + 1 : Nat) : Int) := by
  unfold above
  simp only [Int.ofNat_le]
  induction sizes with
  | nil => rfl
  | cons s l ih =>
    rw [List.countP_cons, List.countP_cons, List.count_cons, ih]
    simp only [decide_eq_true_eq, beq_iff_eq]
    split_ifs <;> omega

theorem elem_ok {a : List Int} {i : Nat} {x : Int} (h : a[i]? = some x) : elem a i = .ok x := by unfold elem; rw [h]

theorem elem_error {a : List Int} {i : Nat} (h : a.length ≤ i) : elem a i = .error .indexError := by unfold elem; rw [List.getElem?_eq_none h]

/-- The loop sets all elements between 1 and `i`. -/
theorem cumLoop_ok {sizes : List Nat} {n : Nat} (hn : n < 4294967296) {below : List Int} (hb : ∀ j < n, below[j]? = some (sizes.count j : Int)) :
    ∀ (fuel i : Nat) (cum : List Int), 0 < i → i + 1 < n → i ≤ fuel → cum.length = n → (∀ j, i < j → j < n → cum[j]? = some (above sizes (j : Int) : Int)) →
      ∃ out, cumLoop below fuel i cum = .ok out ∧ out.length = n ∧ ∀ j, 0 < j → j < n → out[j]? = some (above sizes (j : Int) : Int) := by
  intro fuel
  induction fuel with
  | zero => intro i cum h0 _ hf; omega
  | succ fuel ih =>
    intro i cum h0 h1 hf hl hc
    have e1 : (i + 1) % 4294967296 = i + 1 := Nat.mod_eq_of_lt (by omega)
    have e2 : (i + 4294967295) % 4294967296 = i - 1 := by omega
    have hi : i < cum.length := by omega
    obtain ⟨x, hx⟩ : ∃ x, cum[i]? = some x := ⟨_, List.getElem?_eq_getElem hi⟩
    have hset : ∀ j, i - 1 < j → j < n → (cum.set i ((above sizes ((i + 1 : Nat) : Int) : Int) + (sizes.count i : Int)))[j]? = some (above sizes (j : Int) : Int) := by
      intro j hj1 hj2
      rcases Nat.lt_or_ge i j with hj | hj
      · rw [List.getElem?_set_ne (by omega)]
        exact hc j hj hj2
      · obtain rfl : j = i := by omega
        rw [List.getElem?_set_self hi, above_succ sizes j, Int.add_comm, Nat.cast_add (R := Int) (sizes.count j)]
    have hgo : cumLoop below (fuel + 1) i cum = (if i - 1 = 0 then .ok (cum.set i ((above sizes ((i + 1 : Nat) : Int) : Int) + (sizes.count i : Int)))
        else cumLoop below fuel (i - 1) (cum.set i ((above sizes ((i + 1 : Nat) : Int) : Int) + (sizes.count i : Int)))) := by
      rw [cumLoop, e1, elem_ok (hc (i + 1) (by omega) h1), elem_ok (hb i (by omega)), elem_ok hx, e2]
      rfl
    rw [hgo]
    by_cases h : i - 1 = 0
    · rw [if_pos h]
      refine ⟨_, rfl, by rw [List.length_set, hl], ?_⟩
      intro j hj1 hj2
      exact hset j (by omega) hj2
    · rw [if_neg h]
      exact ih (i - 1) _ (by omega) (by omega) (by omega) (by rw [List.length_set, hl]) hset

theorem cumulative_ok {sizes : List Nat} {n : Nat} (hn : n < 4294967296) (h3 : 3 ≤ n) {below : List Int} (hb : ∀ j < n, below[j]? = some (sizes.count j : Int)) {fuel : Nat} (hf : n ≤ fuel) :
    ∃ out, cumulativeBelow fuel n below (above sizes (n : Int)) = .ok out ∧ out.length = n ∧ ∀ j, 0 < j → j < n → out[j]? = some (above sizes (j : Int) : Int) := by
  unfold cumulativeBelow
  rw [elem_ok (hb (n - 1) (by omega))]
  have e : (n + 4294967294) % 4294967296 = n - 2 := by omega
  rw [e]
  apply cumLoop_ok hn hb fuel (n - 2) _ (by omega) (by omega) (by omega) (by simp)
  intro j hj1 hj2
  obtain rfl : j = n - 1 := by omega
  rw [List.getElem?_set_self (by rw [List.length_replicate]; omega), above_succ sizes (n - 1), show n - 1 + 1 = n by omega, Nat.cast_add]

section

variable {sys : Bool} {fs : ByteFS} {base : Name} {num : Nat} {Cs : Nat → Content} {ng : Nat → Nat} {minlen nfile : Nat}

theorem filter_above (sizes : List Nat) (minlen : Nat) (s : Int) (h : (minlen : Int) ≤ s) :
    ((sizes.filter (fun s => decide (minlen ≤ s))).map (fun s : Nat => (s : Int))).countP (fun x => decide (s ≤ x)) = above sizes s := by
  unfold above
  rw [List.countP_map, List.countP_filter]
  apply List.countP_congr
  intro x _
  simp
  omega

/-- In a list in descending order the number of elements which are not smaller than an element is more than its index. -/
theorem sorted_steps {l : List Int} (h : l.Pairwise (fun a b => b ≤ a)) {j : Nat} {s : Int} (hj : l[j]? = some s) : l.countP (fun x => decide (s + 1 ≤ x)) < j + 1 ∧ j + 1 ≤ l.countP (fun x => decide (s ≤ x)) := by
  induction l generalizing j with
  | nil => simp at hj
  | cons a l ih =>
    rw [List.pairwise_cons] at h
    cases j with
    | zero =>
      rw [List.getElem?_cons_zero, Option.some_inj] at hj
      subst hj
      constructor
      · rw [Nat.lt_one_iff, List.countP_eq_zero]
        intro x hx
        rcases List.mem_cons.1 hx with rfl | hx
        · simp
        · have := h.1 x hx
          simp; omega
      · rw [List.countP_cons_of_pos (by simp)]
        omega
    | succ j =>
      rw [List.getElem?_cons_succ] at hj
      obtain ⟨h1, h2⟩ := ih h.2 hj
      have hs := h.1 s (List.mem_of_getElem? hj)
      constructor
      · rw [List.countP_cons]
        split <;> omega
      · rw [List.countP_cons, if_pos (by simpa using hs)]
        omega

theorem catalogue_points (T : GroupTabs Cs ng minlen nfile) {dir : Name} (hs : TabsStored sys fs dir num Cs ng minlen nfile) (hng : 0 < pre ng nfile) {sizes : List Nat} (A : AllSizes Cs ng minlen nfile sizes)
    (qsort : List CatData → List CatData) (hq : ∀ l, QSorted idSortGroups l (qsort l)) : ∃ p, (∀ fuel, nfile < fuel → loadCatalogue sys fs dir num fuel qsort (pre ng nfile : Int) = .ok p) ∧ OnSteps sizes minlen p := by
  obtain ⟨groups, h1, h2, h3⟩ := C88_catalogue T hs (out := List.replicate (pre ng nfile) ⟨0, 0, 0⟩) (by simp) qsort hq
  have hlen : groups.length = pre ng nfile := by rw [h2.length_eq, length_allGroups]
  have hperm : (groups.map (fun g : CatData => g.len)).Perm ((sizes.filter (fun s => decide (minlen ≤ s))).map (fun s : Nat => (s : Int))) := (h2.map _).trans A.large
  refine ⟨⟨groups.map (fun g : CatData => g.len), (List.range (pre ng nfile)).map (fun i : Nat => (i : Int) + 1)⟩, ?_, ?_, hperm, ?_, ?_⟩
  · intro fuel hf
    unfold loadCatalogue idlSize
    rw [if_neg (by omega)]
    show (do
      let cat ← getGroupCatalogue sys fs dir num fuel qsort (List.replicate (Int.toNat (pre ng nfile : Int)) ⟨0, 0, 0⟩)
      let n ← (if cat.1 ≤ 0 then .error .valueError else .ok cat.1.toNat : Except Err Nat)
      .ok (Points.mk (cat.2.map (fun g : CatData => g.len)) ((List.range n).map (fun i : Nat => (i : Int) + 1)))) = _
    rw [Int.toNat_natCast, h1 fuel hf]
    show (do
      let n ← (if (pre ng nfile : Int) ≤ 0 then .error .valueError else .ok (Int.toNat (pre ng nfile : Int)) : Except Err Nat)
      .ok (Points.mk ((groups ++ (List.replicate (pre ng nfile) (⟨0, 0, 0⟩ : CatData)).drop (pre ng nfile)).map (fun g : CatData => g.len)) ((List.range n).map (fun i : Nat => (i : Int) + 1)))) = _
    rw [if_neg (by omega), List.drop_replicate, Nat.sub_self, List.replicate_zero, List.append_nil, Int.toNat_natCast]
    rfl
  · simp [hlen]
  · intro j s c hj hc
    dsimp only at hj hc
    have hd : (groups.map (fun g : CatData => g.len)).Pairwise (fun a b => b ≤ a) := List.pairwise_map.2 h3
    obtain ⟨s1, s2⟩ := sorted_steps hd hj
    have hm : (minlen : Int) ≤ s := by
      have := (hperm.mem_iff).1 (List.mem_of_getElem? hj)
      obtain ⟨x, hx, rfl⟩ := List.mem_map.1 this
      have := (List.mem_filter.1 hx).2
      simp at this
      exact_mod_cast this
    rw [hperm.countP_eq, filter_above sizes minlen _ (by omega)] at s1
    rw [hperm.countP_eq, filter_above sizes minlen _ hm] at s2
    have hjl : j < pre ng nfile := by
      have := (List.getElem?_eq_some_iff.1 hj).1
      rwa [List.length_map, hlen] at this
    rw [List.getElem?_map, List.getElem?_range hjl] at hc
    simp only [Option.map_some, Option.some_inj] at hc
    subst hc
    omega
  · intro j hj
    dsimp only at hj ⊢
    rw [List.length_map, List.length_range] at hj
    rw [List.getElem?_map, List.getElem?_range hj]
    rfl

/-- C115: show_massfunc.pro plots for each group of the catalogue a point on the cumulative mass function. -/
theorem C115_massfunc (T : GroupTabs Cs ng minlen nfile) {dir : Name} (hdir : dir = base ++ "/snapdir_".toList ++ exts num ++ "/".toList) (hs : TabsStored sys fs dir num Cs ng minlen nfile) (hng : 0 < pre ng nfile) {sizes : List Nat} (A : AllSizes Cs ng minlen nfile sizes)
    (qsort : List CatData → List CatData) (hq : ∀ l, QSorted idSortGroups l (qsort l)) {fuel : Nat} (hf : nfile < fuel) : ∃ p, showMassfunc sys fs base num fuel qsort = .ok p ∧ OnSteps sizes minlen p := by
  subst hdir
  change TabsStored sys fs (outputDir base num) num Cs ng minlen nfile at hs
  obtain ⟨p, h1, h2⟩ := catalogue_points T hs hng A qsort hq
  refine ⟨p, ?_, h2⟩
  unfold showMassfunc
  rw [totalGroups_ok T hs]
  exact h1 fuel hf

theorem sum_sizes (sizes : List Nat) (n : Nat) : ((sizes.filter (fun s => decide (n ≤ s))).sum : Int) + ((List.range n).map (fun i : Nat => (sizes.count i : Int) * (i : Int))).sum = (sizes.sum : Nat) := by
  have hkey : ∀ (s : Nat) (l : List Nat) (n : Nat), ((List.range n).map (fun i : Nat => (((s :: l).count i : Nat) : Int) * (i : Int))).sum = ((List.range n).map (fun i : Nat => (l.count i : Int) * (i : Int))).sum + (if s < n then (s : Int) else 0) := by
    intro s l n
    induction n with
    | zero => simp
    | succ n ih =>
      rw [List.range_succ, List.map_append, List.map_append, List.sum_append, List.sum_append, ih]
      simp only [List.map_cons, List.map_nil, List.sum_cons, List.sum_nil, List.count_cons]
      by_cases h : s = n
      · subst h
        simp
        ring
      · have hb : (s == n) = false := by simpa using h
        rw [hb]
        by_cases h2 : s < n
        · rw [if_pos h2, if_pos (show s < n + 1 by omega)]; simp; ring
        · rw [if_neg h2, if_neg (show ¬ s < n + 1 by omega)]; simp
  induction sizes with
  | nil => simp
  | cons s l ih =>
    rw [hkey, List.sum_cons, List.filter_cons]
    by_cases h : n ≤ s
    · rw [if_pos (by simpa using h), if_neg (by omega), List.sum_cons]
      push_cast at ih ⊢
      omega
    · rw [if_neg (by simpa using h), if_pos (by omega)]
      push_cast at ih ⊢
      omega

theorem sum_cast (l : List Nat) : (l.map (fun s : Nat => (s : Int))).sum = (l.sum : Int) := by
  induction l with
  | nil => rfl
  | cons a l ih => rw [List.map_cons, List.sum_cons, List.sum_cons, ih]; push_cast; rfl

/-- C115: get_groupcount_below_minlength.pro also plots the cumulative mass function for all smaller sizes; the printed numbers are the particles in groups of the catalogue and in all groups. -/
theorem C115_cumulative (T : GroupTabs Cs ng minlen nfile) {dir : Name} (hdir : dir = base ++ "/snapdir_".toList ++ exts num ++ "/".toList) (hs : TabsStored sys fs dir num Cs ng minlen nfile) (hng : 0 < pre ng nfile) (h3 : 3 ≤ minlen) (hm : minlen < 2147483648) {sizes : List Nat}
    (A : AllSizes Cs ng minlen nfile sizes) (qsort : List CatData → List CatData) (hq : ∀ l, QSorted idSortGroups l (qsort l)) {fuel : Nat} (hf : nfile < fuel) (hf2 : minlen ≤ fuel) :
    ∃ r, groupCount sys fs base num fuel qsort = .ok r ∧ OnSteps sizes minlen r.points ∧ r.sizeBelow = ((List.range minlen).drop 1).map (fun k : Nat => (k : Int)) ∧
      r.cumBelow = ((List.range minlen).drop 1).map (fun k : Nat => (above sizes (k : Int) : Int)) ∧ r.countIds = (((sizes.filter (fun s => decide (minlen ≤ s))).sum : Nat) : Int) ∧ r.total = (sizes.sum : Nat) := by
  subst hdir
  change TabsStored sys fs (outputDir base num) num Cs ng minlen nfile at hs
  obtain ⟨p, p1, p2⟩ := catalogue_points T hs hng A qsort hq
  obtain ⟨sums, s1, s2, s3⟩ := C88_small_groups T hs (below := List.replicate minlen 0) (by simp)
  have hsum : ∀ j < minlen, sums[j]? = some (sizes.count j : Int) := by
    intro j hj
    rw [s3 j hj, A.small j hj]
  have hng2 : (pre ng nfile : Int) = above sizes (minlen : Int) := by
    rw [← filter_above sizes minlen _ le_rfl, ← length_allGroups (Cs := Cs) (ng := ng) (m := nfile), ← List.length_map (f := fun g : CatData => g.len), A.large.length_eq]
    congr 1
    symm
    rw [List.countP_eq_length]
    intro x hx
    obtain ⟨y, hy, rfl⟩ := List.mem_map.1 hx
    have := (List.mem_filter.1 hy).2
    simpa using this
  obtain ⟨out, o1, o2, o3⟩ := cumulative_ok (sizes := sizes) (n := minlen) (by omega) h3 hsum hf2
  refine ⟨⟨p, ((List.range minlen).map (fun i : Nat => (i : Int))).drop 1, out.drop 1, (((sizes.filter (fun s => decide (minlen ≤ s))).sum : Nat) : Int), p.groupLen.sum + (List.zipWith (· * ·) sums ((List.range minlen).map (fun i : Nat => (i : Int)))).sum⟩, ?_, p2, ?_, ?_, rfl, ?_⟩
  · unfold groupCount
    rw [minLen_ok T hs]
    show (do
      let n ← idlSize (minlen : Int)
      let below ← getGroupcountBelowMinimumLen sys fs (outputDir base num) num fuel (List.replicate n 0)
      let ngroups ← getTotalNumberOfGroups sys fs (outputDir base num) num
      let points ← loadCatalogue sys fs (outputDir base num) num fuel qsort ngroups
      let n ← idlSize below.1
      let cum ← cumulativeBelow fuel n below.2.1 ngroups
      let sizes := (List.range n).map (fun i : Nat => (i : Int))
      .ok (Result.mk points (sizes.drop 1) (cum.drop 1) below.2.2 (points.groupLen.sum + (List.zipWith (· * ·) below.2.1 sizes).sum))) = _
    have hi : idlSize (minlen : Int) = .ok minlen := by unfold idlSize; rw [if_neg (by omega), Int.toNat_natCast]
    rw [hi]
    show (do
      let below ← getGroupcountBelowMinimumLen sys fs (outputDir base num) num fuel (List.replicate minlen 0)
      let ngroups ← getTotalNumberOfGroups sys fs (outputDir base num) num
      let points ← loadCatalogue sys fs (outputDir base num) num fuel qsort ngroups
      let n ← idlSize below.1
      let cum ← cumulativeBelow fuel n below.2.1 ngroups
      let sizes := (List.range n).map (fun i : Nat => (i : Int))
      .ok (Result.mk points (sizes.drop 1) (cum.drop 1) below.2.2 (points.groupLen.sum + (List.zipWith (· * ·) below.2.1 sizes).sum))) = _
    rw [s1 fuel hf, totalGroups_ok T hs, A.nids, List.drop_replicate, Nat.sub_self, List.replicate_zero, List.append_nil]
    show (do
      let points ← loadCatalogue sys fs (outputDir base num) num fuel qsort (pre ng nfile : Int)
      let n ← idlSize (minlen : Int)
      let cum ← cumulativeBelow fuel n sums (pre ng nfile : Int)
      let sizes' := (List.range n).map (fun i : Nat => (i : Int))
      .ok (Result.mk points (sizes'.drop 1) (cum.drop 1) _ (points.groupLen.sum + (List.zipWith (· * ·) sums sizes').sum))) = _
    rw [p1 fuel hf, hi, hng2]
    show (do
      let cum ← cumulativeBelow fuel minlen sums (above sizes (minlen : Int) : Int)
      .ok (Result.mk p (((List.range minlen).map (fun i : Nat => (i : Int))).drop 1) (cum.drop 1) _ _)) = _
    rw [o1]
    rfl
  · dsimp only
    rw [List.map_drop]
  · dsimp only
    apply List.ext_getElem?
    intro j
    rw [List.getElem?_drop, List.getElem?_map, List.getElem?_drop]
    by_cases hj : 1 + j < minlen
    · rw [o3 (1 + j) (by omega) hj, List.getElem?_range hj]
      rfl
    · rw [List.getElem?_eq_none (by omega), List.getElem?_eq_none (by simp; omega)]
      rfl
  · dsimp only
    rw [← sum_sizes sizes minlen, p2.all.sum_eq, sum_cast]
    congr 2
    apply List.ext_getElem?
    intro j
    rw [List.getElem?_zipWith, List.getElem?_map, List.getElem?_map]
    by_cases hj : j < minlen
    · rw [hsum j hj, List.getElem?_range hj]
      rfl
    · rw [List.getElem?_eq_none (by omega)]
      rw [List.getElem?_eq_none (by simp; omega)]
      rfl

/-- C115: if the smallest groups of the catalogue have one or two particles, the loop does not end at 0 and the program stops with an error. -/
theorem C115_small_defect (T : GroupTabs Cs ng minlen nfile) {dir : Name} (hdir : dir = base ++ "/snapdir_".toList ++ exts num ++ "/".toList) (hs : TabsStored sys fs dir num Cs ng minlen nfile) (hng : 0 < pre ng nfile) (h1 : minlen = 1 ∨ minlen = 2) {sizes : List Nat}
    (A : AllSizes Cs ng minlen nfile sizes) (qsort : List CatData → List CatData) (hq : ∀ l, QSorted idSortGroups l (qsort l)) {fuel : Nat} (hf : nfile < fuel) (hf2 : 2 ≤ fuel) :
    groupCount sys fs base num fuel qsort = .error .indexError := by
  subst hdir
  change TabsStored sys fs (outputDir base num) num Cs ng minlen nfile at hs
  obtain ⟨p, p1, p2⟩ := catalogue_points T hs hng A qsort hq
  obtain ⟨sums, s1, s2, s3⟩ := C88_small_groups T hs (below := List.replicate minlen 0) (by simp)
  have hi : idlSize (minlen : Int) = .ok minlen := by unfold idlSize; rw [if_neg (by omega), Int.toNat_natCast]
  unfold groupCount
  rw [minLen_ok T hs]
  show (do
      let n ← idlSize (minlen : Int)
      let below ← getGroupcountBelowMinimumLen sys fs (outputDir base num) num fuel (List.replicate n 0)
      let ngroups ← getTotalNumberOfGroups sys fs (outputDir base num) num
      let points ← loadCatalogue sys fs (outputDir base num) num fuel qsort ngroups
      let n ← idlSize below.1
      let cum ← cumulativeBelow fuel n below.2.1 ngroups
      let sizes := (List.range n).map (fun i : Nat => (i : Int))
      .ok (Result.mk points (sizes.drop 1) (cum.drop 1) below.2.2 (points.groupLen.sum + (List.zipWith (· * ·) below.2.1 sizes).sum))) = _
  rw [hi]
  show (do
      let below ← getGroupcountBelowMinimumLen sys fs (outputDir base num) num fuel (List.replicate minlen 0)
      let ngroups ← getTotalNumberOfGroups sys fs (outputDir base num) num
      let points ← loadCatalogue sys fs (outputDir base num) num fuel qsort ngroups
      let n ← idlSize below.1
      let cum ← cumulativeBelow fuel n below.2.1 ngroups
      let sizes := (List.range n).map (fun i : Nat => (i : Int))
      .ok (Result.mk points (sizes.drop 1) (cum.drop 1) below.2.2 (points.groupLen.sum + (List.zipWith (· * ·) below.2.1 sizes).sum))) = _
  rw [s1 fuel hf, totalGroups_ok T hs, List.drop_replicate, Nat.sub_self, List.replicate_zero, List.append_nil]
  show (do
      let points ← loadCatalogue sys fs (outputDir base num) num fuel qsort (pre ng nfile : Int)
      let n ← idlSize (minlen : Int)
      let cum ← cumulativeBelow fuel n sums (pre ng nfile : Int)
      let sizes' := (List.range n).map (fun i : Nat => (i : Int))
      .ok (Result.mk points (sizes'.drop 1) (cum.drop 1) _ (points.groupLen.sum + (List.zipWith (· * ·) sums sizes').sum))) = _
  rw [p1 fuel hf, hi]
  show (do
      let cum ← cumulativeBelow fuel minlen sums (pre ng nfile : Int)
      .ok (Result.mk p (((List.range minlen).map (fun i : Nat => (i : Int))).drop 1) (cum.drop 1) _ _)) = _
  have hcum : cumulativeBelow fuel minlen sums (pre ng nfile : Int) = .error .indexError := by
    obtain ⟨fuel, rfl⟩ : ∃ k, fuel = k + 2 := ⟨fuel - 2, by omega⟩
    rcases h1 with rfl | rfl
    · match sums, s2 with
      | [a], _ => rfl
    · match sums, s2 with
      | [a, b], _ => rfl
  rw [hcum]
  rfl

end

namespace ExMassFunction

/-- Two tables: groups with 5, 9 and 7 particles, and one group with 30; there are also one group with 1 particle, two with 2, three with 3 and one with 4 particles. -/
def tables (f : Nat) : Content := fun name =>
  if name = "GroupMinLen".toList then [leBytes 4 5]
  else if name = "Count".toList then (if f = 0 then [0, 1, 2, 2, 0].map (leBytes 4) else [0, 0, 0, 1, 1].map (leBytes 4))
  else ExGroupLib.tables f name

def sizes : List Nat := [3, 5, 2, 9, 1, 30, 2, 7, 3, 3, 4]

theorem tabs : GroupTabs tables ExGroupLib.number 5 2 where
  nonempty := by decide
  file := by
    have h : ∀ f < 2, ∀ sec ∈ Files.lgadget2GroupTab (ExGroupLib.number f) 5, (∀ r ∈ sec.rows, (tables f r.name).length = r.shape.prod ∧ ∀ v ∈ tables f r.name, v.length = r.width) ∧
        (sec.record = true → (sec.payload false (tables f)).length < 2147483648) := by decide +kernel
    exact fun f hf => ⟨fun sec hs => (h f hf sec hs).1, fun sec hs => (h f hf sec hs).2⟩
  ngroups := by decide +kernel
  total := by decide +kernel
  ntask := by decide +kernel
  minlen := by decide +kernel

theorem all : AllSizes tables ExGroupLib.number 5 2 sizes where
  large := by decide +kernel
  small := by decide +kernel
  nids := by decide +kernel

def store (name : Name) : Option (List Byte) :=
  if name = "d/snapdir_063//group_tab_063.0".toList then some ((Files.lgadget2GroupTab 3 5).bytes false (tables 0))
  else if name = "d/snapdir_063//group_tab_063.1".toList then some ((Files.lgadget2GroupTab 1 5).bytes false (tables 1))
  else none

example : TabsStored true store (outputDir "d".toList 63) 63 tables ExGroupLib.number 5 2 := by
  intro f hf
  match f with
  | 0 => exact ⟨by decide +kernel, [], by decide +kernel⟩
  | 1 => exact ⟨by decide +kernel, [], by decide +kernel⟩
  | f + 2 => omega

example : groupCount true store "d".toList 63 9 (List.foldr ExGroupLib.insertCat []) = .ok ⟨⟨[30, 9, 7, 5], [1, 2, 3, 4]⟩, [1, 2, 3, 4], [11, 10, 8, 5], 51, 69⟩ := by decide +kernel

example : above sizes 4 = 5 ∧ above sizes 3 = 8 ∧ sizes.sum = 69 := by decide +kernel

/-- Two numbers of small groups are not enough. -/
def store2 (name : Name) : Option (List Byte) :=
  if name = "d/snapdir_063//group_tab_063.0".toList then ExGroupLib.store "d/group_tab_063.0".toList
  else if name = "d/snapdir_063//group_tab_063.1".toList then ExGroupLib.store "d/group_tab_063.1".toList
  else none

example : groupCount true store2 "d".toList 63 9 (List.foldr ExGroupLib.insertCat []) = .error .indexError := by decide +kernel
example : showMassfunc true store2 "d".toList 63 9 (List.foldr ExGroupLib.insertCat []) = .ok ⟨[30, 9, 7, 5], [1, 2, 3, 4]⟩ := by decide +kernel

end ExMassFunction

end Verif.MassFunction
