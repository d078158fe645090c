import Verif.Model.UtilTests
import Verif.Spec.UtilTests
import Verif.Proofs.SortTests
import Verif.Props.GroupIndex
import Mathlib.Data.List.GetD

namespace Verif.UtilTests

open SortTests

/-- Prefix sums starting from `o`. -/
def sumsFrom : Nat → List Nat → List Nat
  | _, [] => []
  | o, l :: rest => o :: sumsFrom (o + l) rest

theorem sumsFrom_eq (l : List Nat) (o : Nat) : sumsFrom o l = (List.range l.length).map (fun i => o + (l.take i).sum) := by
  induction l generalizing o with
  | nil => rfl
  | cons x l ih =>
    rw [sumsFrom, ih, List.length_cons, List.range_succ_eq_map]
    simp [Nat.add_assoc]

theorem cumsumMinus_eq (l : List Nat) : cumsumMinus l = sumsFrom 0 l := by
  rw [sumsFrom_eq]
  unfold cumsumMinus
  apply List.map_congr_left
  intro i hi
  have hi := List.mem_range.1 hi
  rw [List.take_succ_eq_append_getElem hi, List.sum_append, List.getD_eq_getElem _ _ hi]
  simp

theorem sumsFrom_length (o : Nat) (l : List Nat) : (sumsFrom o l).length = l.length := by rw [sumsFrom_eq]; simp

theorem sumsFrom_ge (o : Nat) (l : List Nat) : ∀ x ∈ sumsFrom o l, o ≤ x := by
  rw [sumsFrom_eq]
  intro x hx
  obtain ⟨i, -, rfl⟩ := List.mem_map.1 hx
  omega

theorem sumsFrom_sorted (o : Nat) (l : List Nat) : (sumsFrom o l).Pairwise (· ≤ ·) := by
  induction l generalizing o with
  | nil => exact List.Pairwise.nil
  | cons x l ih =>
    rw [sumsFrom]
    refine List.pairwise_cons.2 ⟨fun y hy => ?_, ih _⟩
    have := sumsFrom_ge _ _ y hy
    omega

theorem overlay_next (a v : List Int) (n : Nat) (h : v.length ≤ n) :
    overlay (a ++ List.replicate n (-1)) a.length v = (a ++ v) ++ List.replicate (n - v.length) (-1) := by
  unfold overlay
  rw [List.take_left, List.drop_append, List.drop_eq_nil_of_le (by omega)]
  simp

/-- The loop over groups appends the values of each group. -/
theorem assignGroups_eq (value : Nat → Nat → List Int) (hv : ∀ i l, (value i l).length = l) (spec : Nat → List Nat → List Int)
    (h0 : ∀ i, spec i [] = []) (h1 : ∀ i l rest, spec i (l :: rest) = value i l ++ spec (i + 1) rest)
    (lengths : List Nat) (i : Nat) (a : List Int) :
    assignGroups value (lengths.zip (sumsFrom a.length lengths)) i (a ++ List.replicate lengths.sum (-1)) = a ++ spec i lengths := by
  induction lengths generalizing i a with
  | nil => simp [assignGroups, h0]
  | cons l rest ih =>
    rw [sumsFrom, List.zip_cons_cons, assignGroups, overlay_next _ _ _ (by rw [hv]; simp), hv]
    have := ih (i + 1) (a ++ value i l)
    rw [List.length_append, hv] at this
    rw [List.sum_cons, Nat.add_sub_cancel_left, this, h1, List.append_assoc]

theorem expectedGrnr_eq (lengths : List Nat) : expectedGrnr lengths = numbersFrom 0 lengths := by
  rw [expectedGrnr, cumsumMinus_eq]
  exact assignGroups_eq (fun i l => List.replicate l (i : Int)) (by simp) numbersFrom (fun _ => rfl) (fun _ _ _ => rfl) lengths 0 []

theorem expectedRank_eq (lengths : List Nat) : expectedRank lengths = memberRanks lengths := by
  rw [expectedRank, cumsumMinus_eq]
  exact assignGroups_eq (fun _ l => (List.range l).map Int.ofNat) (by simp) (fun _ => memberRanks) (fun _ => rfl) (fun _ _ _ => rfl) lengths 0 []

theorem numbersFrom_length (i : Nat) (lengths : List Nat) : (numbersFrom i lengths).length = lengths.sum := by
  induction lengths generalizing i with
  | nil => rfl
  | cons l rest ih => rw [numbersFrom, List.length_append, ih]; simp

theorem memberRanks_length (lengths : List Nat) : (memberRanks lengths).length = lengths.sum := by
  induction lengths with
  | nil => rfl
  | cons l rest ih => rw [memberRanks, List.length_append, ih]; simp

/-- The serial loop over consecutive groups. -/
theorem serial_eq (value : Nat → Nat → Nat → Int) (spec : Nat → List Nat → List Int)
    (h0 : ∀ i, spec i [] = []) (lengths : List Nat)
    (h1 : ∀ i l rest (o : Nat), spec i (l :: rest) = (List.range l).map (fun k => value i o (o + k)) ++ spec (i + 1) rest)
    (i : Nat) (a : List Int) :
    (((sumsFrom a.length lengths).zip lengths).zipIdx i).foldl
      (fun arr g => arr.mapIdx (fun p x => if inGroup g.1 p then value g.2 g.1.1 p else x)) (a ++ List.replicate lengths.sum (-1)) = a ++ spec i lengths := by
  induction lengths generalizing i a with
  | nil => simp [h0, sumsFrom]
  | cons l rest ih =>
    rw [sumsFrom, List.zip_cons_cons, List.zipIdx_cons, List.foldl_cons, h1 i l rest a.length, ← List.append_assoc,
      ← ih (i + 1) (a ++ (List.range l).map (fun k => value i a.length (a.length + k)))]
    rw [show (a ++ (List.range l).map (fun k => value i a.length (a.length + k))).length = a.length + l by simp]
    congr 1
    apply List.ext_getElem?
    intro p
    rw [List.getElem?_mapIdx]
    by_cases hp : p < a.length
    · rw [List.getElem?_append_left hp, List.append_assoc, List.getElem?_append_left hp]
      simp [hp, inGroup]
    · obtain ⟨k, rfl⟩ : ∃ k, p = a.length + k := ⟨p - a.length, by omega⟩
      rw [List.append_assoc, List.getElem?_append_right (by omega), List.getElem?_append_right (by omega), Nat.add_sub_cancel_left]
      by_cases hk : k < l
      · rw [List.getElem?_append_left (by simpa using hk)]
        rw [List.getElem?_map, List.getElem?_range hk, List.getElem?_replicate, if_pos (by simp; omega)]
        simp [inGroup, hk]
      · rw [List.getElem?_append_right (by simp; omega)]
        simp only [List.sum_cons, List.length_map, List.length_range, List.getElem?_replicate, inGroup]
        by_cases hs : k < l + rest.sum
        · rw [if_pos hs, if_pos (by omega)]; simp [hk]
        · rw [if_neg hs, if_neg (by omega)]; simp

theorem serialIndex_eq (lengths : List Nat) : serialGroupIndex lengths.sum ((sumsFrom 0 lengths).zip lengths) = numbersFrom 0 lengths := by
  refine serial_eq (fun i _ _ => (i : Int)) numbersFrom (fun _ => rfl) lengths (fun i l rest o => ?_) 0 []
  rw [numbersFrom, List.map_const', List.length_range]

theorem serialRank_eq (lengths : List Nat) : serialGroupRank lengths.sum ((sumsFrom 0 lengths).zip lengths) = memberRanks lengths := by
  refine serial_eq (fun _ o p => (p : Int) - o) (fun _ => memberRanks) (fun _ => rfl) lengths (fun i l rest o => ?_) 0 []
  rw [memberRanks]
  congr 1
  apply List.map_congr_left
  intro k _
  rw [Int.ofNat_eq_natCast]
  push_cast
  omega

theorem pre_count (P : Nat) (x : List Nat) (h : ∀ v ∈ x, v < P) : pre (fun p => x.count p) P = x.length := by
  induction x with
  | nil => simp [pre_const_zero]
  | cons v x ih =>
    rw [List.length_cons, ← ih (fun w hw => h w (List.mem_cons_of_mem _ hw))]
    have hv := h v List.mem_cons_self
    have : ∀ Q, pre (fun p => (v :: x).count p) Q = pre (fun p => x.count p) Q + if v < Q then 1 else 0 := by
      intro Q
      induction Q with
      | zero => simp
      | succ Q ihQ =>
        rw [pre_succ, pre_succ, ihQ, List.count_cons]
        simp only [beq_iff_eq]
        split_ifs <;> omega
    rw [this, if_pos hv]

theorem bincount_getD (m : Nat) (x : List Nat) (k : Nat) : (bincount m x).getD k 0 = x.count k := by
  obtain ⟨-, h2, -⟩ := bound_spec x 0
  by_cases hk : k < (bincount m x).length
  · rw [List.getD_eq_getElem _ _ hk]
    simp [bincount]
  · rw [List.getD_eq_default _ _ (by omega), eq_comm, List.count_eq_zero]
    intro hm
    have := h2 k hm
    have : (bincount m x).length = max m (x.foldl (fun n v => max n (v + 1)) 0) := by simp [bincount]
    omega

theorem sum_take_pre (l : List Nat) (i : Nat) (h : i ≤ l.length) : (l.take i).sum = pre (fun k => l.getD k 0) i := by
  induction i with
  | zero => simp
  | succ i ih =>
    rw [List.take_succ_eq_append_getElem (by omega), List.sum_append, ih (by omega), pre_succ, List.getD_eq_getElem _ _ (by omega)]
    simp

theorem localPart_eq {α : Type} {P : Nat} {group_rank : List Nat} (hg : ∀ v ∈ group_rank, v < P) (l : List α) {p : Nat} (hp : p < P) :
    localPart P group_rank l p = slice l (pre (fun p => group_rank.count p) p) (group_rank.count p) := by
  have hlen := (bincount_length_iff P group_rank).2 hg
  unfold localPart
  simp only [bincount_getD, cumsumMinus_eq]
  have : (sumsFrom 0 (bincount P group_rank)).getD p 0 = pre (fun p => group_rank.count p) p := by
    rw [sumsFrom_eq, hlen, List.getD_eq_getElem _ _ (by simpa using hp)]
    simp only [List.getElem_map, List.getElem_range, Nat.zero_add]
    rw [sum_take_pre _ _ (by omega)]
    exact pre_congr (fun i _ => bincount_getD _ _ _)
  rw [this, slice, List.take_drop]

theorem gcat_localPart {α : Type} {P : Nat} {group_rank : List Nat} (hg : ∀ v ∈ group_rank, v < P) (l : List α) (hl : group_rank.length = l.length) :
    gcat P (localPart P group_rank l) = l := by
  rw [gcat_congr (fun r hr => localPart_eq hg l hr)]
  have := gcat_slice l (fun p => group_rank.count p) 0 P
  simp only [Nat.zero_add] at this
  rw [this, pre_count P _ hg, hl, slice_all]

theorem localPart_length {α : Type} {P : Nat} {group_rank : List Nat} (hg : ∀ v ∈ group_rank, v < P) (l : List α) (hl : group_rank.length = l.length)
    {p : Nat} (hp : p < P) : (localPart P group_rank l p).length = group_rank.count p := by
  rw [localPart_eq hg l hp, length_slice_of_le]
  have := pre_lt_total (f := fun p => group_rank.count p) hp
  rw [pre_count P _ hg, hl] at this
  exact this

end Verif.UtilTests
