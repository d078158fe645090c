import Verif.Proofs.GroupIndex

namespace Verif

theorem zip_pairwise_fst {a b : List Nat} (h : a.Pairwise (· ≤ ·)) : (a.zip b).Pairwise (fun g g' => g.1 ≤ g'.1) := by
  induction a generalizing b with
  | nil => simp
  | cons x a ih =>
    cases b with
    | nil => simp
    | cons y b =>
      rw [List.zip_cons_cons]
      obtain ⟨h1, h2⟩ := List.pairwise_cons.1 h
      refine List.pairwise_cons.2 ⟨fun g hg => h1 _ (List.of_mem_zip hg).1, ih h2⟩

section
variable {P : Nat} {length offset : Nat → List Nat} {nids : Nat → Nat}

/-- C21: the group numbers computed on any number of ranks are those of the serial loop, if the offsets are in ascending order on
each rank. Each rank gets as many as it has particle IDs. -/
theorem C21_group_index (hl : ∀ p < P, (offset p).length = (length p).length) (hs : ∀ p < P, (offset p).Pairwise (· ≤ ·)) :
    gcat P (groupIndex P length offset nids).1 = serialGroupIndex (pre nids P) ((gcat P offset).zip (gcat P length)) ∧
    ∀ p < P, ((groupIndex P length offset nids).1 p).length = nids p := by
  have h := fun d hd => (groupIndex_ok (nids := nids) hl (fun p hp => zip_pairwise_fst (hs p hp)) (d := d) hd).1
  exact ⟨gcat_eq_of_points (fun d hd => (h d hd).1) (serialLoop_point _ _ _).1 (fun d hd => (h d hd).2), fun p hp => (h p hp).1⟩

/-- C21, in terms of membership: a particle gets the number of the last group which contains it, -1 if there is none. -/
theorem C21_group_index_member (hl : ∀ p < P, (offset p).length = (length p).length) (hs : ∀ p < P, (offset p).Pairwise (· ≤ ·))
    {k : Nat} (hk : k < pre nids P) :
    (∃ i, IsLastGroup ((gcat P offset).zip (gcat P length)) k i ∧ (gcat P (groupIndex P length offset nids).1)[k]? = some (i : Int)) ∨
    ((∀ g ∈ (gcat P offset).zip (gcat P length), ¬ inGroup g k) ∧ (gcat P (groupIndex P length offset nids).1)[k]? = some (-1)) := by
  rw [(C21_group_index hl hs).1]
  rcases serialLoop_last (fun i _ _ => (i : Int)) (pre nids P) ((gcat P offset).zip (gcat P length)) hk with ⟨i, g, h1, _, h2⟩ | h
  · exact Or.inl ⟨i, h1, h2⟩
  · exact Or.inr h

/-- C22: the ranks in the group are those of the serial loop. -/
theorem C22_group_rank (hl : ∀ p < P, (offset p).length = (length p).length) (hs : ∀ p < P, (offset p).Pairwise (· ≤ ·)) :
    gcat P (groupIndex P length offset nids).2 = serialGroupRank (pre nids P) ((gcat P offset).zip (gcat P length)) ∧
    ∀ p < P, ((groupIndex P length offset nids).2 p).length = nids p := by
  have h := fun d hd => (groupIndex_ok (nids := nids) hl (fun p hp => zip_pairwise_fst (hs p hp)) (d := d) hd).2
  exact ⟨gcat_eq_of_points (fun d hd => (h d hd).1) (serialLoop_point _ _ _).1 (fun d hd => (h d hd).2), fun p hp => (h p hp).1⟩

/-- C22: a particle with group number `i` has its position after the offset of group `i` as rank, a particle in no group -1. -/
theorem C22_group_rank_member (hl : ∀ p < P, (offset p).length = (length p).length) (hs : ∀ p < P, (offset p).Pairwise (· ≤ ·))
    {k : Nat} (hk : k < pre nids P) :
    (∃ (i : Nat) (o : Nat), (gcat P (groupIndex P length offset nids).1)[k]? = some (i : Int) ∧ (gcat P offset)[i]? = some o ∧ o ≤ k ∧
      (gcat P (groupIndex P length offset nids).2)[k]? = some ((k - o : Nat) : Int)) ∨
    ((gcat P (groupIndex P length offset nids).1)[k]? = some (-1) ∧ (gcat P (groupIndex P length offset nids).2)[k]? = some (-1)) := by
  rw [(C21_group_index hl hs).1, (C22_group_rank hl hs).1]
  unfold serialGroupIndex serialGroupRank
  rw [(serialLoop_point _ _ _).2 k hk, (serialLoop_point _ _ _).2 k hk]
  cases hL : (List.filter (fun e => decide (inGroup e.1 k)) ((gcat P offset).zip (gcat P length)).zipIdx).getLast? with
  | none => right; exact ⟨rfl, rfl⟩
  | some e =>
    left
    have hmem := List.mem_of_getLast? hL
    rw [List.mem_filter, List.mem_zipIdx_iff_getElem?] at hmem
    have hin : inGroup e.1 k := by simpa using hmem.2
    refine ⟨e.2, e.1.1, rfl, (List.getElem?_zip_eq_some.1 hmem.1).1, hin.1, ?_⟩
    simp only [Option.elim_some]
    congr 1
    have := hin.1
    omega

end

/-- Eleven particles on four ranks, one of them empty; groups over two ranks, one spanning three of them, one empty, two overlapping,
one reaching beyond the end. -/
example : (let out := groupIndex 4 (fun p => [[6, 0, 2], [4], [], []].getD p []) (fun p => [[1, 3, 5], [9], [], []].getD p []) (fun p => [4, 0, 2, 5].getD p 0)
    ((List.range 4).map out.1, (List.range 4).map out.2)) =
    ([[-1, 0, 0, 0], [], [0, 2], [2, -1, -1, 3, 3]], [[-1, 0, 1, 2], [], [3, 0], [1, -1, -1, 0, 1]]) := by decide +kernel

example : serialGroupIndex 11 [(1, 6), (3, 0), (5, 2), (9, 4)] = [-1, 0, 0, 0, 0, 2, 2, -1, -1, 3, 3] := by decide +kernel

/-- The order of the offsets matters: particle 0 is in group 1, which is not found. -/
theorem C21_unsorted_wrong : ∃ (length offset : Nat → List Nat) (nids : Nat → Nat), (∀ p < 2, (offset p).length = (length p).length) ∧
    gcat 2 (groupIndex 2 length offset nids).1 ≠ serialGroupIndex (pre nids 2) ((gcat 2 offset).zip (gcat 2 length)) :=
  ⟨fun p => if p = 0 then [1, 1] else [], fun p => if p = 0 then [2, 0] else [], fun _ => 2, by decide +kernel, by decide +kernel⟩

end Verif
