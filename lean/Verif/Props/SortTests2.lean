import Verif.Props.SortTests
import Verif.Props.ParallelMatch
import Verif.Props.ReduceElements
import Verif.Props.Match
import Verif.Props.Alltoallv

/-! C122: the tests of `parallel_bincount`, `parallel_match` and `sendrecv` (python/virgo/mpi/test_parallel_sort.py), for every array which they could make -/

namespace Verif.SortTests

open Exchange

variable {α β : Type}

/-! ### Numbers of elements -/

theorem bincountWeighted_eq [AddCommMonoid α] {m : Nat} {x : List Nat} {w : List α} (h : ∀ v ∈ x, v < m) :
    bincountWeighted m x w = (List.range m).map (fun k => (((x.zip w).filter (fun e => decide (e.1 = k))).map Prod.snd).sum) := by
  obtain ⟨-, -, h3⟩ := bound_spec x 0
  have := h3 m (by omega) h
  unfold bincountWeighted
  rw [Nat.max_eq_left this]

theorem allreduceSame_eq [AddCommMonoid α] {m P : Nat} {x : Nat → List Nat} {w : Nat → List α} (h : ∀ p ≤ P, ∀ v ∈ x p, v < m) :
    allreduceSame (fun p => bincountWeighted m (x p) (w p)) P = (List.range m).map (fun k =>
      (((gcat (P + 1) (fun p => (x p).zip (w p))).filter (fun e => decide (e.1 = k))).map Prod.snd).sum) := by
  induction P with
  | zero =>
    rw [allreduceSame, bincountWeighted_eq (h 0 le_rfl)]
    simp [gcat]
  | succ P ih =>
    rw [allreduceSame, ih (fun p hp => h p (by omega)), bincountWeighted_eq (h (P + 1) le_rfl), List.zipWith_map, List.zipWith_self]
    apply List.map_congr_left
    intro k _
    rw [gcat_succ (P + 1), List.filter_append, List.map_append, List.sum_append]

theorem foldl_max_lt {l : List Int} {b m : Int} (hb : b ≤ m) (h : ∀ v ∈ l, v ≤ m) : l.foldl max b ≤ m := by
  induction l generalizing b with
  | nil => exact hb
  | cons x l ih => exact ih (max_le hb (h x (by simp))) (fun v hv => h v (by simp [hv]))

/-- C122. `parallel_bincount` passes `run_parallel_bincount` for every array of values below `max_value`, with and without weights, in exact arithmetic. -/
theorem C122_bincount_passes [AddCommMonoid α] [Inhabited α] [DecidableEq α] (P : Nat) (hP : 0 < P) (one : α)
    (order1 order2 : Nat → List Int → List Nat) (h1 : ∀ p l, IsArgsort l (order1 p l)) (h2 : ∀ p l, IsArgsort l (order2 p l))
    (max_value : Nat) (arr : Nat → List Nat) (hv : ∀ p < P, ∀ v ∈ arr p, v < max_value) (weights : Option (Nat → List α))
    (hw : ∀ w, weights = some w → ∀ p < P, (w p).length = (arr p).length) :
    runParallelBincount P one order1 order2 max_value arr weights = .ok () := by
  obtain ⟨w, hwd⟩ : ∃ w, w = weights.getD (fun p => List.replicate (arr p).length one) := ⟨_, rfl⟩
  have hwl : ∀ p < P, ((arr p).map Int.ofNat).length = (w p).length := by
    intro p hp
    cases weights with
    | none => rw [hwd]; simp
    | some w' => rw [hwd]; simp [hw w' rfl p hp]
  obtain ⟨out, h3, -, h4⟩ := C17_parallel_bincount P hP one order1 order2 h1 h2 (fun p => (arr p).map Int.ofNat) w hwl
    (by intro p hp v hv'; obtain ⟨n, -, rfl⟩ := List.mem_map.1 hv'; exact Int.natCast_nonneg _) (some ((max_value : Int) + 1))
  have h3' : parallelBincount P one order1 order2 (fun p => (arr p).map Int.ofNat) weights (some ((max_value : Int) + 1)) none = .ok out := by
    rw [← h3]
    cases weights with
    | none =>
      subst hwd
      have e : (fun p => List.replicate (arr p).length one) = fun p => List.replicate ((arr p).map Int.ofNat).length one := by
        funext p; rw [List.length_map]
      show _ = parallelBincount P one order1 order2 (fun p => (arr p).map Int.ofNat) (some (fun p => List.replicate (arr p).length one)) _ _
      rw [e]
      rfl
    | some w' => subst hwd; rfl
  have hn : (max ((gcat P (fun p => (arr p).map Int.ofNat)).foldl max 0 + 1) ((some ((max_value : Int) + 1)).getD 0)).toNat = max_value + 1 := by
    have : (gcat P (fun p => (arr p).map Int.ofNat)).foldl max 0 ≤ (max_value : Int) := by
      apply foldl_max_lt (Int.natCast_nonneg _)
      intro v hv'
      obtain ⟨p, hp, h⟩ := mem_gcat.1 hv'
      obtain ⟨n, hn, rfl⟩ := List.mem_map.1 h
      have := hv p hp n hn
      show (n : Int) ≤ _
      omega
    simp only [Option.getD_some]
    omega
  rw [hn] at h4
  have hsum := allreduceSame_eq (P := P - 1) (m := max_value + 1) (x := arr) (w := w) (fun p hp v hv' => by
    have := hv p (by omega) v hv'; omega)
  rw [show P - 1 + 1 = P by omega] at hsum
  have hkey : gcat P out = allreduceSame (fun p => bincountWeighted (max_value + 1) (arr p) (w p)) (P - 1) := by
    rw [h4, hsum]
    apply List.map_congr_left
    intro k _
    rw [totalWeight_eq hwl]
    unfold upsFor
    have e : gcat P (fun q => ((arr q).map Int.ofNat).zip (w q)) = (gcat P (fun q => (arr q).zip (w q))).map (fun e => (Int.ofNat e.1, e.2)) := by
      rw [map_gcat]
      apply gcat_congr
      intro q _
      rw [List.zip_map_left]
      rfl
    rw [e, List.filter_map, List.map_map]
    congr 1
    have e2 : (List.filter ((fun e : Int × α => decide (e.1 = (k : Int))) ∘ fun e : Nat × α => (Int.ofNat e.1, e.2)) (gcat P fun q => (arr q).zip (w q))) =
        List.filter (fun e : Nat × α => decide (e.1 = k)) (gcat P fun q => (arr q).zip (w q)) := by
      apply List.filter_congr
      intro e _
      simp
    rw [e2]
    rfl
  unfold runParallelBincount
  rw [h3', ← hwd]
  show (assertAllRanks P (fun _ => decide ((gcat P out).length = (allreduceSame (fun p => bincountWeighted (max_value + 1) (arr p) (w p)) (P - 1)).length)) >>= _) = _
  rw [hkey]
  have : assertAllRanks P (fun _ => true) = .ok () := by unfold assertAllRanks; rw [if_pos (by simp)]
  simp only [decide_true]
  rw [this, allEqual_self]
  exact this

/-! ### Matching -/

/-- C122. `parallel_match` agrees with the serial `match` (any order `np.argsort` may give) whenever the values of `arr2` are distinct. -/
theorem C122_match_verified [LinearOrder α] [Inhabited α] (P fuel : Nat) (order : List α → List Nat) (ho : ∀ l, IsArgsort l (order l))
    (arr1 arr2 : Nat → List α) (hfuel : (gcat P arr2).length ≤ fuel) (hn : (gcat P arr2).Nodup) :
    ∃ ptr, parallelMatch fuel P arr1 arr2 false = .ok ptr ∧ verifyParallelMatch P order arr1 arr2 ptr = .ok () := by
  obtain ⟨ptr, h1, h2⟩ := parallelMatch_ok (arr1 := arr1) (arr2_sorted := false) hfuel (by simp)
  obtain ⟨chk, h3, h4⟩ := C34_match (arr1 := gcat P arr1) (arr2 := gcat P arr2) (ho _)
  have h5 : gcat P ptr = (gcat P arr1).map (firstIdx (gcat P arr2)) := by
    rw [map_gcat]; exact gcat_congr h2
  have h6 : IsMatch (gcat P arr1) (gcat P arr2) (gcat P ptr) := by
    rw [h5]
    refine ⟨by rw [List.length_map], fun i v hv => ?_⟩
    rw [List.getElem?_map, hv, Option.map_some]
    by_cases hm : v ∈ gcat P arr2
    · right
      exact ⟨(gcat P arr2).idxOf v, by rw [List.getElem?_eq_getElem (List.idxOf_lt_length_of_mem hm)]; simp, by simp [firstIdx, hm]⟩
    · left
      exact ⟨hm, by simp [firstIdx, hm]⟩
  refine ⟨ptr, h1, ?_⟩
  unfold verifyParallelMatch
  rw [h3]
  show (allEqual chk (gcat P ptr) >>= _) = _
  rw [C34_match_unique hn h4 h6, allEqual_self]
  show assertAllRanks P (fun p => if p = 0 then true else true) = .ok ()
  unfold assertAllRanks
  rw [if_pos (by simp)]

/-- The array before it is shuffled. -/
def unshuffled (nr_local : Nat → Nat) (nr_dups : Option (Nat → List Nat)) (p : Nat) : List Nat :=
  let data := (List.range' (pre nr_local p) (nr_local p))
  match nr_dups with
  | none => data
  | some n => npRepeat data (n p)

theorem gcat_range' (n : Nat → Nat) (P : Nat) : gcat P (fun p => List.range' (pre n p) (n p)) = List.range (pre n P) := by
  induction P with
  | zero => rfl
  | succ P ih => rw [gcat_succ, ih, pre_succ, List.range_eq_range', List.range_eq_range']
                 have := List.range'_append (s := 0) (m := pre n P) (n := n P) (step := 1)
                 simpa using this

/-- C122. `make_distributed_array` shuffles: each rank gets as many elements as it had before, the combined array is a permutation of the integers `0, 1, ...` with each
repeated as often as requested; without duplicates it is a permutation of the numbers below the total. -/
theorem C122_make_array [LinearOrder β] [Inhabited β] (fuel P : Nat) (nr_local : Nat → Nat) (nr_dups : Option (Nat → List Nat)) (f : Nat → Nat → List β)
    (hf : ∀ p n, (f p n).length = n) (hfuel : (gcat P (unshuffled nr_local nr_dups)).length ≤ fuel) :
    ∃ out, makeDistributedArray fuel P nr_local nr_dups f = .ok out ∧ (∀ p < P, (out p).length = (unshuffled nr_local nr_dups p).length) ∧
      (gcat P out).Perm (gcat P (unshuffled nr_local nr_dups)) ∧
      (nr_dups = none → (gcat P out).Perm (List.range (pre nr_local P))) := by
  have hdata : distributedData nr_local nr_dups = unshuffled nr_local nr_dups := by
    funext p
    have e : (List.range (nr_local p)).map (fun k => k + (pre nr_local (p + 1) - nr_local p)) = List.range' (pre nr_local p) (nr_local p) := by
      rw [List.range'_eq_map_range]
      apply List.map_congr_left
      intro k _
      rw [pre_succ]; omega
    cases nr_dups with
    | none => exact e
    | some n => show npRepeat _ _ = npRepeat _ _; rw [e]
  obtain ⟨d, hd⟩ : ∃ d, d = unshuffled nr_local nr_dups := ⟨_, rfl⟩
  rw [← hd] at hdata hfuel ⊢
  have hfl : (gcat P (fun p => f p (d p).length)).length = (gcat P d).length := by
    rw [length_gcat, length_gcat]
    exact pre_congr (fun p _ => hf p _)
  obtain ⟨ord, h1, h2, h3, -, -⟩ := C02_parallel_sort_index P fuel (fun p => f p (d p).length) (by rw [hfl]; exact hfuel)
  rw [hfl] at h3
  have hin : ∀ me < P, ∀ i ∈ (ord me).2.map Int.ofNat, (0 : Int) ≤ i ∧ i < (gcat P d).length := by
    intro me hme i hi
    obtain ⟨k, hk, rfl⟩ := List.mem_map.1 hi
    have : k ∈ gcat P (fun p => (ord p).2) := mem_gcat.2 ⟨me, hme, hk⟩
    rw [h3.mem_iff] at this
    have := List.mem_range.1 this
    exact ⟨Int.natCast_nonneg _, by simpa using this⟩
  obtain ⟨out, h4, h5⟩ := C09_fetch_elements P d (fun p => (ord p).2.map Int.ofNat) none (by simp) hin
  have h6 : (gcat P out).map some = (gcat P (fun p => (ord p).2)).map (fun i => (gcat P d)[i]?) := by
    rw [map_gcat, map_gcat]
    apply gcat_congr
    intro p hp
    rw [h5 p hp, List.map_map]; rfl
  have h7 : (gcat P out).Perm (gcat P d) := by
    have : ((gcat P out).map some).Perm ((gcat P d).map some) := by
      rw [h6]
      refine (h3.map _).trans ?_
      apply List.Perm.of_eq
      apply List.ext_getElem?
      intro i
      rw [List.getElem?_map, List.getElem?_map]
      by_cases hi : i < (gcat P d).length
      · rw [List.getElem?_range hi]; simp [List.getElem?_eq_getElem hi]
      · rw [List.getElem?_eq_none (by simpa using hi), List.getElem?_eq_none (by omega)]; rfl
    exact (List.map_perm_map_iff (Option.some_injective _)).1 this
  refine ⟨out, ?_, ?_, h7, ?_⟩
  · unfold makeDistributedArray
    rw [hdata, h1]
    exact h4
  · intro p hp
    have := congrArg List.length (h5 p hp)
    simp only [List.length_map] at this
    rw [this, h2 p hp, hf]
  · intro hnone
    subst hnone
    rw [hd] at h7
    refine h7.trans (List.Perm.of_eq ?_)
    exact gcat_range' nr_local P

theorem npSelect_sublist (l : List α) (keep : List Bool) : (npSelect l keep).Sublist l := by
  induction l generalizing keep with
  | nil => simp [npSelect]
  | cons x l ih =>
    cases keep with
    | nil => simp [npSelect]
    | cons b keep =>
      have := ih keep
      unfold npSelect at this ⊢
      rw [List.zip_cons_cons, List.filter_cons]
      cases b
      · simpa using this.cons x
      · simpa using this.cons_cons x

theorem gcat_sublist {P : Nat} {a b : Nat → List α} (h : ∀ p < P, (a p).Sublist (b p)) : (gcat P a).Sublist (gcat P b) := by
  induction P with
  | zero => simp
  | succ P ih => rw [gcat_succ, gcat_succ]; exact (ih (fun p hp => h p (by omega))).append (h P (by omega))

/-- C122. `run_parallel_match` passes whatever the random numbers are: numbers of elements on each rank, duplicates, order and elements kept. -/
theorem C122_match_passes [LinearOrder β] [Inhabited β] (fuel P : Nat) (order : List Nat → List Nat) (ho : ∀ l, IsArgsort l (order l))
    (nr_local1 nr_local2 : Nat → Nat) (nr_dups : Option (Nat → List Nat)) (f1 f2 : Nat → Nat → List β) (keep1 keep2 : Nat → Nat → List Bool)
    (hf1 : ∀ p n, (f1 p n).length = n) (hf2 : ∀ p n, (f2 p n).length = n)
    (h1 : (gcat P (unshuffled nr_local1 nr_dups)).length ≤ fuel) (h2 : pre nr_local2 P ≤ fuel) :
    runParallelMatch fuel P order nr_local1 nr_local2 nr_dups f1 f2 keep1 keep2 = .ok () := by
  obtain ⟨a1, e1, -, -, -⟩ := C122_make_array fuel P nr_local1 nr_dups f1 hf1 h1
  obtain ⟨a2, e2, -, -, hp2⟩ := C122_make_array fuel P nr_local2 none f2 hf2 (by
    have : gcat P (unshuffled nr_local2 none) = List.range (pre nr_local2 P) := gcat_range' nr_local2 P
    rw [this, List.length_range]; exact h2)
  have hp2 := hp2 rfl
  have hsub : (gcat P (fun p => npSelect (a2 p) (keep2 p (a2 p).length))).Sublist (gcat P a2) := gcat_sublist (fun p _ => npSelect_sublist _ _)
  have hnd : (gcat P (fun p => npSelect (a2 p) (keep2 p (a2 p).length))).Nodup :=
    hsub.nodup (hp2.nodup_iff.2 List.nodup_range)
  have hlen : (gcat P (fun p => npSelect (a2 p) (keep2 p (a2 p).length))).length ≤ fuel := by
    refine hsub.length_le.trans ?_
    rw [hp2.length_eq, List.length_range]
    exact h2
  obtain ⟨ptr, h3, h4⟩ := C122_match_verified P fuel order ho (fun p => npSelect (a1 p) (keep1 p (a1 p).length)) _ hlen hnd
  unfold runParallelMatch
  rw [e1]
  show (makeDistributedArray fuel P nr_local2 none f2 >>= _) = _
  rw [e2]
  show (parallelMatch fuel P (fun p => npSelect (a1 p) (keep1 p (a1 p).length)) (fun p => npSelect (a2 p) (keep2 p (a2 p).length)) false >>= _) = _
  rw [h3]
  exact h4

/-! ### Exchange of arrays -/

/-- C122. The loop of `run_sendrecv_test` pairs each two ranks in exactly one of its passes. -/
theorem C122_pairs (P r s : Nat) (hr : r < P) (hs : s < P) : ∃! ngrp, ngrp < 2 ^ ptaskLoop P P 0 ∧ partner P ngrp r = some s := by
  refine ⟨r ^^^ s, ⟨xor_lt_ptask hr hs, ?_⟩, ?_⟩
  · have : r ^^^ (r ^^^ s) = s := by rw [← Nat.xor_assoc, Nat.xor_self, Nat.zero_xor]
    unfold partner
    rw [this, if_pos hs]
  · rintro g ⟨-, hg⟩
    unfold partner at hg
    split at hg
    · injection hg with hg
      rw [← hg, ← Nat.xor_assoc, Nat.xor_self, Nat.zero_xor]
    · cases hg

/-- C122. Each pass of `run_sendrecv_test` ends with the expected arrays, for any number of ranks, chunk size and order of events: executions are bounded, never stuck and never fail,
and in the end `recvbuf` is the array of the partner. -/
theorem C122_sendrecv (P nchunk ngrp : Nat) (hn : 0 < nchunk) :
    (∃ B, ∀ k c, Chain P (srMachine nchunk) (srInit (partner P ngrp) makeTestData (zeroedBuffer P ngrp)) k c → k ≤ B) ∧
    ∀ k c, Chain P (srMachine nchunk) (srInit (partner P ngrp) makeTestData (zeroedBuffer P ngrp)) k c →
      (Exchange.Finished P (srMachine nchunk) c ∨ ∃ c', SyncStep P (srMachine nchunk) c c') ∧ ¬ Fails P (srMachine nchunk) c ∧
      (Exchange.Finished P (srMachine nchunk) c → ∀ r < P, ∀ p, partner P ngrp r = some p → (c.st r).buf = (List.range (1000 * p)).map (fun k => 1000 * p + k)) := by
  have hdata : ∀ p, makeTestData p = (List.range (1000 * p)).map (fun k => 1000 * p + k) := by
    intro p
    unfold makeTestData
    rw [Nat.mul_comm]
    exact List.map_congr_left (fun k _ => Nat.add_comm _ _)
  simp only [← hdata]
  have hlen : ∀ r p, partner P ngrp r = some p → (zeroedBuffer P ngrp r).length = (makeTestData p).length := by
    intro r p hp
    unfold zeroedBuffer
    rw [hp]
    simp
  have hok : PairingOK P (partner P ngrp) makeTestData (zeroedBuffer P ngrp) := by
    refine ⟨?_, fun r _ p hp => (hlen r p hp).ge⟩
    intro r hr p hp
    unfold partner at hp ⊢
    split at hp
    · rename_i h
      injection hp with hp
      subst hp
      refine ⟨h, ?_⟩
      have : r ^^^ ngrp ^^^ ngrp = r := by rw [Nat.xor_assoc, Nat.xor_self, Nat.xor_zero]
      rw [this, if_pos hr]
    · cases hp
  obtain ⟨h1, h2⟩ := C07_sendrecv P nchunk (partner P ngrp) makeTestData (zeroedBuffer P ngrp) hn hok
  refine ⟨h1, fun k c hc => ?_⟩
  obtain ⟨h3, h4, -, h5⟩ := h2 k c hc
  refine ⟨h3, h4, fun hfin r hr p hp => ?_⟩
  rw [(h5 hfin).1 r hr p hp, List.drop_eq_nil_of_le (hlen r p hp).le, List.append_nil]

namespace ExSortTests2

def arr : Nat → List Nat := fun p => [[3, 1, 3], [], [0, 3]].getD p []
def weights : Nat → List Nat := fun p => [[10, 20, 30], [], [40, 50]].getD p []

example : runParallelBincount 3 1 (fun _ => argsort) (fun _ => argsort) 4 arr none = .ok () := by decide +kernel
example : runParallelBincount 3 1 (fun _ => argsort) (fun _ => argsort) 4 arr (some weights) = .ok () := by decide +kernel
example : allreduceSame (fun p => bincountWeighted 5 (arr p) (weights p)) 2 = [40, 20, 0, 90, 0] := by decide +kernel

/-- Random numbers used for the order of the elements. -/
def f (p n : Nat) : List Nat := (List.range n).map (fun k => (k * 7 + p * 5) % 11)

example : (match makeDistributedArray 20 3 (fun p => [3, 0, 2].getD p 0) none f with
    | .ok a => (List.range 3).map a
    | .error _ => []) = [[0, 2, 4], [], [1, 3]] := by decide +kernel

example : (match makeDistributedArray 20 3 (fun p => [3, 0, 2].getD p 0) (some (fun p => [[2, 0, 1], [], [1, 3]].getD p [])) f with
    | .ok a => (List.range 3).map a
    | .error _ => []) = [[0, 4, 2], [], [4, 0, 4, 3]] := by decide +kernel

example : runParallelMatch 20 3 argsort (fun p => [3, 0, 2].getD p 0) (fun p => [1, 3, 1].getD p 0) (some (fun p => [[2, 0, 1], [], [1, 3]].getD p [])) f f
    (fun _ n => List.replicate n true) (fun p n => (List.range n).map (fun k => decide ((k + p) % 2 = 0))) = .ok () := by decide +kernel

/-- A match which does not take the offset of the second rank into account is noticed. -/
example : verifyParallelMatch 2 argsort (fun p => [[5], [6]].getD p []) (fun p => [[6], [5]].getD p []) (fun p => [[0], [0]].getD p []) = .error .assertion := by decide +kernel

example : partner 5 3 4 = none ∧ partner 5 3 1 = some 2 ∧ partner 5 0 4 = some 4 := by decide

end ExSortTests2

end Verif.SortTests
