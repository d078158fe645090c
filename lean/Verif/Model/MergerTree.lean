import Verif.Model.ParallelMatch
import Verif.Model.ParallelUnique
import Mathlib.Data.Prod.Lex

namespace Verif

variable {α : Type*}

/-- `dst[mask] = vals` for a boolean mask, when there is one value for each true entry. -/
def maskAssign : List α → List Bool → List α → List α
  | d :: ds, true :: ms, v :: vs => v :: maskAssign ds ms vs
  | d :: ds, false :: ms, vs => d :: maskAssign ds ms vs
  | ds, _, _ => ds

/-- `consistent_match(match_index_12, match_index_21, comm)` (python/virgo/mpi/merger_tree.py 131-165). -/
def consistentMatch (P : Nat) (m12 m21 : Nat → List Int) : Except Err (Nat → List Int) :=
  let local_halo_offset := pre (sizes m12)
  let local_halo_index := fun p => (List.range (m12 p).length).map (fun k => ((local_halo_offset p + k : Nat) : Int))
  let has_match := fun p => (m12 p).map (fun m => decide (m ≥ 0))
  match fetchElements P m21 (fun p => (m12 p).filter (fun m => decide (m ≥ 0))) with
  | .error e => .error e
  | .ok fetched =>
    let match_back := fun p => maskAssign (List.replicate (m12 p).length (-1)) (has_match p) (fetched p)
    .ok (fun p => List.zipWith (fun a b => if a = b then 1 else 0) (match_back p) (local_halo_index p))

/-- `destination` for a pair (merger_tree.py 66-69). -/
def mhDestination (P halos_per_rank : Nat) (g1 : Int) : Nat :=
  if halos_per_rank > 0 then (min (g1 / halos_per_rank) ((P : Int) - 1)).toNat else P - 1

/-- Number of halos in the output of a rank before it is repartitioned (70-72). -/
def mhLocalSize (P total_nr_halos rank : Nat) : Nat :=
  total_nr_halos / P + if rank = P - 1 then total_nr_halos % P else 0

/-- State of the loop over the received pairs: `matched_grnr2` and `matched_count`. -/
structure MhState where
  grnr2 : List Int
  count : List Nat

/-- One pass of the loop (108-126). -/
def mhStep (local_offset local_size : Nat) (st : MhState) (g1 g2 : Int) (n : Nat) : Except Err MhState :=
  let local_halo_nr := g1 - local_offset
  if local_halo_nr < 0 ∨ local_halo_nr ≥ local_size then .error .assertion
  else
    let k := local_halo_nr.toNat
    if n > st.count.getD k 0 then .ok ⟨st.grnr2.set k g2, st.count.set k n⟩
    else if n = st.count.getD k 0 then
      if g2 < st.grnr2.getD k 0 then .ok ⟨st.grnr2.set k g2, st.count.set k n⟩ else .ok st
    else .ok st

def mhLoop (local_offset local_size : Nat) : List ((Int ×ₗ Int) × Nat) → MhState → Except Err MhState
  | [], st => .ok st
  | (g, n) :: rest, st =>
    match mhStep local_offset local_size st (ofLex g).1 (ofLex g).2 n with
    | .error e => .error e
    | .ok st => mhLoop local_offset local_size rest st

/-- Group numbers at both snapshots of the particles which are in a group at both (merger_tree.py 38-59). A structured array of
pairs is ordered lexicographically by numpy. -/
def mhPairs [LinearOrder α] [Inhabited α] (fuel P : Nat) (grnr1 : Nat → List Int) (ids1 : Nat → List α)
    (grnr2 : Nat → List Int) (ids2 : Nat → List α) : Except Err (Nat → List (Int ×ₗ Int)) :=
  match parallelMatch fuel P ids1 ids2 false with
  | .error e => .error e
  | .ok snap2_id_index =>
    match fetchElements P grnr2 (fun p => (snap2_id_index p).filter (fun i => decide (i ≥ 0))) with
    | .error e => .error e
    | .ok fetched =>
      let g2 := fun p => maskAssign (List.replicate (ids1 p).length (-1)) ((snap2_id_index p).map (fun i => decide (i ≥ 0)))
        (fetched p)
      .ok (fun p => (((grnr1 p).zip (g2 p)).filter (fun e => decide (e.1 ≥ 0) && decide (e.2 ≥ 0))).map toLex)

/-- `match_halos(grnr1, ids1, grnr2, ids2, local_nr_halos, comm)` (python/virgo/mpi/merger_tree.py 8-128). -/
def matchHalos [LinearOrder α] [Inhabited α] (fuel P : Nat) (grnr1 : Nat → List Int) (ids1 : Nat → List α)
    (grnr2 : Nat → List Int) (ids2 : Nat → List α) (local_nr_halos : Nat → Nat) : Except Err (Nat → List Int) :=
  match mhPairs fuel P grnr1 ids1 grnr2 ids2 with
  | .error e => .error e
  | .ok grnr_pair =>
    match parallelUnique fuel P grnr_pair false true with
    | .error e => .error e
    | .ok (unique_grnr, unique_grnr_count) =>
      -- destination of each pair (63-75)
      let total_nr_halos := pre local_nr_halos P
      let halos_per_rank := total_nr_halos / P
      let destination := fun p => (unique_grnr p).map (fun g => mhDestination P halos_per_rank (ofLex g).1)
      let local_size := mhLocalSize P total_nr_halos
      if pre local_size P ≠ total_nr_halos then .error .assertion
      else
        let local_offset := fun p => p * halos_per_rank
        -- exchange (78-99)
        let send_count := fun p d => (destination p).count d
        let send_offset := fun p => pre (send_count p)
        let grnr_recv := a2av P unique_grnr send_count send_offset
        let count_recv := a2av P unique_grnr_count send_count send_offset
        -- loop over received pairs (102-126)
        let res := fun p => mhLoop (local_offset p) (local_size p) ((grnr_recv p).zip (count_recv p))
          ⟨List.replicate (local_size p) (-1), List.replicate (local_size p) 0⟩
        if ∀ p < P, (res p).toOption.isSome = true then
          -- (129-130)
          repartition P (fun p => ((res p).toOption.map MhState.grnr2).getD []) local_nr_halos
        else .error .assertion

end Verif
