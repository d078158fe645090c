import Verif.Lib.Mpi

namespace Verif

variable {α : Type*}

/-- `while c(x): x += 1`, at most `fuel` passes. -/
def whileInc (c : Nat → Bool) : Nat → Nat → Nat
  | 0, x => x
  | fuel + 1, x => if c x then whileInc c fuel (x + 1) else x

/-- Variables of the loop over groups in `group_index_from_length_and_offset` (python/virgo/mpi/util.py 143-161).
`lastNext` is `last_rank_to_send_group_to + 1`. -/
structure GiState where
  first : Nat
  lastNext : Nat
  sendOffset : Nat → Int
  sendCount : Nat → Nat

def giInit : GiState := ⟨0, 0, fun _ => -1, fun _ => 0⟩

/-- One pass of the loop (147-161) for the group with local number `i`. `nids r` is the number of particle IDs on rank `r`. -/
def giStep (P : Nat) (nids : Nat → Nat) (st : GiState) (i offset length : Nat) : GiState :=
  let first_id_offset := pre nids
  let last_id_offset := fun r => (pre nids (r + 1) : Int) - 1
  let first := whileInc (fun r => decide ((r : Int) < (P : Int) - 1) && decide (last_id_offset r < offset)) P st.first
  let lastNext := whileInc (fun r => decide ((r : Int) - 1 < (P : Int) - 1) && decide (first_id_offset r < offset + length)) P
    st.lastNext
  (List.range' first (lastNext - first)).foldl (fun st dest =>
    { st with
      sendOffset := if st.sendOffset dest < 0 then Function.update st.sendOffset dest i else st.sendOffset
      sendCount := Function.update st.sendCount dest (st.sendCount dest + 1) })
    { st with first := first, lastNext := lastNext }

/-- The loop over the groups of one rank, starting with local number `i`. -/
def giLoop (P : Nat) (nids : Nat → Nat) : List (Nat × Nat) → Nat → GiState → GiState
  | [], _, st => st
  | (o, l) :: rest, i, st => giLoop P nids rest (i + 1) (giStep P nids st i o l)

/-- `arr[start:end] = value for ...` if `end > start` (206-209, 213-215). -/
def giAssign (grnr : List Int) (start stop : Int) (vals : List Int) : List Int :=
  if stop > start then overlay grnr start.toNat vals else grnr

/-- `group_index_from_length_and_offset(length, offset, nr_local_ids, return_rank=True, comm)` (python/virgo/mpi/util.py 107-217): group number and rank in the
group of each particle ID; without `return_rank` only the former is returned. Lengths and offsets are natural numbers, the results (`int32` in the code) are
unbounded. A send offset of -1 occurs only with a count of zero. -/
def groupIndex (P : Nat) (length offset : Nat → List Nat) (nids : Nat → Nat) : (Nat → List Int) × (Nat → List Int) :=
  -- (132-135)
  let index_offset := pre (sizes length)
  let index := fun p => (List.range (length p).length).map (fun k => k + index_offset p)
  -- (137-161)
  let st := fun p => giLoop P nids ((offset p).zip (length p)) 0 giInit
  let send_count := fun p => (st p).sendCount
  let send_offset := fun p d => ((st p).sendOffset d).toNat
  -- (163-184)
  let length_recv := a2av P length send_count send_offset
  let offset_recv := a2av P offset send_count send_offset
  let index_recv := a2av P index send_count send_offset
  -- (186-203)
  let i1 : Nat → List Int := fun p => (offset_recv p).map (fun (o : Nat) => (o : Int) - pre nids p)
  let i2 : Nat → List Int := fun p => ((offset_recv p).zip (length_recv p)).map (fun (e : Nat × Nat) => (e.1 : Int) + e.2 - pre nids p)
  let rank_offset : Nat → List Int := fun p => (i1 p).map (fun x => if x < 0 then (x.natAbs : Int) else 0)
  let i1 : Nat → List Int := fun p => (i1 p).map (fun x => if x < 0 then 0 else x)
  let i2 : Nat → List Int := fun p => (i2 p).map (fun (x : Int) => if x > nids p then (nids p : Int) else x)
  -- (194, 205-216)
  let grnr := fun p => ((index_recv p).zip ((i1 p).zip (i2 p))).foldl (fun g e =>
    giAssign g e.2.1 e.2.2 (List.replicate (e.2.2 - e.2.1).toNat (e.1 : Int))) (List.replicate (nids p) (-1))
  let rank := fun p => ((rank_offset p).zip ((i1 p).zip (i2 p))).foldl (fun g e =>
    giAssign g e.2.1 e.2.2 ((List.range (e.2.2 - e.2.1).toNat).map (fun (k : Nat) => e.1 + (k : Int)))) (List.replicate (nids p) (-1))
  (grnr, rank)

end Verif
