import Verif.Model.FindSplittingPoints

namespace Verif

variable {α : Type*}

/-- `dst[:] = src`: a source of length one is broadcast, any other difference in length is a `ValueError`. -/
def assignAll (dst src : List α) : Except Err (List α) :=
  if src.length = dst.length then .ok src
  else match src with
    | [x] => .ok (List.replicate dst.length x)
    | _ => .error .valueError

/-- `nval_local` (python/virgo/mpi/parallel_sort.py 595-603): instances of value `v` in the local, sorted array. -/
def psNvalLocal [LinearOrder α] [Inhabited α] (S : List α) (v : α) : Nat :=
  if S.length > 0 then
    let first_ind := ssLeft S v
    let last_ind : Int := (ssRight S v : Int) - 1
    let nval_local := (last_ind - first_ind + 1).toNat
    let first_ind := if first_ind ≥ S.length then S.length - 1 else first_ind
    if S.getD first_ind default ≠ v then 0 else nval_local
  else 0

/-- `last_to_send` for a destination which is not the last one (636-673). `v`, `lower` and `split_instance` are
the entries `rank+1` of `val`, `nval_lower` and `split_instance`. -/
def psLastToSend [LinearOrder α] [Inhabited α] (S : List α) (v : α) (lower : Nat) (split_instance : Int) : Int :=
  let val_first_index : Int := ssLeft S v
  let val_last_index : Int := (ssRight S v : Int) - 1
  if val_first_index > (S.length : Int) - 1 then (S.length : Int) - 1
  else if S.getD (ssLeft S v) default ≠ v then val_first_index - 1
  else
    let val_first_instance : Int := lower
    let val_last_instance : Int := lower + (val_last_index - val_first_index)
    if split_instance > val_last_instance then val_last_index
    else if split_instance ≤ val_first_instance then val_first_index - 1
    else
      let nsend := split_instance - val_first_instance
      val_first_index + nsend - 1

/-- One pass of the loop over destinations on one rank (629-680). The state is `first_to_send` and `send_count`. -/
def psSendStep [LinearOrder α] [Inhabited α] (Q : Nat) (nperproc : Nat → Nat) (S : List α) (val : Nat → α)
    (lower : Nat → Nat) (split_instance : Nat → Int) (st : Int × (Nat → Nat)) (rank : Nat) :
    Int × (Nat → Nat) :=
  let first_to_send := st.1
  if nperproc rank = 0 ∨ first_to_send ≥ S.length then st
  else
    let last_to_send : Int :=
      if (rank : Int) < (Q : Int) - 1 then
        psLastToSend S (val (rank + 1)) (lower (rank + 1)) (split_instance (rank + 1))
      else (S.length : Int) - 1
    (max first_to_send (last_to_send + 1),
      Function.update st.2 rank (max 0 (last_to_send - first_to_send + 1)).toNat)

/-- `send_count` of one rank (620-680). -/
def psSendCount [LinearOrder α] [Inhabited α] (Q : Nat) (nperproc : Nat → Nat) (S : List α) (val : Nat → α)
    (lower : Nat → Nat) (split_instance : Nat → Int) : Nat → Nat :=
  ((List.range Q).foldl (psSendStep Q nperproc S val lower split_instance) (0, fun _ => 0)).2

/-- The part of `parallel_sort` executed by the ranks which have data (563-731), on their communicator of size `Q`. The result on each
rank is the new contents of `arr` and the index array. -/
def parallelSortSub [LinearOrder α] [Inhabited α] (fuel Q : Nat) (arr : Nat → List α) :
    Except Err (Nat → List α × List Nat) :=
  let nperproc := sizes arr
  -- local sort (573-574)
  let sort_idx1 := fun p => argsort (arr p)
  let S := fun p => fancy (arr p) (sort_idx1 p)
  -- splitting points (578-592)
  let split_rank : Nat → Int := fun i => pre nperproc i
  match findSplittingPoints fuel Q Q split_rank S with
  | .error e => .error e
  | .ok fsp =>
    let val := fun p i => (fsp p i).1
    let split_instance := fun p i => split_rank i - (fsp p i).2.1
    -- instances of each value on this and on lower ranks (595-614)
    let nval_local := fun p i => psNvalLocal (S p) (val p i)
    let nval_lower := fun p i => pre (fun q => nval_local q i) p
    -- number of elements to send to each rank (617-680)
    let send_count := fun p => psSendCount Q nperproc (S p) (val p) (nval_lower p) (split_instance p)
    let send_displ := fun p => pre (send_count p)
    -- exchange and final local sort (683-700)
    let arr_tmp := a2av Q S send_count send_displ
    let sort_idx2 := fun p => argsort (arr_tmp p)
    let out := fun p => assignAll (S p) (fancy (arr_tmp p) (sort_idx2 p))
    -- index array (710-728)
    let index := fun p => fancy ((List.range (S p).length).map (fun k => k + pre nperproc p)) (sort_idx1 p)
    let index_tmp := a2av Q index send_count send_displ
    let index_out := fun p => assignAll (index p) (fancy (index_tmp p) (sort_idx2 p))
    if (List.range Q).all (fun p => (out p).isOk && (index_out p).isOk) then
      .ok (fun p => ((out p).toOption.getD [], (index_out p).toOption.getD []))
    else .error .valueError

/-- Ranks of `comm` with data, in rank order: the members of `mycomm` (550-560). -/
def psMembers (P : Nat) (arr : Nat → List α) : List Nat :=
  (List.range P).filter (fun p => decide ((arr p).length > 0))

/-- `parallel_sort(arr, comm, return_index=True)` (python/virgo/mpi/parallel_sort.py 507-749): new contents of `arr` and returned
index on each rank. `return_index=False` does the same to `arr`. Ranks without data do nothing. -/
def parallelSort [LinearOrder α] [Inhabited α] (fuel P : Nat) (arr : Nat → List α) :
    Except Err (Nat → List α × List Nat) :=
  let members := psMembers P arr
  match parallelSortSub fuel members.length (fun q => arr (members.getD q 0)) with
  | .error e => .error e
  | .ok res => .ok (fun p => if (arr p).length > 0 then res (members.idxOf p) else ([], []))

end Verif
