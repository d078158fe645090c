import Verif.Model.ParallelSort

/-!
`parallel_sort` with the comparison `!=` and the search for splitting points as parameters (python/virgo/mpi/parallel_sort.py 507-749). In an array of floating point numbers there can be NaN, which
`np.argsort` and `np.searchsorted` put after all other numbers and treat as equal to itself, but for which `!=` is true.
-/

namespace Verif.SortNan

variable {α : Type*} [LinearOrder α] [Inhabited α]

/-- `x != y` for numbers of which the largest, in the order of sorting, is NaN -/
def neNan [OrderTop α] (x y : α) : Bool := decide (x ≠ y) || decide (x = ⊤)

/-- `nval_local` (595-603) -/
def nvalLocal (ne : α → α → Bool) (S : List α) (v : α) : Nat :=
  if S.length > 0 then
    let first_ind := ssLeft S v
    let last_ind : Int := (ssRight S v : Int) - 1
    let nval_local := (last_ind - first_ind + 1).toNat
    let first_ind := if first_ind ≥ S.length then S.length - 1 else first_ind
    if ne (S.getD first_ind default) v then 0 else nval_local
  else 0

/-- `last_to_send` (636-673) -/
def lastToSend (ne : α → α → Bool) (S : List α) (v : α) (lower : Nat) (split_instance : Int) : Int :=
  let val_first_index : Int := ssLeft S v
  let val_last_index : Int := (ssRight S v : Int) - 1
  if val_first_index > (S.length : Int) - 1 then (S.length : Int) - 1
  else if ne (S.getD (ssLeft S v) default) v then val_first_index - 1
  else
    let val_first_instance : Int := lower
    let val_last_instance : Int := lower + (val_last_index - val_first_index)
    if split_instance > val_last_instance then val_last_index
    else if split_instance ≤ val_first_instance then val_first_index - 1
    else
      let nsend := split_instance - val_first_instance
      val_first_index + nsend - 1

/-- One pass of the loop over destinations (629-680) -/
def sendStep (ne : α → α → Bool) (Q : Nat) (nperproc : Nat → Nat) (S : List α) (val : Nat → α) (lower : Nat → Nat) (split_instance : Nat → Int) (st : Int × (Nat → Nat)) (rank : Nat) : Int × (Nat → Nat) :=
  let first_to_send := st.1
  if nperproc rank = 0 ∨ first_to_send ≥ S.length then st
  else
    let last_to_send : Int :=
      if (rank : Int) < (Q : Int) - 1 then lastToSend ne S (val (rank + 1)) (lower (rank + 1)) (split_instance (rank + 1))
      else (S.length : Int) - 1
    (max first_to_send (last_to_send + 1), Function.update st.2 rank (max 0 (last_to_send - first_to_send + 1)).toNat)

/-- `send_count` of one rank (620-680) -/
def sendCount (ne : α → α → Bool) (Q : Nat) (nperproc : Nat → Nat) (S : List α) (val : Nat → α) (lower : Nat → Nat) (split_instance : Nat → Int) : Nat → Nat :=
  ((List.range Q).foldl (sendStep ne Q nperproc S val lower split_instance) (0, fun _ => 0)).2

/-- The exchange of elements and all that follows (683-731) -/
def exchange (Q : Nat) (arr : Nat → List α) (send_count : Nat → Nat → Nat) : Except Err (Nat → List α × List Nat) :=
  let nperproc := sizes arr
  let sort_idx1 := fun p => argsort (arr p)
  let S := fun p => fancy (arr p) (sort_idx1 p)
  let send_displ := fun p => pre (send_count p)
  -- (683-700)
  let arr_tmp := a2av Q S send_count send_displ
  let sort_idx2 := fun p => argsort (arr_tmp p)
  let out := fun p => assignAll (S p) (fancy (arr_tmp p) (sort_idx2 p))
  -- (710-728)
  let index := fun p => fancy ((List.range (S p).length).map (fun k => k + pre nperproc p)) (sort_idx1 p)
  let index_tmp := a2av Q index send_count send_displ
  let index_out := fun p => assignAll (index p) (fancy (index_tmp p) (sort_idx2 p))
  if (List.range Q).all (fun p => (out p).isOk && (index_out p).isOk) then
    .ok (fun p => ((out p).toOption.getD [], (index_out p).toOption.getD []))
  else .error .valueError

/-- The part executed by the ranks which have data (563-731) -/
def sortSub (ne : α → α → Bool) (find : Nat → Nat → (Nat → Int) → (Nat → List α) → Except Err (Nat → Nat → α × Int × Int)) (Q : Nat) (arr : Nat → List α) : Except Err (Nat → List α × List Nat) :=
  let nperproc := sizes arr
  -- local sort (573-574)
  let S := fun p => fancy (arr p) (argsort (arr p))
  -- splitting points (578-592)
  let split_rank : Nat → Int := fun i => pre nperproc i
  match find Q Q split_rank S with
  | .error e => .error e
  | .ok fsp =>
    let val := fun p i => (fsp p i).1
    let split_instance := fun p i => split_rank i - (fsp p i).2.1
    -- instances of each value on this and on lower ranks (595-614)
    let nval_local := fun p i => nvalLocal ne (S p) (val p i)
    let nval_lower := fun p i => pre (fun q => nval_local q i) p
    -- number of elements to send to each rank (617-680)
    exchange Q arr (fun p => sendCount ne Q nperproc (S p) (val p) (nval_lower p) (split_instance p))

/-- `parallel_sort(arr, comm, return_index=True)` (507-749) -/
def sort (ne : α → α → Bool) (find : Nat → Nat → (Nat → Int) → (Nat → List α) → Except Err (Nat → Nat → α × Int × Int)) (P : Nat) (arr : Nat → List α) : Except Err (Nat → List α × List Nat) :=
  let members := psMembers P arr
  match sortSub ne find members.length (fun q => arr (members.getD q 0)) with
  | .error e => .error e
  | .ok res => .ok (fun p => if (arr p).length > 0 then res (members.idxOf p) else ([], []))

end Verif.SortNan
