import Verif.Lib.Mpi

namespace Verif

variable {α : Type*}

/-- Number of (sorted) indexes rank `me` requests from rank `p`, `ilast - ifirst + 1` in `fetch_elements`
(python/virgo/mpi/parallel_sort.py 304-313). -/
def fetchSendCount (P : Nat) (first_index_on_proc : Nat → Nat) (index : List Int) (p : Nat) : Nat :=
  let ifirst := fun q => (ssLeft index (first_index_on_proc q : Int) : Int)
  let ilast : Int := if p + 1 < P then ifirst (p + 1) - 1 else (index.length : Int) - 1
  (ilast - ifirst p + 1).toNat

/-- `fetch_elements(arr, index, result, comm)` (python/virgo/mpi/parallel_sort.py 257-347).
An `IndexError` on any rank is the error `indexError`. `result`, if present, is the supplied output array, which has to have
the length of `index`. Trailing dimensions are part of the element type. -/
def fetchElements [Inhabited α] (P : Nat) (arr : Nat → List α) (index : Nat → List Int)
    (result : Option (Nat → List α) := none) : Except Err (Nat → List α) :=
  let nperproc_in := sizes arr
  -- sorting index for local requested elements (300-301)
  let idx := fun me => argsort (index me)
  let sorted := fun me => fancy (index me) (idx me)
  -- first index on each processor (304)
  let first_index_on_proc := pre nperproc_in
  -- indexes to send to processors which have the data (307-321)
  let send_count := fun me p => fetchSendCount P first_index_on_proc (sorted me) p
  let send_displ := fun me => pre (send_count me)
  let recv_count := alltoall send_count
  let recv_displ := fun d => pre (recv_count d)
  let index_find := a2av P sorted send_count send_displ
  -- values to return (324-325)
  let values? := fun d => fancy? (arr d) ((index_find d).map (fun i => i - first_index_on_proc d))
  if (List.range P).all (fun d => (values? d).isSome) then
    let values := fun d => (values? d).getD []
    -- storage for the result (329-336)
    let buf := match result with
      | none => fun me => emptyArray (index me).length
      | some r => r
    -- send values back (338-340)
    let values_recv := a2avInto P values recv_count recv_displ buf send_displ
    -- restore original order (344)
    .ok (fun me => scatter (values_recv me) (idx me) (values_recv me))
  else .error .indexError

end Verif
