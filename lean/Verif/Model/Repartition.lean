import Verif.Lib.Mpi

namespace Verif

variable {α : Type*}

/-- Number of elements rank `me` sends to rank `rank` in `repartition`
(python/virgo/mpi/parallel_sort.py 228-237). `ndesired` is the requested number of elements per rank. -/
def repartitionSendCount (nperproc ndesired : Nat → Nat) (me rank : Nat) : Nat :=
  let first_on_proc_in := pre nperproc
  let first_on_proc_out := pre ndesired
  -- range of elements to go to this other processor
  let ifirst : Int := first_on_proc_out rank
  let ilast : Int := ifirst + ndesired rank - 1
  -- can only send the elements which are stored locally
  let ifirst : Int := max ifirst (first_on_proc_in me)
  let ilast : Int := min ilast ((first_on_proc_in me : Int) + nperproc me - 1)
  (max 0 (ilast - ifirst + 1)).toNat

/-- `repartition(arr, ndesired, comm)` (python/virgo/mpi/parallel_sort.py 194-253).
`comm.Abort()` is the error `abort`. Trailing dimensions (`nvalues`, lines 208-211 and 248-249) are part of the element type here;
`Verif.Props.Alltoallv` shows that moving `nvalues` times as many scalars is the same thing. -/
def repartition [Inhabited α] (P : Nat) (arr : Nat → List α) (ndesired : Nat → Nat) :
    Except Err (Nat → List α) :=
  let nperproc := sizes arr
  let ntot := pre nperproc P
  if ntot ≠ pre ndesired P then .error .abort
  else
    let send_count := fun me rank => repartitionSendCount nperproc ndesired me rank
    let send_displ := fun me => pre (send_count me)
    .ok (a2av P arr send_count send_displ)

end Verif
