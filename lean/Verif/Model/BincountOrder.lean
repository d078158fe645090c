import Verif.Model.ReduceElements

namespace Verif

variable {α : Type*}

/-- Combining the elements of one rank (python/virgo/mpi/parallel_sort.py 1148-1157), like `Verif.binCountLocal` for any type of weights. `sum` is the `np.sum` of an
array. -/
def binCountLocalOp [Inhabited α] (sum : List α → α) (order : List Nat) (x : List Int) (weights : List α) :
    List (Int × α) :=
  let x := fancy x order
  let weights := fancy weights order
  let u := npUnique x
  (List.range u.length).map (fun i =>
    let offset := ((u.take i).map Prod.snd).sum
    ((u.getD i (0, 0)).1, sum (slice weights offset (u.getD i (0, 0)).2)))

/-- `parallel_bincount(x, weights, minlength, None, comm)` (1092-1161) for any type of weights, like `Verif.parallelBincount`. `zero` is the 0 of `np.zeros` (1139), `sum`
is the `np.sum` of an array and `add` is the `np.add` of two elements. -/
def parallelBincountOp [Inhabited α] (P : Nat) (zero : α) (sum : List α → α) (add : α → α → α) (order1 order2 : Nat → List Int → List Nat)
    (x : Nat → List Int) (weights : Nat → List α) (minlength : Option Int) : Except Err (Nat → List α) :=
  let total_nr_bins := binCountBins P x minlength
  -- (1133-1139)
  let local_nr_bins := fun me : Nat => total_nr_bins / P + if (me : Int) < total_nr_bins % P then 1 else 0
  if ¬ ∀ me < P, 0 ≤ local_nr_bins me then .error .valueError
  else
    let result := fun me => List.replicate (local_nr_bins me).toNat zero
    -- `weights[order]` (1150)
    if ¬ ∀ me < P, (x me).length ≤ (weights me).length then .error .indexError
    else
      let u := fun me => binCountLocalOp sum (order1 me (x me)) (x me) (weights me)
      reduceElements P add true (fun me => order2 me ((u me).map Prod.fst)) result
        (fun me => (u me).map Prod.snd) (fun me => (u me).map Prod.fst)

end Verif
