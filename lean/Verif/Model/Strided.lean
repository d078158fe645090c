import Verif.Model.Repartition
import Verif.Model.FetchElements

/-!
Arrays with one or two dimensions as they are in memory, in `repartition` and `fetch_elements` (python/virgo/mpi/parallel_sort.py 194-347). An array with one dimension is one with a single column. What NumPy and mpi4py do
is taken from their documentation: `reshape((-1,))` is a view if the elements in C order have a constant distance, and a new array otherwise; `empty_like` keeps the order of the dimensions in memory
(`order='K'`); buffers of messages with more than one element have to be contiguous (`ValueError`).
-/

namespace Verif

variable {α : Type*}

/-- Element `(i, j)` is at `base + i * s0 + j * s1` in the memory. -/
structure Arr2 (α : Type*) where
  rows : Nat
  cols : Nat
  base : Nat
  s0 : Int
  s1 : Int
  mem : List α

namespace Arr2

/-- `a[i, j]` -/
def get [Inhabited α] (a : Arr2 α) (i j : Nat) : α := a.mem.getD ((a.base : Int) + i * a.s0 + j * a.s1).toNat default

/-- The rows -/
def list [Inhabited α] (a : Arr2 α) : List (List α) := (List.range a.rows).map (fun i => (List.range a.cols).map (a.get i))

/-- `flags.c_contiguous`: dimensions with one element do not matter. -/
def cContig (a : Arr2 α) : Bool := a.rows * a.cols = 0 || ((a.cols = 1 || a.s1 = 1) && (a.rows = 1 || a.s0 = a.cols))

/-- `flags.f_contiguous` -/
def fContig (a : Arr2 α) : Bool := a.rows * a.cols = 0 || ((a.rows = 1 || a.s0 = 1) && (a.cols = 1 || a.s1 = a.rows))

/-- Whether `empty_like` gives an array in which the elements of a column follow each other -/
def columnMajor (a : Arr2 α) : Bool := if a.cContig then false else if a.fContig then true else a.s0.natAbs < a.s1.natAbs

/-- A new array, with what is in the memory -/
def fresh (fortran : Bool) (rows cols : Nat) (mem : List α) : Arr2 α :=
  if fortran then ⟨rows, cols, 0, 1, rows, mem⟩ else ⟨rows, cols, 0, cols, 1, mem⟩

/-- Distance of elements in the view `a.reshape((-1,))`, or none if this is a new array -/
def flatStride (a : Arr2 α) : Option Int :=
  if a.rows * a.cols = 0 then some 1
  else if a.rows = 1 then some a.s1
  else if a.cols = 1 then some a.s0
  else if a.s0 = a.cols * a.s1 then some a.s1
  else none

/-- Elements of `a.reshape((-1,))` -/
def flat [Inhabited α] (a : Arr2 α) : List α := a.list.flatten

/-- `a` after the elements of `a.reshape((-1,))` became `xs`: if it is not a view, nothing happens. -/
def storeFlat (a : Arr2 α) (xs : List α) : Arr2 α :=
  match a.flatStride with
  | none => a
  | some s => { a with mem := scatter a.mem ((List.range xs.length).map (fun (k : Nat) => ((a.base : Int) + k * s).toNat)) xs }

/-- Whether messages of `counts` elements can be sent from or received in `a.reshape((-1,))` -/
def bufferOk (a : Arr2 α) (counts : List Nat) : Bool := a.flatStride == none || a.flatStride == some 1 || counts.all (· ≤ 1)

end Arr2

/-- `repartition` (194-253). `junk` is what is in the memory of new arrays. -/
def repartition2 [Inhabited α] (P : Nat) (junk : Nat → Nat → α) (arr : Nat → Arr2 α) (ndesired : Nat → Nat) : Except Err (Nat → Arr2 α) :=
  -- (208-221)
  let nvalues := fun me => (arr me).cols
  let nperproc := fun me => (arr me).rows
  if pre nperproc P ≠ pre ndesired P then .error .abort
  else
    -- (228-243)
    let send_count := fun me rank => repartitionSendCount nperproc ndesired me rank
    let send_displ := fun me => pre (send_count me)
    let recv_count := alltoall send_count
    let recv_displ := fun d => pre (recv_count d)
    -- (245-247)
    let arr_return := fun me =>
      let n := pre (recv_count me) P
      Arr2.fresh (arr me).columnMajor n (nvalues me) ((List.range (n * nvalues me)).map (junk me))
    -- (248-250)
    if (List.range P).any (fun me => !(arr me).bufferOk ((List.range P).map (fun d => send_count me d * nvalues me)) ||
        !(arr_return me).bufferOk ((List.range P).map (fun s => recv_count me s * nvalues me))) then .error .valueError
    else
      let received := a2avInto P (fun s => (arr s).flat) (fun s d => send_count s d * nvalues s) (fun s d => send_displ s d * nvalues s) (fun d => (arr_return d).flat) (fun d s => recv_displ d s * nvalues d)
      .ok (fun me => (arr_return me).storeFlat (received me))

/-- The array which is filled by `fetch_elements`: a new one, or the one of the caller (329-336) -/
def fetchBuffer (junk : Nat → Nat → α) (arr : Nat → Arr2 α) (index : Nat → List Int) (result : Option (Nat → Arr2 α)) : Nat → Arr2 α :=
  match result with
  | none => fun me => Arr2.fresh (arr me).columnMajor (index me).length (arr me).cols ((List.range ((index me).length * (arr me).cols)).map (junk me))
  | some r => r

/-- `fetch_elements` (257-347): the rows of the result. `values` (325) is a new array in either order. -/
def fetchElements2 [Inhabited α] (P : Nat) (junk : Nat → Nat → α) (arr : Nat → Arr2 α) (index : Nat → List Int) (result : Option (Nat → Arr2 α)) : Except Err (Nat → List (List α)) :=
  -- (287-298)
  let nvalues := fun me => (arr me).cols
  let nperproc_in := fun me => (arr me).rows
  -- (300-321)
  let idx := fun me => argsort (index me)
  let sorted := fun me => fancy (index me) (idx me)
  let first_index_on_proc := pre nperproc_in
  let send_count := fun me p => fetchSendCount P first_index_on_proc (sorted me) p
  let send_displ := fun me => pre (send_count me)
  let recv_count := alltoall send_count
  let recv_displ := fun d => pre (recv_count d)
  let index_find := a2av P sorted send_count send_displ
  -- (324-325)
  let values? := fun d => fancy? (arr d).list ((index_find d).map (fun i => i - first_index_on_proc d))
  if (List.range P).all (fun d => (values? d).isSome) then
    let values := fun d => (values? d).getD []
    -- (329-336)
    let values_recv := fetchBuffer junk arr index result
    -- (338-340)
    if (List.range P).any (fun me => !(values_recv me).bufferOk ((List.range P).map (fun s => send_count me s * nvalues me))) then .error .valueError
    else
      let received := a2avInto P (fun s => (values s).flatten) (fun s d => recv_count s d * nvalues s) (fun s d => recv_displ s d * nvalues s) (fun d => (values_recv d).flat) (fun d s => send_displ d s * nvalues d)
      let values_recv := fun me => (values_recv me).storeFlat (received me)
      -- (344)
      .ok (fun me => scatter (values_recv me).list (idx me) (values_recv me).list)
  else .error .indexError

end Verif
