import Verif.Lib.Mpi
import Verif.Lib.Exchange

/-!
Message level model of `my_alltoallv` (python/virgo/mpi/parallel_sort.py 37-129) and `sendrecv` (142-191).
`Verif.Lib.Exchange` says how the calls of different ranks interleave.
Offsets and counts are natural numbers, `sendbuf` and `recvbuf` are different arrays.
-/

namespace Verif

open Exchange

variable {α : Type*}

/-- One `comm.Sendrecv` call (lines 84-86, 183-185): partner, windows of the send and receive buffers. `grp` and `chunk`
are the values of the loop counters (`ngrp` and the number of the pass through the `while` loop); they only serve to name the call. -/
structure SrCall where
  grp : Nat
  chunk : Nat
  peer : Nat
  sendOff : Nat
  sendNum : Nat
  recvOff : Nat
  recvNum : Nat
  deriving DecidableEq, Repr

/-- The loop that moves the data for one partner in chunks of at most `nchunk` elements (78-91, 179-189). It makes at most
`left_to_send + left_to_recv` passes if `nchunk > 0`. -/
def chunkCalls (nchunk grp peer : Nat) : (fuel chunk : Nat) → (send_off left_to_send recv_off left_to_recv : Nat) → List SrCall
  | 0, _, _, _, _, _ => []
  | fuel + 1, chunk, so, ls, ro, lr =>
    if ls > 0 ∨ lr > 0 then
      ⟨grp, chunk, peer, so, min ls nchunk, ro, min lr nchunk⟩ ::
        chunkCalls nchunk grp peer fuel (chunk + 1) (so + min ls nchunk) (ls - min ls nchunk)
          (ro + min lr nchunk) (lr - min lr nchunk)
    else []

/-- `while 2**ptask < comm_size: ptask += 1` (59-61). -/
def ptaskLoop (P : Nat) : (fuel ptask : Nat) → Nat
  | 0, p => p
  | fuel + 1, p => if 2 ^ p < P then ptaskLoop P fuel (p + 1) else p

/-- The calls of rank `me` in the `hypercube` method (67-91). -/
def hypercubeCalls (P nchunk me : Nat) (send_count send_offset recv_count recv_offset : Nat → Nat) : List SrCall :=
  (List.range (2 ^ ptaskLoop P P 0)).flatMap (fun ngrp =>
    let rank := me ^^^ ngrp
    if rank < P then
      chunkCalls nchunk ngrp rank (send_count rank + recv_count rank) 0 (send_offset rank) (send_count rank)
        (recv_offset rank) (recv_count rank)
    else [])

/-- A rank in the middle of `my_alltoallv`: calls to come and buffers. -/
structure A2aProc (α : Type*) where
  calls : List SrCall
  sendbuf : List α
  recvbuf : List α

/-- `Sendrecv` sends a slice of the send buffer and stores what it receives in a slice of the receive buffer. A message longer than this slice
is an error. -/
def a2aMachine : Machine (A2aProc α) (List α) where
  next := fun p => match p.calls with
    | [] => none
    | c :: _ => some (c.peer, slice p.sendbuf c.sendOff c.sendNum)
  recv := fun p m => match p.calls with
    | [] => none
    | c :: cs => if m.length ≤ (slice p.recvbuf c.recvOff c.recvNum).length then
        some { calls := cs, sendbuf := p.sendbuf, recvbuf := overlay p.recvbuf c.recvOff m }
      else none

/-- All ranks at the start of `my_alltoallv(..., method="hypercube")`; arguments of rank `r` are `send r`, `scnt r`, ... -/
def hypercubeInit (P nchunk : Nat) (send : Nat → List α) (scnt soff : Nat → Nat → Nat) (recv : Nat → List α)
    (rcnt roff : Nat → Nat → Nat) : Nat → A2aProc α := fun r =>
  { calls := hypercubeCalls P nchunk r (scnt r) (soff r) (rcnt r) (roff r), sendbuf := send r, recvbuf := recv r }

/-! ### The function `sendrecv` -/

/-- A rank in the middle of `sendrecv(dest, sendbuf, recvbuf, nchunk=...)`: about to exchange lengths (172), or in the loop (179-189). -/
inductive SrProc (α : Type*)
  | lengths (dest : Nat) (sendbuf recvbuf : List α)
  | loop (p : A2aProc α)

/-- Messages: a pickled length, or array elements. -/
abbrev SrMsg (α : Type*) := Nat ⊕ List α

def srMachine (nchunk : Nat) : Machine (SrProc α) (SrMsg α) where
  next := fun
    | .lengths dest sendbuf _ => some (dest, .inl sendbuf.length)
    | .loop p => (a2aMachine.next p).map (fun q => (q.1, .inr q.2))
  recv := fun p m => match p, m with
    | .lengths dest sendbuf recvbuf, .inl n =>
      some (.loop { calls := chunkCalls nchunk 0 dest (sendbuf.length + n) 0 0 sendbuf.length 0 n,
                    sendbuf := sendbuf, recvbuf := recvbuf })
    | .loop p, .inr m => (a2aMachine.recv p m).map .loop
    | _, _ => none

/-- Ranks with `dest r = some p` call `sendrecv` with partner `p`; the others do not take part. -/
def srInit (dest : Nat → Option Nat) (send recv : Nat → List α) : Nat → SrProc α := fun r =>
  match dest r with
  | some p => .lengths p (send r) (recv r)
  | none => .loop { calls := [], sendbuf := send r, recvbuf := recv r }

/-! ### Non-blocking version -/

/-- `Irecv` calls of a rank for one source (99-106): windows of the receive buffer. -/
def chunkList (nchunk : Nat) : (fuel off left : Nat) → List (Nat × Nat)
  | 0, _, _ => []
  | fuel + 1, off, left =>
    if left > 0 then (off, min left nchunk) :: chunkList nchunk fuel (off + min left nchunk) (left - min left nchunk)
    else []

/-- All the requests of a rank in order: other rank, offset, number (98-106 with receive counts, 110-119 with send counts). -/
def asyncRequests (P nchunk : Nat) (count offset : Nat → Nat) : List (Nat × Nat × Nat) :=
  (List.range P).flatMap (fun rank => (chunkList nchunk (count rank) (offset rank) (count rank)).map (fun c => (rank, c)))

/-- State of all ranks in the `async` method: requests still to be posted, messages in transit (`chan s d`), posted receives which got nothing yet
(`pend d s`) and receive buffers. -/
structure AsyncCfg (α : Type*) where
  toRecv : Nat → List (Nat × Nat × Nat)
  toSend : Nat → List (Nat × Nat × Nat)
  chan : Nat → Nat → List (List α)
  pend : Nat → Nat → List (Nat × Nat)
  buf : Nat → List α

/-- Events: a rank posts its next receive; having posted them all it posts its next send; the oldest message from `s` to `d` is stored by the oldest
posted receive of `d` for `s` (messages between two ranks do not overtake each other, otherwise any order). `Waitall` (124) has no effect of its own. -/
inductive AsyncStep (P : Nat) (send : Nat → List α) : AsyncCfg α → AsyncCfg α → Prop
  | postRecv (c : AsyncCfg α) (r src o n : Nat) (rest : List (Nat × Nat × Nat)) (hr : r < P)
      (h : c.toRecv r = (src, o, n) :: rest) :
      AsyncStep P send c { c with toRecv := upd c.toRecv r rest, pend := upd2 c.pend r src (c.pend r src ++ [(o, n)]) }
  | postSend (c : AsyncCfg α) (r dst o n : Nat) (rest : List (Nat × Nat × Nat)) (hr : r < P)
      (h0 : c.toRecv r = []) (h : c.toSend r = (dst, o, n) :: rest) :
      AsyncStep P send c
        { c with toSend := upd c.toSend r rest, chan := upd2 c.chan r dst (c.chan r dst ++ [slice (send r) o n]) }
  | deliver (c : AsyncCfg α) (s d : Nat) (m : List α) (ms : List (List α)) (o n : Nat) (ps : List (Nat × Nat))
      (hs : s < P) (hd : d < P) (hm : c.chan s d = m :: ms) (hp : c.pend d s = (o, n) :: ps)
      (hlen : m.length ≤ (slice (c.buf d) o n).length) :
      AsyncStep P send c
        { c with chan := upd2 c.chan s d ms, pend := upd2 c.pend d s ps, buf := upd c.buf d (overlay (c.buf d) o m) }

def asyncInit (P nchunk : Nat) (scnt soff : Nat → Nat → Nat) (recv : Nat → List α)
    (rcnt roff : Nat → Nat → Nat) : AsyncCfg α where
  toRecv := fun r => asyncRequests P nchunk (rcnt r) (roff r)
  toSend := fun r => asyncRequests P nchunk (scnt r) (soff r)
  chan := fun _ _ => []
  pend := fun _ _ => []
  buf := recv

/-- Executions with a given number of events. -/
inductive AsyncRun (P : Nat) (send : Nat → List α) (init : AsyncCfg α) : Nat → AsyncCfg α → Prop
  | start : AsyncRun P send init 0 init
  | step (k : Nat) (c c' : AsyncCfg α) : AsyncRun P send init k c → AsyncStep P send c c' → AsyncRun P send init (k + 1) c'

/-- Everything posted and delivered: `Waitall` returns on every rank. -/
def AsyncDone (P : Nat) (c : AsyncCfg α) : Prop :=
  (∀ r < P, c.toRecv r = [] ∧ c.toSend r = []) ∧ ∀ s < P, ∀ d < P, c.chan s d = [] ∧ c.pend d s = []

end Verif
