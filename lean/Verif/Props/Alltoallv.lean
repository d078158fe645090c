import Verif.Proofs.AlltoallvFlat
import Mathlib.Tactic.IntervalCases

/-! C05, C06, C07: `my_alltoallv` and `sendrecv` -/

namespace Verif

open Exchange

variable {α : Type*}

/-- What an exchange should do to the receive buffer of rank `d`: every window for a source rank `s` holds the elements `s` was to
send to `d`, the rest is as it was. -/
structure Delivered (P : Nat) (send : Nat → List α) (soff : Nat → Nat → Nat) (recv : Nat → List α)
    (rcnt roff : Nat → Nat → Nat) (d : Nat) (buf : List α) : Prop where
  length : buf.length = (recv d).length
  inside : ∀ s < P, ∀ j < rcnt d s, buf[roff d s + j]? = (send s)[soff s d + j]?
  outside : ∀ i, (∀ s < P, ¬ (roff d s ≤ i ∧ i < roff d s + rcnt d s)) → buf[i]? = (recv d)[i]?

/-- The data movement assumed by the models of the other functions. -/
theorem delivered_a2avInto {P : Nat} {send : Nat → List α} {scnt soff : Nat → Nat → Nat} {recv : Nat → List α}
    {rcnt roff : Nat → Nat → Nat} (h : ExchangeOK P send scnt soff recv rcnt roff) (hdis : DisjointWindows P rcnt roff)
    {d : Nat} (hd : d < P) :
    Delivered P send soff recv rcnt roff d (a2avInto P send scnt soff recv roff d) := by
  have hlen : ∀ s < P, (slice (send s) (soff s d) (scnt s d)).length = rcnt d s := by
    intro s hs
    rw [← h.hcount s hs d hd]
    exact length_slice_of_le (h.hsend s hs d hd)
  have hin : ∀ s < P, roff d s + (slice (send s) (soff s d) (scnt s d)).length ≤ (recv d).length := by
    intro s hs; rw [hlen s hs]; exact h.hrecv d hd s hs
  constructor
  · unfold a2avInto
    have hgen : ∀ (l : List Nat) (buf : List α), (∀ s ∈ l, s < P) → buf.length = (recv d).length →
        (l.foldl (fun buf s => overlay buf (roff d s) (slice (send s) (soff s d) (scnt s d))) buf).length =
          (recv d).length := by
      intro l
      induction l with
      | nil => intro buf _ hb; exact hb
      | cons s l ih =>
        intro buf hl hb
        refine ih _ (fun t ht => hl t (List.mem_cons_of_mem _ ht)) ?_
        rw [length_overlay (by have := hin s (hl s (by simp)); omega), hb]
    exact hgen _ _ (fun s hs => List.mem_range.1 hs) rfl
  · intro s hs j hj
    rw [a2avInto_inside hin hs (by rw [hlen s hs]; omega), Nat.add_sub_cancel_left, getElem?_slice, if_pos]
    · rw [h.hcount s hs d hd]; exact hj
    · intro t ht hts
      rw [hlen t ht]
      intro hti
      exact hdis d hd t ht s hs hts _ ⟨hti.1, hti.2, by omega, by omega⟩
  · intro i hi
    exact a2avInto_outside hin (fun s hs => by rw [hlen s hs]; exact hi s hs)

/-- Two buffers which meet the requirements are equal. -/
theorem Delivered.unique {P : Nat} {send : Nat → List α} {soff : Nat → Nat → Nat} {recv : Nat → List α}
    {rcnt roff : Nat → Nat → Nat} {d : Nat} {b b' : List α} (h : Delivered P send soff recv rcnt roff d b)
    (h' : Delivered P send soff recv rcnt roff d b') : b = b' := by
  apply List.ext_getElem?
  intro i
  by_cases hw : ∃ s < P, roff d s ≤ i ∧ i < roff d s + rcnt d s
  · obtain ⟨s, hs, h1, h2⟩ := hw
    have e1 := h.inside s hs (i - roff d s) (by omega)
    have e2 := h'.inside s hs (i - roff d s) (by omega)
    rw [show roff d s + (i - roff d s) = i by omega] at e1 e2
    rw [e1, e2]
  · have hw' : ∀ s < P, ¬ (roff d s ≤ i ∧ i < roff d s + rcnt d s) := fun s hs hc => hw ⟨s, hs, hc⟩
    rw [h.outside i hw', h'.outside i hw']

/-- C05. Suppose counts agree and windows are inside the buffers and, on the receiving side, disjoint. Then in the exchange with `Sendrecv`
* no execution makes more than a fixed number of steps;
* after any execution either all ranks are done or some rank can go on, even if no message is buffered;
* a message never is longer than the window provided for it, in fact it has exactly the size which the receiver expects;
* when all ranks are done the buffers are as required, and equal to the ones the other models assume.
Nothing here depends on the chunk size `nchunk`, which only has to be positive. -/
theorem C05_alltoallv (P nchunk : Nat) (send : Nat → List α) (scnt soff : Nat → Nat → Nat) (recv : Nat → List α)
    (rcnt roff : Nat → Nat → Nat) (hn : 0 < nchunk) (h : ExchangeOK P send scnt soff recv rcnt roff)
    (hdis : DisjointWindows P rcnt roff) :
    (∃ B, ∀ k c, Chain P a2aMachine (hypercubeInit P nchunk send scnt soff recv rcnt roff) k c → k ≤ B) ∧
    ∀ k c, Chain P a2aMachine (hypercubeInit P nchunk send scnt soff recv rcnt roff) k c →
      (Finished P a2aMachine c ∨ ∃ c', SyncStep P a2aMachine c c') ∧
      ¬ Fails P a2aMachine c ∧
      (∀ r < P, ∀ call rest m ms, c.posted r = true → (c.st r).calls = call :: rest → c.chan call.peer r = m :: ms →
        m.length = call.recvNum) ∧
      (Finished P a2aMachine c → ∀ d < P, Delivered P send soff recv rcnt roff d (c.st d).recvbuf ∧
        (c.st d).recvbuf = a2avInto P send scnt soff recv roff d) := by
  let pl := a2aPlan (hypercube_match (recv := recv) (n := nchunk) hn h)
  refine ⟨⟨_, fun k c hc => chain_bound pl hc⟩, ?_⟩
  intro k c hc
  have hr := hc.reach
  refine ⟨sync_progress pl hr, not_fails pl hr, ?_, ?_⟩
  · intro r hrP call rest m ms hp hcalls hch
    have hnx : a2aMachine.next (c.st r) = some (call.peer, slice (c.st r).sendbuf call.sendOff call.sendNum) := by
      simp only [a2aMachine, hcalls]
    obtain ⟨k, hk, hst, hm⟩ := head_message pl hr hrP hp hnx hch
    have hk' : k < (hypercubeCalls P nchunk r (scnt r) (soff r) (rcnt r) (roff r)).length := hk
    have hcc : call = (hypercubeCalls P nchunk r (scnt r) (soff r) (rcnt r) (roff r))[k] := by
      rw [hst] at hcalls
      have h1 : (hypercubeCalls P nchunk r (scnt r) (soff r) (rcnt r) (roff r)).drop k = call :: rest := hcalls
      rw [List.drop_eq_getElem_cons hk'] at h1
      exact (List.cons.inj h1).1.symm
    have hm' : m = a2aMsg send soff roff r call := by
      rw [hm]
      show (((hypercubeCalls P nchunk r (scnt r) (soff r) (rcnt r) (roff r))[k]?).map (a2aMsg send soff roff r)).getD [] = _
      rw [List.getElem?_eq_getElem hk', ← hcc]; rfl
    rw [hm']
    exact ((hypercube_match (recv := recv) hn h).hrecv r hrP call (hcc ▸ List.getElem_mem hk')).1
  · intro hf d hd
    have hbuf : (c.st d).recvbuf = a2avInto P send scnt soff recv roff d := by
      rw [final_states pl hr hf d hd]
      show bufAfter (a2aMsg send soff roff d) ((hypercubeCalls P nchunk d (scnt d) (soff d) (rcnt d) (roff d)).take
        (hypercubeCalls P nchunk d (scnt d) (soff d) (rcnt d) (roff d)).length) (recv d) = _
      rw [List.take_length, hypercube_buffer hn h hd]
      exact foldl_overlay_eq_a2avInto h hdis hd (fun s => mem_hyperPeers hd)
    exact ⟨hbuf ▸ delivered_a2avInto h hdis hd, hbuf⟩

/-- C05. The limit on the message size: with `nchunk = 0` (which the code computes for elements of more than 100 MB) the loop goes on
for ever as soon as there is something to move, however many passes are allowed. -/
theorem C05_no_chunk_diverges (grp peer fuel chunk so ls ro lr : Nat) (h : 0 < ls ∨ 0 < lr) :
    (chunkCalls 0 grp peer fuel chunk so ls ro lr).length = fuel := by
  induction fuel generalizing chunk so ro with
  | zero => rfl
  | succ fuel ih =>
    unfold chunkCalls
    rw [if_pos (by omega), List.length_cons]
    simp only [Nat.min_zero, Nat.sub_zero, Nat.add_zero]
    rw [ih]

/-- C05. Counts and displacements as computed everywhere in the file (`recv_displ = cumsum(recv_count) - recv_count`, a receive buffer of
`sum(recv_count)` elements) meet the requirements of the exchange. -/
theorem C05_consecutive [Inhabited α] (P : Nat) (send : Nat → List α) (scnt soff : Nat → Nat → Nat)
    (hs : ∀ s < P, ∀ d < P, soff s d + scnt s d ≤ (send s).length) :
    ExchangeOK P send scnt soff (fun d => emptyArray (pre (fun s => scnt s d) P)) (fun d s => scnt s d)
      (fun d => pre (fun s => scnt s d)) ∧
    DisjointWindows P (fun d s => scnt s d) (fun d => pre (fun s => scnt s d)) := by
  refine ⟨⟨fun _ _ _ _ => rfl, hs, ?_⟩, ?_⟩
  · intro d _ s hs
    simp only [emptyArray, List.length_replicate]
    exact pre_lt_total (f := fun s => scnt s d) hs
  · intro d hd s hs t ht hst i hi
    rcases Nat.lt_or_gt_of_ne hst with h1 | h1
    · have := pre_mono (f := fun s => scnt s d) (show s + 1 ≤ t from h1)
      rw [pre_succ] at this
      simp only at hi this
      omega
    · have := pre_mono (f := fun s => scnt s d) (show t + 1 ≤ s from h1)
      rw [pre_succ] at this
      simp only at hi this
      omega

/-- Three ranks, messages of different sizes, chunks of two elements. -/
def exSend : Nat → List Nat := fun r => [[1, 2, 3, 4, 5], [6, 7, 8], [9]].getD r []
def exCount : Nat → Nat → Nat := fun s d => ([[0, 4, 1], [2, 1, 0], [0, 0, 1]].getD s []).getD d 0
def exOff : Nat → Nat → Nat := fun s => pre (exCount s)

example : ExchangeOK 3 exSend exCount exOff (fun d => emptyArray (pre (fun s => exCount s d) 3)) (fun d s => exCount s d)
      (fun d => pre (fun s => exCount s d)) ∧
    DisjointWindows 3 (fun d s => exCount s d) (fun d => pre (fun s => exCount s d)) :=
  C05_consecutive 3 exSend exCount exOff (by decide +kernel)

/-- Rank 0 exchanges with rank 1 in two chunks, then sends to rank 2. -/
example : hypercubeCalls 3 2 0 (exCount 0) (exOff 0) (fun s => exCount s 0) (pre (fun s => exCount s 0)) =
    [⟨1, 0, 1, 0, 2, 0, 2⟩, ⟨1, 1, 1, 2, 2, 2, 0⟩, ⟨2, 0, 2, 4, 1, 2, 0⟩] := by decide +kernel

example : (List.range 3).map (a2av 3 exSend exCount exOff) = [[6, 7], [1, 2, 3, 4, 8], [5, 9]] := by decide +kernel

/-- C05. Rows of `w` values: exchanging the flattened arrays with counts and offsets multiplied by `w` moves whole rows. -/
theorem C05_rows (P w : Nat) (send recv : Nat → List (List α)) (scnt soff roff : Nat → Nat → Nat)
    (hs : ∀ s < P, ∀ x ∈ send s, x.length = w) (d : Nat) (hr : ∀ x ∈ recv d, x.length = w) :
    (a2avInto P send scnt soff recv roff d).flatten =
      a2avInto P (fun s => (send s).flatten) (fun s d => scnt s d * w) (fun s d => soff s d * w)
        (fun d => (recv d).flatten) (fun d s => roff d s * w) d :=
  a2avInto_flatten hs d hr

/-- Two ranks swap a row of two values. -/
example : (a2avInto 2 (fun s => [[[1, 2], [3, 4]], [[5, 6]]].getD s []) (fun s d => if s = d then 0 else 1) (fun _ _ => 0)
    (fun _ => [[0, 0]]) (fun _ _ => 0) 0).flatten = [5, 6] := by decide +kernel

/-- C06. Under the same conditions the non-blocking exchange makes a bounded number of steps, is never stuck, in whatever order messages
arrive; sizes of messages are those of the receives; when it is done the receive buffers are as required and the same as
those of any completed execution of the `Sendrecv` version. -/
theorem C06_async (P nchunk : Nat) (send : Nat → List α) (scnt soff : Nat → Nat → Nat) (recv : Nat → List α)
    (rcnt roff : Nat → Nat → Nat) (hn : 0 < nchunk) (h : ExchangeOK P send scnt soff recv rcnt roff)
    (hdis : DisjointWindows P rcnt roff) :
    (∃ B, ∀ k c, AsyncRun P send (asyncInit P nchunk scnt soff recv rcnt roff) k c → k ≤ B) ∧
    ∀ k c, AsyncRun P send (asyncInit P nchunk scnt soff recv rcnt roff) k c →
      (AsyncDone P c ∨ ∃ c', AsyncStep P send c c') ∧
      (∀ s < P, ∀ d < P, ∀ m ms o q ps, c.chan s d = m :: ms → c.pend d s = (o, q) :: ps → m.length = q) ∧
      (AsyncDone P c → ∀ d < P, Delivered P send soff recv rcnt roff d (c.buf d) ∧
        ∀ nchunk' k' c', 0 < nchunk' → Chain P a2aMachine (hypercubeInit P nchunk' send scnt soff recv rcnt roff) k' c' →
          Finished P a2aMachine c' → (c'.st d).recvbuf = c.buf d) := by
  refine ⟨⟨_, fun k c hc => Nat.le_trans (Nat.le_add_right _ _) (async_bound hc)⟩, ?_⟩
  intro k c hc
  refine ⟨async_progress hn h hdis hc, ?_, ?_⟩
  · intro s hs d hd m ms o q ps hm hp
    exact (async_sizes hn h hdis hc hs hd hm hp).1
  · intro hf d hd
    have hb := async_result hn h hdis hc hf d hd
    refine ⟨hb ▸ delivered_a2avInto h hdis hd, ?_⟩
    intro n' k' c' hn' hc' hf'
    rw [hb]
    exact (((C05_alltoallv P n' send scnt soff recv rcnt roff hn' h hdis).2 k' c' hc').2.2.2 hf' d hd).2

example : asyncRequests 3 2 (exCount 0) (exOff 0) = [(1, 0, 2), (1, 2, 2), (2, 4, 1)] := by decide +kernel

/-- Receive buffer of a rank, whatever it is doing. -/
def SrProc.buf : SrProc α → List α
  | .lengths _ _ recvbuf => recvbuf
  | .loop p => p.recvbuf

/-- C07. Let the ranks that call `sendrecv` be paired up (or paired with themselves) and let the receive buffers be long enough. Then, whatever the
chunk size, executions are bounded, never stuck even without buffering, no message is unexpected (a length in place of data or the other way round) or
too long, and in the end the array of the partner is at the start of the receive buffer, followed by what was there before. Ranks that do
not take part keep their buffer. -/
theorem C07_sendrecv (P nchunk : Nat) (dest : Nat → Option Nat) (send recv : Nat → List α) (hn : 0 < nchunk)
    (h : PairingOK P dest send recv) :
    (∃ B, ∀ k c, Chain P (srMachine nchunk) (srInit dest send recv) k c → k ≤ B) ∧
    ∀ k c, Chain P (srMachine nchunk) (srInit dest send recv) k c →
      (Finished P (srMachine nchunk) c ∨ ∃ c', SyncStep P (srMachine nchunk) c c') ∧
      ¬ Fails P (srMachine nchunk) c ∧
      (∀ r < P, ∀ call rest sb rb m ms, c.posted r = true → c.st r = .loop ⟨call :: rest, sb, rb⟩ →
        c.chan call.peer r = m :: ms → ∃ l, m = .inr l ∧ l.length = call.recvNum) ∧
      (Finished P (srMachine nchunk) c →
        (∀ r < P, ∀ p, dest r = some p → (c.st r).buf = send p ++ (recv r).drop (send p).length) ∧
        (∀ r < P, dest r = none → (c.st r).buf = recv r)) := by
  let pl := srPlan hn h
  refine ⟨⟨_, fun k c hc => chain_bound pl hc⟩, ?_⟩
  intro k c hc
  have hr := hc.reach
  refine ⟨sync_progress pl hr, not_fails pl hr, ?_, ?_⟩
  · intro r hrP call rest sb rb m ms hp hst hch
    have hnx : (srMachine nchunk).next (c.st r) = some (call.peer, .inr (slice sb call.sendOff call.sendNum)) := by
      rw [hst]; rfl
    obtain ⟨k, hk, hst', hm⟩ := head_message pl hr hrP hp hnx hch
    cases hd : dest r with
    | none =>
      have : pl.L r = 0 := by simp [pl, srPlan, hd]
      omega
    | some p =>
      have hL : pl.L r = (srCalls nchunk dest send r).length + 1 := by simp [pl, srPlan, hd]
      cases k with
      | zero =>
        have : pl.T r 0 = srInit dest send recv r := pl.hinit r hrP
        rw [hst', this] at hst
        simp [srInit, hd] at hst
      | succ k =>
        have hT : pl.T r (k + 1) = .loop ⟨(srCalls nchunk dest send r).drop k, send r,
            bufAfter (srChunk send) ((srCalls nchunk dest send r).take k) (recv r)⟩ := by
          simp [pl, srPlan, hd]
        have hk' : k < (srCalls nchunk dest send r).length := by omega
        rw [hst', hT, List.drop_eq_getElem_cons hk'] at hst
        simp only [SrProc.loop.injEq, A2aProc.mk.injEq] at hst
        have hcall := (List.cons.inj hst.1).1
        have hm' : m = .inr (srChunk send call) := by
          rw [hm]
          show Sum.inr _ = _
          rw [List.getElem?_eq_getElem hk', hcall]; rfl
        refine ⟨_, hm', ?_⟩
        have hmem : call ∈ srCalls nchunk dest send r := hcall ▸ List.getElem_mem hk'
        unfold srCalls at hmem
        rw [hd] at hmem
        obtain ⟨t, ht, rfl⟩ := (mem_chunkCalls hn call _ _ _ _ _ _ (Nat.le_refl _)).1 hmem
        simp only [srChunk]
        exact length_slice_of_le (by omega)
  · intro hf
    refine ⟨?_, ?_⟩
    · intro r hrP p hd
      have hL : pl.L r = (srCalls nchunk dest send r).length + 1 := by simp [pl, srPlan, hd]
      rw [final_states pl hr hf r hrP, hL]
      have hT : pl.T r ((srCalls nchunk dest send r).length + 1) = .loop ⟨(srCalls nchunk dest send r).drop (srCalls nchunk dest send r).length, send r,
          bufAfter (srChunk send) ((srCalls nchunk dest send r).take (srCalls nchunk dest send r).length) (recv r)⟩ := by
        simp only [pl, srPlan, hd]
      rw [hT, List.take_length]
      exact sr_buffer hn h hrP hd
    · intro r hrP hd
      have hL : pl.L r = 0 := by simp [pl, srPlan, hd]
      rw [final_states pl hr hf r hrP, hL, pl.hinit r hrP]
      simp [srInit, hd, SrProc.buf]

/-- Ranks 0 and 2 exchange three elements for one, rank 1 talks to itself, rank 3 does something else. -/
example : PairingOK 4 (fun r => [some 2, some 1, some 0, none].getD r none) (fun r => [[1, 2, 3], [4], [5], [6]].getD r [])
    (fun r => [[0, 0], [0], [0, 0, 0, 0], []].getD r []) where
  hpair := by
    intro r hr p hp
    interval_cases r <;> simp at hp <;> subst hp <;> simp
  hspace := by
    intro r hr p hp
    interval_cases r <;> simp at hp <;> subst hp <;> simp

example : srCalls 2 (fun r => [some 2, some 1, some 0, none].getD r none) (fun r => [[1, 2, 3], [4], [5], [6]].getD r []) 0 =
    [⟨0, 0, 2, 0, 2, 0, 1⟩, ⟨0, 1, 2, 2, 1, 1, 0⟩] := by decide +kernel

end Verif
