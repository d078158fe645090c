import Verif.Lib.Np

/-!
MPI collectives on values contributed by all ranks, and the data movement of `my_alltoallv`.
The message level model of `my_alltoallv` is in `Verif.Model.Alltoallv`; `Verif.Props.Alltoallv` shows that every
complete execution of it produces what `a2avInto` says.
-/

namespace Verif

variable {α β : Type*}

/-- `comm.Alltoall(send, recv)`: element `s` of the receive buffer of `d` is element `d` of the
send buffer of `s`. -/
def alltoall (send : Nat → Nat → β) : Nat → Nat → β := fun d s => send s d

/-- `np.empty` / `np.ndarray`: storage with unspecified contents. `default` stands for whatever is there. -/
def emptyArray [Inhabited α] (n : Nat) : List α := List.replicate n default

/-- Data movement of `my_alltoallv` (parallel_sort.py 37-129): rank `d` receives from each rank `s` the window of
the send buffer of `s` meant for `d`, and stores it at `roff d s` in its receive buffer. -/
def a2avInto (P : Nat) (send : Nat → List α) (scnt soff : Nat → Nat → Nat)
    (recv : Nat → List α) (roff : Nat → Nat → Nat) : Nat → List α := fun d =>
  (List.range P).foldl (fun buf s => overlay buf (roff d s) (slice (send s) (soff s d) (scnt s d)))
    (recv d)

/-- The common case: a receive buffer of exactly the right size, filled consecutively in rank order
(`recv_displ = cumsum(recv_count) - recv_count`). -/
def a2av [Inhabited α] (P : Nat) (send : Nat → List α) (scnt soff : Nat → Nat → Nat) : Nat → List α :=
  let rcnt := alltoall scnt
  let roff := fun d => pre (rcnt d)
  a2avInto P send scnt soff (fun d => emptyArray (pre (rcnt d) P)) roff

@[simp] theorem length_overlay {buf xs : List α} {o : Nat} (h : o + xs.length ≤ buf.length) :
    (overlay buf o xs).length = buf.length := by
  simp only [overlay, List.length_append, List.length_take, List.length_drop]; omega

theorem getElem?_overlay {buf xs : List α} {o i : Nat} (h : o + xs.length ≤ buf.length) :
    (overlay buf o xs)[i]? = if o ≤ i ∧ i < o + xs.length then xs[i - o]? else buf[i]? := by
  unfold overlay
  by_cases h1 : i < o
  · rw [if_neg (by omega), List.append_assoc, List.getElem?_append_left (by simp; omega),
      List.getElem?_take, if_pos h1]
  · by_cases h2 : i < o + xs.length
    · rw [if_pos (by omega), List.append_assoc,
        List.getElem?_append_right (by simp; omega),
        List.getElem?_append_left (by simp; omega)]
      congr 1; simp; omega
    · rw [if_neg (by omega), List.getElem?_append_right (by simp; omega), List.getElem?_drop]
      congr 1; simp; omega

/-- Storing blocks consecutively, in order, from the start of a buffer. -/
theorem foldl_overlay_consecutive (P : Nat) (x : Nat → List α) (buf : List α)
    (h : pre (sizes x) P ≤ buf.length) :
    (List.range P).foldl (fun b s => overlay b (pre (sizes x) s) (x s)) buf
      = gcat P x ++ buf.drop (pre (sizes x) P) := by
  induction P with
  | zero => simp
  | succ P ih =>
    have hle : pre (sizes x) P ≤ buf.length := Nat.le_trans (pre_mono _ (by omega)) h
    rw [List.range_succ, List.foldl_append, ih hle, gcat_succ]
    simp only [List.foldl_cons, List.foldl_nil, overlay]
    have hl : (gcat P x).length = pre (sizes x) P := length_gcat _ _
    rw [List.take_append_of_le_length (by omega), List.take_of_length_le (by omega),
      List.drop_append, List.drop_of_length_le (by omega), List.nil_append, List.drop_drop, hl,
      pre_succ]
    simp only [List.append_assoc]
    congr 3
    simp only [sizes]; omega

/-- The buffer received in the common case is the concatenation of the windows meant for this rank, provided the windows
lie inside the send buffers. -/
theorem a2av_eq [Inhabited α] {P : Nat} {send : Nat → List α} {scnt soff : Nat → Nat → Nat} {d : Nat}
    (h : ∀ s < P, soff s d + scnt s d ≤ (send s).length) :
    a2av P send scnt soff d = gcat P (fun s => slice (send s) (soff s d) (scnt s d)) := by
  have hs : ∀ s < P, sizes (fun s => slice (send s) (soff s d) (scnt s d)) s = scnt s d := by
    intro s hs; exact length_slice_of_le (h s hs)
  have hpre : ∀ s ≤ P, pre (sizes (fun s => slice (send s) (soff s d) (scnt s d))) s
      = pre (fun s => scnt s d) s := fun s hsP => pre_congr (fun i hi => hs i (by omega))
  have key := foldl_overlay_consecutive P (fun s => slice (send s) (soff s d) (scnt s d))
    (emptyArray (pre (fun s => scnt s d) P)) (by rw [hpre P (Nat.le_refl _)]; simp [emptyArray])
  rw [hpre P (Nat.le_refl _), List.drop_of_length_le (by simp [emptyArray]), List.append_nil] at key
  rw [← key]
  unfold a2av a2avInto alltoall
  simp only
  apply List.foldl_ext
  intro b s hsm
  rw [hpre s (Nat.le_of_lt (List.mem_range.1 hsm))]

end Verif
