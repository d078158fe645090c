import Verif.Model.Alltoallv
import Verif.Lib.Overlay
import Mathlib.Data.Prod.Lex
import Mathlib.Data.Nat.Bitwise

set_option linter.unusedSectionVars false

namespace Verif

open Exchange

variable {α : Type*}

/-! ### Chunks -/

theorem mem_chunkCalls {n grp peer : Nat} (hn : 0 < n) (c : SrCall) : ∀ fuel i so ls ro lr, ls + lr ≤ fuel →
    (c ∈ chunkCalls n grp peer fuel i so ls ro lr ↔ ∃ t, (t * n < ls ∨ t * n < lr) ∧
      c = ⟨grp, i + t, peer, so + min ls (t * n), min n (ls - t * n), ro + min lr (t * n), min n (lr - t * n)⟩) := by
  intro fuel
  induction fuel with
  | zero =>
    intro i so ls ro lr h
    simp only [chunkCalls, List.not_mem_nil, false_iff, not_exists, not_and]
    intro t ht; omega
  | succ fuel ih =>
    intro i so ls ro lr h
    unfold chunkCalls
    by_cases h0 : ls > 0 ∨ lr > 0
    · rw [if_pos h0, List.mem_cons, ih _ _ _ _ _ (by omega)]
      constructor
      · rintro (rfl | ⟨t, ht, rfl⟩)
        · refine ⟨0, by omega, ?_⟩
          simp only [SrCall.mk.injEq, true_and]
          omega
        · refine ⟨t + 1, ?_, ?_⟩
          · rw [Nat.succ_mul]; omega
          · rw [Nat.succ_mul]
            simp only [SrCall.mk.injEq, true_and]
            omega
      · rintro ⟨t, ht, rfl⟩
        cases t with
        | zero =>
          left
          simp only [SrCall.mk.injEq, true_and]
          omega
        | succ t =>
          right
          refine ⟨t, ?_, ?_⟩
          · rw [Nat.succ_mul] at ht; omega
          · rw [Nat.succ_mul] at *
            simp only [SrCall.mk.injEq, true_and]
            omega
    · rw [if_neg h0]
      simp only [List.not_mem_nil, false_iff, not_exists, not_and]
      intro t ht; omega

theorem chunkCalls_grp {n grp peer : Nat} {c : SrCall} : ∀ fuel i so ls ro lr,
    c ∈ chunkCalls n grp peer fuel i so ls ro lr → c.grp = grp ∧ i ≤ c.chunk := by
  intro fuel
  induction fuel with
  | zero => intro i so ls ro lr h; simp [chunkCalls] at h
  | succ fuel ih =>
    intro i so ls ro lr h
    unfold chunkCalls at h
    split at h
    · rcases List.mem_cons.1 h with rfl | h
      · exact ⟨rfl, Nat.le_refl _⟩
      · have := ih _ _ _ _ _ h; exact ⟨this.1, by omega⟩
    · simp at h

theorem chunkCalls_pairwise {n grp peer : Nat} : ∀ fuel i so ls ro lr,
    (chunkCalls n grp peer fuel i so ls ro lr).Pairwise (fun a b => a.chunk < b.chunk) := by
  intro fuel
  induction fuel with
  | zero => intro i so ls ro lr; simp [chunkCalls]
  | succ fuel ih =>
    intro i so ls ro lr
    unfold chunkCalls
    split
    · refine List.pairwise_cons.2 ⟨?_, ih _ _ _ _ _⟩
      intro c hc
      have := chunkCalls_grp _ _ _ _ _ _ hc
      simp only; omega
    · simp

theorem overlay_nil (buf : List α) (o : Nat) : overlay buf o [] = buf := by
  simp [overlay]

theorem overlay_overlay {buf a b : List α} {o : Nat} (h : o + a.length + b.length ≤ buf.length) :
    overlay (overlay buf o a) (o + a.length) b = overlay buf o (a ++ b) := by
  have h1 : (overlay buf o a).length = buf.length := length_overlay (by omega)
  apply List.ext_getElem?
  intro i
  rw [getElem?_overlay (by omega), getElem?_overlay (by omega), getElem?_overlay (by simp; omega)]
  by_cases h2 : o ≤ i ∧ i < o + a.length
  · rw [if_neg (by omega), if_pos h2, if_pos (by simp; omega), List.getElem?_append_left (by omega)]
  · by_cases h3 : o + a.length ≤ i ∧ i < o + a.length + b.length
    · rw [if_pos h3, if_pos (by simp; omega), List.getElem?_append_right (by omega)]
      congr 1; omega
    · rw [if_neg h3, if_neg h2, if_neg (by simp; omega)]

/-- Receiving in chunks is receiving all at once. -/
theorem chunk_fold {n grp peer : Nat} (hn : 0 < n) (S : List α) (q0 ro0 : Nat) : ∀ fuel i so ls ro lr (buf : List α),
    ls + lr ≤ fuel → ro0 ≤ ro → ro + lr ≤ buf.length → q0 + (ro - ro0) + lr ≤ S.length →
    (chunkCalls n grp peer fuel i so ls ro lr).foldl
      (fun b c => overlay b c.recvOff (slice S (q0 + (c.recvOff - ro0)) c.recvNum)) buf =
    overlay buf ro (slice S (q0 + (ro - ro0)) lr) := by
  intro fuel
  induction fuel with
  | zero =>
    intro i so ls ro lr buf h _ _ _
    have : lr = 0 := by omega
    subst this
    simp [chunkCalls, overlay_nil]
  | succ fuel ih =>
    intro i so ls ro lr buf h h1 h2 h3
    unfold chunkCalls
    by_cases h0 : ls > 0 ∨ lr > 0
    · rw [if_pos h0, List.foldl_cons]
      have hl : (slice S (q0 + (ro - ro0)) (min lr n)).length = min lr n := length_slice_of_le (by omega)
      have hl2 : (slice S (q0 + (ro - ro0) + min lr n) (lr - min lr n)).length = lr - min lr n :=
        length_slice_of_le (by omega)
      have hlo := length_overlay (buf := buf) (xs := slice S (q0 + (ro - ro0)) (min lr n)) (o := ro) (by omega)
      have hoff : q0 + (ro + min lr n - ro0) = q0 + (ro - ro0) + min lr n := by omega
      simp only
      rw [ih _ _ _ _ _ _ (by omega) (by omega) (by omega) (by omega), hoff]
      have := overlay_overlay (buf := buf) (o := ro) (a := slice S (q0 + (ro - ro0)) (min lr n))
        (b := slice S (q0 + (ro - ro0) + min lr n) (lr - min lr n)) (by omega)
      rw [hl] at this
      rw [this, slice_append_slice]
      congr 2; omega
    · rw [if_neg h0]
      have : lr = 0 := by omega
      subst this
      simp [overlay_nil]

/-! ### Running a list of calls -/

/-- Receive buffer after some calls, `msg` being the message received by a call. -/
def bufAfter (msg : SrCall → List α) (calls : List SrCall) (buf : List α) : List α :=
  calls.foldl (fun b c => overlay b c.recvOff (msg c)) buf

theorem length_bufAfter {msg : SrCall → List α} (calls : List SrCall) (buf : List α)
    (h : ∀ c ∈ calls, (msg c).length = c.recvNum ∧ c.recvOff + c.recvNum ≤ buf.length) :
    (bufAfter msg calls buf).length = buf.length := by
  induction calls generalizing buf with
  | nil => rfl
  | cons c cs ih =>
    have hc := h c (by simp)
    have hl : (overlay buf c.recvOff (msg c)).length = buf.length := length_overlay (by omega)
    unfold bufAfter at *
    rw [List.foldl_cons, ih, hl]
    intro c' hc'
    rw [hl]; exact h c' (by simp [hc'])

theorem a2a_next {calls : List SrCall} {s b : List α} {k : Nat} (hk : k < calls.length) :
    a2aMachine.next (⟨calls.drop k, s, b⟩ : A2aProc α) =
      some (calls[k].peer, slice s calls[k].sendOff calls[k].sendNum) := by
  unfold a2aMachine
  simp only
  rw [List.drop_eq_getElem_cons hk]

theorem a2a_recv {calls : List SrCall} {s b : List α} {msg : SrCall → List α} {k : Nat} (hk : k < calls.length)
    (h : ∀ c ∈ calls, (msg c).length = c.recvNum ∧ c.recvOff + c.recvNum ≤ b.length) :
    a2aMachine.recv (⟨calls.drop k, s, bufAfter msg (calls.take k) b⟩ : A2aProc α) (msg calls[k]) =
      some ⟨calls.drop (k + 1), s, bufAfter msg (calls.take (k + 1)) b⟩ := by
  unfold a2aMachine
  simp only
  rw [List.drop_eq_getElem_cons hk]
  simp only
  have hl := length_bufAfter (msg := msg) (calls.take k) b (fun c hc => h c (List.mem_of_mem_take hc))
  have hc := h calls[k] (List.getElem_mem hk)
  rw [if_pos]
  · congr 2
    unfold bufAfter
    rw [List.take_succ_eq_append_getElem hk, List.foldl_append]
    rfl
  · rw [length_slice_of_le (by omega), hc.1]

/-- Calls of all the ranks that fit together. -/
structure CallsMatch (P : Nat) (send recv : Nat → List α) (calls : Nat → List SrCall) (msg : Nat → SrCall → List α) : Prop where
  hpeer : ∀ r < P, ∀ c ∈ calls r, c.peer < P
  htag : ∀ r < P, (calls r).Pairwise (fun a b => a.grp < b.grp ∨ (a.grp = b.grp ∧ a.chunk < b.chunk))
  hrecv : ∀ r < P, ∀ c ∈ calls r, (msg r c).length = c.recvNum ∧ c.recvOff + c.recvNum ≤ (recv r).length
  hmatch : ∀ r < P, ∀ c ∈ calls r, ∃ c' ∈ calls c.peer, c'.grp = c.grp ∧ c'.chunk = c.chunk ∧ c'.peer = r ∧
    slice (send c.peer) c'.sendOff c'.sendNum = msg r c

def callTag (c : SrCall) : Nat ×ₗ Nat := toLex (c.grp, c.chunk)

/-- The expected run for such calls. -/
def a2aPlan {P : Nat} {send recv : Nat → List α} {calls : Nat → List SrCall} {msg : Nat → SrCall → List α}
    (h : CallsMatch P send recv calls msg) :
    Plan P a2aMachine (fun r => (⟨calls r, send r, recv r⟩ : A2aProc α)) (Nat ×ₗ Nat) where
  L := fun r => (calls r).length
  T := fun r k => ⟨(calls r).drop k, send r, bufAfter (msg r) ((calls r).take k) (recv r)⟩
  peer := fun r k => (((calls r)[k]?).map SrCall.peer).getD 0
  out := fun r k => (((calls r)[k]?).map (fun c => slice (send r) c.sendOff c.sendNum)).getD []
  inm := fun r k => (((calls r)[k]?).map (msg r)).getD []
  tag := fun r k => (((calls r)[k]?).map callTag).getD (toLex (0, 0))
  hinit := fun r _ => by simp [bufAfter]
  hnext := fun r _ k hk => by
    rw [a2a_next hk, List.getElem?_eq_getElem hk]
    rfl
  hend := fun r _ => by simp [a2aMachine]
  hpeer := fun r hr k hk => by
    rw [List.getElem?_eq_getElem hk]
    exact h.hpeer r hr _ (List.getElem_mem hk)
  htag := fun r hr k k' hk hk' => by
    have hk2 : k < (calls r).length := by omega
    have := List.pairwise_iff_getElem.1 (h.htag r hr) k k' hk2 hk' hk
    rw [List.getElem?_eq_getElem hk2, List.getElem?_eq_getElem hk']
    simp only [Option.map_some, Option.getD_some, callTag]
    rw [Prod.Lex.toLex_lt_toLex]
    exact this
  hmatch := fun r hr k hk => by
    obtain ⟨c', hc', h1, h2, h3, h4⟩ := h.hmatch r hr _ (List.getElem_mem hk)
    obtain ⟨j, hj, hje⟩ := List.mem_iff_getElem.1 hc'
    rw [List.getElem?_eq_getElem hk]
    simp only [Option.map_some, Option.getD_some]
    refine ⟨j, hj, ?_, ?_, ?_⟩
    · rw [List.getElem?_eq_getElem hj, hje]
      simp [callTag, h1, h2]
    · rw [List.getElem?_eq_getElem hj, hje]
      simpa using h3
    · rw [List.getElem?_eq_getElem hj, hje]
      simp only [Option.map_some, Option.getD_some]
      exact h4
  hrecv := fun r hr k hk => by
    rw [List.getElem?_eq_getElem hk]
    exact a2a_recv hk (h.hrecv r hr)

/-! ### The hypercube -/

theorem ptaskLoop_spec (P : Nat) : ∀ fuel p, P ≤ 2 ^ (p + fuel) → P ≤ 2 ^ ptaskLoop P fuel p := by
  intro fuel
  induction fuel with
  | zero => intro p h; simpa [ptaskLoop] using h
  | succ fuel ih =>
    intro p h
    unfold ptaskLoop
    split
    · exact ih (p + 1) (by rw [Nat.add_assoc, Nat.add_comm 1]; exact h)
    · omega

theorem le_two_pow_ptask (P : Nat) : P ≤ 2 ^ ptaskLoop P P 0 :=
  ptaskLoop_spec P P 0 (by rw [Nat.zero_add]; exact Nat.lt_two_pow_self.le)

theorem xor_lt_ptask {P r s : Nat} (hr : r < P) (hs : s < P) : r ^^^ s < 2 ^ ptaskLoop P P 0 :=
  Nat.xor_lt_two_pow (Nat.lt_of_lt_of_le hr (le_two_pow_ptask P)) (Nat.lt_of_lt_of_le hs (le_two_pow_ptask P))

theorem mem_hypercubeCalls {P n me : Nat} {sc so rc ro : Nat → Nat} (hn : 0 < n) {c : SrCall} :
    c ∈ hypercubeCalls P n me sc so rc ro ↔ ∃ g < 2 ^ ptaskLoop P P 0, me ^^^ g < P ∧
      ∃ t, (t * n < sc (me ^^^ g) ∨ t * n < rc (me ^^^ g)) ∧
        c = ⟨g, t, me ^^^ g, so (me ^^^ g) + min (sc (me ^^^ g)) (t * n), min n (sc (me ^^^ g) - t * n),
          ro (me ^^^ g) + min (rc (me ^^^ g)) (t * n), min n (rc (me ^^^ g) - t * n)⟩ := by
  unfold hypercubeCalls
  simp only [List.mem_flatMap, List.mem_range]
  constructor
  · rintro ⟨g, hg, hc⟩
    split at hc
    · rename_i h
      obtain ⟨t, ht, he⟩ := (mem_chunkCalls hn c _ _ _ _ _ _ (Nat.le_refl _)).1 hc
      rw [Nat.zero_add] at he
      exact ⟨g, hg, h, t, ht, he⟩
    · simp at hc
  · rintro ⟨g, hg, h, t, ht, he⟩
    refine ⟨g, hg, ?_⟩
    rw [if_pos h]
    refine (mem_chunkCalls hn c _ _ _ _ _ _ (Nat.le_refl _)).2 ⟨t, ht, ?_⟩
    rw [Nat.zero_add]; exact he

theorem hypercubeCalls_pairwise (P n me : Nat) (sc so rc ro : Nat → Nat) :
    (hypercubeCalls P n me sc so rc ro).Pairwise (fun a b => a.grp < b.grp ∨ (a.grp = b.grp ∧ a.chunk < b.chunk)) := by
  unfold hypercubeCalls
  rw [List.pairwise_flatMap]
  constructor
  · intro g _
    simp only
    split
    · rename_i h
      have h1 := chunkCalls_pairwise (n := n) (grp := g) (peer := me ^^^ g) (sc (me ^^^ g) + rc (me ^^^ g)) 0
        (so (me ^^^ g)) (sc (me ^^^ g)) (ro (me ^^^ g)) (rc (me ^^^ g))
      refine h1.imp_of_mem ?_
      intro a b ha hb hab
      exact Or.inr ⟨((chunkCalls_grp _ _ _ _ _ _ ha).1).trans ((chunkCalls_grp _ _ _ _ _ _ hb).1).symm, hab⟩
    · simp
  · refine List.pairwise_lt_range.imp ?_
    intro g g' hg a ha b hb
    simp only at ha hb
    split at ha
    · split at hb
      · left
        rw [(chunkCalls_grp _ _ _ _ _ _ ha).1, (chunkCalls_grp _ _ _ _ _ _ hb).1]; exact hg
      · simp at hb
    · simp at ha

/-- Arguments of an exchange that fit together: what `s` sends to `d` is what `d` expects from `s`, and all windows are inside the buffers. -/
structure ExchangeOK (P : Nat) (send : Nat → List α) (scnt soff : Nat → Nat → Nat) (recv : Nat → List α)
    (rcnt roff : Nat → Nat → Nat) : Prop where
  hcount : ∀ s < P, ∀ d < P, scnt s d = rcnt d s
  hsend : ∀ s < P, ∀ d < P, soff s d + scnt s d ≤ (send s).length
  hrecv : ∀ d < P, ∀ s < P, roff d s + rcnt d s ≤ (recv d).length

section
variable {P n : Nat} {send : Nat → List α} {scnt soff : Nat → Nat → Nat} {recv : Nat → List α} {rcnt roff : Nat → Nat → Nat}

/-- The message that call `c` of rank `d` receives. -/
def a2aMsg (send : Nat → List α) (soff roff : Nat → Nat → Nat) (d : Nat) (c : SrCall) : List α :=
  slice (send c.peer) (soff c.peer d + (c.recvOff - roff d c.peer)) c.recvNum

theorem hypercube_match (hn : 0 < n) (h : ExchangeOK P send scnt soff recv rcnt roff) :
    CallsMatch P send recv (fun r => hypercubeCalls P n r (scnt r) (soff r) (rcnt r) (roff r)) (a2aMsg send soff roff) where
  hpeer := by
    intro r hr c hc
    obtain ⟨g, hg, hp, t, ht, rfl⟩ := (mem_hypercubeCalls hn).1 hc
    exact hp
  htag := fun r _ => hypercubeCalls_pairwise _ _ _ _ _ _ _
  hrecv := by
    intro r hr c hc
    obtain ⟨g, hg, hp, t, ht, rfl⟩ := (mem_hypercubeCalls hn).1 hc
    have h1 := h.hrecv r hr _ hp
    have h2 := h.hsend _ hp r hr
    have h3 := h.hcount _ hp r hr
    simp only [a2aMsg]
    constructor
    · rw [length_slice_of_le (by omega)]
    · omega
  hmatch := by
    intro r hr c hc
    obtain ⟨g, hg, hp, t, ht, rfl⟩ := (mem_hypercubeCalls hn).1 hc
    have hx : (r ^^^ g) ^^^ g = r := by rw [Nat.xor_assoc, Nat.xor_self, Nat.xor_zero]
    have h3 := h.hcount _ hp r hr
    have h4 := h.hcount r hr _ hp
    simp only
    refine ⟨_, (mem_hypercubeCalls hn).2 ⟨g, hg, by rw [hx]; exact hr, t, by rw [hx]; omega, rfl⟩, rfl, rfl, hx, ?_⟩
    simp only [hx, a2aMsg]
    rw [h3]
    congr 2
    omega

theorem hypercube_plan (hn : 0 < n) (h : ExchangeOK P send scnt soff recv rcnt roff) :
    Nonempty (Plan P a2aMachine (hypercubeInit P n send scnt soff recv rcnt roff) (Nat ×ₗ Nat)) :=
  ⟨a2aPlan (hypercube_match hn h)⟩

/-- Partners in the order in which they are visited. -/
def hyperPeers (P me : Nat) : List Nat :=
  ((List.range (2 ^ ptaskLoop P P 0)).map (fun g => me ^^^ g)).filter (fun r => decide (r < P))

theorem mem_hyperPeers {P me s : Nat} (hme : me < P) : s ∈ hyperPeers P me ↔ s < P := by
  unfold hyperPeers
  simp only [List.mem_filter, List.mem_map, List.mem_range, decide_eq_true_eq]
  constructor
  · exact fun h => h.2
  · intro h
    exact ⟨⟨me ^^^ s, xor_lt_ptask hme h, by rw [← Nat.xor_assoc, Nat.xor_self, Nat.zero_xor]⟩, h⟩

/-- Receive buffer at the end of the hypercube loop. -/
theorem hypercube_buffer (hn : 0 < n) (h : ExchangeOK P send scnt soff recv rcnt roff) {d : Nat} (hd : d < P) :
    bufAfter (a2aMsg send soff roff d) (hypercubeCalls P n d (scnt d) (soff d) (rcnt d) (roff d)) (recv d) =
      (hyperPeers P d).foldl (fun b s => overlay b (roff d s) (slice (send s) (soff s d) (rcnt d s))) (recv d) := by
  unfold bufAfter hypercubeCalls hyperPeers
  generalize hG : List.range (2 ^ ptaskLoop P P 0) = G
  clear hG
  have hgen : ∀ (G : List Nat) (buf : List α), buf.length = (recv d).length →
      (G.flatMap (fun g => if d ^^^ g < P then chunkCalls n g (d ^^^ g) (scnt d (d ^^^ g) + rcnt d (d ^^^ g)) 0
        (soff d (d ^^^ g)) (scnt d (d ^^^ g)) (roff d (d ^^^ g)) (rcnt d (d ^^^ g)) else [])).foldl
        (fun b c => overlay b c.recvOff (a2aMsg send soff roff d c)) buf =
      (((G.map (fun g => d ^^^ g)).filter (fun r => decide (r < P))).foldl
        (fun b s => overlay b (roff d s) (slice (send s) (soff s d) (rcnt d s))) buf) := by
    intro G
    induction G with
    | nil => intro buf _; rfl
    | cons g G ih =>
      intro buf hb
      rw [List.flatMap_cons, List.foldl_append, List.map_cons, List.filter_cons]
      by_cases hp : d ^^^ g < P
      · have h1 := h.hrecv d hd _ hp
        have h2 := h.hsend _ hp d hd
        have h3 := h.hcount _ hp d hd
        rw [if_pos hp, if_pos (by simpa using hp), List.foldl_cons]
        have hf := chunk_fold (grp := g) (peer := d ^^^ g) hn (send (d ^^^ g)) (soff (d ^^^ g) d) (roff d (d ^^^ g))
          (scnt d (d ^^^ g) + rcnt d (d ^^^ g)) 0 (soff d (d ^^^ g)) (scnt d (d ^^^ g)) (roff d (d ^^^ g)) (rcnt d (d ^^^ g))
          buf (Nat.le_refl _) (Nat.le_refl _) (by omega) (by omega)
        have hcongr : (chunkCalls n g (d ^^^ g) (scnt d (d ^^^ g) + rcnt d (d ^^^ g)) 0
            (soff d (d ^^^ g)) (scnt d (d ^^^ g)) (roff d (d ^^^ g)) (rcnt d (d ^^^ g))).foldl
            (fun b c => overlay b c.recvOff (a2aMsg send soff roff d c)) buf =
            (chunkCalls n g (d ^^^ g) (scnt d (d ^^^ g) + rcnt d (d ^^^ g)) 0
            (soff d (d ^^^ g)) (scnt d (d ^^^ g)) (roff d (d ^^^ g)) (rcnt d (d ^^^ g))).foldl
            (fun b c => overlay b c.recvOff (slice (send (d ^^^ g)) (soff (d ^^^ g) d + (c.recvOff - roff d (d ^^^ g))) c.recvNum)) buf := by
          apply List.foldl_ext
          intro b c hc
          obtain ⟨t, -, rfl⟩ := (mem_chunkCalls hn c _ _ _ _ _ _ (Nat.le_refl _)).1 hc
          rfl
        rw [hcongr, hf, Nat.sub_self, Nat.add_zero]
        apply ih
        rw [length_overlay]
        · exact hb
        · rw [length_slice_of_le (by omega)]; omega
      · rw [if_neg hp, if_neg (by simpa using hp), List.foldl_nil]
        exact ih buf hb
  exact hgen G (recv d) rfl

/-- The windows of the receive buffer of each rank do not overlap. -/
def DisjointWindows (P : Nat) (rcnt roff : Nat → Nat → Nat) : Prop :=
  ∀ d < P, ∀ s < P, ∀ t < P, s ≠ t → ∀ i, ¬ (roff d s ≤ i ∧ i < roff d s + rcnt d s ∧ roff d t ≤ i ∧ i < roff d t + rcnt d t)

/-- Same windows in any order give the same buffer. -/
theorem foldl_overlay_eq_a2avInto (h : ExchangeOK P send scnt soff recv rcnt roff) (hdis : DisjointWindows P rcnt roff)
    {d : Nat} (hd : d < P) {l : List Nat} (hl : ∀ s, s ∈ l ↔ s < P) :
    l.foldl (fun b s => overlay b (roff d s) (slice (send s) (soff s d) (rcnt d s))) (recv d) =
      a2avInto P send scnt soff recv roff d := by
  have hlen : ∀ s < P, (slice (send s) (soff s d) (rcnt d s)).length = rcnt d s := by
    intro s hs
    have := h.hsend s hs d hd; have := h.hcount s hs d hd
    exact length_slice_of_le (by omega)
  have hlen' : ∀ s < P, (slice (send s) (soff s d) (scnt s d)).length = rcnt d s := by
    intro s hs
    rw [h.hcount s hs d hd]; exact hlen s hs
  have hin : ∀ s ∈ l, roff d s + (slice (send s) (soff s d) (rcnt d s)).length ≤ (recv d).length := by
    intro s hs; rw [hlen s ((hl s).1 hs)]; exact h.hrecv d hd s ((hl s).1 hs)
  have hin' : ∀ s < P, roff d s + (slice (send s) (soff s d) (scnt s d)).length ≤ (recv d).length := by
    intro s hs; rw [hlen' s hs]; exact h.hrecv d hd s hs
  apply List.ext_getElem?
  intro i
  by_cases hi : ∃ t < P, roff d t ≤ i ∧ i < roff d t + rcnt d t
  · obtain ⟨t, ht, hti⟩ := hi
    have hu : ∀ s < P, s ≠ t → ¬ (roff d s ≤ i ∧ i < roff d s + rcnt d s) := by
      intro s hs hst hsi
      exact hdis d hd s hs t ht hst i ⟨hsi.1, hsi.2, hti.1, hti.2⟩
    rw [foldl_overlay_inside l (roff d) (fun s => slice (send s) (soff s d) (rcnt d s)) _ hin ((hl t).2 ht)
        (by rw [hlen t ht]; exact hti) (fun s hs hst => by rw [hlen s ((hl s).1 hs)]; exact hu s ((hl s).1 hs) hst),
      a2avInto_inside hin' ht (by rw [hlen' t ht]; exact hti)
        (fun s hs hst => by rw [hlen' s hs]; exact hu s hs hst), h.hcount t ht d hd]
  · have hi' : ∀ s < P, ¬ (roff d s ≤ i ∧ i < roff d s + rcnt d s) := fun s hs hsi => hi ⟨s, hs, hsi⟩
    rw [foldl_overlay_outside l (roff d) (fun s => slice (send s) (soff s d) (rcnt d s)) _ hin
        (fun s hs => by rw [hlen s ((hl s).1 hs)]; exact hi' s ((hl s).1 hs)),
      a2avInto_outside hin' (fun s hs => by rw [hlen' s hs]; exact hi' s hs)]

end

/-! ### `sendrecv` -/

/-- The pairing of the ranks that call `sendrecv`, and space in the receive buffers. -/
structure PairingOK (P : Nat) (dest : Nat → Option Nat) (send recv : Nat → List α) : Prop where
  hpair : ∀ r < P, ∀ p, dest r = some p → p < P ∧ dest p = some r
  hspace : ∀ r < P, ∀ p, dest r = some p → (send p).length ≤ (recv r).length

def srCalls (n : Nat) (dest : Nat → Option Nat) (send : Nat → List α) (r : Nat) : List SrCall :=
  match dest r with
  | some p => chunkCalls n 0 p ((send r).length + (send p).length) 0 0 (send r).length 0 (send p).length
  | none => []

/-- The message received by call `c` of `sendrecv`. -/
def srChunk (send : Nat → List α) (c : SrCall) : List α := slice (send c.peer) (0 + (c.recvOff - 0)) c.recvNum

section
variable {P n : Nat} {dest : Nat → Option Nat} {send recv : Nat → List α}

def srPlan (hn : 0 < n) (h : PairingOK P dest send recv) :
    Plan P (srMachine n) (srInit dest send recv) Nat where
  L := fun r => match dest r with
    | some _ => (srCalls n dest send r).length + 1
    | none => 0
  T := fun r k => match dest r, k with
    | some _, k + 1 => .loop ⟨(srCalls n dest send r).drop k, send r,
        bufAfter (srChunk send) ((srCalls n dest send r).take k) (recv r)⟩
    | _, _ => srInit dest send recv r
  peer := fun r _ => (dest r).getD 0
  out := fun r k => match k with
    | 0 => .inl (send r).length
    | k + 1 => .inr ((((srCalls n dest send r)[k]?).map (fun c => slice (send r) c.sendOff c.sendNum)).getD [])
  inm := fun r k => match k with
    | 0 => .inl (send ((dest r).getD 0)).length
    | k + 1 => .inr ((((srCalls n dest send r)[k]?).map (srChunk send)).getD [])
  tag := fun r k => match k with
    | 0 => 0
    | k + 1 => (((srCalls n dest send r)[k]?).map SrCall.chunk).getD 0 + 1
  hinit := fun r _ => by
    cases dest r <;> rfl
  hnext := fun r hr k hk => by
    cases hd : dest r with
    | none => simp [hd] at hk
    | some p =>
      cases k with
      | zero => simp [srInit, hd, srMachine]
      | succ k =>
        simp only [hd] at hk
        have hk' : k < (srCalls n dest send r).length := by omega
        simp only [srMachine, Option.getD_some]
        rw [a2a_next hk', List.getElem?_eq_getElem hk']
        simp only [Option.map_some, Option.getD_some, Option.some.injEq, Prod.mk.injEq, and_true]
        have hm := List.getElem_mem hk'
        have hc : ∀ c ∈ srCalls n dest send r, c.peer = p := by
          intro c hc
          unfold srCalls at hc
          rw [hd] at hc
          obtain ⟨t, -, rfl⟩ := (mem_chunkCalls hn c _ _ _ _ _ _ (Nat.le_refl _)).1 hc
          rfl
        exact hc _ hm
  hend := fun r _ => by
    cases hd : dest r with
    | none => simp [srInit, hd, srMachine, a2aMachine]
    | some p => simp [srMachine, a2aMachine]
  hpeer := fun r hr k hk => by
    cases hd : dest r with
    | none => simp [hd] at hk
    | some p => exact (h.hpair r hr p hd).1
  htag := fun r hr k k' hk hk' => by
    cases hd : dest r with
    | none => simp [hd] at hk'
    | some p =>
      simp only [hd] at hk'
      cases k' with
      | zero => omega
      | succ k' =>
        have hk2 : k' < (srCalls n dest send r).length := by omega
        cases k with
        | zero => simp
        | succ k =>
          have hk3 : k < (srCalls n dest send r).length := by omega
          simp only
          rw [List.getElem?_eq_getElem hk2, List.getElem?_eq_getElem hk3]
          have hpw : (srCalls n dest send r).Pairwise (fun a b => a.chunk < b.chunk) := by
            unfold srCalls; rw [hd]; exact chunkCalls_pairwise _ _ _ _ _ _
          have := List.pairwise_iff_getElem.1 hpw k k' hk3 hk2 (by omega)
          simpa using this
  hmatch := fun r hr k hk => by
    cases hd : dest r with
    | none => simp [hd] at hk
    | some p =>
      obtain ⟨hpP, hdp⟩ := h.hpair r hr p hd
      simp only [hd] at hk
      simp only [Option.getD_some, hdp]
      cases k with
      | zero => exact ⟨0, by omega, rfl, by simp, rfl⟩
      | succ k =>
        have hk' : k < (srCalls n dest send r).length := by omega
        have hm := List.getElem_mem hk'
        generalize hce : (srCalls n dest send r)[k] = c at hm
        have hm' := hm
        unfold srCalls at hm
        rw [hd] at hm
        obtain ⟨t, ht, hc⟩ := (mem_chunkCalls hn c _ _ _ _ _ _ (Nat.le_refl _)).1 hm
        have hc' : (⟨0, 0 + t, r, 0 + min (send p).length (t * n), min n ((send p).length - t * n),
            0 + min (send r).length (t * n), min n ((send r).length - t * n)⟩ : SrCall) ∈ srCalls n dest send p := by
          unfold srCalls
          rw [hdp]
          exact (mem_chunkCalls hn _ _ _ _ _ _ _ (Nat.le_refl _)).2 ⟨t, by omega, rfl⟩
        obtain ⟨j, hj, hje⟩ := List.mem_iff_getElem.1 hc'
        refine ⟨j + 1, by omega, ?_, by simp, ?_⟩
        · simp only
          rw [List.getElem?_eq_getElem hj, hje, List.getElem?_eq_getElem hk', hce, hc]
          simp
        · simp only
          rw [List.getElem?_eq_getElem hj, hje, List.getElem?_eq_getElem hk', hce, hc]
          simp [srChunk]
  hrecv := fun r hr k hk => by
    cases hd : dest r with
    | none => simp [hd] at hk
    | some p =>
      simp only [hd] at hk
      cases k with
      | zero =>
        simp only [srInit, hd, srMachine, Option.getD_some, List.drop_zero, List.take_zero]
        unfold srCalls bufAfter
        rw [hd]
        rfl
      | succ k =>
        have hk' : k < (srCalls n dest send r).length := by omega
        simp only [srMachine]
        rw [List.getElem?_eq_getElem hk']
        simp only [Option.map_some, Option.getD_some]
        rw [a2a_recv hk']
        · rfl
        · intro c hc
          unfold srCalls at hc
          rw [hd] at hc
          obtain ⟨t, ht, rfl⟩ := (mem_chunkCalls hn c _ _ _ _ _ _ (Nat.le_refl _)).1 hc
          have := h.hspace r hr p hd
          constructor
          · simp only [srChunk]
            exact length_slice_of_le (by omega)
          · simp only; omega

theorem sr_buffer (hn : 0 < n) (h : PairingOK P dest send recv) {r p : Nat} (hr : r < P) (hd : dest r = some p) :
    bufAfter (srChunk send) (srCalls n dest send r) (recv r) = send p ++ (recv r).drop (send p).length := by
  have hs := h.hspace r hr p hd
  unfold bufAfter srCalls
  rw [hd]
  simp only
  have hf := chunk_fold (grp := 0) (peer := p) hn (send p) 0 0 ((send r).length + (send p).length) 0 0 (send r).length 0
    (send p).length (recv r) (Nat.le_refl _) (Nat.le_refl _) (by omega) (by omega)
  have hcongr : (chunkCalls n 0 p ((send r).length + (send p).length) 0 0 (send r).length 0 (send p).length).foldl
      (fun b c => overlay b c.recvOff (srChunk send c)) (recv r) =
      (chunkCalls n 0 p ((send r).length + (send p).length) 0 0 (send r).length 0 (send p).length).foldl
      (fun b c => overlay b c.recvOff (slice (send p) (0 + (c.recvOff - 0)) c.recvNum)) (recv r) := by
    apply List.foldl_ext
    intro b c hc
    obtain ⟨t, -, rfl⟩ := (mem_chunkCalls hn c _ _ _ _ _ _ (Nat.le_refl _)).1 hc
    rfl
  rw [hcongr, hf]
  simp [overlay]

end

end Verif
