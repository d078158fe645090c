import Verif.Proofs.Alltoallv

set_option linter.unusedSectionVars false

namespace Verif

open Exchange

variable {α : Type*}

theorem chunkList_getElem? {n : Nat} (hn : 0 < n) : ∀ fuel off left k, left ≤ fuel →
    (chunkList n fuel off left)[k]? = if k * n < left then some (off + k * n, min n (left - k * n)) else none := by
  intro fuel
  induction fuel with
  | zero => intro off left k h; simp [chunkList]; omega
  | succ fuel ih =>
    intro off left k h
    unfold chunkList
    by_cases h0 : left > 0
    · rw [if_pos h0]
      cases k with
      | zero => simp [h0, Nat.min_comm]
      | succ k =>
        rw [List.getElem?_cons_succ, ih _ _ _ (by omega), Nat.succ_mul]
        by_cases h1 : k * n < left - min left n
        · rw [if_pos h1, if_pos (by omega)]
          congr 2 <;> omega
        · rw [if_neg h1, if_neg (by omega)]
    · rw [if_neg h0, List.getElem?_nil, if_neg (by omega)]

/-- Requests for one rank. -/
def reqsFor (l : List (Nat × Nat × Nat)) (d : Nat) : List (Nat × Nat) :=
  (l.filter (fun e => decide (e.1 = d))).map Prod.snd

theorem reqsFor_append (a b : List (Nat × Nat × Nat)) (d : Nat) : reqsFor (a ++ b) d = reqsFor a d ++ reqsFor b d := by
  simp [reqsFor]

theorem reqsFor_asyncRequests {P n : Nat} {cnt off : Nat → Nat} {d : Nat} (hd : d < P) :
    reqsFor (asyncRequests P n cnt off) d = chunkList n (cnt d) (off d) (cnt d) := by
  unfold asyncRequests
  have hone : ∀ q (l : List (Nat × Nat)), reqsFor (l.map (fun c => (q, c))) d = if q = d then l else [] := by
    intro q l
    unfold reqsFor
    rw [List.filter_map]
    by_cases h : q = d
    · subst h
      rw [if_pos rfl]
      have : List.filter ((fun e : Nat × Nat × Nat => decide (e.1 = q)) ∘ fun c => (q, c)) l = l := by
        rw [List.filter_eq_self]; simp
      rw [this, List.map_map]
      exact List.map_id _
    · rw [if_neg h]
      have : List.filter ((fun e : Nat × Nat × Nat => decide (e.1 = d)) ∘ fun c => (q, c)) l = [] := by
        rw [List.filter_eq_nil_iff]; simp [h]
      rw [this]; rfl
  have hgen : ∀ Q, reqsFor ((List.range Q).flatMap (fun rank =>
      (chunkList n (cnt rank) (off rank) (cnt rank)).map (fun c => (rank, c)))) d =
      if d < Q then chunkList n (cnt d) (off d) (cnt d) else [] := by
    intro Q
    induction Q with
    | zero => simp [reqsFor]
    | succ Q ih =>
      rw [List.range_succ, List.flatMap_append, reqsFor_append, ih, List.flatMap_singleton, hone]
      by_cases h1 : d < Q
      · rw [if_pos h1, if_neg (by omega), if_pos (by omega), List.append_nil]
      · rw [if_neg h1, List.nil_append]
        by_cases h2 : Q = d
        · subst h2; rw [if_pos rfl, if_pos (by omega)]
        · rw [if_neg h2, if_neg (by omega)]
  rw [hgen P, if_pos hd]

section
variable {P n : Nat} {send : Nat → List α} {scnt soff : Nat → Nat → Nat} {recv : Nat → List α} {rcnt roff : Nat → Nat → Nat}

/-- `A r`, `B r`: receives and sends posted by rank `r`; `k s d`: number of messages delivered from `s` to `d`. -/
structure AInv (P n : Nat) (send : Nat → List α) (scnt soff : Nat → Nat → Nat) (recv : Nat → List α)
    (rcnt roff : Nat → Nat → Nat) (c : AsyncCfg α) (A B : Nat → List (Nat × Nat × Nat)) (k : Nat → Nat → Nat) : Prop where
  hA : ∀ r < P, asyncRequests P n (rcnt r) (roff r) = A r ++ c.toRecv r
  hB : ∀ r < P, asyncRequests P n (scnt r) (soff r) = B r ++ c.toSend r
  hkA : ∀ s < P, ∀ d < P, k s d ≤ (reqsFor (A d) s).length
  hkB : ∀ s < P, ∀ d < P, k s d ≤ (reqsFor (B s) d).length
  hchan : ∀ s < P, ∀ d < P, c.chan s d = ((reqsFor (B s) d).drop (k s d)).map (fun e => slice (send s) e.1 e.2)
  hpend : ∀ s < P, ∀ d < P, c.pend d s = (reqsFor (A d) s).drop (k s d)
  hlen : ∀ d < P, (c.buf d).length = (recv d).length
  hin : ∀ d < P, ∀ s < P, ∀ j < rcnt d s, j < k s d * n → (c.buf d)[roff d s + j]? = (send s)[soff s d + j]?
  hout : ∀ d < P, ∀ i, (∀ s < P, ¬ (roff d s ≤ i ∧ i < roff d s + rcnt d s)) → (c.buf d)[i]? = (recv d)[i]?

theorem ainv_start : AInv P n send scnt soff recv rcnt roff (asyncInit P n scnt soff recv rcnt roff)
    (fun _ => []) (fun _ => []) (fun _ _ => 0) := by
  constructor <;> simp [asyncInit, reqsFor]

variable {c : AsyncCfg α} {A B : Nat → List (Nat × Nat × Nat)} {k : Nat → Nat → Nat}

theorem AInv.postRecv (h : AInv P n send scnt soff recv rcnt roff c A B k) {r src o m : Nat} {rest : List (Nat × Nat × Nat)}
    (hr : r < P) (ht : c.toRecv r = (src, o, m) :: rest) :
    AInv P n send scnt soff recv rcnt roff
      { c with toRecv := upd c.toRecv r rest, pend := upd2 c.pend r src (c.pend r src ++ [(o, m)]) }
      (upd A r (A r ++ [(src, o, m)])) B k := by
  have hsub : ∀ s, reqsFor (A r ++ [(src, o, m)]) s = reqsFor (A r) s ++ if src = s then [(o, m)] else [] := by
    intro s
    rw [reqsFor_append]
    congr 1
    unfold reqsFor
    by_cases h1 : src = s <;> simp [h1]
  constructor
  · intro q hq
    simp only [upd]
    split
    · rename_i he; subst he
      rw [h.hA q hq, ht]; simp
    · exact h.hA q hq
  · exact h.hB
  · intro s hs d hd
    simp only [upd]
    split
    · rename_i he; subst he
      rw [hsub, List.length_append]
      have := h.hkA s hs d hd; omega
    · exact h.hkA s hs d hd
  · exact h.hkB
  · exact h.hchan
  · intro s hs d hd
    simp only [upd, upd2]
    by_cases hdr : d = r
    · subst hdr
      rw [if_pos rfl, hsub, List.drop_append_of_le_length (h.hkA s hs d hd)]
      by_cases hsrc : s = src
      · subst hsrc
        rw [if_pos ⟨rfl, rfl⟩, if_pos rfl, h.hpend s hs d hd]
      · rw [if_neg (by rintro ⟨-, h1⟩; exact hsrc h1), if_neg (fun h1 => hsrc h1.symm), List.append_nil, h.hpend s hs d hd]
    · rw [if_neg hdr, if_neg (by rintro ⟨h1, -⟩; exact hdr h1), h.hpend s hs d hd]
  · exact h.hlen
  · exact h.hin
  · exact h.hout

theorem AInv.postSend (h : AInv P n send scnt soff recv rcnt roff c A B k) {r dst o m : Nat} {rest : List (Nat × Nat × Nat)}
    (hr : r < P) (ht : c.toSend r = (dst, o, m) :: rest) :
    AInv P n send scnt soff recv rcnt roff
      { c with toSend := upd c.toSend r rest, chan := upd2 c.chan r dst (c.chan r dst ++ [slice (send r) o m]) }
      A (upd B r (B r ++ [(dst, o, m)])) k := by
  have hsub : ∀ s, reqsFor (B r ++ [(dst, o, m)]) s = reqsFor (B r) s ++ if dst = s then [(o, m)] else [] := by
    intro s
    rw [reqsFor_append]
    congr 1
    unfold reqsFor
    by_cases h1 : dst = s <;> simp [h1]
  constructor
  · exact h.hA
  · intro q hq
    simp only [upd]
    split
    · rename_i he; subst he
      rw [h.hB q hq, ht]; simp
    · exact h.hB q hq
  · exact h.hkA
  · intro s hs d hd
    simp only [upd]
    split
    · rename_i he; subst he
      rw [hsub, List.length_append]
      have := h.hkB s hs d hd; omega
    · exact h.hkB s hs d hd
  · intro s hs d hd
    simp only [upd, upd2]
    by_cases hsr : s = r
    · subst hsr
      rw [if_pos rfl, hsub, List.drop_append_of_le_length (h.hkB s hs d hd), List.map_append]
      by_cases hdst : d = dst
      · subst hdst
        rw [if_pos ⟨rfl, rfl⟩, if_pos rfl, h.hchan s hs d hd]; rfl
      · rw [if_neg (by rintro ⟨-, h1⟩; exact hdst h1), if_neg (fun h1 => hdst h1.symm), List.map_nil, List.append_nil,
          h.hchan s hs d hd]
    · rw [if_neg hsr, if_neg (by rintro ⟨h1, -⟩; exact hsr h1), h.hchan s hs d hd]
  · exact h.hpend
  · exact h.hlen
  · exact h.hin
  · exact h.hout

theorem prefix_getElem? {β : Type*} {a b l : List β} (h : l = a ++ b) {k : Nat} {x : β} (hx : a[k]? = some x) :
    l[k]? = some x := by
  rw [h, List.getElem?_append_left (List.getElem?_eq_some_iff.1 hx).1, hx]

/-- The next message from `s` to `d` and the receive waiting for it. -/
theorem AInv.heads (hn : 0 < n) (he : ExchangeOK P send scnt soff recv rcnt roff)
    (h : AInv P n send scnt soff recv rcnt roff c A B k) {s d : Nat} (hs : s < P) (hd : d < P)
    {m : List α} {ms : List (List α)} {o q : Nat} {ps : List (Nat × Nat)}
    (hm : c.chan s d = m :: ms) (hp : c.pend d s = (o, q) :: ps) :
    k s d * n < rcnt d s ∧ o = roff d s + k s d * n ∧ q = min n (rcnt d s - k s d * n) ∧
      m = slice (send s) (soff s d + k s d * n) q ∧ m.length = q ∧
      k s d < (reqsFor (A d) s).length ∧ k s d < (reqsFor (B s) d).length ∧
      ms = ((reqsFor (B s) d).drop (k s d + 1)).map (fun e => slice (send s) e.1 e.2) ∧
      ps = (reqsFor (A d) s).drop (k s d + 1) := by
  have h1 := h.hchan s hs d hd
  have h2 := h.hpend s hs d hd
  rw [hm] at h1
  rw [hp] at h2
  have hlB : k s d < (reqsFor (B s) d).length := by
    by_contra hc
    rw [List.drop_of_length_le (by omega)] at h1
    simp at h1
  have hlA : k s d < (reqsFor (A d) s).length := by
    by_contra hc
    rw [List.drop_of_length_le (by omega)] at h2
    simp at h2
  rw [List.drop_eq_getElem_cons hlB, List.map_cons] at h1
  rw [List.drop_eq_getElem_cons hlA] at h2
  obtain ⟨h1a, h1b⟩ := List.cons.inj h1
  obtain ⟨h2a, h2b⟩ := List.cons.inj h2
  have hpre1 : reqsFor (asyncRequests P n (rcnt d) (roff d)) s = reqsFor (A d) s ++ reqsFor (c.toRecv d) s := by
    rw [h.hA d hd, reqsFor_append]
  have hpre2 : reqsFor (asyncRequests P n (scnt s) (soff s)) d = reqsFor (B s) d ++ reqsFor (c.toSend s) d := by
    rw [h.hB s hs, reqsFor_append]
  rw [reqsFor_asyncRequests hs] at hpre1
  rw [reqsFor_asyncRequests hd] at hpre2
  have e1 := prefix_getElem? hpre1 (List.getElem?_eq_getElem hlA)
  have e2 := prefix_getElem? hpre2 (List.getElem?_eq_getElem hlB)
  rw [chunkList_getElem? hn _ _ _ _ (Nat.le_refl _), ← h2a] at e1
  rw [chunkList_getElem? hn _ _ _ _ (Nat.le_refl _)] at e2
  have hlt : k s d * n < rcnt d s := by
    by_contra hc
    rw [if_neg hc] at e1
    simp at e1
  rw [if_pos hlt] at e1
  rw [he.hcount s hs d hd, if_pos hlt] at e2
  simp only [Option.some.injEq, Prod.mk.injEq] at e1 e2
  have hms : m = slice (send s) (soff s d + k s d * n) q := by
    rw [h1a, ← e2, ← e1.2]
  refine ⟨hlt, e1.1.symm, e1.2.symm, hms, ?_, hlA, hlB, h1b, h2b⟩
  rw [hms, ← e1.2]
  have := he.hsend s hs d hd
  have := he.hcount s hs d hd
  exact length_slice_of_le (by omega)

theorem AInv.deliver (hn : 0 < n) (he : ExchangeOK P send scnt soff recv rcnt roff) (hdis : DisjointWindows P rcnt roff)
    (h : AInv P n send scnt soff recv rcnt roff c A B k) {s d : Nat} (hs : s < P) (hd : d < P)
    {m : List α} {ms : List (List α)} {o q : Nat} {ps : List (Nat × Nat)}
    (hm : c.chan s d = m :: ms) (hp : c.pend d s = (o, q) :: ps) :
    AInv P n send scnt soff recv rcnt roff
      { c with chan := upd2 c.chan s d ms, pend := upd2 c.pend d s ps, buf := upd c.buf d (overlay (c.buf d) o m) }
      A B (upd2 k s d (k s d + 1)) := by
  obtain ⟨hlt, ho, hq, hmm, hml, hlA, hlB, hms, hps⟩ := h.heads hn he hs hd hm hp
  have hrec := he.hrecv d hd s hs
  have hbl := h.hlen d hd
  have hfit : o + m.length ≤ (c.buf d).length := by omega
  constructor
  · exact h.hA
  · exact h.hB
  · intro s' hs' d' hd'
    simp only [upd2]
    split
    · rename_i e; obtain ⟨rfl, rfl⟩ := e; omega
    · exact h.hkA s' hs' d' hd'
  · intro s' hs' d' hd'
    simp only [upd2]
    split
    · rename_i e; obtain ⟨rfl, rfl⟩ := e; omega
    · exact h.hkB s' hs' d' hd'
  · intro s' hs' d' hd'
    simp only [upd2]
    split
    · rename_i e; obtain ⟨rfl, rfl⟩ := e; exact hms
    · exact h.hchan s' hs' d' hd'
  · intro s' hs' d' hd'
    simp only [upd2]
    by_cases e : s' = s ∧ d' = d
    · obtain ⟨rfl, rfl⟩ := e
      rw [if_pos ⟨rfl, rfl⟩, if_pos ⟨rfl, rfl⟩]; exact hps
    · rw [if_neg (fun e' => e ⟨e'.2, e'.1⟩), if_neg e]
      exact h.hpend s' hs' d' hd'
  · intro d' hd'
    simp only [upd]
    split
    · rename_i e; subst e; rw [length_overlay hfit, hbl]
    · exact h.hlen d' hd'
  · intro d' hd' s' hs' j hj hjk
    simp only [upd]
    split
    · rename_i e; subst e
      rw [getElem?_overlay hfit]
      by_cases hss : s' = s
      · subst hss
        have hjk' : j < k s' d' * n + n := by
          simpa [upd2, Nat.succ_mul] using hjk
        by_cases hjo : k s' d' * n ≤ j
        · rw [if_pos (by omega), hmm, getElem?_slice, if_pos (by omega)]
          congr 1; omega
        · rw [if_neg (by omega)]
          exact h.hin d' hd' s' hs' j hj (by omega)
      · have hjk' : j < k s' d' * n := by
          simpa [upd2, hss] using hjk
        rw [if_neg]
        · exact h.hin d' hd' s' hs' j hj hjk'
        · intro hwin
          exact hdis d' hd' s' hs' s hs hss (roff d' s' + j) ⟨by omega, by omega, by omega, by omega⟩
    · rename_i e
      have hjk' : j < k s' d' * n := by
        simpa [upd2, e] using hjk
      exact h.hin d' hd' s' hs' j hj hjk'
  · intro d' hd' i hi
    simp only [upd]
    split
    · rename_i e; subst e
      rw [getElem?_overlay hfit, if_neg]
      · exact h.hout d' hd' i hi
      · intro hwin
        exact hi s hs ⟨by omega, by omega⟩
    · exact h.hout d' hd' i hi

theorem async_inv (hn : 0 < n) (he : ExchangeOK P send scnt soff recv rcnt roff) (hdis : DisjointWindows P rcnt roff)
    {t : Nat} {c : AsyncCfg α} (h : AsyncRun P send (asyncInit P n scnt soff recv rcnt roff) t c) :
    ∃ A B k, AInv P n send scnt soff recv rcnt roff c A B k := by
  induction h with
  | start => exact ⟨_, _, _, ainv_start⟩
  | step t c c' _ hs ih =>
    obtain ⟨A, B, k, h⟩ := ih
    cases hs with
    | postRecv r src o m rest hr ht => exact ⟨_, _, _, h.postRecv hr ht⟩
    | postSend r dst o m rest hr h0 ht => exact ⟨_, _, _, h.postSend hr ht⟩
    | deliver s d m ms o q ps hs hd hm hp hl => exact ⟨_, _, _, h.deliver hn he hdis hs hd hm hp⟩

/-- Message sizes agree with the sizes of the receives. -/
theorem async_sizes (hn : 0 < n) (he : ExchangeOK P send scnt soff recv rcnt roff) (hdis : DisjointWindows P rcnt roff)
    {t : Nat} {c : AsyncCfg α} (h : AsyncRun P send (asyncInit P n scnt soff recv rcnt roff) t c) {s d : Nat}
    (hs : s < P) (hd : d < P) {m : List α} {ms : List (List α)} {o q : Nat} {ps : List (Nat × Nat)}
    (hm : c.chan s d = m :: ms) (hp : c.pend d s = (o, q) :: ps) :
    m.length = q ∧ (slice (c.buf d) o q).length = q := by
  obtain ⟨A, B, k, h⟩ := async_inv hn he hdis h
  obtain ⟨hlt, ho, hq, -, hml, -⟩ := h.heads hn he hs hd hm hp
  refine ⟨hml, length_slice_of_le ?_⟩
  have := he.hrecv d hd s hs
  have := h.hlen d hd
  omega

theorem async_progress (hn : 0 < n) (he : ExchangeOK P send scnt soff recv rcnt roff) (hdis : DisjointWindows P rcnt roff)
    {t : Nat} {c : AsyncCfg α} (h : AsyncRun P send (asyncInit P n scnt soff recv rcnt roff) t c) :
    AsyncDone P c ∨ ∃ c', AsyncStep P send c c' := by
  obtain ⟨A, B, k, hi⟩ := async_inv hn he hdis h
  by_cases h1 : ∃ r < P, c.toRecv r ≠ []
  · obtain ⟨r, hr, hne⟩ := h1
    obtain ⟨e, rest, he'⟩ := List.exists_cons_of_ne_nil hne
    obtain ⟨src, o, m⟩ := e
    exact Or.inr ⟨_, .postRecv c r src o m rest hr he'⟩
  have h1' : ∀ r < P, c.toRecv r = [] := fun r hr => by
    by_contra hc; exact h1 ⟨r, hr, hc⟩
  by_cases h2 : ∃ r < P, c.toSend r ≠ []
  · obtain ⟨r, hr, hne⟩ := h2
    obtain ⟨e, rest, he'⟩ := List.exists_cons_of_ne_nil hne
    obtain ⟨dst, o, m⟩ := e
    exact Or.inr ⟨_, .postSend c r dst o m rest hr (h1' r hr) he'⟩
  have h2' : ∀ r < P, c.toSend r = [] := fun r hr => by
    by_contra hc; exact h2 ⟨r, hr, hc⟩
  by_cases h3 : ∀ s < P, ∀ d < P, c.chan s d = [] ∧ c.pend d s = []
  · exact Or.inl ⟨fun r hr => ⟨h1' r hr, h2' r hr⟩, h3⟩
  right
  push Not at h3
  obtain ⟨s, hs, d, hd, hne⟩ := h3
  -- everything is posted, so that the two lists have the same length
  have hlen : (c.chan s d).length = (c.pend d s).length := by
    rw [hi.hchan s hs d hd, hi.hpend s hs d hd, List.length_map, List.length_drop, List.length_drop]
    congr 1
    have e1 : reqsFor (asyncRequests P n (rcnt d) (roff d)) s = reqsFor (A d) s := by
      rw [hi.hA d hd, h1' d hd, List.append_nil]
    have e2 : reqsFor (asyncRequests P n (scnt s) (soff s)) d = reqsFor (B s) d := by
      rw [hi.hB s hs, h2' s hs, List.append_nil]
    rw [← e1, ← e2, reqsFor_asyncRequests hs, reqsFor_asyncRequests hd, he.hcount s hs d hd]
    have : ∀ fuel o o' l, (chunkList n fuel o l).length = (chunkList n fuel o' l).length := by
      intro fuel
      induction fuel with
      | zero => intro o o' l; rfl
      | succ fuel ih =>
        intro o o' l
        unfold chunkList
        split
        · rw [List.length_cons, List.length_cons, ih]
        · rfl
    exact this _ _ _ _
  have hpos : 0 < (c.chan s d).length := by
    rcases Nat.eq_zero_or_pos (c.chan s d).length with h0 | h0
    · exact (hne (List.eq_nil_of_length_eq_zero h0) (List.eq_nil_of_length_eq_zero (by omega))).elim
    · exact h0
  obtain ⟨m, ms, hm⟩ := List.exists_cons_of_length_pos hpos
  obtain ⟨e, ps, hp⟩ := List.exists_cons_of_length_pos (show 0 < (c.pend d s).length by omega)
  obtain ⟨o, q⟩ := e
  have hsz := async_sizes hn he hdis h hs hd hm hp
  exact ⟨_, .deliver c s d m ms o q ps hs hd hm hp (by omega)⟩

theorem pre_upd {f : Nat → Nat} {r P v : Nat} (hr : r < P) : pre (upd f r v) P + f r = pre f P + v := by
  induction P with
  | zero => omega
  | succ P ih =>
    rw [pre_succ, pre_succ]
    by_cases h : r = P
    · subst h
      rw [pre_congr (f := upd f r v) (g := f) (fun i hi => by simp [upd]; omega)]
      simp only [upd, if_true]; omega
    · have h1 := ih (by omega)
      have h2 : upd f r v P = f P := by
        have h' : P ≠ r := fun h' => h h'.symm
        simp [upd, h']
      rw [h2]; omega

/-- Events that can still happen. -/
def asyncTodo (P : Nat) (c : AsyncCfg α) : Nat :=
  pre (fun r => (c.toRecv r).length) P + pre (fun r => 2 * (c.toSend r).length) P +
    pre (fun s => pre (fun d => (c.chan s d).length) P) P

theorem pre_upd2 {β : Type*} {f : Nat → Nat → List β} {s d P : Nat} {v : List β} (hs : s < P) (hd : d < P) :
    pre (fun x => pre (fun y => (upd2 f s d v x y).length) P) P + (f s d).length =
      pre (fun x => pre (fun y => (f x y).length) P) P + v.length := by
  have h1 : (fun x => pre (fun y => (upd2 f s d v x y).length) P) =
      upd (fun x => pre (fun y => (f x y).length) P) s (pre (upd (fun y => (f s y).length) d v.length) P) := by
    funext x
    by_cases hx : x = s
    · subst hx
      simp only [upd, if_true]
      apply pre_congr
      intro y _
      by_cases hy : y = d <;> simp [upd, upd2, hy]
    · simp only [upd, if_neg hx]
      apply pre_congr
      intro y _
      simp [upd2, hx]
  rw [h1]
  have h2 := pre_upd (f := fun x => pre (fun y => (f x y).length) P)
    (v := pre (upd (fun y => (f s y).length) d v.length) P) hs
  have h3 := pre_upd (f := fun y => (f s y).length) (v := v.length) hd
  omega

theorem asyncTodo_step {c c' : AsyncCfg α} (h : AsyncStep P send c c') : asyncTodo P c' + 1 ≤ asyncTodo P c := by
  cases h with
  | postRecv r src o m rest hr ht =>
    have h1 := pre_upd (f := fun r => (c.toRecv r).length) (v := rest.length) hr
    have h2 : (fun q => (upd c.toRecv r rest q).length) = upd (fun q => (c.toRecv q).length) r rest.length := by
      funext q; by_cases hq : q = r <;> simp [upd, hq]
    simp only [ht, List.length_cons] at h1
    unfold asyncTodo
    simp only
    rw [h2]; omega
  | postSend r dst o m rest hr h0 ht =>
    have h1 := pre_upd (f := fun r => 2 * (c.toSend r).length) (v := 2 * rest.length) hr
    have h2 : (fun q => 2 * (upd c.toSend r rest q).length) = upd (fun q => 2 * (c.toSend q).length) r (2 * rest.length) := by
      funext q; by_cases hq : q = r <;> simp [upd, hq]
    simp only [ht, List.length_cons] at h1
    unfold asyncTodo
    simp only
    rw [h2]
    have h3 : pre (fun x => pre (fun y => (upd2 c.chan r dst (c.chan r dst ++ [slice (send r) o m]) x y).length) P) P ≤
        pre (fun x => pre (fun y => (c.chan x y).length) P) P + 1 := by
      by_cases hd : dst < P
      · have := pre_upd2 (f := c.chan) (v := c.chan r dst ++ [slice (send r) o m]) hr hd
        simp only [List.length_append, List.length_singleton] at this
        omega
      · rw [pre_congr (g := fun x => pre (fun y => (c.chan x y).length) P)]
        · omega
        · intro x _
          apply pre_congr
          intro y hy
          have : ¬ (x = r ∧ y = dst) := by rintro ⟨-, rfl⟩; omega
          simp [upd2, this]
    omega
  | deliver s d m ms o q ps hs hd hm hp hl =>
    have h1 := pre_upd2 (f := c.chan) (v := ms) hs hd
    rw [hm, List.length_cons] at h1
    unfold asyncTodo
    simp only
    omega

theorem async_bound {init : AsyncCfg α} {t : Nat} {c : AsyncCfg α} (h : AsyncRun P send init t c) :
    t + asyncTodo P c ≤ asyncTodo P init := by
  induction h with
  | start => omega
  | step t c c' _ hs ih => have := asyncTodo_step hs; omega

theorem async_result (hn : 0 < n) (he : ExchangeOK P send scnt soff recv rcnt roff) (hdis : DisjointWindows P rcnt roff)
    {t : Nat} {c : AsyncCfg α} (h : AsyncRun P send (asyncInit P n scnt soff recv rcnt roff) t c) (hf : AsyncDone P c) :
    ∀ d < P, c.buf d = a2avInto P send scnt soff recv roff d := by
  obtain ⟨A, B, k, hi⟩ := async_inv hn he hdis h
  intro d hd
  have hk : ∀ s < P, rcnt d s ≤ k s d * n := by
    intro s hs
    have h1 := hi.hpend s hs d hd
    rw [(hf.2 s hs d hd).2] at h1
    have h2 := congrArg List.length h1
    rw [List.length_drop, List.length_nil] at h2
    have e1 : reqsFor (asyncRequests P n (rcnt d) (roff d)) s = reqsFor (A d) s := by
      rw [hi.hA d hd, (hf.1 d hd).1, List.append_nil]
    rw [reqsFor_asyncRequests hs] at e1
    have h3 := chunkList_getElem? hn (rcnt d s) (roff d s) (rcnt d s) (k s d) (Nat.le_refl _)
    rw [e1, List.getElem?_eq_none (by omega)] at h3
    by_contra hc
    rw [if_pos (by omega)] at h3
    simp at h3
  rw [← foldl_overlay_eq_a2avInto he hdis hd (l := List.range P) (fun s => List.mem_range)]
  have hlen : ∀ s < P, (slice (send s) (soff s d) (rcnt d s)).length = rcnt d s := by
    intro s hs
    have := he.hsend s hs d hd; have := he.hcount s hs d hd
    exact length_slice_of_le (by omega)
  have hin : ∀ s ∈ List.range P, roff d s + (slice (send s) (soff s d) (rcnt d s)).length ≤ (recv d).length := by
    intro s hs; rw [hlen s (List.mem_range.1 hs)]; exact he.hrecv d hd s (List.mem_range.1 hs)
  apply List.ext_getElem?
  intro i
  by_cases hw : ∃ s < P, roff d s ≤ i ∧ i < roff d s + rcnt d s
  · obtain ⟨s, hs, hsi⟩ := hw
    rw [foldl_overlay_inside _ (roff d) (fun s => slice (send s) (soff s d) (rcnt d s)) _ hin (List.mem_range.2 hs)
      (by rw [hlen s hs]; exact hsi)
      (fun t ht hts => by
        rw [hlen t (List.mem_range.1 ht)]
        intro hti
        exact hdis d hd t (List.mem_range.1 ht) s hs hts i ⟨hti.1, hti.2, hsi.1, hsi.2⟩)]
    have := hi.hin d hd s hs (i - roff d s) (by omega) (by have := hk s hs; omega)
    rw [show roff d s + (i - roff d s) = i by omega] at this
    rw [this, getElem?_slice, if_pos (by omega)]
  · have hw' : ∀ s < P, ¬ (roff d s ≤ i ∧ i < roff d s + rcnt d s) := fun s hs h => hw ⟨s, hs, h⟩
    rw [foldl_overlay_outside _ (roff d) (fun s => slice (send s) (soff s d) (rcnt d s)) _ hin
      (fun s hs => by rw [hlen s (List.mem_range.1 hs)]; exact hw' s (List.mem_range.1 hs))]
    exact hi.hout d hd i hw'

end

end Verif
