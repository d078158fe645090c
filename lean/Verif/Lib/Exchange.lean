import Mathlib.Order.Defs.LinearOrder
import Mathlib.Order.Basic
import Mathlib.Data.List.Basic
import Mathlib.Data.Finset.Max
import Mathlib.Data.Finset.Range
import Mathlib.Tactic.Push
import Mathlib.Tactic.ByContra
import Verif.Lib.Dist

/-!
Asynchronous execution of processes that communicate with combined send and receive calls (`MPI_Sendrecv` with the same partner as
source and destination).

A call has two events: it is posted, which makes the outgoing message available to the partner, and it completes, which takes the
next message of the partner. Messages between two ranks are received in the order they were sent (MPI's non-overtaking rule); the events of
different ranks interleave in any order. A `Sendrecv` whose send part cannot complete before the partner has posted the matching receive (rendezvous
protocol) is covered: the partner posts its receive together with the message that `complete` waits for.
-/

namespace Verif.Exchange

/-- A process: `next` is the partner and the message of the next call (`none`: finished), `recv` is the state after the call has received a message
(`none`: the message is not acceptable, MPI would raise a truncation error). -/
structure Machine (σ M : Type*) where
  next : σ → Option (Nat × M)
  recv : σ → M → Option σ

/-- State of all the processes and of the channels (`chan s d`: messages from `s` to `d` which are not yet received). -/
structure Cfg (σ M : Type*) where
  st : Nat → σ
  posted : Nat → Bool
  chan : Nat → Nat → List M

variable {σ M : Type*}

def upd {β : Type*} (f : Nat → β) (r : Nat) (v : β) : Nat → β := fun x => if x = r then v else f x

def upd2 {β : Type*} (f : Nat → Nat → β) (s d : Nat) (v : β) : Nat → Nat → β :=
  fun x y => if x = s ∧ y = d then v else f x y

/-- One event on one of the ranks `0, ..., P-1`. -/
inductive Step (P : Nat) (mach : Machine σ M) : Cfg σ M → Cfg σ M → Prop
  | post (c : Cfg σ M) (r p : Nat) (m : M) (hr : r < P) (hp : c.posted r = false)
      (hn : mach.next (c.st r) = some (p, m)) :
      Step P mach c ⟨c.st, upd c.posted r true, upd2 c.chan r p (c.chan r p ++ [m])⟩
  | complete (c : Cfg σ M) (r p : Nat) (m m' : M) (rest : List M) (s' : σ) (hr : r < P)
      (hp : c.posted r = true) (hn : mach.next (c.st r) = some (p, m)) (hc : c.chan p r = m' :: rest)
      (hrecv : mach.recv (c.st r) m' = some s') :
      Step P mach c ⟨upd c.st r s', upd c.posted r false, upd2 c.chan p r rest⟩

/-- Reachable from the configuration in which nothing was posted yet. -/
inductive Reach (P : Nat) (mach : Machine σ M) (init : Nat → σ) : Cfg σ M → Prop
  | start : Reach P mach init ⟨init, fun _ => false, fun _ _ => []⟩
  | step (c c' : Cfg σ M) : Reach P mach init c → Step P mach c c' → Reach P mach init c'

/-- All ranks have returned from their last call and no message is left. -/
def Finished (P : Nat) (mach : Machine σ M) (c : Cfg σ M) : Prop :=
  (∀ r < P, c.posted r = false ∧ mach.next (c.st r) = none) ∧ ∀ s < P, ∀ d < P, c.chan s d = []

/-- The next message for the call posted by some rank is not acceptable. -/
def Fails (P : Nat) (mach : Machine σ M) (c : Cfg σ M) : Prop :=
  ∃ r < P, c.posted r = true ∧ ∃ p m m' rest, mach.next (c.st r) = some (p, m) ∧ c.chan p r = m' :: rest ∧
    mach.recv (c.st r) m' = none

/-- Expected run: rank `r` makes `L r` calls, the `k`-th one in state `T r k` with partner `peer r k`, outgoing message `out r k`,
incoming message `inm r k` and a tag which identifies the
matching call of the partner. Tags increase on every rank. -/
structure Plan (P : Nat) (mach : Machine σ M) (init : Nat → σ) (κ : Type*) [LinearOrder κ] where
  L : Nat → Nat
  T : Nat → Nat → σ
  peer : Nat → Nat → Nat
  out : Nat → Nat → M
  inm : Nat → Nat → M
  tag : Nat → Nat → κ
  hinit : ∀ r < P, T r 0 = init r
  hnext : ∀ r < P, ∀ k < L r, mach.next (T r k) = some (peer r k, out r k)
  hend : ∀ r < P, mach.next (T r (L r)) = none
  hpeer : ∀ r < P, ∀ k < L r, peer r k < P
  htag : ∀ r < P, ∀ k k', k < k' → k' < L r → tag r k < tag r k'
  hmatch : ∀ r < P, ∀ k < L r, ∃ j < L (peer r k), tag (peer r k) j = tag r k ∧ peer (peer r k) j = r ∧
    out (peer r k) j = inm r k
  hrecv : ∀ r < P, ∀ k < L r, mach.recv (T r k) (inm r k) = some (T r (k + 1))

section plan
variable {P : Nat} {mach : Machine σ M} {init : Nat → σ} {κ : Type*} [LinearOrder κ]

theorem Plan.tag_inj (pl : Plan P mach init κ) {r k k' : Nat} (hr : r < P) (hk : k < pl.L r) (hk' : k' < pl.L r)
    (h : pl.tag r k = pl.tag r k') : k = k' := by
  rcases Nat.lt_trichotomy k k' with h1 | h1 | h1
  · have := pl.htag r hr k k' h1 hk'; rw [h] at this; exact (lt_irrefl _ this).elim
  · exact h1
  · have := pl.htag r hr k' k h1 hk; rw [h] at this; exact (lt_irrefl _ this).elim

theorem Plan.lt_of_tag (pl : Plan P mach init κ) {r k k' : Nat} (hr : r < P) (hk : k < pl.L r) (hk' : k' < pl.L r)
    (h : pl.tag r k < pl.tag r k') : k < k' := by
  rcases Nat.lt_trichotomy k k' with h1 | h1 | h1
  · exact h1
  · subst h1; exact (lt_irrefl _ h).elim
  · exact (lt_asymm h (pl.htag r hr k' k h1 hk)).elim

/-- The calls of rank `s` to `d` in the first `n` calls whose tags are not yet used up by the first `c` calls of `d`. -/
def Plan.waiting (pl : Plan P mach init κ) (s d n c : Nat) : List Nat :=
  (List.range n).filter (fun j => decide (pl.peer s j = d) && decide (∀ k < c, pl.tag d k ≠ pl.tag s j))

/-- State after `pc r` calls of each rank. -/
structure Inv (pl : Plan P mach init κ) (c : Cfg σ M) (pc : Nat → Nat) : Prop where
  hpc : ∀ r < P, pc r ≤ pl.L r
  hst : ∀ r < P, c.st r = pl.T r (pc r)
  hposted : ∀ r < P, c.posted r = true → pc r < pl.L r
  hchan : ∀ s < P, ∀ d < P, c.chan s d = (pl.waiting s d (pc s + (c.posted s).toNat) (pc d)).map (pl.out s)
  -- a call is completed only if the partner has posted the matching one
  hdone : ∀ r < P, ∀ k < pc r, ∃ j < pc (pl.peer r k) + (c.posted (pl.peer r k)).toNat,
    pl.tag (pl.peer r k) j = pl.tag r k

theorem inv_start (pl : Plan P mach init κ) : Inv pl ⟨init, fun _ => false, fun _ _ => []⟩ (fun _ => 0) where
  hpc := fun _ _ => Nat.zero_le _
  hst := fun r hr => (pl.hinit r hr).symm
  hposted := fun _ _ h => by simp at h
  hchan := fun s _ d _ => by simp [Plan.waiting]
  hdone := fun _ _ k hk => by omega

variable {pl : Plan P mach init κ} {c : Cfg σ M} {pc : Nat → Nat}

theorem Inv.posted_le (h : Inv pl c pc) {r : Nat} (hr : r < P) : pc r + (c.posted r).toNat ≤ pl.L r := by
  have := h.hpc r hr
  have h2 := h.hposted r hr
  cases hp : c.posted r with
  | false => simpa using this
  | true => have := h2 hp; simp only [Bool.toNat_true]; omega

theorem Inv.post (h : Inv pl c pc) {r p : Nat} {m : M} (hr : r < P) (hp : c.posted r = false)
    (hn : mach.next (c.st r) = some (p, m)) :
    Inv pl ⟨c.st, upd c.posted r true, upd2 c.chan r p (c.chan r p ++ [m])⟩ pc := by
  have hlt : pc r < pl.L r := by
    rcases Nat.lt_or_ge (pc r) (pl.L r) with h1 | h1
    · exact h1
    · have h2 := h.hpc r hr
      have h3 : pc r = pl.L r := by omega
      rw [h.hst r hr, h3, pl.hend r hr] at hn
      simp at hn
  have hn' := pl.hnext r hr _ hlt
  rw [h.hst r hr, hn'] at hn
  simp only [Option.some.injEq, Prod.mk.injEq] at hn
  obtain ⟨hp1, hm1⟩ := hn
  have hpP : p < P := hp1 ▸ pl.hpeer r hr _ hlt
  constructor
  · exact h.hpc
  · exact h.hst
  · intro s hs hps
    simp only [upd] at hps
    split at hps
    · rename_i he; subst he; exact hlt
    · exact h.hposted s hs hps
  · intro s hs d hd
    simp only [upd2, upd]
    by_cases hsr : s = r
    · subst hsr
      rw [if_pos rfl]
      have hold := h.hchan s hs d hd
      rw [hp] at hold
      simp only [Bool.toNat_false, Nat.add_zero] at hold
      have hsplit : pl.waiting s d (pc s + 1) (pc d) = pl.waiting s d (pc s) (pc d) ++
          ([pc s].filter (fun j => decide (pl.peer s j = d) && decide (∀ k < pc d, pl.tag d k ≠ pl.tag s j))) := by
        unfold Plan.waiting
        rw [List.range_succ, List.filter_append]
      simp only [Bool.toNat_true]
      rw [hsplit, List.map_append, ← hold]
      by_cases hdp : d = p
      · subst hdp
        rw [if_pos ⟨trivial, rfl⟩]
        congr 1
        rw [List.filter_cons, if_pos, List.filter_nil, List.map_singleton, hm1]
        simp only [Bool.and_eq_true, decide_eq_true_eq]
        refine ⟨hp1, ?_⟩
        intro k hk htag
        have hkL : k < pl.L d := Nat.lt_of_lt_of_le hk (h.hpc d hd)
        -- the call `k` of `d` is the one matching call `pc s` of `s`
        obtain ⟨j, hjL, hjt, hjp, -⟩ := pl.hmatch s hs (pc s) hlt
        rw [hp1] at hjL hjt hjp
        have hjk : j = k := pl.tag_inj hd hjL hkL (hjt.trans htag.symm)
        subst hjk
        obtain ⟨i, hi, hit⟩ := h.hdone d hd j hk
        rw [hjp] at hi hit
        rw [hp] at hi
        simp only [Bool.toNat_false, Nat.add_zero] at hi
        have hiL : i < pl.L s := by omega
        have := pl.tag_inj hs hiL hlt (hit.trans htag)
        omega
      · rw [if_neg (by rintro ⟨-, h⟩; exact hdp h), List.filter_cons, if_neg, List.filter_nil]
        · simp
        · simp only [Bool.and_eq_true, decide_eq_true_eq, not_and]
          intro h1
          exact (hdp (h1.symm.trans hp1)).elim
    · rw [if_neg (by rintro ⟨h, -⟩; exact hsr h), if_neg hsr]
      exact h.hchan s hs d hd
  · intro s hs k hk
    obtain ⟨j, hj, ht⟩ := h.hdone s hs k hk
    refine ⟨j, ?_, ht⟩
    simp only [upd]
    by_cases he : pl.peer s k = r
    · rw [if_pos he]
      have := Bool.toNat_le (c.posted (pl.peer s k))
      simp only [Bool.toNat_true]; omega
    · rw [if_neg he]; exact hj

/-- The message at the head of the channel a rank is waiting for is the matching one. -/
theorem Inv.head (h : Inv pl c pc) {r : Nat} (hr : r < P) (hlt : pc r < pl.L r) {m' : M} {rest : List M}
    (hc : c.chan (pl.peer r (pc r)) r = m' :: rest) :
    ∃ j, j < pc (pl.peer r (pc r)) + (c.posted (pl.peer r (pc r))).toNat ∧
      pl.tag (pl.peer r (pc r)) j = pl.tag r (pc r) ∧ m' = pl.inm r (pc r) ∧
      mach.recv (pl.T r (pc r)) m' = some (pl.T r (pc r + 1)) ∧
      pl.waiting (pl.peer r (pc r)) r (pc (pl.peer r (pc r)) + (c.posted (pl.peer r (pc r))).toNat) (pc r) =
        j :: pl.waiting (pl.peer r (pc r)) r
          (pc (pl.peer r (pc r)) + (c.posted (pl.peer r (pc r))).toNat) (pc r + 1) := by
  have hpP := pl.hpeer r hr _ hlt
  obtain ⟨j, hjL, hjt, hjp, hout⟩ := pl.hmatch r hr _ hlt
  generalize hp : pl.peer r (pc r) = p at *
  have hle := h.posted_le hpP
  generalize hN : pc p + (c.posted p).toNat = N at *
  have hch := h.hchan p hpP r hr
  rw [hc, hN] at hch
  -- anything waiting comes from position `j` or later
  have hge : ∀ i ∈ pl.waiting p r N (pc r), j ≤ i := by
    intro i hi
    simp only [Plan.waiting, List.mem_filter, List.mem_range, Bool.and_eq_true, decide_eq_true_eq] at hi
    obtain ⟨hiN, hip, hik⟩ := hi
    by_contra hlt'
    have hiL : i < pl.L p := by omega
    have h1 := pl.htag p hpP i j (by omega) hjL
    obtain ⟨k, hkL, hkt, -⟩ := pl.hmatch p hpP i hiL
    rw [hip] at hkL hkt
    have h2 : k < pc r := by
      have : pl.tag r k < pl.tag r (pc r) := by rw [hkt, ← hjt]; exact h1
      exact pl.lt_of_tag hr hkL hlt this
    exact hik k h2 hkt
  have hne : pl.waiting p r N (pc r) ≠ [] := by
    intro h0; rw [h0] at hch; simp at hch
  have hjN : j < N := by
    obtain ⟨i, l, hil⟩ := List.exists_cons_of_ne_nil hne
    have h1 := hge i (by rw [hil]; simp)
    have h2 : i ∈ pl.waiting p r N (pc r) := by rw [hil]; simp
    simp only [Plan.waiting, List.mem_filter, List.mem_range] at h2
    omega
  have hmem : j ∈ pl.waiting p r N (pc r) := by
    simp only [Plan.waiting, List.mem_filter, List.mem_range, Bool.and_eq_true, decide_eq_true_eq]
    refine ⟨hjN, hjp, ?_⟩
    intro k hk ht
    have hkL : k < pl.L r := by omega
    have := pl.tag_inj hr hkL hlt (ht.trans hjt)
    omega
  -- the list starts with `j`
  have hsort : (pl.waiting p r N (pc r)).Pairwise (· < ·) := List.pairwise_lt_range.filter _
  have hsub : pl.waiting p r N (pc r + 1) = (pl.waiting p r N (pc r)).filter (fun i => decide (i ≠ j)) := by
    unfold Plan.waiting
    rw [List.filter_filter]
    apply List.filter_congr
    intro i hi
    have hiL : i < pl.L p := by have := List.mem_range.1 hi; omega
    rw [Bool.eq_iff_iff]
    simp only [Bool.and_eq_true, decide_eq_true_eq]
    constructor
    · rintro ⟨h1, h2⟩
      refine ⟨?_, h1, fun k hk => h2 k (by omega)⟩
      rintro rfl
      exact h2 (pc r) (by omega) hjt.symm
    · rintro ⟨h1, h2, h3⟩
      refine ⟨h2, fun k hk ht => ?_⟩
      rcases Nat.lt_or_ge k (pc r) with h4 | h4
      · exact h3 k h4 ht
      · have : k = pc r := by omega
        subst this
        exact h1 (pl.tag_inj hpP hiL hjL (ht.symm.trans hjt.symm))
  obtain ⟨i, l, hil⟩ := List.exists_cons_of_ne_nil hne
  have hij : i = j := by
    rw [hil] at hmem hsort hge
    rcases List.mem_cons.1 hmem with h1 | h1
    · exact h1.symm
    · have h2 := (List.pairwise_cons.1 hsort).1 j h1
      have h3 := hge i (by simp)
      omega
  subst hij
  have hl : l = pl.waiting p r N (pc r + 1) := by
    rw [hsub, hil, List.filter_cons, if_neg (by simp)]
    symm
    rw [List.filter_eq_self]
    intro a ha
    rw [hil] at hsort
    have := (List.pairwise_cons.1 hsort).1 a ha
    simp; omega
  rw [hil, List.map_cons] at hch
  simp only [List.cons.injEq] at hch
  have hm : m' = pl.inm r (pc r) := hch.1.trans hout
  refine ⟨i, hjN, hjt, hm, ?_, by rw [hil, hl]⟩
  rw [hm]; exact pl.hrecv r hr _ hlt

theorem Inv.complete (h : Inv pl c pc) {r p : Nat} {m m' : M} {rest : List M} {s' : σ} (hr : r < P)
    (hp : c.posted r = true) (hn : mach.next (c.st r) = some (p, m)) (hc : c.chan p r = m' :: rest)
    (hrecv : mach.recv (c.st r) m' = some s') :
    Inv pl ⟨upd c.st r s', upd c.posted r false, upd2 c.chan p r rest⟩ (upd pc r (pc r + 1)) := by
  have hlt := h.hposted r hr hp
  have hn' := pl.hnext r hr _ hlt
  rw [h.hst r hr, hn'] at hn
  simp only [Option.some.injEq, Prod.mk.injEq] at hn
  obtain ⟨hp1, -⟩ := hn
  subst hp1
  obtain ⟨j, hjN, hjt, hm, hrv, hw⟩ := h.head hr hlt hc
  rw [h.hst r hr, hrv] at hrecv
  simp only [Option.some.injEq] at hrecv
  -- the number of posted calls does not change
  have hcount : ∀ s, upd pc r (pc r + 1) s + (upd c.posted r false s).toNat =
      pc s + (c.posted s).toNat := by
    intro s
    by_cases hs : s = r
    · subst hs; simp [upd, hp]
    · simp [upd, hs]
  constructor
  · intro s hs
    simp only [upd]
    split
    · rename_i he; subst he; omega
    · exact h.hpc s hs
  · intro s hs
    simp only [upd]
    split
    · rename_i he; subst he; exact hrecv.symm
    · exact h.hst s hs
  · intro s hs hps
    simp only [upd] at hps ⊢
    split
    · rename_i he; subst he; simp at hps
    · rename_i he; rw [if_neg he] at hps; exact h.hposted s hs hps
  · intro s hs d hd
    simp only
    rw [hcount s]
    by_cases hdr : d = r
    · subst hdr
      have hpcr : upd pc d (pc d + 1) d = pc d + 1 := by simp [upd]
      rw [hpcr]
      by_cases hsp : s = pl.peer d (pc d)
      · subst hsp
        simp only [upd2]
        rw [if_pos ⟨trivial, trivial⟩]
        have hch := h.hchan _ hs d hd
        rw [hc, hw, List.map_cons] at hch
        exact (List.cons.inj hch).2
      · simp only [upd2]
        rw [if_neg (by rintro ⟨h1, -⟩; exact hsp h1), h.hchan s hs d hd]
        congr 1
        unfold Plan.waiting
        apply List.filter_congr
        intro i hi
        have hiL : i < pl.L s := by have := List.mem_range.1 hi; have := h.posted_le hs; omega
        rw [Bool.eq_iff_iff]
        simp only [Bool.and_eq_true, decide_eq_true_eq]
        constructor
        · rintro ⟨h1, h2⟩
          refine ⟨h1, fun k hk ht => ?_⟩
          rcases Nat.lt_or_ge k (pc d) with h4 | h4
          · exact h2 k h4 ht
          · have : k = pc d := by omega
            subst this
            obtain ⟨k', hk'L, hk't, hk'p, -⟩ := pl.hmatch s hs i hiL
            rw [h1] at hk'L hk't hk'p
            have := pl.tag_inj hd hk'L hlt (hk't.trans ht.symm)
            subst this
            exact hsp hk'p.symm
        · rintro ⟨h1, h2⟩
          exact ⟨h1, fun k hk => h2 k (by omega)⟩
    · have hpcd : upd pc r (pc r + 1) d = pc d := by simp [upd, hdr]
      rw [hpcd]
      simp only [upd2]
      rw [if_neg (by rintro ⟨-, h1⟩; exact hdr h1)]
      exact h.hchan s hs d hd
  · intro s hs k hk
    rw [hcount]
    by_cases hsr : s = r
    · subst hsr
      simp only [upd, if_true] at hk
      rcases Nat.lt_or_ge k (pc s) with h4 | h4
      · exact h.hdone s hs k h4
      · have : k = pc s := by omega
        subst this
        exact ⟨j, hjN, hjt⟩
    · simp only [upd, if_neg hsr] at hk
      exact h.hdone s hs k hk

theorem reach_inv (pl : Plan P mach init κ) {c : Cfg σ M} (hr : Reach P mach init c) : ∃ pc, Inv pl c pc := by
  induction hr with
  | start => exact ⟨_, inv_start pl⟩
  | step c c' _ hs ih =>
    obtain ⟨pc, h⟩ := ih
    cases hs with
    | post r p m hr hp hn => exact ⟨pc, h.post hr hp hn⟩
    | complete r p m m' rest s' hr hp hn hc hrecv => exact ⟨_, h.complete hr hp hn hc hrecv⟩

/-- No reachable configuration has a message that does not fit. -/
theorem not_fails (pl : Plan P mach init κ) {c : Cfg σ M} (hr : Reach P mach init c) : ¬ Fails P mach c := by
  obtain ⟨pc, h⟩ := reach_inv pl hr
  rintro ⟨r, hr, hp, p, m, m', rest, hn, hc, hrv⟩
  have hlt := h.hposted r hr hp
  have hn' := pl.hnext r hr _ hlt
  rw [h.hst r hr, hn'] at hn
  simp only [Option.some.injEq, Prod.mk.injEq] at hn
  rw [← hn.1] at hc
  obtain ⟨j, -, -, -, h2, -⟩ := h.head hr hlt hc
  rw [h.hst r hr, h2] at hrv
  simp at hrv

/-- A rank that has posted a call gets the expected message. -/
theorem head_message (pl : Plan P mach init κ) {c : Cfg σ M} (hr : Reach P mach init c) {r p : Nat} {m m' : M}
    {rest : List M} (hrP : r < P) (hp : c.posted r = true) (hn : mach.next (c.st r) = some (p, m))
    (hc : c.chan p r = m' :: rest) : ∃ k < pl.L r, c.st r = pl.T r k ∧ m' = pl.inm r k := by
  obtain ⟨pc, h⟩ := reach_inv pl hr
  have hlt := h.hposted r hrP hp
  have hn' := pl.hnext r hrP _ hlt
  rw [h.hst r hrP, hn'] at hn
  simp only [Option.some.injEq, Prod.mk.injEq] at hn
  rw [← hn.1] at hc
  obtain ⟨j, -, -, h1, -, -⟩ := h.head hrP hlt hc
  exact ⟨pc r, hlt, h.hst r hrP, h1⟩

/-- If all calls were made the configuration is final. -/
theorem Inv.finished (h : Inv pl c pc) (hall : ∀ r < P, pc r = pl.L r) : Finished P mach c := by
  have hp : ∀ r < P, c.posted r = false := by
    intro r hr
    by_contra hc
    have := h.hposted r hr (by simpa using hc)
    have := hall r hr
    omega
  refine ⟨fun r hr => ⟨hp r hr, by rw [h.hst r hr, hall r hr]; exact pl.hend r hr⟩, ?_⟩
  intro s hs d hd
  rw [h.hchan s hs d hd, List.map_eq_nil_iff]
  unfold Plan.waiting
  rw [List.filter_eq_nil_iff]
  intro i hi
  have hiL : i < pl.L s := by have := List.mem_range.1 hi; have := h.posted_le hs; omega
  simp only [Bool.and_eq_true, decide_eq_true_eq, not_and]
  intro h1 h2
  obtain ⟨k, hkL, hkt, -⟩ := pl.hmatch s hs i hiL
  rw [h1] at hkL hkt
  exact h2 k (by rw [hall d hd]; exact hkL) hkt

theorem Inv.all_of_finished (h : Inv pl c pc) (hf : Finished P mach c) : ∀ r < P, pc r = pl.L r := by
  intro r hr
  by_contra hc
  have h1 := h.hpc r hr
  have h2 := pl.hnext r hr (pc r) (by omega)
  rw [← h.hst r hr, (hf.1 r hr).2] at h2
  simp at h2

/-- Deadlock freedom: a reachable configuration is final or some rank can do something. -/
theorem progress (pl : Plan P mach init κ) {c : Cfg σ M} (hr : Reach P mach init c) :
    Finished P mach c ∨ ∃ c', Step P mach c c' := by
  obtain ⟨pc, h⟩ := reach_inv pl hr
  by_cases hall : ∀ r < P, pc r = pl.L r
  · exact Or.inl (h.finished hall)
  right
  push Not at hall
  obtain ⟨r0, hr0, hne0⟩ := hall
  -- the rank with the smallest current tag
  let A := (Finset.range P).filter (fun r => pc r ≠ pl.L r)
  have hA : A.Nonempty := ⟨r0, by simp [A, hr0, hne0]⟩
  obtain ⟨r, hrA, hmin⟩ := Finset.exists_min_image A (fun r => pl.tag r (pc r)) hA
  have hrP : r < P := by simp [A] at hrA; exact hrA.1
  have hlt : pc r < pl.L r := by
    have h1 : pc r ≠ pl.L r := by simp [A] at hrA; exact hrA.2
    have := h.hpc r hrP; omega
  have hn := pl.hnext r hrP _ hlt
  rw [← h.hst r hrP] at hn
  by_cases hp : c.posted r = true
  · -- the partner has posted, or can post
    have hpP := pl.hpeer r hrP _ hlt
    obtain ⟨j, hjL, hjt, hjp, -⟩ := pl.hmatch r hrP _ hlt
    generalize hpe : pl.peer r (pc r) = p at *
    by_cases hj : j < pc p + (c.posted p).toNat
    · have hmem : j ∈ pl.waiting p r (pc p + (c.posted p).toNat) (pc r) := by
        simp only [Plan.waiting, List.mem_filter, List.mem_range, Bool.and_eq_true, decide_eq_true_eq]
        refine ⟨hj, hjp, fun k hk ht => ?_⟩
        have := pl.tag_inj hrP (show k < pl.L r by omega) hlt (ht.trans hjt)
        omega
      have hch := h.hchan p hpP r hrP
      cases hcc : c.chan p r with
      | nil =>
        rw [hcc] at hch
        rw [List.eq_nil_iff_forall_not_mem] at *
        have := hch.symm ▸ List.mem_map_of_mem (f := pl.out p) hmem
        simp at this
      | cons m' rest =>
        have hcc' : c.chan (pl.peer r (pc r)) r = m' :: rest := by rw [hpe]; exact hcc
        obtain ⟨-, -, -, -, hrv, -⟩ := h.head hrP hlt hcc'
        rw [← h.hst r hrP] at hrv
        exact ⟨_, Step.complete c r p _ m' rest _ hrP hp hn hcc hrv⟩
    · -- the partner is at the matching call and has not posted it
      have hpcj : pc p ≤ j := by omega
      have hpA : p ∈ A := by
        simp only [A, Finset.mem_filter, Finset.mem_range]
        exact ⟨hpP, by omega⟩
      have h1 := hmin p hpA
      have hpj : pc p = j := by
        rcases Nat.lt_or_ge (pc p) j with h2 | h2
        · have := pl.htag p hpP _ _ h2 hjL
          rw [hjt] at this
          exact (lt_irrefl _ (lt_of_lt_of_le this h1)).elim
        · omega
      have hpn : c.posted p = false := by
        cases hpp : c.posted p with
        | false => rfl
        | true => rw [hpp, hpj] at hj; simp at hj
      have hnp := pl.hnext p hpP j hjL
      rw [← hpj, ← h.hst p hpP] at hnp
      exact ⟨_, Step.post c p _ _ hpP hpn hnp⟩
  · exact ⟨_, Step.post c r _ _ hrP (by simpa using hp) hn⟩

/-- The final states do not depend on the order of events. -/
theorem final_states (pl : Plan P mach init κ) {c : Cfg σ M} (hr : Reach P mach init c) (hf : Finished P mach c) :
    ∀ r < P, c.st r = pl.T r (pl.L r) := by
  obtain ⟨pc, h⟩ := reach_inv pl hr
  intro r hr'
  rw [h.hst r hr', h.all_of_finished hf r hr']

/-- Events still to come. -/
def todo (pl : Plan P mach init κ) (c : Cfg σ M) (pc : Nat → Nat) : Nat :=
  pre (fun r => 2 * (pl.L r - pc r) - (c.posted r).toNat) P

theorem pre_decrease {f g : Nat → Nat} {r P : Nat} (hr : r < P) (h : f r = g r + 1) (hother : ∀ s, s ≠ r → f s = g s) :
    pre f P = pre g P + 1 := by
  induction P with
  | zero => omega
  | succ P ih =>
    rw [pre_succ, pre_succ]
    by_cases he : r = P
    · subst he
      rw [pre_congr (f := f) (g := g) (fun i hi => hother i (by omega)), h]; omega
    · rw [ih (by omega), hother P (fun h => he h.symm)]; omega

/-- `Chain k c`: an execution with `k` events from the start to `c`. -/
inductive Chain (P : Nat) (mach : Machine σ M) (init : Nat → σ) : Nat → Cfg σ M → Prop
  | start : Chain P mach init 0 ⟨init, fun _ => false, fun _ _ => []⟩
  | step (k : Nat) (c c' : Cfg σ M) : Chain P mach init k c → Step P mach c c' → Chain P mach init (k + 1) c'

theorem Chain.reach {k : Nat} {c : Cfg σ M} (h : Chain P mach init k c) : Reach P mach init c := by
  induction h with
  | start => exact .start
  | step k c c' _ hs ih => exact .step c c' ih hs

theorem chain_inv (pl : Plan P mach init κ) {k : Nat} {c : Cfg σ M} (h : Chain P mach init k c) :
    ∃ pc, Inv pl c pc ∧ k + todo pl c pc = 2 * pre pl.L P := by
  induction h with
  | start =>
    refine ⟨_, inv_start pl, ?_⟩
    unfold todo
    simp only [Bool.toNat_false, Nat.sub_zero, Nat.zero_add]
    clear c k
    have : ∀ Q, pre (fun r => 2 * pl.L r) Q = 2 * pre pl.L Q := by
      intro Q
      induction Q with
      | zero => rfl
      | succ Q ih => rw [pre_succ, pre_succ, ih]; omega
    exact this P
  | step k c c' _ hs ih =>
    obtain ⟨pc, h, hk⟩ := ih
    cases hs with
    | post r p m hr hp hn =>
      have hi := h.post hr hp hn
      refine ⟨pc, hi, ?_⟩
      have : todo pl c pc = todo pl ⟨c.st, upd c.posted r true, upd2 c.chan r p (c.chan r p ++ [m])⟩ pc + 1 := by
        unfold todo
        apply pre_decrease hr
        · have := hi.hposted r hr (by simp [upd])
          simp only [hp, upd, if_true, Bool.toNat_false, Bool.toNat_true]; omega
        · intro s hs
          simp [upd, hs]
      omega
    | complete r p m m' rest s' hr hp hn hc hrecv =>
      have hi := h.complete hr hp hn hc hrecv
      refine ⟨_, hi, ?_⟩
      have : todo pl c pc = todo pl ⟨upd c.st r s', upd c.posted r false, upd2 c.chan p r rest⟩
          (upd pc r (pc r + 1)) + 1 := by
        unfold todo
        apply pre_decrease hr
        · have := h.hposted r hr hp
          simp only [hp, upd, if_true, Bool.toNat_false, Bool.toNat_true]; omega
        · intro s hs
          simp [upd, hs]
      omega

/-- Every execution has at most `2 * (total number of calls)` events. -/
theorem chain_bound (pl : Plan P mach init κ) {k : Nat} {c : Cfg σ M} (h : Chain P mach init k c) :
    k ≤ 2 * pre pl.L P := by
  obtain ⟨pc, -, h⟩ := chain_inv pl h
  omega

/-! ### Rendezvous -/

/-- The message rank `r` has sent in its current call was received, or its partner is in a call that is going to receive it. -/
def Synced (mach : Machine σ M) (c : Cfg σ M) (r : Nat) : Prop :=
  ∃ p m, mach.next (c.st r) = some (p, m) ∧
    (c.chan r p = [] ∨ (c.posted p = true ∧ (∃ m', mach.next (c.st p) = some (r, m')) ∧ (c.chan r p).length = 1))

/-- Events if messages are not buffered: a call does not return before the partner is in the matching call. -/
inductive SyncStep (P : Nat) (mach : Machine σ M) : Cfg σ M → Cfg σ M → Prop
  | post (c : Cfg σ M) (r p : Nat) (m : M) (hr : r < P) (hp : c.posted r = false)
      (hn : mach.next (c.st r) = some (p, m)) :
      SyncStep P mach c ⟨c.st, upd c.posted r true, upd2 c.chan r p (c.chan r p ++ [m])⟩
  | complete (c : Cfg σ M) (r p : Nat) (m m' : M) (rest : List M) (s' : σ) (hr : r < P)
      (hp : c.posted r = true) (hn : mach.next (c.st r) = some (p, m)) (hc : c.chan p r = m' :: rest)
      (hrecv : mach.recv (c.st r) m' = some s') (hsync : Synced mach c r) :
      SyncStep P mach c ⟨upd c.st r s', upd c.posted r false, upd2 c.chan p r rest⟩

theorem SyncStep.step {c c' : Cfg σ M} (h : SyncStep P mach c c') : Step P mach c c' := by
  cases h with
  | post r p m hr hp hn => exact .post c r p m hr hp hn
  | complete r p m m' rest s' hr hp hn hc hrecv _ => exact .complete c r p m m' rest s' hr hp hn hc hrecv

/-- Even then nothing gets stuck, after any execution (with or without buffering). -/
theorem sync_progress (pl : Plan P mach init κ) {c : Cfg σ M} (hr : Reach P mach init c) :
    Finished P mach c ∨ ∃ c', SyncStep P mach c c' := by
  obtain ⟨pc, h⟩ := reach_inv pl hr
  by_cases hall : ∀ r < P, pc r = pl.L r
  · exact Or.inl (h.finished hall)
  right
  push Not at hall
  obtain ⟨r0, hr0, hne0⟩ := hall
  let A := (Finset.range P).filter (fun r => pc r ≠ pl.L r)
  have hA : A.Nonempty := ⟨r0, by simp [A, hr0, hne0]⟩
  obtain ⟨r, hrA, hmin⟩ := Finset.exists_min_image A (fun r => pl.tag r (pc r)) hA
  have hrP : r < P := by simp [A] at hrA; exact hrA.1
  have hlt : pc r < pl.L r := by
    have h1 : pc r ≠ pl.L r := by simp [A] at hrA; exact hrA.2
    have := h.hpc r hrP; omega
  have hn := pl.hnext r hrP _ hlt
  rw [← h.hst r hrP] at hn
  by_cases hp : c.posted r = true
  · have hpP := pl.hpeer r hrP _ hlt
    obtain ⟨j, hjL, hjt, hjp, -⟩ := pl.hmatch r hrP _ hlt
    generalize hpe : pl.peer r (pc r) = p at *
    -- the partner is not behind
    have hjle : j ≤ pc p := by
      by_contra hc
      have hpA : p ∈ A := by
        simp only [A, Finset.mem_filter, Finset.mem_range]
        exact ⟨hpP, by omega⟩
      have h1 := hmin p hpA
      have := pl.htag p hpP _ _ (show pc p < j by omega) hjL
      rw [hjt] at this
      exact (lt_irrefl _ (lt_of_lt_of_le this h1)).elim
    by_cases hj : j < pc p + (c.posted p).toNat
    · have hmem : j ∈ pl.waiting p r (pc p + (c.posted p).toNat) (pc r) := by
        simp only [Plan.waiting, List.mem_filter, List.mem_range, Bool.and_eq_true, decide_eq_true_eq]
        refine ⟨hj, hjp, fun k hk ht => ?_⟩
        have := pl.tag_inj hrP (show k < pl.L r by omega) hlt (ht.trans hjt)
        omega
      have hch := h.hchan p hpP r hrP
      have hsync : Synced mach c r := by
        refine ⟨p, _, hn, ?_⟩
        have hch2 := h.hchan r hrP p hpP
        rw [hp, Bool.toNat_true] at hch2
        have hold : ∀ i < pc r, ¬ (decide (pl.peer r i = p) && decide (∀ k < pc p, pl.tag p k ≠ pl.tag r i)) = true := by
          intro i hi hcon
          simp only [Bool.and_eq_true, decide_eq_true_eq] at hcon
          obtain ⟨j', hj'L, hj't, -, -⟩ := pl.hmatch r hrP i (by omega)
          rw [hcon.1] at hj'L hj't
          refine hcon.2 j' ?_ hj't
          have := pl.lt_of_tag hpP hj'L hjL (by rw [hj't, hjt]; exact pl.htag r hrP i _ hi hlt)
          omega
        have hw : pl.waiting r p (pc r + 1) (pc p) =
            [pc r].filter (fun j => decide (pl.peer r j = p) && decide (∀ k < pc p, pl.tag p k ≠ pl.tag r j)) := by
          unfold Plan.waiting
          rw [List.range_succ, List.filter_append, List.filter_eq_nil_iff.2, List.nil_append]
          intro i hi
          exact hold i (List.mem_range.1 hi)
        rcases Nat.lt_or_ge j (pc p) with hjd | hjd
        · left
          rw [hch2, hw, List.map_eq_nil_iff, List.filter_eq_nil_iff]
          intro i hi
          rw [List.mem_singleton] at hi
          subst hi
          simp only [Bool.and_eq_true, decide_eq_true_eq, not_and]
          intro _ h2
          exact h2 j hjd hjt
        · right
          have hje : pc p = j := by omega
          have hpp : c.posted p = true := by
            cases hpp : c.posted p with
            | true => rfl
            | false => rw [hpp, hje] at hj; simp at hj
          refine ⟨hpp, ?_, ?_⟩
          · have hnp := pl.hnext p hpP j hjL
            rw [← hje, ← h.hst p hpP, hje, hjp] at hnp
            exact ⟨_, hnp⟩
          · rw [hch2, hw, List.length_map, List.filter_eq_self.2]
            · rfl
            · intro i hi
              rw [List.mem_singleton] at hi
              subst hi
              simp only [Bool.and_eq_true, decide_eq_true_eq]
              refine ⟨hpe, fun k hk ht => ?_⟩
              have := pl.tag_inj hpP (show k < pl.L p by omega) hjL (ht.trans hjt.symm)
              omega
      cases hcc : c.chan p r with
      | nil =>
        rw [hcc] at hch
        have := hch.symm ▸ List.mem_map_of_mem (f := pl.out p) hmem
        simp at this
      | cons m' rest =>
        have hcc' : c.chan (pl.peer r (pc r)) r = m' :: rest := by rw [hpe]; exact hcc
        obtain ⟨-, -, -, -, hrv, -⟩ := h.head hrP hlt hcc'
        rw [← h.hst r hrP] at hrv
        exact ⟨_, SyncStep.complete c r p _ m' rest _ hrP hp hn hcc hrv hsync⟩
    · have hpj : pc p = j := by omega
      have hpn : c.posted p = false := by
        cases hpp : c.posted p with
        | false => rfl
        | true => rw [hpp, hpj] at hj; simp at hj
      have hnp := pl.hnext p hpP j hjL
      rw [← hpj, ← h.hst p hpP] at hnp
      exact ⟨_, SyncStep.post c p _ _ hpP hpn hnp⟩
  · exact ⟨_, SyncStep.post c r _ _ hrP (by simpa using hp) hn⟩

end plan

end Verif.Exchange
