import Mathlib.Data.List.Perm.Basic
import Mathlib.Data.List.Count
import Verif.Model.HashDirs
import Verif.Spec.HashDirs

/-! Invariants of the hashing tool. -/

set_option linter.unusedSectionVars false

namespace Verif

open Exchange (upd)

variable {D H σ : Type*}

/-- Sum over the ranks `1, ..., P-1` -/
def wsum (P : Nat) (f : Nat → Nat) : Nat := pre (fun i => f (i + 1)) (P - 1)

theorem pre_change {f g : Nat → Nat} {r P : Nat} (hr : r < P) (hother : ∀ s, s ≠ r → f s = g s) :
    pre f P + g r = pre g P + f r := by
  induction P with
  | zero => omega
  | succ P ih =>
    rw [pre_succ, pre_succ]
    by_cases he : r = P
    · subst he
      rw [pre_congr (f := f) (g := g) (fun i hi => hother i (by omega))]; omega
    · have := ih (by omega)
      rw [hother P (fun h => he h.symm)]; omega

theorem wsum_change {f g : Nat → Nat} {r P : Nat} (h0 : 0 < r) (hr : r < P) (hother : ∀ s, s ≠ r → f s = g s) :
    wsum P f + g r = wsum P g + f r := by
  have := pre_change (f := fun i => f (i + 1)) (g := fun i => g (i + 1)) (r := r - 1) (P := P - 1) (by omega)
    (fun s hs => hother _ (by omega))
  have he : r - 1 + 1 = r := by omega
  simp only [he] at this
  exact this

theorem wsum_congr {f g : Nat → Nat} {P : Nat} (h : ∀ r, 0 < r → r < P → f r = g r) : wsum P f = wsum P g :=
  pre_congr (fun i hi => h (i + 1) (by omega) (by omega))

theorem wsum_zero {f : Nat → Nat} {P : Nat} (h : ∀ r, 0 < r → r < P → f r = 0) : wsum P f = 0 := by
  rw [wsum_congr (g := fun _ => 0) h]; exact pre_const_zero _

theorem upd_same {β : Type*} (f : Nat → β) (r : Nat) (v : β) : upd f r v r = v := if_pos rfl

theorem upd_other {β : Type*} (f : Nat → β) {r s : Nat} (v : β) (h : s ≠ r) : upd f r v s = f s := if_neg h

section
open Classical

/-- One if `p` -/
noncomputable def ind (p : Prop) : Nat := if p then 1 else 0

theorem ind_true {p : Prop} (h : p) : ind p = 1 := if_pos h
theorem ind_false {p : Prop} (h : ¬ p) : ind p = 0 := if_neg h

/-- How often directory `x` is on the way to rank `r`, or being hashed there -/
noncomputable def workerDir (x : D) (w : HashWorker D H) (down : Option (Option D)) : Nat :=
  (match w with | .hashing d => ind (d = x) | _ => 0) + (match down with | some (some d) => ind (d = x) | _ => 0)

noncomputable def contDir (x : D) : HashCont D → Nat
  | .hashing d _ => ind (d = x)
  | .draining => 0

noncomputable def optDir (x : D) : Option D → Nat
  | some d => ind (d = x)
  | none => 0

noncomputable def masterDir (x : D) : HashMaster D H → Nat
  | .request _ => 0
  | .hashing d _ => ind (d = x)
  | .probing k => contDir x k
  | .replying _ nd k => contDir x k + optDir x nd
  | .sending _ _ k => contDir x k
  | .finished => 0

noncomputable def optRes (y : H) : Option H → Nat
  | some h => ind (h = y)
  | none => 0

/-- How often result `y` is held by a rank or on the way to rank 0 -/
noncomputable def workerRes (y : H) (w : HashWorker D H) (up : Option (Option H)) : Nat :=
  (match w with | .request hashes => optRes y hashes | _ => 0) + (match up with | some hashes => optRes y hashes | none => 0)

noncomputable def masterRes (y : H) : HashMaster D H → Nat
  | .request hashes => optRes y hashes
  | _ => 0

/-- Has rank 0 counted rank `r` as finished? -/
noncomputable def told (c : HashState D H σ) (r : Nat) : Nat :=
  ind ((c.worker r = .finished ∨ c.down r = some none) ∧ ∀ k, c.master ≠ .sending r none k)

def notReplying (m : HashMaster D H) (r : Nat) : Prop := ∀ nd k, m ≠ .replying r nd k

/-- What the state of rank `r` says about the messages to and from it; `nr`: rank 0 is not about to answer it -/
def WInv (w : HashWorker D H) (up : Option (Option H)) (down : Option (Option D)) (nr : Prop) : Prop :=
  match w with
  | .request _ | .hashing _ | .finished => up = none ∧ down = none ∧ nr
  | .sending | .receiving =>
    (up ≠ none ∧ down = none ∧ nr) ∨ (up = none ∧ down = none ∧ ¬ nr) ∨ (up = none ∧ down ≠ none ∧ nr)

def MasterInv (P : Nat) (c : HashState D H σ) : Prop :=
  match c.master with
  | .replying s _ k => 0 < s ∧ s < P ∧ (k = .draining → c.dirs = [])
  | .sending s nd k => 0 < s ∧ s < P ∧ (nd = none → c.worker s = .finished ∨ c.down s = some none) ∧ (k = .draining → c.dirs = [])
  | .probing k => k = .draining → c.dirs = []
  | .finished => c.dirs = [] ∧ P - 1 ≤ c.num_finished
  | _ => True

structure HashInv (S : HashSys D H σ) (dirs : List D) (store : σ) (c : HashState D H σ) : Prop where
  worker : ∀ r, 0 < r → r < S.P → WInv (c.worker r) (c.up r) (c.down r) (notReplying c.master r)
  master : MasterInv S.P c
  dirs : ∀ x, dirs.count x = c.dirs.count x + (c.hashed.map Prod.snd).count x + masterDir x c.master +
    wsum S.P (fun r => workerDir x (c.worker r) (c.down r))
  results : ∃ log : List H, c.store = log.foldl (fun s h => S.storeHashes s (some h)) store ∧
    ∀ y, (c.hashed.map (fun e => S.hash e.2)).count y = log.count y + masterRes y c.master +
      wsum S.P (fun r => workerRes y (c.worker r) (c.up r))
  finished : c.num_finished = wsum S.P (told c)

theorem count_cons_ind {α : Type*} (x a : α) (l : List α) : (a :: l).count x = ind (a = x) + l.count x := by
  rw [List.count_cons]
  by_cases h : a = x
  · simp [h, ind]; omega
  · simp [h, ind]

theorem count_snoc_ind {α : Type*} (x a : α) (l : List α) : (l ++ [a]).count x = l.count x + ind (a = x) := by
  rw [List.count_append, count_cons_ind]; simp

theorem hashInv_start (S : HashSys D H σ) (dirs : List D) (store : σ) : HashInv S dirs store (hashStart dirs store) where
  worker := fun r _ _ => ⟨rfl, rfl, fun _ _ h => by cases h⟩
  master := trivial
  dirs := fun x => by
    have hz : wsum S.P (fun r => workerDir x ((hashStart (H := H) dirs store).worker r) ((hashStart (H := H) dirs store).down r)) = 0 :=
      wsum_zero (fun r _ _ => rfl)
    rw [hz]
    simp [hashStart, masterDir]
  results := ⟨[], rfl, fun y => by
    have hz : wsum S.P (fun r => workerRes y ((hashStart (H := H) dirs store).worker r) ((hashStart (H := H) dirs store).up r)) = 0 :=
      wsum_zero (fun r _ _ => rfl)
    rw [hz]
    simp [hashStart, masterRes, optRes]⟩
  finished := by
    rw [wsum_zero (fun r _ _ => ?_)]
    · rfl
    · unfold told
      rw [ind_false]
      rintro ⟨h | h, -⟩ <;> cases h

theorem count_nextDir (x : D) (dirs : List D) : dirs.count x = (nextDir dirs).2.count x + optDir x (nextDir dirs).1 := by
  cases dirs with
  | nil => simp [nextDir, optDir]
  | cons d rest =>
    rw [count_cons_ind]
    simp only [nextDir, optDir]; omega

theorem nextDir_none {dirs : List D} (h : (nextDir dirs).1 = none) : (nextDir dirs).2 = [] := by
  cases dirs with
  | nil => rfl
  | cons d rest => cases h

theorem nextDir_nil {dirs : List D} (h : dirs = []) : (nextDir dirs).2 = [] := by
  subst h; rfl

/-- The part of the invariant about results when `store_hashes` is called -/
theorem results_store (S : HashSys D H σ) (hS : ∀ s, S.storeHashes s none = s) {store st : σ} {log : List H}
    (h : st = log.foldl (fun s h => S.storeHashes s (some h)) store) (hashes : Option H) :
    ∃ log' : List H, S.storeHashes st hashes = log'.foldl (fun s h => S.storeHashes s (some h)) store ∧
      ∀ y, log'.count y = log.count y + optRes y hashes := by
  cases hashes with
  | none => exact ⟨log, by rw [hS]; exact h, fun y => rfl⟩
  | some a => exact ⟨log ++ [a], by rw [List.foldl_append, ← h]; rfl, fun y => count_snoc_ind y a log⟩

theorem notReplying_of {m : HashMaster D H} (h : ∀ s nd k, m ≠ .replying s nd k) (r : Nat) : notReplying m r := fun nd k => h r nd k

/-- A change of rank `r` alone keeps the invariants of the other ranks -/
theorem told_congr {c c' : HashState D H σ} {r : Nat} (hw : c'.worker r = c.worker r) (hd : c'.down r = c.down r)
    (hm : (∀ k, c'.master ≠ .sending r none k) ↔ ∀ k, c.master ≠ .sending r none k) : told c r = told c' r := by
  unfold told
  rw [hw, hd, hm]

section steps
variable {S : HashSys D H σ} {dirs : List D} {store : σ} {c : HashState D H σ}

theorem inv_send (hi : HashInv S dirs store c) {r : Nat} {hashes : Option H} (h0 : 0 < r) (hr : r < S.P) (hw : c.worker r = .request hashes) :
    HashInv S dirs store { c with worker := upd c.worker r .sending, up := upd c.up r (some hashes) } where
  worker := fun s hs0 hs => by
    by_cases he : s = r
    · subst he
      have := hi.worker s hs0 hs
      rw [hw] at this
      simp only [upd_same]
      exact Or.inl ⟨by simp, this.2.1, this.2.2⟩
    · simp only [upd_other _ _ he]; exact hi.worker s hs0 hs
  master := by
    have hm := hi.master
    unfold MasterInv at hm ⊢
    simp only []
    cases hc : c.master with
    | sending s nd k =>
      rw [hc] at hm
      refine ⟨hm.1, hm.2.1, fun hn => ?_, hm.2.2.2⟩
      by_cases he : s = r
      · subst he
        rcases hm.2.2.1 hn with h | h
        · rw [hw] at h; cases h
        · exact Or.inr h
      · rw [upd_other _ _ he]; exact hm.2.2.1 hn
    | _ => rw [hc] at hm; exact hm
  dirs := fun x => by
    rw [hi.dirs x]
    refine congrArg (HAdd.hAdd _) (wsum_congr ?_)
    intro s _ _
    by_cases he : s = r
    · subst he; simp only [upd_same, hw, workerDir]
    · simp only [upd_other _ _ he]
  results := by
    obtain ⟨log, hl, hy⟩ := hi.results
    refine ⟨log, hl, fun y => ?_⟩
    rw [hy y]
    refine congrArg (HAdd.hAdd _) (wsum_congr ?_)
    intro s _ _
    by_cases he : s = r
    · subst he
      have := hi.worker s h0 hr
      rw [hw] at this
      simp only [upd_same, hw, workerRes, this.1]; omega
    · simp only [upd_other _ _ he]
  finished := by
    refine hi.finished.trans (wsum_congr (fun s hs0 hs => ?_))
    by_cases he : s = r
    · subst he
      have := hi.worker s h0 hr
      rw [hw] at this
      unfold told
      rw [ind_false, ind_false]
      · rintro ⟨h | h, -⟩
        · simp only [upd_same] at h; cases h
        · simp only [this.2.1] at h; cases h
      · rintro ⟨h | h, -⟩
        · rw [hw] at h; cases h
        · rw [this.2.1] at h; cases h
    · unfold told; simp only [upd_other _ _ he]

theorem inv_sent (hi : HashInv S dirs store c) {r : Nat} (h0 : 0 < r) (hr : r < S.P) (hw : c.worker r = .sending) :
    HashInv S dirs store { c with worker := upd c.worker r .receiving } where
  worker := fun s hs0 hs => by
    by_cases he : s = r
    · subst he
      have := hi.worker s hs0 hs
      rw [hw] at this
      simp only [upd_same]
      exact this
    · simp only [upd_other _ _ he]; exact hi.worker s hs0 hs
  master := by
    have hm := hi.master
    unfold MasterInv at hm ⊢
    simp only []
    cases hc : c.master with
    | sending s nd k =>
      rw [hc] at hm
      refine ⟨hm.1, hm.2.1, fun hn => ?_, hm.2.2.2⟩
      by_cases he : s = r
      · subst he
        rcases hm.2.2.1 hn with h | h
        · rw [hw] at h; cases h
        · exact Or.inr h
      · rw [upd_other _ _ he]; exact hm.2.2.1 hn
    | _ => rw [hc] at hm; exact hm
  dirs := fun x => by
    rw [hi.dirs x]
    refine congrArg (HAdd.hAdd _) (wsum_congr ?_)
    intro s _ _
    by_cases he : s = r
    · subst he; simp only [upd_same, hw, workerDir]
    · simp only [upd_other _ _ he]
  results := by
    obtain ⟨log, hl, hy⟩ := hi.results
    refine ⟨log, hl, fun y => ?_⟩
    rw [hy y]
    refine congrArg (HAdd.hAdd _) (wsum_congr ?_)
    intro s _ _
    by_cases he : s = r
    · subst he; simp only [upd_same, hw, workerRes]
    · simp only [upd_other _ _ he]
  finished := by
    refine hi.finished.trans (wsum_congr (fun s hs0 hs => ?_))
    by_cases he : s = r
    · subst he
      unfold told ind
      simp only [upd_same, hw]
      refine if_congr ?_ rfl rfl
      constructor
      · rintro ⟨h | h, h'⟩
        · cases h
        · exact ⟨Or.inr h, h'⟩
      · rintro ⟨h | h, h'⟩
        · cases h
        · exact ⟨Or.inr h, h'⟩
    · unfold told; simp only [upd_other _ _ he]

theorem inv_recv (hi : HashInv S dirs store c) {r : Nat} {nd : Option D} (h0 : 0 < r) (hr : r < S.P) (hw : c.worker r = .receiving)
    (hd : c.down r = some nd) :
    HashInv S dirs store { c with worker := upd c.worker r (workerAfterRequest nd), down := upd c.down r none } where
  worker := fun s hs0 hs => by
    by_cases he : s = r
    · subst he
      have := hi.worker s hs0 hs
      rw [hw, hd] at this
      simp only [upd_same]
      rcases this with h | h | h
      · cases h.2.1
      · cases h.2.1
      · cases nd with
        | none => exact ⟨h.1, rfl, h.2.2⟩
        | some d => exact ⟨h.1, rfl, h.2.2⟩
    · simp only [upd_other _ _ he]; exact hi.worker s hs0 hs
  master := by
    have hm := hi.master
    unfold MasterInv at hm ⊢
    simp only []
    cases hc : c.master with
    | sending s nd' k =>
      rw [hc] at hm
      refine ⟨hm.1, hm.2.1, fun hn => ?_, hm.2.2.2⟩
      by_cases he : s = r
      · subst he
        rcases hm.2.2.1 hn with h | h
        · rw [hw] at h; cases h
        · rw [hd] at h; cases h
          exact Or.inl (upd_same _ _ _)
      · rw [upd_other _ _ he, upd_other _ _ he]; exact hm.2.2.1 hn
    | _ => rw [hc] at hm; exact hm
  dirs := fun x => by
    rw [hi.dirs x]
    refine congrArg (HAdd.hAdd _) (wsum_congr ?_)
    intro s _ _
    by_cases he : s = r
    · subst he
      cases nd with
      | none => simp only [upd_same, hw, hd, workerDir, workerAfterRequest]
      | some d => simp only [upd_same, hw, hd, workerDir, workerAfterRequest]; omega
    · simp only [upd_other _ _ he]
  results := by
    obtain ⟨log, hl, hy⟩ := hi.results
    refine ⟨log, hl, fun y => ?_⟩
    rw [hy y]
    refine congrArg (HAdd.hAdd _) (wsum_congr ?_)
    intro s _ _
    by_cases he : s = r
    · subst he
      cases nd with
      | none => simp only [upd_same, hw, workerRes, workerAfterRequest]
      | some d => simp only [upd_same, hw, workerRes, workerAfterRequest]
    · simp only [upd_other _ _ he]
  finished := by
    refine hi.finished.trans (wsum_congr (fun s hs0 hs => ?_))
    by_cases he : s = r
    · subst he
      unfold told ind
      simp only [upd_same, hw, hd]
      refine if_congr ?_ rfl rfl
      cases nd with
      | none => simp [workerAfterRequest]
      | some d => simp [workerAfterRequest]
    · unfold told; simp only [upd_other _ _ he]

theorem inv_hash (hi : HashInv S dirs store c) {r : Nat} {d : D} (h0 : 0 < r) (hr : r < S.P) (hw : c.worker r = .hashing d) :
    HashInv S dirs store { c with worker := upd c.worker r (.request (some (S.hash d))), hashed := c.hashed ++ [(r, d)] } where
  worker := fun s hs0 hs => by
    by_cases he : s = r
    · subst he
      have := hi.worker s hs0 hs
      rw [hw] at this
      simp only [upd_same]
      exact this
    · simp only [upd_other _ _ he]; exact hi.worker s hs0 hs
  master := by
    have hm := hi.master
    unfold MasterInv at hm ⊢
    simp only []
    cases hc : c.master with
    | sending s nd k =>
      rw [hc] at hm
      refine ⟨hm.1, hm.2.1, fun hn => ?_, hm.2.2.2⟩
      by_cases he : s = r
      · subst he
        rcases hm.2.2.1 hn with h | h
        · rw [hw] at h; cases h
        · exact Or.inr h
      · rw [upd_other _ _ he]; exact hm.2.2.1 hn
    | _ => rw [hc] at hm; exact hm
  dirs := fun x => by
    have hchg := wsum_change (f := fun s => workerDir x (c.worker s) (c.down s))
      (g := fun s => workerDir x (upd c.worker r (.request (some (S.hash d))) s) (c.down s)) h0 hr
      (fun s he => by simp only [upd_other _ _ he])
    have h1 := hi.dirs x
    have h2 := (hi.worker r h0 hr)
    rw [hw] at h2
    simp only [upd_same, hw, workerDir, h2.2.1] at hchg
    simp only [List.map_append, List.map_cons, List.map_nil, count_snoc_ind]
    simp only [workerDir] at h1 ⊢
    omega
  results := by
    obtain ⟨log, hl, hy⟩ := hi.results
    refine ⟨log, hl, fun y => ?_⟩
    have hchg := wsum_change (f := fun s => workerRes y (c.worker s) (c.up s))
      (g := fun s => workerRes y (upd c.worker r (.request (some (S.hash d))) s) (c.up s)) h0 hr
      (fun s he => by simp only [upd_other _ _ he])
    have h1 := hy y
    have h2 := (hi.worker r h0 hr)
    rw [hw] at h2
    have h3 : optRes y (some (S.hash d)) = ind (S.hash d = y) := rfl
    simp only [upd_same, hw, workerRes, h2.1, h3] at hchg
    simp only [List.map_append, List.map_cons, List.map_nil, count_snoc_ind]
    simp only [workerRes] at h1 ⊢
    omega
  finished := by
    refine hi.finished.trans (wsum_congr (fun s hs0 hs => ?_))
    by_cases he : s = r
    · subst he
      unfold told ind
      simp only [upd_same, hw]
      refine if_congr ?_ rfl rfl
      simp
    · unfold told; simp only [upd_other _ _ he]

/-- Rank 0 moves on without a message -/
theorem inv_master (hi : HashInv S dirs store c) {m : HashMaster D H} {ds : List D} {hashes : Option H} (hS : ∀ s, S.storeHashes s none = s)
    {hd : List (Nat × D)} {st : σ}
    (hst : st = S.storeHashes c.store hashes)
    (hold : ∀ s nd k, c.master ≠ .replying s nd k ∧ c.master ≠ .sending s nd k)
    (hnew : ∀ s nd k, m ≠ .replying s nd k ∧ m ≠ .sending s nd k)
    (hmi : MasterInv S.P { c with dirs := ds, store := st, master := m, hashed := hd })
    (hdirs : ∀ x, c.dirs.count x + (c.hashed.map Prod.snd).count x + masterDir x c.master =
      ds.count x + (hd.map Prod.snd).count x + masterDir x m)
    (hres : ∀ y, (hd.map (fun e => S.hash e.2)).count y + masterRes y c.master =
      (c.hashed.map (fun e => S.hash e.2)).count y + optRes y hashes + masterRes y m) :
    HashInv S dirs store { c with dirs := ds, store := st, master := m, hashed := hd } where
  worker := fun s hs0 hs => by
    have := hi.worker s hs0 hs
    have h1 : notReplying m s ↔ notReplying c.master s :=
      ⟨fun _ nd k => (hold s nd k).1, fun _ nd k => (hnew s nd k).1⟩
    simp only [h1]
    exact this
  master := hmi
  dirs := fun x => by
    have := hi.dirs x
    have := hdirs x
    simp only []
    omega
  results := by
    obtain ⟨log, hl, hy⟩ := hi.results
    obtain ⟨log', hl', hy'⟩ := results_store S hS hl hashes
    refine ⟨log', by rw [← hl']; exact hst, fun y => ?_⟩
    have := hy y
    have := hy' y
    have := hres y
    simp only []
    omega
  finished := by
    refine hi.finished.trans (wsum_congr (fun s hs0 hs => ?_))
    exact told_congr rfl rfl ⟨fun _ k => (hold s none k).2, fun _ k => (hnew s none k).2⟩

theorem inv_probe (hi : HashInv S dirs store c) (hS : ∀ s, S.storeHashes s none = s) {r : Nat} {k : HashCont D} {hashes : Option H} (h0 : 0 < r) (hr : r < S.P)
    (hm : c.master = .probing k) (hu : c.up r = some hashes) :
    HashInv S dirs store { c with up := upd c.up r none, store := S.storeHashes c.store hashes, dirs := (nextDir c.dirs).2,
                                  master := .replying r (nextDir c.dirs).1 k } where
  worker := fun s hs0 hs => by
    by_cases he : s = r
    · subst he
      have := hi.worker s hs0 hs
      simp only [upd_same]
      cases hw : c.worker s with
      | sending =>
        rw [hw, hu] at this
        rcases this with h | h | h
        · exact Or.inr (Or.inl ⟨rfl, h.2.1, fun hn => hn _ _ rfl⟩)
        · cases h.1
        · cases h.1
      | receiving =>
        rw [hw, hu] at this
        rcases this with h | h | h
        · exact Or.inr (Or.inl ⟨rfl, h.2.1, fun hn => hn _ _ rfl⟩)
        · cases h.1
        · cases h.1
      | _ => rw [hw, hu] at this; cases this.1
    · have h1 : notReplying (HashMaster.replying r (nextDir c.dirs).1 k : HashMaster D H) s ↔ notReplying c.master s := by
        refine ⟨fun _ nd k' h => ?_, fun _ nd k' h => ?_⟩
        · rw [hm] at h; cases h
        · cases h; exact he rfl
      simp only [upd_other _ _ he, h1]; exact hi.worker s hs0 hs
  master := by
    have h1 := hi.master
    unfold MasterInv at h1 ⊢
    rw [hm] at h1
    exact ⟨h0, hr, fun hk => nextDir_nil (h1 hk)⟩
  dirs := fun x => by
    have h1 := hi.dirs x
    have h2 := count_nextDir x c.dirs
    rw [hm] at h1
    simp only [masterDir] at h1 ⊢
    omega
  results := by
    obtain ⟨log, hl, hy⟩ := hi.results
    obtain ⟨log', hl', hy'⟩ := results_store S hS hl hashes
    refine ⟨log', hl', fun y => ?_⟩
    have hchg := wsum_change (f := fun s => workerRes y (c.worker s) (c.up s))
      (g := fun s => workerRes y (c.worker s) (upd c.up r none s)) h0 hr
      (fun s he => by simp only [upd_other _ _ he])
    have h1 := hy y
    have h2 := hy' y
    rw [hm] at h1
    simp only [upd_same, workerRes, hu] at hchg
    simp only [workerRes, masterRes] at h1 ⊢
    omega
  finished := by
    refine hi.finished.trans (wsum_congr (fun s hs0 hs => ?_))
    refine told_congr rfl rfl ⟨fun _ k' h => ?_, fun _ k' h => ?_⟩
    · rw [hm] at h; cases h
    · cases h

theorem inv_reply (hi : HashInv S dirs store c) {r : Nat} {nd : Option D} {k : HashCont D} (hm : c.master = .replying r nd k) :
    HashInv S dirs store { c with down := upd c.down r (some nd), master := .sending r nd k } := by
  have hmi := hi.master
  unfold MasterInv at hmi
  rw [hm] at hmi
  obtain ⟨h0, hr, hk⟩ := hmi
  have hw := hi.worker r h0 hr
  have hnr : ¬ notReplying c.master r := fun h => h _ _ hm
  have hwr : (c.worker r = .sending ∨ c.worker r = .receiving) ∧ c.up r = none ∧ c.down r = none := by
    cases hc : c.worker r with
    | sending =>
      rw [hc] at hw
      rcases hw with h | h | h
      · exact absurd h.2.2 hnr
      · exact ⟨Or.inl rfl, h.1, h.2.1⟩
      · exact absurd h.2.2 hnr
    | receiving =>
      rw [hc] at hw
      rcases hw with h | h | h
      · exact absurd h.2.2 hnr
      · exact ⟨Or.inr rfl, h.1, h.2.1⟩
      · exact absurd h.2.2 hnr
    | _ => rw [hc] at hw; exact absurd hw.2.2 hnr
  refine ⟨fun s hs0 hs => ?_, ?_, fun x => ?_, ?_, ?_⟩
  · have h1 : notReplying (HashMaster.sending r nd k : HashMaster D H) s := fun _ _ h => by cases h
    by_cases he : s = r
    · subst he
      simp only [upd_same]
      rcases hwr.1 with h | h
      · rw [h]; exact Or.inr (Or.inr ⟨hwr.2.1, by simp, h1⟩)
      · rw [h]; exact Or.inr (Or.inr ⟨hwr.2.1, by simp, h1⟩)
    · have h2 : notReplying c.master s := fun _ _ h => by rw [hm] at h; cases h; exact he rfl
      have := hi.worker s hs0 hs
      simp only [upd_other _ _ he]
      rw [show notReplying (HashMaster.sending r nd k : HashMaster D H) s ↔ notReplying c.master s from iff_of_true h1 h2]
      exact this
  · unfold MasterInv
    exact ⟨h0, hr, fun hn => Or.inr (by simp only [upd_same, hn]), hk⟩
  · have hchg := wsum_change (f := fun s => workerDir x (c.worker s) (c.down s))
      (g := fun s => workerDir x (c.worker s) (upd c.down r (some nd) s)) h0 hr
      (fun s he => by simp only [upd_other _ _ he])
    have h1 := hi.dirs x
    rw [hm] at h1
    simp only [upd_same, workerDir, hwr.2.2] at hchg
    simp only [workerDir, masterDir] at h1 ⊢
    cases nd with
    | none => simp only [optDir] at h1; simp only [] at hchg; omega
    | some d => simp only [optDir] at h1; simp only [] at hchg; omega
  · obtain ⟨log, hl, hy⟩ := hi.results
    refine ⟨log, hl, fun y => ?_⟩
    have h1 := hy y
    rw [hm] at h1
    simpa only [masterRes] using h1
  · refine hi.finished.trans (wsum_congr (fun s hs0 hs => ?_))
    by_cases he : s = r
    · subst he
      unfold told
      rw [ind_false, ind_false]
      · rintro ⟨h | h, h'⟩
        · simp only [] at h
          rcases hwr.1 with h1 | h1 <;> (rw [h1] at h; cases h)
        · simp only [upd_same] at h
          cases h
          exact h' k rfl
      · rintro ⟨h | h, h'⟩
        · rcases hwr.1 with h1 | h1 <;> (rw [h1] at h; cases h)
        · rw [hwr.2.2] at h; cases h
    · refine told_congr rfl (upd_other _ _ he) ⟨fun _ k' h => ?_, fun _ k' h => ?_⟩
      · rw [hm] at h; cases h
      · cases h; exact he rfl

theorem inv_replied (hi : HashInv S dirs store c) {r : Nat} {nd : Option D} {k : HashCont D} (hm : c.master = .sending r nd k) :
    HashInv S dirs store { c with num_finished := countFinished c.num_finished nd, master := .probing k } := by
  have hmi := hi.master
  unfold MasterInv at hmi
  rw [hm] at hmi
  obtain ⟨h0, hr, hn, hk⟩ := hmi
  have h1 : ∀ s, notReplying (HashMaster.probing k : HashMaster D H) s := fun s _ _ h => by cases h
  have h2 : ∀ s, notReplying c.master s := fun s _ _ h => by rw [hm] at h; cases h
  refine ⟨fun s hs0 hs => ?_, hk, fun x => ?_, ?_, ?_⟩
  · have := hi.worker s hs0 hs
    simp only []
    rw [show notReplying (HashMaster.probing k : HashMaster D H) s ↔ notReplying c.master s from iff_of_true (h1 s) (h2 s)]
    exact this
  · have := hi.dirs x
    rw [hm] at this
    simpa only [masterDir] using this
  · obtain ⟨log, hl, hy⟩ := hi.results
    refine ⟨log, hl, fun y => ?_⟩
    have h1 := hy y
    rw [hm] at h1
    simpa only [masterRes] using h1
  · have hf := hi.finished
    simp only []
    cases nd with
    | some d =>
      simp only [countFinished]
      refine hf.trans (wsum_congr (fun s hs0 hs => ?_))
      refine told_congr rfl rfl ⟨fun _ k' h => ?_, fun _ k' h => ?_⟩
      · rw [hm] at h; cases h
      · cases h
    | none =>
      have hother : ∀ s, s ≠ r → told c s = told ({ c with num_finished := countFinished c.num_finished (none : Option D), master := .probing k } : HashState D H σ) s := by
        intro s he
        refine told_congr rfl rfl ⟨fun _ k' h => ?_, fun _ k' h => ?_⟩
        · rw [hm] at h; cases h; exact he rfl
        · cases h
      have hchg := wsum_change h0 hr hother
      have h3 : told c r = 0 := by
        unfold told
        exact ind_false (fun h => h.2 k hm)
      have h4 : told ({ c with num_finished := countFinished c.num_finished (none : Option D), master := .probing k } : HashState D H σ) r = 1 := by
        unfold told
        exact ind_true ⟨hn rfl, fun k' h => by cases h⟩
      rw [h3, h4] at hchg
      simp only [countFinished] at hchg ⊢
      omega

theorem inv_step (hS : ∀ s, S.storeHashes s none = s) {sync : Bool} {c' : HashState D H σ} (hi : HashInv S dirs store c) (hs : HashStep S sync c c') : HashInv S dirs store c' := by
  cases hs with
  | send r hashes h0 hr hw => exact inv_send hi h0 hr hw
  | sent r h0 hr hw _ => exact inv_sent hi h0 hr hw
  | recv r nd h0 hr hw hm => exact inv_recv hi h0 hr hw hm
  | hash r d h0 hr hw => exact inv_hash hi h0 hr hw
  | request hashes hm =>
    refine inv_master hi hS (hashes := hashes) rfl (fun s nd k => by rw [hm]; exact ⟨nofun, nofun⟩) (fun s nd k => ?_) ?_ (fun x => ?_) (fun y => ?_)
    · cases (nextDir c.dirs).1 <;> exact ⟨nofun, nofun⟩
    · unfold MasterInv
      simp only []
      cases hn : (nextDir c.dirs).1 with
      | none => exact fun _ => nextDir_none hn
      | some d => trivial
    · have := count_nextDir x c.dirs
      rw [hm]
      cases hn : (nextDir c.dirs).1 with
      | none => rw [hn] at this; simp only [masterAfterRequest, masterDir, contDir, optDir] at this ⊢; omega
      | some d => rw [hn] at this; simp only [masterAfterRequest, masterDir, optDir] at this ⊢; omega
    · rw [hm]
      cases hn : (nextDir c.dirs).1 with
      | none => simp only [masterAfterRequest, masterRes]; omega
      | some d => simp only [masterAfterRequest, masterRes]; omega
  | poll d n hm =>
    refine inv_master hi hS (hashes := none) (hS _).symm (fun s nd k => by rw [hm]; exact ⟨nofun, nofun⟩) (fun s nd k => ⟨nofun, nofun⟩) (fun h => by cases h) (fun x => ?_) (fun y => ?_)
    · rw [hm]; rfl
    · rw [hm]; rfl
  | hash0 d hm =>
    refine inv_master hi hS (hashes := none) (hS _).symm (fun s nd k => by rw [hm]; exact ⟨nofun, nofun⟩) (fun s nd k => ⟨nofun, nofun⟩) trivial (fun x => ?_) (fun y => ?_)
    · rw [hm]
      simp only [List.map_append, List.map_cons, List.map_nil, count_snoc_ind, masterDir]
      omega
    · rw [hm]
      simp only [List.map_append, List.map_cons, List.map_nil, count_snoc_ind, masterRes, optRes]
      omega
  | probe k source hashes h0 hr hm hu => exact inv_probe hi hS h0 hr hm hu
  | leave k hm =>
    have h1 := hi.master
    unfold MasterInv at h1
    rw [hm] at h1
    refine inv_master hi hS (hashes := none) (hS _).symm (fun s nd k => by rw [hm]; exact ⟨nofun, nofun⟩) (fun s nd k' => ?_) ?_ (fun x => ?_) (fun y => ?_)
    · cases k with
      | hashing d n => exact ⟨nofun, nofun⟩
      | draining =>
        simp only [masterAfterProbing]
        split <;> exact ⟨nofun, nofun⟩
    · unfold MasterInv
      cases k with
      | hashing d n => trivial
      | draining =>
        simp only [masterAfterProbing]
        by_cases hl : c.num_finished < S.P - 1
        · rw [if_pos hl]; exact h1
        · rw [if_neg hl]; exact ⟨h1 rfl, Nat.le_of_not_lt hl⟩
    · rw [hm]
      cases k with
      | hashing d n => rfl
      | draining =>
        simp only [masterAfterProbing]
        split <;> rfl
    · rw [hm]
      cases k with
      | hashing d n => rfl
      | draining =>
        simp only [masterAfterProbing]
        split <;> rfl
  | reply source nd k hm => exact inv_reply hi hm
  | replied source nd k hm _ => exact inv_replied hi hm

end steps

theorem inv_reach {S : HashSys D H σ} (hS : ∀ s, S.storeHashes s none = s) {sync : Bool} {dirs : List D} {store : σ} {c : HashState D H σ} (h : HashReach S sync dirs store c) :
    HashInv S dirs store c := by
  induction h with
  | start => exact hashInv_start S dirs store
  | step c c' _ hs ih => exact inv_step hS ih hs

theorem ind_le (p : Prop) : ind p ≤ 1 := by
  unfold ind; split <;> omega

theorem pre_full {f : Nat → Nat} {n : Nat} (hf : ∀ i, f i ≤ 1) (h : n ≤ pre f n) : ∀ i < n, f i = 1 := by
  have hle : ∀ m, pre f m ≤ m := by
    intro m
    induction m with
    | zero => exact Nat.le_refl 0
    | succ m ih => rw [pre_succ]; have := hf m; omega
  induction n with
  | zero => intro i hi; omega
  | succ n ih =>
    rw [pre_succ] at h
    have h1 := hle n
    have h2 := hf n
    intro i hi
    by_cases he : i = n
    · subst he; omega
    · exact ih (by omega) i (by omega)

/-- Once rank 0 has left the last loop every other rank has been told to stop -/
theorem all_told {S : HashSys D H σ} {dirs : List D} {store : σ} {c : HashState D H σ} (hi : HashInv S dirs store c) (hp : S.P - 1 ≤ c.num_finished)
    (r : Nat) (h0 : 0 < r) (hr : r < S.P) : c.worker r = .finished ∨ c.down r = some none := by
  have h1 := pre_full (f := fun i => told c (i + 1)) (n := S.P - 1) (fun i => ind_le _) (by rw [hi.finished] at hp; exact hp) (r - 1) (by omega)
  have he : r - 1 + 1 = r := by omega
  simp only [he] at h1
  unfold told at h1
  by_contra hc
  rw [ind_false (fun h => hc h.1)] at h1
  cases h1

theorem told_idle {S : HashSys D H σ} {dirs : List D} {store : σ} {c : HashState D H σ} (hi : HashInv S dirs store c)
    {r : Nat} (h0 : 0 < r) (hr : r < S.P) (h : c.worker r = .finished ∨ c.down r = some none) :
    (∀ x, workerDir x (c.worker r) (c.down r) = 0) ∧ ∀ y, workerRes y (c.worker r) (c.up r) = 0 := by
  have hw := hi.worker r h0 hr
  rcases h with h | h
  · rw [h] at hw ⊢
    rw [hw.1, hw.2.1]
    exact ⟨fun _ => rfl, fun _ => rfl⟩
  · cases hc : c.worker r with
    | sending =>
      rw [hc, h] at hw
      rcases hw with hw | hw | hw
      · cases hw.2.1
      · cases hw.2.1
      · rw [h, hw.1]; exact ⟨fun _ => rfl, fun _ => rfl⟩
    | receiving =>
      rw [hc, h] at hw
      rcases hw with hw | hw | hw
      · cases hw.2.1
      · cases hw.2.1
      · rw [h, hw.1]; exact ⟨fun _ => rfl, fun _ => rfl⟩
    | _ => rw [hc, h] at hw; cases hw.2.1

/-- When rank 0 writes the output, every directory has been hashed once and every result has been stored once. -/
theorem finished_complete {S : HashSys D H σ} {dirs : List D} {store : σ} {c : HashState D H σ} (hi : HashInv S dirs store c) (hm : c.master = .finished) :
    (c.hashed.map Prod.snd).Perm dirs ∧
      ∃ log : List H, c.store = log.foldl (fun s h => S.storeHashes s (some h)) store ∧ log.Perm (dirs.map S.hash) := by
  have h1 := hi.master
  unfold MasterInv at h1
  rw [hm] at h1
  have hidle := fun r h0 hr => told_idle hi h0 hr (all_told hi h1.2 r h0 hr)
  have hperm : (c.hashed.map Prod.snd).Perm dirs := by
    rw [List.perm_iff_count]
    intro x
    have h2 := hi.dirs x
    rw [wsum_zero (fun r h0 hr => (hidle r h0 hr).1 x), hm, h1.1] at h2
    simp only [masterDir, List.count_nil] at h2
    omega
  refine ⟨hperm, ?_⟩
  obtain ⟨log, hl, hy⟩ := hi.results
  refine ⟨log, hl, List.Perm.trans ?_ (hperm.map S.hash)⟩
  rw [List.map_map, List.perm_iff_count]
  intro y
  have h2 := hy y
  rw [wsum_zero (fun r h0 hr => (hidle r h0 hr).2 y), hm] at h2
  simp only [masterRes] at h2
  exact h2.symm

/-! ### Termination -/

def contCost : HashCont D → Nat
  | .hashing _ n => 4 + 2 * n
  | .draining => 1

def optCost : Option D → Nat
  | some _ => 7
  | none => 0

def masterCost : HashMaster D H → Nat
  | .request _ => 2
  | .hashing _ n => 3 + 2 * n
  | .probing k => contCost k
  | .replying _ nd k => contCost k + 2 + optCost nd
  | .sending _ _ k => contCost k + 1
  | .finished => 0

def workerCost (w : HashWorker D H) (up : Option (Option H)) (down : Option (Option D)) : Nat :=
  (match w with | .request _ => 6 | .sending => 2 | .receiving => 1 | .hashing _ => 7 | .finished => 0) +
    (match up with | some _ => 3 | none => 0) + (match down with | some nd => optCost nd | none => 0)

def dirsCost (S : HashSys D H σ) (dirs : List D) : Nat := (dirs.map (fun d => 7 + 2 * S.polls d)).sum

/-- A bound on the number of steps which can follow, not counting those of the loop in which rank 0 waits for the other ranks -/
def hashCost (S : HashSys D H σ) (c : HashState D H σ) : Nat :=
  dirsCost S c.dirs + masterCost c.master + wsum S.P (fun r => workerCost (c.worker r) (c.up r) (c.down r))

theorem dirsCost_next (S : HashSys D H σ) (dirs : List D) :
    dirsCost S dirs = dirsCost S (nextDir dirs).2 + (match (nextDir dirs).1 with | some d => 7 + 2 * S.polls d | none => 0) := by
  cases dirs with
  | nil => rfl
  | cons d rest =>
    simp only [dirsCost, nextDir, List.map_cons, List.sum_cons]
    exact Nat.add_comm _ _

theorem step_cost {S : HashSys D H σ} {dirs : List D} {store : σ} {sync : Bool} {c c' : HashState D H σ} (hi : HashInv S dirs store c)
    (hs : HashStep S sync c c') : c' = c ∨ hashCost S c' < hashCost S c := by
  have key : ∀ {r : Nat} (w : HashWorker D H) (u : Option (Option H)) (d : Option (Option D)), 0 < r → r < S.P →
      ∀ (fw : Nat → HashWorker D H) (fu : Nat → Option (Option H)) (fd : Nat → Option (Option D)),
      (∀ s, s ≠ r → fw s = c.worker s ∧ fu s = c.up s ∧ fd s = c.down s) → fw r = w → fu r = u → fd r = d →
      wsum S.P (fun r => workerCost (c.worker r) (c.up r) (c.down r)) + workerCost w u d =
        wsum S.P (fun r => workerCost (fw r) (fu r) (fd r)) + workerCost (c.worker r) (c.up r) (c.down r) := by
    intro r w u d h0 hr fw fu fd hother h1 h2 h3
    subst h1 h2 h3
    exact wsum_change (f := fun r => workerCost (c.worker r) (c.up r) (c.down r)) (g := fun r => workerCost (fw r) (fu r) (fd r)) h0 hr
      (fun s he => by obtain ⟨a, b, e⟩ := hother s he; simp only [a, b, e])
  cases hs with
  | send r hashes h0 hr hw =>
    right
    have hwi := hi.worker r h0 hr
    rw [hw] at hwi
    have := key .sending (some hashes) (c.down r) h0 hr (upd c.worker r .sending) (upd c.up r (some hashes)) c.down
      (fun s he => ⟨upd_other _ _ he, upd_other _ _ he, rfl⟩) (upd_same _ _ _) (upd_same _ _ _) rfl
    rw [hw, hwi.1, hwi.2.1] at this
    simp only [hashCost]
    simp only [workerCost] at this ⊢
    omega
  | sent r h0 hr hw _ =>
    right
    have := key .receiving (c.up r) (c.down r) h0 hr (upd c.worker r .receiving) c.up c.down
      (fun s he => ⟨upd_other _ _ he, rfl, rfl⟩) (upd_same _ _ _) rfl rfl
    rw [hw] at this
    simp only [hashCost]
    simp only [workerCost] at this ⊢
    omega
  | recv r nd h0 hr hw hm =>
    right
    have := key (workerAfterRequest nd) (c.up r) none h0 hr (upd c.worker r (workerAfterRequest nd)) c.up (upd c.down r none)
      (fun s he => ⟨upd_other _ _ he, rfl, upd_other _ _ he⟩) (upd_same _ _ _) rfl (upd_same _ _ _)
    rw [hw, hm] at this
    simp only [hashCost]
    cases nd with
    | none => simp only [workerCost, workerAfterRequest, optCost] at this ⊢; omega
    | some d => simp only [workerCost, workerAfterRequest, optCost] at this ⊢; omega
  | hash r d h0 hr hw =>
    right
    have := key (.request (some (S.hash d))) (c.up r) (c.down r) h0 hr (upd c.worker r (.request (some (S.hash d)))) c.up c.down
      (fun s he => ⟨upd_other _ _ he, rfl, rfl⟩) (upd_same _ _ _) rfl rfl
    rw [hw] at this
    simp only [hashCost]
    simp only [workerCost] at this ⊢
    omega
  | request hashes hm =>
    right
    have h1 := dirsCost_next S c.dirs
    simp only [hashCost, hm]
    cases hn : (nextDir c.dirs).1 with
    | none => rw [hn] at h1; simp only [masterAfterRequest, masterCost, contCost] at h1 ⊢; omega
    | some d => rw [hn] at h1; simp only [masterAfterRequest, masterCost] at h1 ⊢; omega
  | poll d n hm =>
    right
    simp only [hashCost, hm, masterCost, contCost]; omega
  | hash0 d hm =>
    right
    simp only [hashCost, hm, masterCost]; omega
  | probe k source hashes h0 hr hm hu =>
    right
    have h1 := dirsCost_next S c.dirs
    have := key (c.worker source) none (c.down source) h0 hr c.worker (upd c.up source none) c.down
      (fun s he => ⟨rfl, upd_other _ _ he, rfl⟩) rfl (upd_same _ _ _) rfl
    rw [hu] at this
    simp only [hashCost, hm]
    simp only [workerCost] at this ⊢
    cases hn : (nextDir c.dirs).1 with
    | none => rw [hn] at h1; simp only [masterCost, show optCost (none : Option D) = 0 from rfl] at h1 ⊢; omega
    | some d => rw [hn] at h1; simp only [masterCost, show optCost (some d) = 7 from rfl] at h1 ⊢; omega
  | leave k hm =>
    cases k with
    | hashing d n =>
      right
      simp only [hashCost, hm, masterAfterProbing, masterCost, contCost]; omega
    | draining =>
      by_cases hl : c.num_finished < S.P - 1
      · left
        simp only [masterAfterProbing, if_pos hl]
        rw [← hm]
      · right
        simp only [hashCost, hm, masterAfterProbing, if_neg hl, masterCost, contCost]; omega
  | reply source nd k hm =>
    right
    have h1 := hi.master
    unfold MasterInv at h1
    rw [hm] at h1
    have h2 : c.down source = none := by
      have hwi := hi.worker source h1.1 h1.2.1
      have hnr : ¬ notReplying c.master source := fun h => h _ _ hm
      cases hc : c.worker source with
      | sending =>
        rw [hc] at hwi
        rcases hwi with h | h | h
        · exact absurd h.2.2 hnr
        · exact h.2.1
        · exact absurd h.2.2 hnr
      | receiving =>
        rw [hc] at hwi
        rcases hwi with h | h | h
        · exact absurd h.2.2 hnr
        · exact h.2.1
        · exact absurd h.2.2 hnr
      | _ => rw [hc] at hwi; exact hwi.2.1
    have := key (c.worker source) (c.up source) (some nd) h1.1 h1.2.1 c.worker c.up (upd c.down source (some nd))
      (fun s he => ⟨rfl, rfl, upd_other _ _ he⟩) rfl rfl (upd_same _ _ _)
    rw [h2] at this
    simp only [hashCost, hm]
    simp only [workerCost, masterCost] at this ⊢
    omega
  | replied source nd k hm _ =>
    right
    simp only [hashCost, hm, masterCost]; omega

theorem exists_not_told {S : HashSys D H σ} {dirs : List D} {store : σ} {c : HashState D H σ} (hi : HashInv S dirs store c) (hp : c.num_finished < S.P - 1) :
    ∃ r, 0 < r ∧ r < S.P ∧ told c r = 0 := by
  by_contra hc
  have h1 : wsum S.P (told c) = wsum S.P (fun _ => 1) := by
    refine wsum_congr (fun r h0 hr => ?_)
    have h2 : told c r ≠ 0 := fun h => hc ⟨r, h0, hr, h⟩
    have h3 : told c r ≤ 1 := ind_le _
    omega
  have h4 : ∀ n, pre (fun _ => 1) n = n := by
    intro n
    induction n with
    | zero => rfl
    | succ n ih => rw [pre_succ, ih]
  rw [hi.finished, h1] at hp
  unfold wsum at hp
  rw [h4] at hp
  omega

/-- If a reply is on the way to a rank, this rank can move even if `comm.send` waits for the receiver. -/
theorem worker_moves {S : HashSys D H σ} {dirs : List D} {store : σ} {c : HashState D H σ} (hi : HashInv S dirs store c) {r : Nat} (h0 : 0 < r) (hr : r < S.P)
    (hd : c.down r ≠ none) : ∃ c', HashStep S true c c' ∧ c' ≠ c := by
  obtain ⟨nd, hnd⟩ := Option.ne_none_iff_exists'.1 hd
  have hwi := hi.worker r h0 hr
  cases hc : c.worker r with
  | sending =>
    rw [hc] at hwi
    rcases hwi with h | h | h
    · exact absurd h.2.1 hd
    · exact absurd h.2.1 hd
    · refine ⟨_, .sent c r h0 hr hc (fun _ => h.1), fun he => ?_⟩
      have := congrArg (fun c => c.worker r) he
      simp only [upd_same, hc] at this
      cases this
  | receiving =>
    refine ⟨_, .recv c r nd h0 hr hc hnd, fun he => ?_⟩
    have := congrArg (fun c => c.worker r) he
    simp only [upd_same, hc] at this
    cases nd <;> cases this
  | _ => rw [hc] at hwi; exact absurd hwi.2.1 hd

theorem hash_progress {S : HashSys D H σ} {dirs : List D} {store : σ} {c : HashState D H σ} (hi : HashInv S dirs store c) (hnd : ¬ HashDone S c) :
    ∃ c', HashStep S true c c' ∧ c' ≠ c := by
  have hmi := hi.master
  unfold MasterInv at hmi
  cases hm : c.master with
  | request hashes =>
    refine ⟨_, .request c hashes hm, fun he => ?_⟩
    have := congrArg HashState.master he
    simp only [hm] at this
    cases hn : (nextDir c.dirs).1 with
    | none => rw [hn] at this; cases this
    | some d => rw [hn] at this; cases this
  | hashing d n =>
    cases n with
    | zero =>
      refine ⟨_, .hash0 c d hm, fun he => ?_⟩
      have := congrArg HashState.master he
      simp only [hm] at this
      cases this
    | succ n =>
      refine ⟨_, .poll c d n hm, fun he => ?_⟩
      have := congrArg HashState.master he
      simp only [hm] at this
      cases this
  | probing k =>
    cases k with
    | hashing d n =>
      refine ⟨_, .leave c _ hm, fun he => ?_⟩
      have := congrArg HashState.master he
      simp only [hm] at this
      cases this
    | draining =>
      by_cases hl : c.num_finished < S.P - 1
      · obtain ⟨r, h0, hr, ht⟩ := exists_not_told hi hl
        have hwi := hi.worker r h0 hr
        have hnr : notReplying c.master r := fun _ _ h => by rw [hm] at h; cases h
        have hnt : ¬ (c.worker r = .finished ∨ c.down r = some none) := fun h => by
          unfold told at ht
          rw [ind_true ⟨h, fun k h' => by rw [hm] at h'; cases h'⟩] at ht
          cases ht
        by_cases hd : c.down r = none
        · have hup : ∀ hashes, c.up r = some hashes → ∃ c', HashStep S true c c' ∧ c' ≠ c := fun hashes hu => by
            refine ⟨_, .probe c _ r hashes h0 hr hm hu, fun he => ?_⟩
            have := congrArg HashState.master he
            simp only [hm] at this
            cases this
          cases hc : c.worker r with
          | request hashes =>
            refine ⟨_, .send c r hashes h0 hr hc, fun he => ?_⟩
            have := congrArg (fun c => c.worker r) he
            simp only [upd_same, hc] at this
            cases this
          | sending =>
            rw [hc] at hwi
            rcases hwi with h | h | h
            · obtain ⟨hashes, hu⟩ := Option.ne_none_iff_exists'.1 h.1
              exact hup hashes hu
            · exact absurd hnr h.2.2
            · exact absurd hd h.2.1
          | receiving =>
            rw [hc] at hwi
            rcases hwi with h | h | h
            · obtain ⟨hashes, hu⟩ := Option.ne_none_iff_exists'.1 h.1
              exact hup hashes hu
            · exact absurd hnr h.2.2
            · exact absurd hd h.2.1
          | hashing d =>
            refine ⟨_, .hash c r d h0 hr hc, fun he => ?_⟩
            have := congrArg (fun c => c.worker r) he
            simp only [upd_same, hc] at this
            cases this
          | finished => exact absurd (Or.inl hc) hnt
        · exact worker_moves hi h0 hr hd
      · refine ⟨_, .leave c _ hm, fun he => ?_⟩
        have := congrArg HashState.master he
        simp only [hm, masterAfterProbing, if_neg hl] at this
        cases this
  | replying s nd k =>
    refine ⟨_, .reply c s nd k hm, fun he => ?_⟩
    have := congrArg HashState.master he
    simp only [hm] at this
    cases this
  | sending s nd k =>
    rw [hm] at hmi
    by_cases hd : c.down s = none
    · refine ⟨_, .replied c s nd k hm (fun _ => hd), fun he => ?_⟩
      have := congrArg HashState.master he
      simp only [hm] at this
      cases this
    · exact worker_moves hi hmi.1 hmi.2.1 hd
  | finished =>
    rw [hm] at hmi
    have h1 : ∃ r, 0 < r ∧ r < S.P ∧ c.worker r ≠ .finished := by
      by_contra hc
      exact hnd ⟨hm, fun r h0 hr => by
        by_contra hw
        exact hc ⟨r, h0, hr, hw⟩⟩
    obtain ⟨r, h0, hr, hw⟩ := h1
    rcases all_told hi hmi.2 r h0 hr with h | h
    · exact absurd h hw
    · exact worker_moves hi h0 hr (by rw [h]; exact Option.some_ne_none _)

/-- A step with `comm.send` waiting for the receiver is also a step without this condition. -/
theorem step_of_sync {S : HashSys D H σ} {sync : Bool} {c c' : HashState D H σ} (h : HashStep S true c c') : HashStep S sync c c' := by
  cases h with
  | send r hashes h0 hr hw => exact .send c r hashes h0 hr hw
  | sent r h0 hr hw hs => exact .sent c r h0 hr hw (fun _ => hs rfl)
  | recv r nd h0 hr hw hm => exact .recv c r nd h0 hr hw hm
  | hash r d h0 hr hw => exact .hash c r d h0 hr hw
  | request hashes hm => exact .request c hashes hm
  | poll d n hm => exact .poll c d n hm
  | hash0 d hm => exact .hash0 c d hm
  | probe k source hashes h0 hr hm hu => exact .probe c k source hashes h0 hr hm hu
  | leave k hm => exact .leave c k hm
  | reply source nd k hm => exact .reply c source nd k hm
  | replied source nd k hm hs => exact .replied c source nd k hm (fun _ => hs rfl)

theorem reach_of_run {S : HashSys D H σ} {sync : Bool} {dirs : List D} {store : σ} {n : Nat} {c : HashState D H σ} (h : HashRun S sync dirs store n c) :
    HashReach S sync dirs store c := by
  induction h with
  | start => exact .start
  | idle n c _ _ ih => exact ih
  | step n c c' _ hs _ ih => exact .step c c' ih hs

theorem run_bound {S : HashSys D H σ} (hS : ∀ s, S.storeHashes s none = s) {sync : Bool} {dirs : List D} {store : σ} {n : Nat} {c : HashState D H σ}
    (h : HashRun S sync dirs store n c) : n + hashCost S c ≤ hashCost S (hashStart (H := H) dirs store) := by
  induction h with
  | start => omega
  | idle n c _ _ ih => exact ih
  | step n c c' hr hs hne ih =>
    rcases step_cost (inv_reach hS (reach_of_run hr)) hs with h | h
    · exact absurd h hne
    · omega

theorem start_cost (S : HashSys D H σ) (dirs : List D) (store : σ) :
    hashCost S (hashStart (H := H) dirs store) = (dirs.map (fun d => 7 + 2 * S.polls d)).sum + 2 + 6 * (S.P - 1) := by
  have h4 : ∀ n, pre (fun _ => 6) n = 6 * n := by
    intro n
    induction n with
    | zero => rfl
    | succ n ih => rw [pre_succ, ih]; omega
  have h5 : wsum S.P (fun r => workerCost ((hashStart (H := H) dirs store).worker r) ((hashStart (H := H) dirs store).up r) ((hashStart (H := H) dirs store).down r)) = 6 * (S.P - 1) := h4 _
  unfold hashCost
  rw [h5]
  rfl

end

end Verif
