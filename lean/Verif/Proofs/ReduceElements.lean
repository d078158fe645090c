import Verif.Model.ReduceElements
import Verif.Proofs.FetchElements
import Verif.Proofs.ParallelUnique

set_option linter.unusedSectionVars false

namespace Verif

variable {α β : Type*}

theorem zip_gcat {P : Nat} {a : Nat → List α} {b : Nat → List β} (h : ∀ p < P, (a p).length = (b p).length) :
    (gcat P a).zip (gcat P b) = gcat P (fun p => (a p).zip (b p)) := by
  induction P with
  | zero => rfl
  | succ P ih =>
    rw [gcat_succ, gcat_succ, gcat_succ, List.zip_append, ih (fun p hp => h p (by omega))]
    rw [length_gcat, length_gcat]
    exact pre_congr (fun i hi => h i (by omega))

theorem zip_slice (a : List α) (b : List β) (o n : Nat) : (slice a o n).zip (slice b o n) = slice (a.zip b) o n := by
  unfold slice List.zip
  rw [List.drop_zipWith, List.take_zipWith]

theorem zip_fancy_perm [Inhabited α] [Inhabited β] {a : List α} {b : List β} (hl : a.length = b.length) {order : List Nat}
    (ho : order.Perm (List.range a.length)) : ((fancy a order).zip (fancy b order)).Perm (a.zip b) := by
  have h1 : (fancy a order).zip (fancy b order) = order.map (fun i => (a.getD i default, b.getD i default)) := by
    unfold fancy
    rw [List.zip_map']
  have h2 : (List.range a.length).map (fun i => (a.getD i default, b.getD i default)) = a.zip b := by
    apply List.ext_getElem?
    intro i
    rw [List.getElem?_map]
    by_cases hi : i < a.length
    · have hi' : i < b.length := by omega
      simp [hi, List.getElem?_zip_eq_some, hi']
    · rw [List.getElem?_eq_none (by simpa using hi), List.getElem?_eq_none (by simp; omega)]
      rfl
  rw [h1, ← h2]
  exact ho.map _

/-- Updates for position `k`, in order. -/
def upsFor (ups : List (Int × α)) (k : Int) : List α := (ups.filter (fun e => decide (e.1 = k))).map Prod.snd

theorem applyUpdates_ok {op : α → α → α} {ufunc : Bool} (hc : ufunc = false → ∀ a b, op a b = op b a) :
    ∀ (ups : List (Int × α)) (arr : List α), (∀ e ∈ ups, 0 ≤ e.1 ∧ e.1 < arr.length) →
      applyUpdates op ufunc arr ups = .ok (arr.mapIdx (fun k a => (upsFor ups k).foldl op a)) := by
  intro ups
  induction ups with
  | nil =>
    intro arr _
    simp [applyUpdates, upsFor]
    apply List.ext_getElem?
    intro i
    simp
  | cons e ups ih =>
    intro arr h
    obtain ⟨j, u⟩ := e
    have hj := h (j, u) (by simp)
    simp only at hj
    have hidx : pyIdx? arr.length j = some j.toNat := by
      unfold pyIdx?
      rw [if_pos hj.1, if_pos (by omega)]
    have hop : (fun a => if ufunc = true then op a u else op u a) = fun a => op a u := by
      funext a
      cases ufunc
      · simp [hc rfl a u]
      · rfl
    rw [applyUpdates, hidx]
    simp only
    rw [hop, ih]
    · congr 1
      apply List.ext_getElem?
      intro i
      rw [List.getElem?_mapIdx, List.getElem?_mapIdx, List.getElem?_modify]
      cases harr : arr[i]? with
      | none => rfl
      | some a =>
        simp only [Option.map_some, Option.map_eq_map]
        congr 1
        by_cases hij : j.toNat = i
        · have : j = (i : Int) := by omega
          simp [upsFor, this]
        · have : ¬ j = (i : Int) := by omega
          simp [upsFor, this, hij]
    · intro e he
      rw [List.length_modify]
      exact h e (by simp [he])

theorem applyUpdates_err {op : α → α → α} {ufunc : Bool} :
    ∀ (ups : List (Int × α)) (arr : List α), (∃ e ∈ ups, (arr.length : Int) ≤ e.1) →
      (applyUpdates op ufunc arr ups).toOption = none := by
  intro ups
  induction ups with
  | nil => intro arr h; simp at h
  | cons e ups ih =>
    obtain ⟨j, u⟩ := e
    intro arr h
    rw [applyUpdates]
    cases hidx : pyIdx? arr.length j with
    | none => rfl
    | some k =>
      simp only
      apply ih
      obtain ⟨e, he, hle⟩ := h
      rcases List.mem_cons.1 he with rfl | he
      · exfalso
        unfold pyIdx? at hidx
        simp only at hle
        rw [if_pos (by omega), if_neg (by omega)] at hidx
        simp at hidx
      · exact ⟨e, he, by rw [List.length_modify]; exact hle⟩

/-- The counts of `reduce_elements` are those of `fetch_elements`. -/
theorem reduceSendCount_eq {P : Nat} {n : Nat → Nat} {l : List Int} (hl : Sorted l) {p : Nat} :
    reduceSendCount P (pre n) l p = fetchSendCount P (pre n) l p := by
  unfold reduceSendCount fetchSendCount
  have hm : ssLeft l (pre n p : Int) ≤ ssLeft l (pre n (p + 1) : Int) :=
    ssLeft_mono hl (by exact_mod_cast pre_mono n (by omega))
  have := ssLeft_le_length hl (pre n p : Int)
  simp only
  split <;> omega

/-- Sum of the counts (any indexes): everything except what is below the first rank. -/
theorem pre_reduceSendCount {P : Nat} {n : Nat → Nat} {l : List Int} (hl : Sorted l) :
    ∀ p < P, pre (reduceSendCount P (pre n) l) p + ssLeft l 0 = ssLeft l (pre n p : Int) := by
  intro p
  induction p with
  | zero => intro _; simp
  | succ p ih =>
    intro hp
    have hm : ssLeft l (pre n p : Int) ≤ ssLeft l (pre n (p + 1) : Int) :=
      ssLeft_mono hl (by exact_mod_cast pre_mono n (by omega))
    rw [pre_succ]
    have := ih (by omega)
    unfold reduceSendCount at *
    simp only at *
    rw [if_pos hp]
    omega

theorem pre_reduceSendCount_total {P : Nat} (hP : 0 < P) {n : Nat → Nat} {l : List Int} (hl : Sorted l) :
    pre (reduceSendCount P (pre n) l) P + ssLeft l 0 = l.length := by
  have h := pre_reduceSendCount (n := n) hl (P - 1) (P := P) (by omega)
  have hP' : P = P - 1 + 1 := by omega
  have h2 : pre (reduceSendCount P (pre n) l) P
      = pre (reduceSendCount P (pre n) l) (P - 1) + reduceSendCount P (pre n) l (P - 1) := by
    rw [← pre_succ, ← hP']
  have h3 : reduceSendCount P (pre n) l (P - 1) = l.length - ssLeft l (pre n (P - 1) : Int) := by
    unfold reduceSendCount
    simp only
    rw [if_neg (by omega)]
  have := ssLeft_le_length hl (pre n (P - 1) : Int)
  omega

/-- Entries of a sorted list with a key in the range of a rank are all in its block. -/
theorem filter_block {Z : List (Int × α)} (hZ : Sorted (Z.map Prod.fst)) {lo hi j : Int} (h1 : lo ≤ j) (h2 : j < hi) :
    (slice Z (ssLeft (Z.map Prod.fst) lo) (ssLeft (Z.map Prod.fst) hi - ssLeft (Z.map Prod.fst) lo)).filter
      (fun e => decide (e.1 = j)) = Z.filter (fun e => decide (e.1 = j)) := by
  have hm : ssLeft (Z.map Prod.fst) lo ≤ ssLeft (Z.map Prod.fst) hi := ssLeft_mono hZ (by omega)
  have hlen := ssLeft_le_length hZ hi
  generalize ha : ssLeft (Z.map Prod.fst) lo = a at *
  generalize hb : ssLeft (Z.map Prod.fst) hi = b at *
  have hsplit : Z = Z.take a ++ slice Z a (b - a) ++ Z.drop b := by
    unfold slice
    have : Z.drop b = (Z.drop a).drop (b - a) := by rw [List.drop_drop]; congr 1; omega
    rw [this, List.append_assoc, List.take_append_drop, List.take_append_drop]
  conv_rhs => rw [hsplit]
  rw [List.filter_append, List.filter_append]
  have hA : (Z.take a).filter (fun e => decide (e.1 = j)) = [] := by
    rw [List.filter_eq_nil_iff]
    intro e he
    obtain ⟨i, hi⟩ := List.mem_iff_getElem?.1 he
    rw [List.getElem?_take] at hi
    split at hi
    · have := (lt_iff_lt_ssLeft hZ (v := lo) (i := i) (x := e.1) (by simp [hi])).2 (by omega)
      simp; omega
    · simp at hi
  have hB : (Z.drop b).filter (fun e => decide (e.1 = j)) = [] := by
    rw [List.filter_eq_nil_iff]
    intro e he
    obtain ⟨i, hi'⟩ := List.mem_iff_getElem?.1 he
    rw [List.getElem?_drop] at hi'
    have := (lt_iff_lt_ssLeft hZ (v := hi) (i := b + i) (x := e.1) (by simp [hi']))
    have : ¬ e.1 < hi := fun h => by have := this.1 h; omega
    simp; omega
  rw [hA, hB, List.nil_append, List.append_nil]

theorem filter_gcat (f : α → Bool) (P : Nat) (a : Nat → List α) :
    (gcat P a).filter f = gcat P (fun p => (a p).filter f) := by
  induction P with
  | zero => rfl
  | succ P ih => rw [gcat_succ, gcat_succ, List.filter_append, ih]

theorem foldl_perm {op : α → α → α} (h : ∀ a u v, op (op a u) v = op (op a v) u) {l₁ l₂ : List α} (hp : l₁.Perm l₂) :
    ∀ a, l₁.foldl op a = l₂.foldl op a := by
  induction hp with
  | nil => intro a; rfl
  | cons x _ ih => intro a; exact ih _
  | swap x y l => intro a; simp only [List.foldl_cons]; rw [h]
  | trans _ _ ih1 ih2 => intro a; rw [ih1, ih2]

section
variable [Inhabited α] {P : Nat} {op : α → α → α} {ufunc : Bool} {order : Nat → List Nat}
  {arr updates : Nat → List α} {index : Nat → List Int}

theorem reduceElements_ok (hP : 0 < P)
    (hc : ufunc = false → ∀ a b, op a b = op b a) (hop : ∀ a u v, op (op a u) v = op (op a v) u)
    (hord : ∀ me < P, IsArgsort (index me) (order me))
    (hl : ∀ me < P, (index me).length = (updates me).length)
    (hin : ∀ me < P, ∀ i ∈ index me, 0 ≤ i ∧ i < (pre (sizes arr) P : Int)) :
    ∃ out, reduceElements P op ufunc order arr updates index = .ok out ∧
      ∀ p < P, out p = (arr p).mapIdx (fun k a =>
        (upsFor (gcat P (fun q => (index q).zip (updates q))) ((pre (sizes arr) p + k : Nat) : Int)).foldl op a) := by
  let n := sizes arr
  let S : Nat → List Int := fun me => fancy (index me) (order me)
  let V : Nat → List α := fun me => fancy (updates me) (order me)
  let L : Nat → Nat → Nat := fun me p => ssLeft (S me) (pre n p : Int)
  have hS : ∀ me < P, Sorted (S me) := fun me hme => (hord me hme).2
  have hmem : ∀ me < P, ∀ x, x ∈ S me ↔ x ∈ index me := fun me hme x => mem_fancy_of_perm (hord me hme).1
  have hlo : ∀ me < P, ∀ x ∈ S me, 0 ≤ x := fun me hme x hx => (hin me hme x ((hmem me hme x).1 hx)).1
  have hhi : ∀ me < P, ∀ x ∈ S me, x < (pre n P : Int) :=
    fun me hme x hx => (hin me hme x ((hmem me hme x).1 hx)).2
  have hcnt : ∀ me < P, ∀ p < P, reduceSendCount P (pre n) (S me) p = L me (p + 1) - L me p :=
    fun me hme p hp => by rw [reduceSendCount_eq (hS me hme)]; exact fetchSendCount_eq (hS me hme) (hhi me hme) hp
  have hdis : ∀ me < P, ∀ p ≤ P, pre (fun p => reduceSendCount P (pre n) (S me) p) p = L me p := by
    intro me hme p hp
    refine Eq.trans ?_ (pre_fetchSendCount (hS me hme) (hlo me hme) (hhi me hme) hp)
    exact pre_congr (fun i _ => reduceSendCount_eq (hS me hme))
  have hLm : ∀ me < P, ∀ p, L me p ≤ L me (p + 1) := fun me hme p =>
    ssLeft_mono (hS me hme) (by exact_mod_cast pre_mono n (by omega))
  have hLlen : ∀ me < P, ∀ p, L me p ≤ (S me).length := fun me hme p => ssLeft_le_length (hS me hme) _
  have hSV : ∀ me, (S me).length = (V me).length := fun me => by simp [S, V]
  have hbound : ∀ s < P, ∀ d < P, L s d + (L s (d + 1) - L s d) ≤ (S s).length := by
    intro s hs d hd
    have := hLm s hs d; have := hLlen s hs (d + 1); omega
  have hidx : ∀ d < P, a2av P S (fun me p => reduceSendCount P (pre n) (S me) p)
      (fun me => pre (fun p => reduceSendCount P (pre n) (S me) p)) d
        = gcat P (fun me => slice (S me) (L me d) (L me (d + 1) - L me d)) := by
    intro d hd
    rw [a2av_eq]
    · apply gcat_congr
      intro me hme
      rw [hdis me hme d (by omega), hcnt me hme d hd]
    · intro me hme
      rw [hdis me hme d (by omega), hcnt me hme d hd]
      exact hbound me hme d hd
  have hupd : ∀ d < P, a2av P V (fun me p => reduceSendCount P (pre n) (S me) p)
      (fun me => pre (fun p => reduceSendCount P (pre n) (S me) p)) d
        = gcat P (fun me => slice (V me) (L me d) (L me (d + 1) - L me d)) := by
    intro d hd
    rw [a2av_eq]
    · apply gcat_congr
      intro me hme
      rw [hdis me hme d (by omega), hcnt me hme d hd]
    · intro me hme
      rw [hdis me hme d (by omega), hcnt me hme d hd, ← hSV]
      exact hbound me hme d hd
  have hblk : ∀ d < P, ∀ x ∈ gcat P (fun me => slice (S me) (L me d) (L me (d + 1) - L me d)),
      (pre n d : Int) ≤ x ∧ x < pre n (d + 1) := by
    intro d hd x hx
    obtain ⟨me, hme, hx⟩ := mem_gcat.1 hx
    exact mem_fetch_block (hS me hme) hx
  -- the three checks
  have hc1 : ∀ me < P, pre (fun p => reduceSendCount P (pre n) (S me) p) P = (S me).length := by
    intro me hme
    rw [hdis me hme P (Nat.le_refl _)]
    exact ssLeft_eq_length (hS me hme) (hhi me hme)
  have hlocal : ∀ d < P, ∀ i ∈ (gcat P (fun me => slice (S me) (L me d) (L me (d + 1) - L me d))).map
      (fun i => i - (pre n d : Int)), 0 ≤ i ∧ i < (arr d).length := by
    intro d hd i hi
    obtain ⟨x, hx, rfl⟩ := List.mem_map.1 hi
    have := hblk d hd x hx
    rw [pre_succ] at this
    have hn : n d = (arr d).length := rfl
    omega
  have hres : ∀ d < P, applyUpdates op ufunc (arr d)
      (((a2av P S (fun me p => reduceSendCount P (pre n) (S me) p)
        (fun me => pre (fun p => reduceSendCount P (pre n) (S me) p)) d).map (fun i => i - (pre n d : Int))).zip
        (a2av P V (fun me p => reduceSendCount P (pre n) (S me) p)
        (fun me => pre (fun p => reduceSendCount P (pre n) (S me) p)) d)) =
      .ok ((arr d).mapIdx (fun k a =>
        (upsFor (gcat P (fun q => (index q).zip (updates q))) ((pre (sizes arr) d + k : Nat) : Int)).foldl op a)) := by
    intro d hd
    rw [hidx d hd, hupd d hd]
    have hz : ((gcat P (fun me => slice (S me) (L me d) (L me (d + 1) - L me d))).map (fun i => i - (pre n d : Int))).zip
        (gcat P (fun me => slice (V me) (L me d) (L me (d + 1) - L me d))) =
        (gcat P (fun me => slice ((S me).zip (V me)) (L me d) (L me (d + 1) - L me d))).map
          (Prod.map (fun i => i - (pre n d : Int)) id) := by
      have h0 : (gcat P (fun me => slice (S me) (L me d) (L me (d + 1) - L me d))).zip
          (gcat P (fun me => slice (V me) (L me d) (L me (d + 1) - L me d))) =
          gcat P (fun me => slice ((S me).zip (V me)) (L me d) (L me (d + 1) - L me d)) := by
        rw [zip_gcat]
        · exact gcat_congr (fun me _ => zip_slice _ _ _ _)
        · intro me hme
          rw [length_slice, length_slice, hSV]
      rw [← h0, ← List.zip_map, List.map_id]
    rw [hz, applyUpdates_ok hc]
    · congr 1
      apply List.ext_getElem?
      intro k
      rw [List.getElem?_mapIdx, List.getElem?_mapIdx]
      by_cases hk : k < (arr d).length
      · rw [List.getElem?_eq_getElem hk]
        simp only [Option.map_some, Option.some.injEq]
        apply foldl_perm hop
        have h1 : upsFor ((gcat P (fun me => slice ((S me).zip (V me)) (L me d) (L me (d + 1) - L me d))).map
            (Prod.map (fun i => i - (pre n d : Int)) id)) (k : Int) =
            upsFor (gcat P (fun me => slice ((S me).zip (V me)) (L me d) (L me (d + 1) - L me d)))
              ((pre n d + k : Nat) : Int) := by
          unfold upsFor
          rw [List.filter_map, List.map_map]
          have : ((fun e : Int × α => decide (e.1 = (k : Int))) ∘ Prod.map (fun i => i - (pre n d : Int)) id) =
              fun e => decide (e.1 = ((pre n d + k : Nat) : Int)) := by
            funext e
            simp only [Function.comp, Prod.map, id]
            congr 1
            apply propext
            omega
          rw [this]
          congr 1
        rw [h1]
        unfold upsFor
        apply List.Perm.map
        rw [filter_gcat, filter_gcat]
        apply perm_gcat
        intro me hme
        have hfst : ((S me).zip (V me)).map Prod.fst = S me := List.map_fst_zip (by rw [hSV])
        have hfb := filter_block (Z := (S me).zip (V me)) (lo := (pre n d : Int)) (hi := (pre n (d + 1) : Int))
          (j := ((pre n d + k : Nat) : Int)) (by rw [hfst]; exact hS me hme) (by omega)
          (by rw [pre_succ]; have hn : n d = (arr d).length := rfl; omega)
        rw [hfst] at hfb
        rw [hfb]
        exact (zip_fancy_perm (hl me hme) (hord me hme).1).filter _
      · rw [List.getElem?_eq_none (by omega)]; rfl
    · intro e he
      obtain ⟨e', he', rfl⟩ := List.mem_map.1 he
      apply hlocal d hd
      rw [List.mem_map]
      refine ⟨e'.1, ?_, rfl⟩
      obtain ⟨me, hme, h⟩ := mem_gcat.1 he'
      rw [← zip_slice] at h
      exact mem_gcat.2 ⟨me, hme, (List.of_mem_zip h).1⟩
  have key : ∃ out, reduceElements P op ufunc order arr updates index = .ok out ∧
      ∀ d, out d = (applyUpdates op ufunc (arr d)
      (((a2av P S (fun me p => reduceSendCount P (pre n) (S me) p)
        (fun me => pre (fun p => reduceSendCount P (pre n) (S me) p)) d).map (fun i => i - (pre n d : Int))).zip
        (a2av P V (fun me p => reduceSendCount P (pre n) (S me) p)
        (fun me => pre (fun p => reduceSendCount P (pre n) (S me) p)) d))).toOption.getD [] := by
    unfold reduceElements
    rw [if_neg (not_not.2 hl)]
    simp only
    rw [if_neg (not_not.2 hc1), if_neg, if_pos]
    · exact ⟨_, rfl, fun _ => rfl⟩
    · intro d hd
      exact (congrArg (fun r => r.toOption.isSome) (hres d hd)).trans rfl
    · rw [not_not]
      intro d hd i hi
      have h := hlocal d hd i (by
        have h1 := hidx d hd
        exact (congrArg (fun l => i ∈ l.map (fun i => i - (pre n d : Int))) h1).mp hi)
      omega
  obtain ⟨out, h1, h2⟩ := key
  refine ⟨out, h1, fun d hd => ?_⟩
  rw [h2, hres d hd]; rfl

/-- Differing lengths of `index` and `updates`. -/
theorem reduceElements_lengths {me : Nat} (hme : me < P) (hl : (index me).length ≠ (updates me).length) :
    reduceElements P op ufunc order arr updates index = .error .abort := by
  unfold reduceElements
  rw [if_pos]
  intro h
  exact hl (h me hme)

/-- A negative index. -/
theorem reduceElements_negative (hord : ∀ me < P, IsArgsort (index me) (order me))
    (hl : ∀ me < P, (index me).length = (updates me).length) {me : Nat} (hme : me < P)
    (h : ∃ i ∈ index me, i < 0) :
    reduceElements P op ufunc order arr updates index = .error .assertion := by
  unfold reduceElements
  rw [if_neg (not_not.2 hl)]
  simp only
  rw [if_pos]
  intro hall
  have h1 := hall me hme
  have h2 := pre_reduceSendCount_total (P := P) (by omega) (n := sizes arr) (hord me hme).2
  have h3 : 0 < ssLeft (fancy (index me) (order me)) 0 := by
    rw [ssLeft_eq (hord me hme).2, List.countP_pos_iff]
    obtain ⟨i, hi, hneg⟩ := h
    exact ⟨i, (mem_fancy_of_perm (hord me hme).1).2 hi, by simpa using hneg⟩
  have h4 : pre (fun p => reduceSendCount P (pre (sizes arr)) (fancy (index me) (order me)) p) P =
    pre (reduceSendCount P (pre (sizes arr)) (fancy (index me) (order me))) P := rfl
  omega

/-- An index which is too large. -/
theorem reduceElements_too_large (hord : ∀ me < P, IsArgsort (index me) (order me))
    (hl : ∀ me < P, (index me).length = (updates me).length) (h0 : ∀ me < P, ∀ i ∈ index me, 0 ≤ i)
    {me : Nat} (hme : me < P) (h : ∃ i ∈ index me, (pre (sizes arr) P : Int) ≤ i) :
    ∃ e, reduceElements P op ufunc order arr updates index = .error e := by
  let n := sizes arr
  let S : Nat → List Int := fun me => fancy (index me) (order me)
  let V : Nat → List α := fun me => fancy (updates me) (order me)
  have hS : ∀ me < P, Sorted (S me) := fun me hme => (hord me hme).2
  have hSV : ∀ me, (S me).length = (V me).length := fun me => by simp [S, V]
  have hmem : ∀ me < P, ∀ x, x ∈ S me ↔ x ∈ index me := fun me hme x => mem_fancy_of_perm (hord me hme).1
  have hz : ∀ me < P, ssLeft (S me) 0 = 0 := fun me hme =>
    ssLeft_eq_zero (hS me hme) (fun x hx => h0 me hme x ((hmem me hme x).1 hx))
  obtain ⟨x, hx, hbig⟩ := h
  unfold reduceElements
  rw [if_neg (not_not.2 hl)]
  simp only
  split
  · exact ⟨_, rfl⟩
  split
  · exact ⟨_, rfl⟩
  rw [if_neg]
  · exact ⟨_, rfl⟩
  intro hall
  have hcnt : ∀ s < P, reduceSendCount P (pre n) (S s) (P - 1) = (S s).length - ssLeft (S s) (pre n (P - 1) : Int) := by
    intro s hs
    unfold reduceSendCount
    simp only
    rw [if_neg (by omega)]
  have hdis : ∀ s < P, pre (fun p => reduceSendCount P (pre n) (S s) p) (P - 1) = ssLeft (S s) (pre n (P - 1) : Int) := by
    intro s hs
    have := pre_reduceSendCount (n := n) (hS s hs) (P - 1) (P := P) (by omega)
    rw [hz s hs] at this
    exact this
  have hidx : a2av P S (fun me p => reduceSendCount P (pre n) (S me) p)
      (fun me => pre (fun p => reduceSendCount P (pre n) (S me) p)) (P - 1)
        = gcat P (fun s => slice (S s) (ssLeft (S s) (pre n (P - 1) : Int))
            ((S s).length - ssLeft (S s) (pre n (P - 1) : Int))) := by
    rw [a2av_eq]
    · apply gcat_congr
      intro s hs
      rw [hdis s hs, hcnt s hs]
    · intro s hs
      rw [hdis s hs, hcnt s hs]
      have := ssLeft_le_length (hS s hs) (pre n (P - 1) : Int)
      omega
  have hupd : a2av P V (fun me p => reduceSendCount P (pre n) (S me) p)
      (fun me => pre (fun p => reduceSendCount P (pre n) (S me) p)) (P - 1)
        = gcat P (fun s => slice (V s) (ssLeft (S s) (pre n (P - 1) : Int))
            ((S s).length - ssLeft (S s) (pre n (P - 1) : Int))) := by
    rw [a2av_eq]
    · apply gcat_congr
      intro s hs
      rw [hdis s hs, hcnt s hs]
    · intro s hs
      rw [hdis s hs, hcnt s hs, ← hSV]
      have := ssLeft_le_length (hS s hs) (pre n (P - 1) : Int)
      omega
  have hlast := hall (P - 1) (by omega)
  have htot : pre n P = pre n (P - 1) + n (P - 1) := by
    rw [← pre_succ]; congr 1; omega
  have hxin : x ∈ gcat P (fun s => slice (S s) (ssLeft (S s) (pre n (P - 1) : Int))
            ((S s).length - ssLeft (S s) (pre n (P - 1) : Int))) := by
    rw [mem_gcat]
    refine ⟨me, hme, ?_⟩
    obtain ⟨i, hi⟩ := List.mem_iff_getElem?.1 ((hmem me hme x).2 hx)
    have hil := (List.getElem?_eq_some_iff.1 hi).1
    have hge : ssLeft (S me) (pre n (P - 1) : Int) ≤ i := by
      by_contra hc
      have := (lt_iff_lt_ssLeft (hS me hme) (v := (pre n (P - 1) : Int)) hi).2 (by omega)
      have hb : (pre n P : Int) ≤ x := hbig
      omega
    apply List.mem_iff_getElem?.2
    refine ⟨i - ssLeft (S me) (pre n (P - 1) : Int), ?_⟩
    rw [getElem?_slice, if_pos (by omega), ← hi]
    congr 1; omega
  have hnone := applyUpdates_err (op := op) (ufunc := ufunc) (((gcat P (fun s => slice (S s) (ssLeft (S s) (pre n (P - 1) : Int))
            ((S s).length - ssLeft (S s) (pre n (P - 1) : Int)))).map (fun i => i - (pre n (P - 1) : Int))).zip
        (gcat P (fun s => slice (V s) (ssLeft (S s) (pre n (P - 1) : Int))
            ((S s).length - ssLeft (S s) (pre n (P - 1) : Int))))) (arr (P - 1)) (by
    obtain ⟨i, hi⟩ := List.mem_iff_getElem?.1 hxin
    have hlen : (gcat P (fun s => slice (S s) (ssLeft (S s) (pre n (P - 1) : Int))
            ((S s).length - ssLeft (S s) (pre n (P - 1) : Int)))).length =
        (gcat P (fun s => slice (V s) (ssLeft (S s) (pre n (P - 1) : Int))
            ((S s).length - ssLeft (S s) (pre n (P - 1) : Int)))).length := by
      rw [length_gcat, length_gcat]
      apply pre_congr
      intro s _
      simp only [sizes, length_slice, hSV]
    have hil := (List.getElem?_eq_some_iff.1 hi).1
    obtain ⟨v, hv⟩ : ∃ v, (gcat P (fun s => slice (V s) (ssLeft (S s) (pre n (P - 1) : Int))
            ((S s).length - ssLeft (S s) (pre n (P - 1) : Int))))[i]? = some v :=
      ⟨_, List.getElem?_eq_getElem (by omega)⟩
    refine ⟨(x - (pre n (P - 1) : Int), v), List.mem_iff_getElem?.2 ⟨i, ?_⟩, ?_⟩
    · rw [List.getElem?_zip_eq_some]
      exact ⟨by rw [List.getElem?_map, hi]; rfl, hv⟩
    · have hb : (pre n P : Int) ≤ x := hbig
      have hn : n (P - 1) = (arr (P - 1)).length := rfl
      simp only
      omega)
  rw [← hidx, ← hupd] at hnone
  have hlast' := (congrArg Option.isSome hnone).symm.trans hlast
  simp at hlast'
end

end Verif
