import Verif.Proofs.ReduceElements

set_option linter.unusedSectionVars false

namespace Verif

variable {α : Type*}

/-- Applying a MPI operator is applying the operator with its arguments exchanged. -/
theorem applyUpdates_flip {op : α → α → α} {ufunc : Bool} : ∀ (ups : List (Int × α)) (arr : List α),
    applyUpdates op ufunc arr ups = applyUpdates (fun a u => if ufunc then op a u else op u a) true arr ups := by
  intro ups
  induction ups with
  | nil => intro arr; rfl
  | cons e ups ih =>
    intro arr
    obtain ⟨j, u⟩ := e
    rw [applyUpdates, applyUpdates]
    cases pyIdx? arr.length j with
    | none => rfl
    | some k => exact ih _

section
variable [Inhabited α] {P : Nat} {op : α → α → α} {ufunc : Bool} {order : Nat → List Nat}
  {arr updates : Nat → List α} {index : Nat → List Int}

theorem reduceElements_flip : reduceElements P op ufunc order arr updates index =
    reduceElements P (fun a u => if ufunc then op a u else op u a) true order arr updates index := by
  unfold reduceElements
  simp only [applyUpdates_flip (op := op) (ufunc := ufunc)]

/-- Like `reduceElements_ok`, for any operator: the updates are applied in the order of the ranks. -/
theorem reduceElements_order
    (hord : ∀ me < P, IsArgsort (index me) (order me))
    (hl : ∀ me < P, (index me).length = (updates me).length)
    (hin : ∀ me < P, ∀ i ∈ index me, 0 ≤ i ∧ i < (pre (sizes arr) P : Int)) :
    ∃ out, reduceElements P op true order arr updates index = .ok out ∧
      ∀ p < P, out p = (arr p).mapIdx (fun k a =>
        (upsFor (gcat P (fun q => (fancy (index q) (order q)).zip (fancy (updates q) (order q)))) ((pre (sizes arr) p + k : Nat) : Int)).foldl op a) := by
  let n := sizes arr
  let S : Nat → List Int := fun me => fancy (index me) (order me)
  let V : Nat → List α := fun me => fancy (updates me) (order me)
  let L : Nat → Nat → Nat := fun me p => ssLeft (S me) (pre n p : Int)
  have hS : ∀ me < P, Sorted (S me) := fun me hme => (hord me hme).2
  have hmem : ∀ me < P, ∀ x, x ∈ S me ↔ x ∈ index me := fun me hme x => mem_fancy_of_perm (hord me hme).1
  have hlo : ∀ me < P, ∀ x ∈ S me, 0 ≤ x := fun me hme x hx => (hin me hme x ((hmem me hme x).1 hx)).1
  have hhi : ∀ me < P, ∀ x ∈ S me, x < (pre n P : Int) :=
    fun me hme x hx => (hin me hme x ((hmem me hme x).1 hx)).2
  have hcnt : ∀ me < P, ∀ p < P, reduceSendCount P (pre n) (S me) p = L me (p + 1) - L me p :=
    fun me hme p hp => by rw [reduceSendCount_eq (hS me hme)]; exact fetchSendCount_eq (hS me hme) (hhi me hme) hp
  have hdis : ∀ me < P, ∀ p ≤ P, pre (fun p => reduceSendCount P (pre n) (S me) p) p = L me p := by
    intro me hme p hp
    refine Eq.trans ?_ (pre_fetchSendCount (hS me hme) (hlo me hme) (hhi me hme) hp)
    exact pre_congr (fun i _ => reduceSendCount_eq (hS me hme))
  have hLm : ∀ me < P, ∀ p, L me p ≤ L me (p + 1) := fun me hme p =>
    ssLeft_mono (hS me hme) (by exact_mod_cast pre_mono n (by omega))
  have hLlen : ∀ me < P, ∀ p, L me p ≤ (S me).length := fun me hme p => ssLeft_le_length (hS me hme) _
  have hSV : ∀ me, (S me).length = (V me).length := fun me => by simp [S, V]
  have hbound : ∀ s < P, ∀ d < P, L s d + (L s (d + 1) - L s d) ≤ (S s).length := by
    intro s hs d hd
    have := hLm s hs d; have := hLlen s hs (d + 1); omega
  have hidx : ∀ d < P, a2av P S (fun me p => reduceSendCount P (pre n) (S me) p)
      (fun me => pre (fun p => reduceSendCount P (pre n) (S me) p)) d
        = gcat P (fun me => slice (S me) (L me d) (L me (d + 1) - L me d)) := by
    intro d hd
    rw [a2av_eq]
    · apply gcat_congr
      intro me hme
      rw [hdis me hme d (by omega), hcnt me hme d hd]
    · intro me hme
      rw [hdis me hme d (by omega), hcnt me hme d hd]
      exact hbound me hme d hd
  have hupd : ∀ d < P, a2av P V (fun me p => reduceSendCount P (pre n) (S me) p)
      (fun me => pre (fun p => reduceSendCount P (pre n) (S me) p)) d
        = gcat P (fun me => slice (V me) (L me d) (L me (d + 1) - L me d)) := by
    intro d hd
    rw [a2av_eq]
    · apply gcat_congr
      intro me hme
      rw [hdis me hme d (by omega), hcnt me hme d hd]
    · intro me hme
      rw [hdis me hme d (by omega), hcnt me hme d hd, ← hSV]
      exact hbound me hme d hd
  have hblk : ∀ d < P, ∀ x ∈ gcat P (fun me => slice (S me) (L me d) (L me (d + 1) - L me d)),
      (pre n d : Int) ≤ x ∧ x < pre n (d + 1) := by
    intro d hd x hx
    obtain ⟨me, hme, hx⟩ := mem_gcat.1 hx
    exact mem_fetch_block (hS me hme) hx
  -- the three checks
  have hc1 : ∀ me < P, pre (fun p => reduceSendCount P (pre n) (S me) p) P = (S me).length := by
    intro me hme
    rw [hdis me hme P (Nat.le_refl _)]
    exact ssLeft_eq_length (hS me hme) (hhi me hme)
  have hlocal : ∀ d < P, ∀ i ∈ (gcat P (fun me => slice (S me) (L me d) (L me (d + 1) - L me d))).map
      (fun i => i - (pre n d : Int)), 0 ≤ i ∧ i < (arr d).length := by
    intro d hd i hi
    obtain ⟨x, hx, rfl⟩ := List.mem_map.1 hi
    have := hblk d hd x hx
    rw [pre_succ] at this
    have hn : n d = (arr d).length := rfl
    omega
  have hres : ∀ d < P, applyUpdates op true (arr d)
      (((a2av P S (fun me p => reduceSendCount P (pre n) (S me) p)
        (fun me => pre (fun p => reduceSendCount P (pre n) (S me) p)) d).map (fun i => i - (pre n d : Int))).zip
        (a2av P V (fun me p => reduceSendCount P (pre n) (S me) p)
        (fun me => pre (fun p => reduceSendCount P (pre n) (S me) p)) d)) =
      .ok ((arr d).mapIdx (fun k a =>
        (upsFor (gcat P (fun q => (fancy (index q) (order q)).zip (fancy (updates q) (order q)))) ((pre (sizes arr) d + k : Nat) : Int)).foldl op a)) := by
    intro d hd
    rw [hidx d hd, hupd d hd]
    have hz : ((gcat P (fun me => slice (S me) (L me d) (L me (d + 1) - L me d))).map (fun i => i - (pre n d : Int))).zip
        (gcat P (fun me => slice (V me) (L me d) (L me (d + 1) - L me d))) =
        (gcat P (fun me => slice ((S me).zip (V me)) (L me d) (L me (d + 1) - L me d))).map
          (Prod.map (fun i => i - (pre n d : Int)) id) := by
      have h0 : (gcat P (fun me => slice (S me) (L me d) (L me (d + 1) - L me d))).zip
          (gcat P (fun me => slice (V me) (L me d) (L me (d + 1) - L me d))) =
          gcat P (fun me => slice ((S me).zip (V me)) (L me d) (L me (d + 1) - L me d)) := by
        rw [zip_gcat]
        · exact gcat_congr (fun me _ => zip_slice _ _ _ _)
        · intro me hme
          rw [length_slice, length_slice, hSV]
      rw [← h0, ← List.zip_map, List.map_id]
    rw [hz, applyUpdates_ok (ufunc := true) (fun h => by simp at h)]
    · congr 1
      apply List.ext_getElem?
      intro k
      rw [List.getElem?_mapIdx, List.getElem?_mapIdx]
      by_cases hk : k < (arr d).length
      · rw [List.getElem?_eq_getElem hk]
        simp only [Option.map_some, Option.some.injEq]
        congr 1
        have h1 : upsFor ((gcat P (fun me => slice ((S me).zip (V me)) (L me d) (L me (d + 1) - L me d))).map
            (Prod.map (fun i => i - (pre n d : Int)) id)) (k : Int) =
            upsFor (gcat P (fun me => slice ((S me).zip (V me)) (L me d) (L me (d + 1) - L me d)))
              ((pre n d + k : Nat) : Int) := by
          unfold upsFor
          rw [List.filter_map, List.map_map]
          have : ((fun e : Int × α => decide (e.1 = (k : Int))) ∘ Prod.map (fun i => i - (pre n d : Int)) id) =
              fun e => decide (e.1 = ((pre n d + k : Nat) : Int)) := by
            funext e
            simp only [Function.comp, Prod.map, id]
            congr 1
            apply propext
            omega
          rw [this]
          congr 1
        rw [h1]
        unfold upsFor
        congr 1
        rw [filter_gcat, filter_gcat]
        apply gcat_congr
        intro me hme
        have hfst : ((S me).zip (V me)).map Prod.fst = S me := List.map_fst_zip (by rw [hSV])
        have hfb := filter_block (Z := (S me).zip (V me)) (lo := (pre n d : Int)) (hi := (pre n (d + 1) : Int))
          (j := ((pre n d + k : Nat) : Int)) (by rw [hfst]; exact hS me hme) (by omega)
          (by rw [pre_succ]; have hn : n d = (arr d).length := rfl; omega)
        rw [hfst] at hfb
        exact hfb
      · rw [List.getElem?_eq_none (by omega)]; rfl
    · intro e he
      obtain ⟨e', he', rfl⟩ := List.mem_map.1 he
      apply hlocal d hd
      rw [List.mem_map]
      refine ⟨e'.1, ?_, rfl⟩
      obtain ⟨me, hme, h⟩ := mem_gcat.1 he'
      rw [← zip_slice] at h
      exact mem_gcat.2 ⟨me, hme, (List.of_mem_zip h).1⟩
  have key : ∃ out, reduceElements P op true order arr updates index = .ok out ∧
      ∀ d, out d = (applyUpdates op true (arr d)
      (((a2av P S (fun me p => reduceSendCount P (pre n) (S me) p)
        (fun me => pre (fun p => reduceSendCount P (pre n) (S me) p)) d).map (fun i => i - (pre n d : Int))).zip
        (a2av P V (fun me p => reduceSendCount P (pre n) (S me) p)
        (fun me => pre (fun p => reduceSendCount P (pre n) (S me) p)) d))).toOption.getD [] := by
    unfold reduceElements
    rw [if_neg (not_not.2 hl)]
    simp only
    rw [if_neg (not_not.2 hc1), if_neg, if_pos]
    · exact ⟨_, rfl, fun _ => rfl⟩
    · intro d hd
      exact (congrArg (fun r => r.toOption.isSome) (hres d hd)).trans rfl
    · rw [not_not]
      intro d hd i hi
      have h := hlocal d hd i (by
        have h1 := hidx d hd
        exact (congrArg (fun l => i ∈ l.map (fun i => i - (pre n d : Int))) h1).mp hi)
      omega
  obtain ⟨out, h1, h2⟩ := key
  refine ⟨out, h1, fun d hd => ?_⟩
  rw [h2, hres d hd]; rfl

end

end Verif
