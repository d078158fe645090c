import Verif.Model.FetchElements
import Verif.Lib.Scatter

namespace Verif

variable {α : Type*}

theorem ssLeft_eq_length {l : List Int} (hl : Sorted l) {v : Int} (h : ∀ x ∈ l, x < v) :
    ssLeft l v = l.length := by
  rw [ssLeft_eq hl, List.countP_eq_length]
  intro x hx; simpa using h x hx

theorem ssLeft_eq_zero {l : List Int} (hl : Sorted l) {v : Int} (h : ∀ x ∈ l, v ≤ x) :
    ssLeft l v = 0 := by
  rw [ssLeft_eq hl, List.countP_eq_zero]
  intro x hx; simpa using h x hx

/-- With all indexes in range, the block requested from `p` is delimited by two binary searches. -/
theorem fetchSendCount_eq {P : Nat} {n : Nat → Nat} {l : List Int} (hl : Sorted l)
    (h : ∀ x ∈ l, x < (pre n P : Int)) {p : Nat} (hp : p < P) :
    fetchSendCount P (pre n) l p = ssLeft l (pre n (p + 1) : Int) - ssLeft l (pre n p : Int) := by
  unfold fetchSendCount
  have hm : ssLeft l (pre n p : Int) ≤ ssLeft l (pre n (p + 1) : Int) :=
    ssLeft_mono hl (by exact_mod_cast pre_mono n (by omega))
  simp only
  split
  · omega
  · have : p + 1 = P := by omega
    rw [this, ssLeft_eq_length hl h] at *
    omega

theorem pre_fetchSendCount {P : Nat} {n : Nat → Nat} {l : List Int} (hl : Sorted l)
    (h0 : ∀ x ∈ l, 0 ≤ x) (h : ∀ x ∈ l, x < (pre n P : Int)) {p : Nat} (hp : p ≤ P) :
    pre (fun p => fetchSendCount P (pre n) l p) p = ssLeft l (pre n p : Int) := by
  induction p with
  | zero => simp [ssLeft_eq_zero hl h0]
  | succ p ih =>
    rw [pre_succ, ih (by omega), fetchSendCount_eq hl h (by omega)]
    have hm : ssLeft l (pre n p : Int) ≤ ssLeft l (pre n (p + 1) : Int) :=
      ssLeft_mono hl (by exact_mod_cast pre_mono n (by omega))
    omega

/-- Elements of the block requested from `p` belong to `p`. -/
theorem mem_fetch_block {n : Nat → Nat} {l : List Int} (hl : Sorted l) {p : Nat} {x : Int}
    (hx : x ∈ slice l (ssLeft l (pre n p : Int))
      (ssLeft l (pre n (p + 1) : Int) - ssLeft l (pre n p : Int))) :
    (pre n p : Int) ≤ x ∧ x < pre n (p + 1) := by
  obtain ⟨i, hi⟩ := List.mem_iff_getElem?.1 hx
  rw [getElem?_slice] at hi
  split at hi
  · rename_i hlt
    have h1 := lt_iff_lt_ssLeft hl (v := (pre n p : Int)) hi
    have h2 := lt_iff_lt_ssLeft hl (v := (pre n (p + 1) : Int)) hi
    constructor
    · by_contra hc
      have := h1.1 (by omega); omega
    · exact h2.2 (by omega)
  · simp at hi

theorem mapM_some {β : Type*} {f : α → Option β} {g : α → β} {l : List α} (h : ∀ x ∈ l, f x = some (g x)) :
    l.mapM f = some (l.map g) := by
  induction l with
  | nil => rfl
  | cons x l ih =>
    simp [List.mapM_cons, h x (by simp), ih (fun y hy => h y (by simp [hy]))]

theorem fetchElements_ok [Inhabited α] {P : Nat} {arr : Nat → List α} {index : Nat → List Int}
    {result : Option (Nat → List α)}
    (hr : ∀ r, result = some r → ∀ me < P, (r me).length = (index me).length)
    (hin : ∀ me < P, ∀ i ∈ index me, 0 ≤ i ∧ i < (pre (sizes arr) P : Int)) :
    ∃ out, fetchElements P arr index result = .ok out ∧
      ∀ me < P, out me = (index me).map (fun i => (gcat P arr).getD i.toNat default) := by
  -- abbreviations
  let n := sizes arr
  let S : Nat → List Int := fun me => fancy (index me) (argsort (index me))
  let L : Nat → Nat → Nat := fun me p => ssLeft (S me) (pre n p : Int)
  let g : Int → α := fun i => (gcat P arr).getD i.toNat default
  have hS : ∀ me, Sorted (S me) := fun me => fancy_argsort_sorted _
  have hmem : ∀ me x, x ∈ S me ↔ x ∈ index me := fun me x => (fancy_argsort_perm (index me)).mem_iff
  have hlo : ∀ me < P, ∀ x ∈ S me, 0 ≤ x := fun me hme x hx => (hin me hme x ((hmem me x).1 hx)).1
  have hhi : ∀ me < P, ∀ x ∈ S me, x < (pre n P : Int) :=
    fun me hme x hx => (hin me hme x ((hmem me x).1 hx)).2
  have hcnt : ∀ me < P, ∀ p < P, fetchSendCount P (pre n) (S me) p = L me (p + 1) - L me p :=
    fun me hme p hp => fetchSendCount_eq (hS me) (hhi me hme) hp
  have hdis : ∀ me < P, ∀ p ≤ P, pre (fun p => fetchSendCount P (pre n) (S me) p) p = L me p :=
    fun me hme p hp => pre_fetchSendCount (hS me) (hlo me hme) (hhi me hme) hp
  have hLm : ∀ me p, L me p ≤ L me (p + 1) := fun me p =>
    ssLeft_mono (hS me) (by exact_mod_cast pre_mono n (by omega))
  have hLlen : ∀ me p, L me p ≤ (S me).length := fun me p => ssLeft_le_length (hS me) _
  have hLP : ∀ me < P, L me P = (S me).length := fun me hme => ssLeft_eq_length (hS me) (hhi me hme)
  -- block requested by `me` from `d`
  let B : Nat → Nat → List Int := fun me d => slice (S me) (L me d) (L me (d + 1) - L me d)
  have hBlen : ∀ me d, (B me d).length = L me (d + 1) - L me d := fun me d =>
    length_slice_of_le (by have := hLm me d; have := hLlen me (d + 1); omega)
  -- indexes received by `d`
  have hfind : ∀ d < P, a2av P S (fun me p => fetchSendCount P (pre n) (S me) p)
      (fun me => pre (fun p => fetchSendCount P (pre n) (S me) p)) d = gcat P (fun me => B me d) := by
    intro d hd
    rw [a2av_eq]
    · apply gcat_congr
      intro me hme
      rw [hdis me hme d (by omega), hcnt me hme d hd]
    · intro me hme
      rw [hdis me hme d (by omega), hcnt me hme d hd]
      have := hLm me d; have := hLlen me (d + 1); omega
  -- values found by `d`
  have hvals : ∀ d < P, fancy? (arr d) ((gcat P (fun me => B me d)).map (fun i => i - (pre n d : Int)))
      = some ((gcat P (fun me => B me d)).map g) := by
    intro d hd
    unfold fancy?
    have : ∀ x ∈ gcat P (fun me => B me d), pyGet? (arr d) (x - (pre n d : Int)) = some (g x) := by
      intro x hx
      obtain ⟨me, hme, hx⟩ := mem_gcat.1 hx
      obtain ⟨h1, h2⟩ := mem_fetch_block (hS me) hx
      rw [pre_succ] at h2
      have hlt : (x - (pre n d : Int)).toNat < (arr d).length := by
        have : n d = (arr d).length := rfl
        omega
      have hg := getElem?_gcat (a := arr) hd hlt
      have hx' : pre (sizes arr) d + (x - (pre n d : Int)).toNat = x.toNat := by
        show pre n d + _ = _
        omega
      rw [hx'] at hg
      unfold pyGet?
      rw [if_pos (by omega), ← hg]
      simp only [g, List.getD_eq_getElem?_getD]
      rw [hg, List.getElem?_eq_getElem hlt]; rfl
    rw [List.mapM_map]
    exact mapM_some this
  have hall : (List.range P).all (fun d => (fancy? (arr d)
      ((a2av P S (fun me p => fetchSendCount P (pre n) (S me) p)
        (fun me => pre (fun p => fetchSendCount P (pre n) (S me) p)) d).map
          (fun i => i - (pre n d : Int)))).isSome) = true := by
    rw [List.all_eq_true]
    intro d hd
    have hd := List.mem_range.1 hd
    rw [hfind d hd, hvals d hd]; rfl
  refine ⟨_, by unfold fetchElements; exact if_pos hall, ?_⟩
  intro me hme
  -- what comes back
  have hback : ∀ (buf : Nat → List α), (buf me).length = (S me).length →
      a2avInto P (fun d => (fancy? (arr d)
          ((a2av P S (fun me p => fetchSendCount P (pre n) (S me) p)
            (fun me => pre (fun p => fetchSendCount P (pre n) (S me) p)) d).map
              (fun i => i - (pre n d : Int)))).getD [])
        (alltoall fun me p => fetchSendCount P (pre n) (S me) p)
        (fun d => pre (alltoall (fun me p => fetchSendCount P (pre n) (S me) p) d)) buf
        (fun me => pre (fun p => fetchSendCount P (pre n) (S me) p)) me = (S me).map g := by
    intro buf hbuf
    rw [a2avInto_consecutive (fun d => (B me d).map g)]
    · rw [← map_gcat]
      congr 1
      have h0 := gcat_slice (S me) (fun d => L me (d + 1) - L me d) 0 P
      have hpre : ∀ p ≤ P, pre (fun d => L me (d + 1) - L me d) p = L me p := by
        intro p hp
        rw [← hdis me hme p hp]
        exact pre_congr (fun i hi => (hcnt me hme i (by omega)).symm)
      have h1 : gcat P (fun d => B me d)
          = gcat P (fun r => slice (S me) (0 + pre (fun d => L me (d + 1) - L me d) r)
              (L me (r + 1) - L me r)) := by
        apply gcat_congr
        intro d hd
        rw [hpre d (by omega), Nat.zero_add]
      rw [h1, h0, hpre P (Nat.le_refl _), hLP me hme, slice_all]
    · intro d hd
      rw [hfind d hd, hvals d hd]
      simp only [Option.getD_some]
      rw [map_gcat]
      have hsz : ∀ q < P, sizes (fun me => (B me d).map g) q
          = alltoall (fun me p => fetchSendCount P (pre n) (S me) p) d q := by
        intro q hq
        simp only [sizes, List.length_map, hBlen, alltoall]
        exact (hcnt q hq d hd).symm
      have := slice_gcat (a := fun me => (B me d).map g) hme
      rw [pre_congr (fun i hi => hsz i (by omega))] at this
      have h2 := hsz me hme
      simp only [sizes] at h2
      rw [h2] at this
      exact this
    · intro d hd
      apply pre_congr
      intro i hi
      simp only [sizes, List.length_map, hBlen]
      exact hcnt me hme i (by omega)
    · rw [hbuf, ← hLP me hme, ← hdis me hme P (Nat.le_refl _)]
      apply pre_congr
      intro i hi
      simp only [sizes, List.length_map, hBlen]
      exact hcnt me hme i (by omega)
  have hSl : (S me).length = (index me).length := by simp [S]
  have hbuf : ((match result with
      | none => fun me => emptyArray (index me).length
      | some r => r) me : List α).length = (S me).length := by
    rw [hSl]
    cases hres : result with
    | none => simp [emptyArray]
    | some r => exact hr r hres me hme
  have := hback _ hbuf
  refine (congrArg₂ (fun a b => scatter a (argsort (index me)) b) this this).trans ?_
  exact scatter_fancy_map g (argsort_perm _) (by simp [S])

end Verif

namespace Verif

variable {α : Type*}

theorem pre_fetchSendCount_lt {P : Nat} {n : Nat → Nat} {l : List Int} (hl : Sorted l)
    (h0 : ∀ x ∈ l, 0 ≤ x) {p : Nat} (hp : p < P) :
    pre (fun p => fetchSendCount P (pre n) l p) p = ssLeft l (pre n p : Int) := by
  induction p with
  | zero => simp [ssLeft_eq_zero hl h0]
  | succ p ih =>
    have hm : ssLeft l (pre n p : Int) ≤ ssLeft l (pre n (p + 1) : Int) :=
      ssLeft_mono hl (by exact_mod_cast pre_mono n (by omega))
    rw [pre_succ, ih (by omega)]
    unfold fetchSendCount
    simp only
    rw [if_pos (by omega)]
    omega

theorem mapM_none {β : Type*} {f : α → Option β} {l : List α} {x : α} (hx : x ∈ l) (h : f x = none) :
    l.mapM f = none := by
  induction l with
  | nil => simp at hx
  | cons y l ih =>
    rw [List.mapM_cons]
    rcases List.mem_cons.1 hx with rfl | hx
    · simp [h]
    · rw [ih hx]; cases f y <;> rfl

theorem fetchElements_too_large [Inhabited α] {P : Nat} {arr : Nat → List α} {index : Nat → List Int}
    {result : Option (Nat → List α)}
    (h0 : ∀ me < P, ∀ i ∈ index me, 0 ≤ i)
    {me : Nat} (hme : me < P) {x : Int} (hx : x ∈ index me) (hbig : (pre (sizes arr) P : Int) ≤ x) :
    fetchElements P arr index result = .error .indexError := by
  let n := sizes arr
  let S : Nat → List Int := fun me => fancy (index me) (argsort (index me))
  have hS : ∀ me, Sorted (S me) := fun me => fancy_argsort_sorted _
  have hmem : ∀ me x, x ∈ S me ↔ x ∈ index me := fun me x => (fancy_argsort_perm (index me)).mem_iff
  have hlo : ∀ me < P, ∀ x ∈ S me, 0 ≤ x := fun me hme x hx => h0 me hme x ((hmem me x).1 hx)
  -- everything from the first index of the last rank on goes to the last rank
  have hcnt : ∀ me < P, fetchSendCount P (pre n) (S me) (P - 1)
      = (S me).length - ssLeft (S me) (pre n (P - 1) : Int) := by
    intro me hme
    unfold fetchSendCount
    simp only
    rw [if_neg (by omega)]
    have := ssLeft_le_length (hS me) (pre n (P - 1) : Int)
    omega
  have hfind : a2av P S (fun me p => fetchSendCount P (pre n) (S me) p)
      (fun me => pre (fun p => fetchSendCount P (pre n) (S me) p)) (P - 1)
      = gcat P (fun me => slice (S me) (ssLeft (S me) (pre n (P - 1) : Int))
          ((S me).length - ssLeft (S me) (pre n (P - 1) : Int))) := by
    rw [a2av_eq]
    · apply gcat_congr
      intro me hme
      rw [pre_fetchSendCount_lt (hS me) (hlo me hme) (by omega), hcnt me hme]
    · intro me hme
      rw [pre_fetchSendCount_lt (hS me) (hlo me hme) (by omega), hcnt me hme]
      have := ssLeft_le_length (hS me) (pre n (P - 1) : Int)
      omega
  have htot : pre n P = pre n (P - 1) + n (P - 1) := by
    rw [← pre_succ]; congr 1; omega
  have hxin : x ∈ gcat P (fun me => slice (S me) (ssLeft (S me) (pre n (P - 1) : Int))
      ((S me).length - ssLeft (S me) (pre n (P - 1) : Int))) := by
    rw [mem_gcat]
    refine ⟨me, hme, ?_⟩
    obtain ⟨i, hi⟩ := List.mem_iff_getElem?.1 ((hmem me x).2 hx)
    have hil := (List.getElem?_eq_some_iff.1 hi).1
    have hge : ssLeft (S me) (pre n (P - 1) : Int) ≤ i := by
      by_contra hc
      have := (lt_iff_lt_ssLeft (hS me) (v := (pre n (P - 1) : Int)) hi).2 (by omega)
      have hb : (pre n P : Int) ≤ x := hbig
      omega
    apply List.mem_iff_getElem?.2
    refine ⟨i - ssLeft (S me) (pre n (P - 1) : Int), ?_⟩
    rw [getElem?_slice, if_pos (by omega), ← hi]
    congr 1; omega
  have hnone : fancy? (arr (P - 1)) ((a2av P S (fun me p => fetchSendCount P (pre n) (S me) p)
        (fun me => pre (fun p => fetchSendCount P (pre n) (S me) p)) (P - 1)).map
          (fun i => i - (pre n (P - 1) : Int))) = none := by
    unfold fancy?
    rw [hfind, List.mapM_map]
    refine mapM_none hxin ?_
    have hb : (pre n P : Int) ≤ x := hbig
    have hn : n (P - 1) = (arr (P - 1)).length := rfl
    show pyGet? (arr (P - 1)) (x - (pre n (P - 1) : Int)) = none
    unfold pyGet?
    rw [if_pos (by omega), List.getElem?_eq_none_iff]
    omega
  unfold fetchElements
  refine if_neg ?_
  rw [Bool.not_eq_true, List.all_eq_false]
  refine ⟨P - 1, List.mem_range.2 (by omega), ?_⟩
  have := congrArg Option.isSome hnone
  simpa using this

end Verif
