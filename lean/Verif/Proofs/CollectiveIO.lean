import Verif.Model.CollectiveIO
import Verif.Lib.Overlay
import Verif.Proofs.ParallelUnique

set_option linter.unusedSectionVars false

namespace Verif

variable {α τ : Type*}

theorem pre_numOnTask (n P : Nat) (hP : 0 < P) : pre (numOnTask n P) P = n := pre_balanced n P hP

/-! ### collective_read -/

theorem crLoop_ok (dataset : List α) (b n offset_in_mem offset_in_file nr_left : Nat) (data : List α) (hd : data.length = offset_in_mem + nr_left)
    (hf : offset_in_file + nr_left ≤ dataset.length) (hn : nr_left ≤ n * b) :
    (crLoop dataset b n offset_in_mem offset_in_file nr_left data).2 = data.take offset_in_mem ++ slice dataset offset_in_file nr_left := by
  induction n generalizing offset_in_mem offset_in_file nr_left data with
  | zero =>
    have h0 : nr_left = 0 := by omega
    subst h0
    rw [crLoop, slice_zero, List.append_nil, List.take_of_length_le (by omega)]
  | succ n ih =>
    rw [crLoop]
    simp only
    have hlen : (slice dataset offset_in_file (min nr_left b)).length = min nr_left b := length_slice_of_le (by omega)
    have hov : offset_in_mem + (slice dataset offset_in_file (min nr_left b)).length ≤ data.length := by rw [hlen]; omega
    rw [Nat.succ_mul] at hn
    rw [ih _ _ _ _ (by rw [length_overlay hov]; omega) (by omega) (by omega)]
    unfold overlay
    rw [hlen, List.take_append_of_le_length (by simp [hlen]; omega), List.take_of_length_le (by simp [hlen]), List.append_assoc]
    congr 1
    rw [slice_append_slice]
    congr 1
    omega

theorem length_crLoop (dataset : List α) (b n m f l : Nat) (data : List α) : (crLoop dataset b n m f l data).1.length = n := by
  induction n generalizing m f l data with
  | zero => rfl
  | succ n ih => rw [crLoop]; simp [ih]

theorem crLoop_calls (dataset : List α) (b n m f l : Nat) (data : List α) : ∀ c ∈ (crLoop dataset b n m f l data).1, f ≤ c.1 ∧ c.2 ≤ b ∧ c.1 + c.2 ≤ f + l := by
  induction n generalizing m f l data with
  | zero => intro c hc; simp [crLoop] at hc
  | succ n ih =>
    rw [crLoop]
    intro c hc
    rcases List.mem_cons.1 hc with h | h
    · subst h; simp only; omega
    · have := ih _ _ _ _ c h
      omega

theorem foldl_max_ge (l : List Nat) (a : Nat) : a ≤ l.foldl max a ∧ ∀ x ∈ l, x ≤ l.foldl max a := by
  induction l generalizing a with
  | nil => simp
  | cons y l ih =>
    rw [List.foldl_cons]
    obtain ⟨h1, h2⟩ := ih (max a y)
    refine ⟨by omega, fun x hx => ?_⟩
    rcases List.mem_cons.1 hx with h | h
    · omega
    · exact h2 x h

theorem collectiveRead_ok [Inhabited α] {P : Nat} (hP : 0 < P) (dataset : List α) {itemsize : Nat} {dims : List Nat} {buffer_size : Nat}
    (h0 : 0 < elementSize itemsize dims) (hb : elementSize itemsize dims ≤ buffer_size) :
    ∃ out, collectiveRead P dataset itemsize dims buffer_size = .ok out ∧
      (∀ r < P, (out r).1 = slice dataset (pre (numOnTask dataset.length P) r) (numOnTask dataset.length P r)) ∧
      (∃ n, ∀ r < P, (out r).2.length = n) ∧
      (∀ r < P, ∀ c ∈ (out r).2, c.2 * elementSize itemsize dims ≤ buffer_size ∧ c.1 + c.2 ≤ dataset.length) := by
  unfold collectiveRead
  simp only
  by_cases hsmall : dataset.length < 10 * P
  · rw [if_pos hsmall]
    exact ⟨_, rfl, fun r _ => rfl, ⟨0, fun r _ => rfl⟩, fun r _ c hc => by simp at hc⟩
  · rw [if_neg hsmall, if_neg (by omega)]
    have hbe : 0 < buffer_size / elementSize itemsize dims := Nat.div_pos hb h0
    have hbm : buffer_size / elementSize itemsize dims * elementSize itemsize dims ≤ buffer_size := Nat.div_mul_le_self _ _
    generalize buffer_size / elementSize itemsize dims = b at *
    refine ⟨_, rfl, fun r hr => ?_, ⟨_, fun r hr => length_crLoop _ _ _ _ _ _ _⟩, fun r hr c hc => ?_⟩
    · simp only
      have hin : pre (numOnTask dataset.length P) r + numOnTask dataset.length P r ≤ dataset.length := by
        have := pre_lt_total (f := numOnTask dataset.length P) hr
        rw [pre_numOnTask _ _ hP] at this
        exact this
      rw [crLoop_ok _ _ _ _ _ _ _ (by simp [emptyArray]) hin]
      · simp
      · have h1 := (foldl_max_ge ((List.range P).map (fun r => npDiv (numOnTask dataset.length P r) b +
          if npMod (numOnTask dataset.length P r) b > 0 then 1 else 0)) 0).2 _ (List.mem_map.2 ⟨r, List.mem_range.2 hr, rfl⟩)
        generalize ((List.range P).map _).foldl max 0 = g at h1 ⊢
        unfold npDiv npMod at h1
        have hb0 : b ≠ 0 := by omega
        simp only [hb0, if_false] at h1
        have h2 := Nat.div_add_mod (numOnTask dataset.length P r) b
        have h3 := Nat.mod_lt (numOnTask dataset.length P r) hbe
        have h4 := Nat.mul_le_mul_right b h1
        rw [Nat.add_mul, Nat.mul_comm (_ / b) b] at h4
        generalize b * (numOnTask dataset.length P r / b) = x at h2 h4
        split at h4 <;> omega
    · have hin := pre_lt_total (f := numOnTask dataset.length P) hr
      rw [pre_numOnTask _ _ hP] at hin
      obtain ⟨-, h2, h3⟩ := crLoop_calls _ _ _ _ _ _ _ c hc
      exact ⟨Nat.le_trans (Nat.mul_le_mul_right _ h2) hbm, by omega⟩

/-! ### collective_write -/

/-- State of the write loop when rank `r` has written `done r` of its rows `data r`. -/
structure CwInv (P : Nat) (data : Nat → List α) (old : List α) (done : Nat → Nat) (dataset : List α) : Prop where
  len : dataset.length = old.length
  le : ∀ r < P, done r ≤ (data r).length
  inside : ∀ r < P, ∀ k < done r, dataset[pre (sizes data) r + k]? = (data r)[k]?
  outside : ∀ i, pre (sizes data) P ≤ i → dataset[i]? = old[i]?

theorem cwStep_inv {P : Nat} {data : Nat → List α} {old : List α} (hold : pre (sizes data) P ≤ old.length) {done : Nat → Nat} {dataset : List α}
    (h : CwInv P data old done dataset) {w : Nat → Nat} (hw : ∀ r < P, done r + w r ≤ (data r).length) :
    CwInv P data old (fun r => done r + w r)
      ((List.range P).foldl (fun d r => overlay d (pre (sizes data) r + done r) (slice (data r) (done r) (w r))) dataset) := by
  have hlen : ∀ r < P, (slice (data r) (done r) (w r)).length = w r := fun r hr => length_slice_of_le (hw r hr)
  have htot : ∀ r < P, pre (sizes data) r + (data r).length ≤ pre (sizes data) P := fun r hr => pre_lt_total (f := sizes data) hr
  have hin : ∀ r ∈ List.range P, pre (sizes data) r + done r + (slice (data r) (done r) (w r)).length ≤ dataset.length := by
    intro r hr
    have hr := List.mem_range.1 hr
    rw [hlen r hr, h.len]
    have := hw r hr
    have := htot r hr
    omega
  refine ⟨by rw [length_foldl_overlay _ _ (fun r => slice (data r) (done r) (w r)) _ hin, h.len], hw, ?_, ?_⟩
  · intro r hr k hk
    have hother : ∀ s ∈ List.range P, s ≠ r →
        ¬ (pre (sizes data) s + done s ≤ pre (sizes data) r + k ∧ pre (sizes data) r + k < pre (sizes data) s + done s + (slice (data s) (done s) (w s)).length) := by
      intro s hs hne ⟨h1, h2⟩
      have hs := List.mem_range.1 hs
      rw [hlen s hs] at h2
      have := hw s hs
      have := hw r hr
      apply hne
      refine block_unique (f := sizes data) (i := pre (sizes data) r + k) (by omega) ?_ (by omega) ?_
      · show _ < _ + (data s).length; omega
      · show _ < _ + (data r).length; omega
    by_cases hkd : k < done r
    · rw [foldl_overlay_outside _ _ (fun r => slice (data r) (done r) (w r)) _ hin, h.inside r hr k hkd]
      intro s hs
      by_cases hsr : s = r
      · subst hsr; omega
      · exact hother s hs hsr
    · rw [foldl_overlay_inside _ _ (fun r => slice (data r) (done r) (w r)) _ hin (List.mem_range.2 hr) (by rw [hlen r hr]; omega) hother,
        getElem?_slice, if_pos (by omega)]
      congr 1
      omega
  · intro i hi
    rw [foldl_overlay_outside _ _ (fun r => slice (data r) (done r) (w r)) _ hin, h.outside i hi]
    intro s hs
    have hs := List.mem_range.1 hs
    rw [hlen s hs]
    have := hw s hs
    have := htot s hs
    omega

theorem pre_eq_zero_iff' {f : Nat → Nat} {P : Nat} : pre f P = 0 ↔ ∀ r < P, f r = 0 := by
  constructor
  · intro h r hr
    have := pre_lt_total (f := f) hr
    omega
  · intro h
    rw [pre_congr (g := fun _ => 0) h, pre_const_zero]

/-- Rows written by the calls of one rank, as positions in the file and in memory. -/
def callRows (r : Nat) (calls : List (Nat → WriteCall)) : List (Nat × Nat) :=
  calls.flatMap (fun c => (List.range (c r).nr_to_write).map (fun k => ((c r).file_offset + k, (c r).memory_offset + k)))

theorem range_shift_append (a b n m : Nat) : (List.range n).map (fun k => (a + k, b + k)) ++ (List.range m).map (fun k => (a + n + k, b + n + k)) =
    (List.range (n + m)).map (fun k => (a + k, b + k)) := by
  rw [List.range_add, List.map_append, List.map_map]
  congr 1
  apply List.map_congr_left
  intro k _
  simp only [Function.comp_apply, Nat.add_assoc]

theorem cwLoop_ok {P b : Nat} (hb : 0 < b) {data : Nat → List α} {old : List α} (hold : pre (sizes data) P ≤ old.length) (fuel : Nat) (done : Nat → Nat)
    (dataset : List α) (h : CwInv P data old done dataset) (hfuel : ∀ r < P, (data r).length - done r ≤ fuel) :
    ∃ calls final, cwLoop P b data fuel (fun r => pre (sizes data) r + done r) done (fun r => (data r).length - done r) dataset = .ok (calls, final) ∧
      CwInv P data old (fun r => (data r).length) final ∧ (∀ c ∈ calls, ∀ r < P, (c r).nr_to_write ≤ b) ∧
      ∀ r < P, callRows r calls = (List.range ((data r).length - done r)).map (fun k => (pre (sizes data) r + done r + k, done r + k)) := by
  have hend : pre (fun r => (data r).length - done r) P = 0 → CwInv P data old (fun r => (data r).length) dataset ∧
      ∀ r < P, callRows r [] = (List.range ((data r).length - done r)).map (fun k => (pre (sizes data) r + done r + k, done r + k)) := by
    intro h0
    rw [pre_eq_zero_iff'] at h0
    refine ⟨⟨h.len, fun r _ => Nat.le_refl _, fun r hr k hk => h.inside r hr k ?_, h.outside⟩, fun r hr => ?_⟩
    · have := h0 r hr; omega
    · rw [h0 r hr]; rfl
  induction fuel generalizing done dataset with
  | zero =>
    have h0 : pre (fun r => (data r).length - done r) P = 0 := by
      rw [pre_eq_zero_iff']
      intro r hr
      have := hfuel r hr
      omega
    rw [cwLoop, if_neg (by omega)]
    exact ⟨[], dataset, rfl, (hend h0).1, by simp, (hend h0).2⟩
  | succ fuel ih =>
    rw [cwLoop]
    by_cases h0 : pre (fun r => (data r).length - done r) P > 0
    · rw [if_pos h0]
      simp only
      have hw : ∀ r < P, done r + min ((data r).length - done r) b ≤ (data r).length := by
        intro r hr
        have := h.le r hr
        omega
      have hstep := cwStep_inv hold h hw
      have e1 : (fun r => pre (sizes data) r + done r + min ((data r).length - done r) b) = fun r => pre (sizes data) r + (done r + min ((data r).length - done r) b) := by
        funext r; omega
      have e2 : (fun r => (data r).length - done r - min ((data r).length - done r) b) = fun r => (data r).length - (done r + min ((data r).length - done r) b) := by
        funext r; omega
      rw [e1, e2]
      obtain ⟨calls, final, hc1, hc2, hc3, hc4⟩ := ih _ _ hstep (by
        intro r hr
        have := hfuel r hr
        omega) (by
        intro h0'
        rw [pre_eq_zero_iff'] at h0'
        refine ⟨⟨hstep.len, fun r _ => Nat.le_refl _, fun r hr k hk => hstep.inside r hr k ?_, hstep.outside⟩, fun r hr => ?_⟩
        · have := h0' r hr; omega
        · rw [h0' r hr]; rfl)
      rw [hc1]
      refine ⟨_, _, rfl, hc2, ?_, ?_⟩
      · intro c hc r hr
        rcases List.mem_cons.1 hc with h' | h'
        · subst h'; simp only; omega
        · exact hc3 c h' r hr
      · intro r hr
        unfold callRows at hc4 ⊢
        rw [List.flatMap_cons, hc4 r hr]
        simp only
        rw [show pre (sizes data) r + (done r + min ((data r).length - done r) b) = pre (sizes data) r + done r + min ((data r).length - done r) b by omega,
          range_shift_append]
        congr 2
        have := h.le r hr
        omega
    · rw [if_neg h0]
      exact ⟨[], dataset, rfl, (hend (by omega)).1, by simp, (hend (by omega)).2⟩

theorem cwInv_final {P : Nat} {data : Nat → List α} {old final : List α} (hold : pre (sizes data) P ≤ old.length)
    (h : CwInv P data old (fun r => (data r).length) final) : final = gcat P data ++ old.drop (pre (sizes data) P) := by
  apply List.ext_getElem?
  intro i
  by_cases hi : i < pre (sizes data) P
  · obtain ⟨r, hr, h1, h2⟩ := exists_block hi
    obtain ⟨k, rfl⟩ := Nat.exists_eq_add_of_le h1
    have hk : k < (data r).length := by
      have : sizes data r = (data r).length := rfl
      omega
    rw [h.inside r hr k hk, List.getElem?_append_left (by rw [length_gcat]; exact hi), getElem?_gcat hr hk]
  · rw [h.outside i (by omega), List.getElem?_append_right (by rw [length_gcat]; omega), length_gcat, List.getElem?_drop]
    congr 1
    omega

theorem collectiveWrite_ok [DecidableEq τ] {P : Nat} {data : Nat → TypedArray τ α} {itemsize : τ → Nat} {buffer_size fuel : Nat} {old : List α}
    (hdims : ∀ r < P, (data r).dims = (data 0).dims) (hdtype : ∀ r < P, (data r).dtype = (data 0).dtype)
    (h0 : 0 < elementSize (itemsize (data 0).dtype) (data 0).dims) (hb : elementSize (itemsize (data 0).dtype) (data 0).dims ≤ buffer_size)
    (hold : pre (fun r => (data r).rows.length) P ≤ old.length) (hfuel : ∀ r < P, (data r).rows.length ≤ fuel) :
    ∃ calls, collectiveWrite P data itemsize buffer_size fuel old =
        .ok (calls, gcat P (fun r => (data r).rows) ++ old.drop (pre (fun r => (data r).rows.length) P)) ∧
      (∀ c ∈ calls, ∀ r < P, (c r).nr_to_write * elementSize (itemsize (data 0).dtype) (data 0).dims ≤ buffer_size) ∧
      ∀ r < P, callRows r calls = (List.range (data r).rows.length).map (fun k => (pre (fun r => (data r).rows.length) r + k, k)) := by
  unfold collectiveWrite
  simp only
  have hbe : 0 < buffer_size / elementSize (itemsize (data 0).dtype) (data 0).dims := Nat.div_pos hb h0
  have hbm := Nat.div_mul_le_self buffer_size (elementSize (itemsize (data 0).dtype) (data 0).dims)
  rw [if_neg (by simpa using hdims), if_neg (by simpa using hdtype), if_neg (by omega), if_neg (by omega)]
  obtain ⟨calls, final, h1, h2, h3, h4⟩ := cwLoop_ok hbe (data := fun r => (data r).rows) hold fuel (fun _ => 0) old
    ⟨rfl, fun r _ => Nat.zero_le _, fun r _ k hk => by omega, fun i _ => rfl⟩ (fun r hr => by simpa using hfuel r hr)
  refine ⟨calls, ?_, fun c hc r hr => Nat.le_trans (Nat.mul_le_mul_right _ (h3 c hc r hr)) hbm, fun r hr => ?_⟩
  · have h5 := cwInv_final hold h2
    have h6 : pre (sizes fun r => (data r).rows) P = pre (fun r => (data r).rows.length) P := rfl
    rw [← h6, ← h5, ← h1]
    rfl
  · rw [h4 r hr]
    simp only [Nat.sub_zero, Nat.add_zero, Nat.zero_add]
    rfl

theorem cwLoop_diverges {P : Nat} (data : Nat → List α) (fuel : Nat) (fo mo left : Nat → Nat) (dataset : List α) (h : pre left P > 0) :
    cwLoop P 0 data fuel fo mo left dataset = .error .diverges := by
  induction fuel generalizing fo mo left dataset with
  | zero => rw [cwLoop, if_pos h]
  | succ fuel ih =>
    rw [cwLoop, if_pos h]
    simp only
    rw [ih]
    simpa using h

end Verif
