import Verif.Proofs.MultiFile

set_option linter.unusedSectionVars false

namespace Verif

variable {α β τ : Type*}

theorem dictGet_ok {d : List (Nat × Nat)} {key v : Nat} (hm : (key, v) ∈ d) (hu : ∀ w, (key, w) ∈ d → w = v) : dictGet d key = .ok v := by
  unfold dictGet
  cases hf : d.reverse.find? (fun e => e.1 == key) with
  | none =>
    rw [List.find?_eq_none] at hf
    exact absurd (beq_self_eq_true key) (hf (key, v) (by simpa using hm))
  | some e =>
    have h1 := List.mem_of_find?_eq_some hf
    have h2 := List.find?_some hf
    simp only [beq_iff_eq] at h2
    obtain ⟨a, b⟩ := e
    simp only at h2
    subst h2
    simp only [List.mem_reverse] at h1
    rw [hu b h1]

theorem writeIndependent_ok (data : TypedArray τ α) (epf : List (Nat × Nat)) (idx len : Nat → Nat) (m s o : Nat)
    (hd : ∀ i, s ≤ i → i < s + m → dictGet epf (idx i) = .ok (len i)) (ho : o + pre (fun k => len (s + k)) m ≤ data.rows.length) :
    writeIndependent data epf idx (List.range' s m) o =
      .ok ((List.range m).map (fun k => (s + k, { data with rows := slice data.rows (o + pre (fun k => len (s + k)) k) (len (s + k)) }))) := by
  induction m generalizing s o with
  | zero => rfl
  | succ m ih =>
    have hpre : ∀ k, pre (fun k => len (s + k)) (k + 1) = len s + pre (fun k => len (s + 1 + k)) k := by
      intro k
      induction k with
      | zero => simp [pre_succ]
      | succ k ihk => rw [pre_succ, ihk, pre_succ, show s + (k + 1) = s + 1 + k by omega]; omega
    rw [List.range'_succ, writeIndependent, hd s (by omega) (by omega)]
    simp only
    rw [hpre] at ho
    rw [if_neg (by rw [length_slice_of_le (by omega)]; simp), ih (s + 1) (o + len s) (fun i h1 h2 => hd i (by omega) (by omega)) (by omega)]
    simp only
    rw [List.range_succ_eq_map, List.map_cons, List.map_map]
    simp only [pre_zero, Nat.add_zero]
    congr 2
    apply List.map_congr_left
    intro k _
    simp only [Function.comp_apply, hpre]
    rw [show s + k.succ = s + 1 + k by omega, show o + len s + pre (fun k => len (s + 1 + k)) k = o + (len s + pre (fun k => len (s + 1 + k)) k) by omega]

variable [DecidableEq τ] [Inhabited α]

theorem pre_shift (f : Nat → Nat) (s k : Nat) : pre f (s + k) = pre f s + pre (fun j => f (s + j)) k := by
  induction k with
  | zero => simp
  | succ k ih => rw [← Nat.add_assoc, pre_succ, ih, pre_succ]; omega

theorem pre_blocks (n len : Nat → Nat) (F : Nat) : pre len (pre n F) = pre (fun f => pre (fun k => len (pre n f + k)) (n f)) F := by
  induction F with
  | zero => rfl
  | succ F ih => rw [pre_succ, pre_shift, ih, pre_succ]

theorem multiFileWrite_independent {P F : Nat} (hP : 0 < P) (hF : P ≤ F) {files : Nat → Option (TypedArray τ α)} {idx : Nat → Nat}
    (hidx : ∀ i < F, ∀ j < F, idx i = idx j → (fileRows files i).length = (fileRows files j).length) {data : Nat → TypedArray τ α} {t : τ} {d : List Nat}
    (hc : ∀ p < P, (data p).dtype = t ∧ (data p).dims = d) {epf : Nat → List (Nat × Nat)} (he : ∀ p < P, elementsPerFile P F files idx p = .ok (epf p))
    (hl : ∀ p < P, (data p).rows.length = ((epf p).map Prod.snd).sum) (itemsize : τ → Nat) (buffer_size fuel : Nat) {f : Nat} (hf : f < F) :
    multiFileWrite P F data epf idx itemsize buffer_size fuel f = .ok (some ⟨t, d, slice (gcat P (fun p => (data p).rows))
      (pre (fun f => (fileRows files f).length) f) (fileRows files f).length⟩) := by
  obtain ⟨num, h1, h2, h3⟩ := layout_independent hP hF
  have hlen : ∀ i, (files i).elim 0 (fun a => a.rows.length) = (fileRows files i).length := by
    intro i; unfold fileRows; cases files i <;> rfl
  have hepf : ∀ p < P, epf p = (List.range' (pre num p) (num p)).map (fun i => (idx i, (fileRows files i).length)) := by
    intro p hp
    have := he p hp
    unfold elementsPerFile at this
    rw [h3 p hp] at this
    simp only [hlen, Except.ok.injEq] at this
    exact this.symm
  have hlt : ∀ p < P, ∀ i, i < pre num p + num p → i < F := by
    intro p hp i hi
    have := pre_lt_total (f := num) hp
    omega
  have hrows : ∀ p < P, (data p).rows.length = pre (fun k => (fileRows files (pre num p + k)).length) (num p) := by
    intro p hp
    rw [hl p hp, hepf p hp, List.map_map, List.range'_eq_map_range, List.map_map]
    exact sum_map_range _ _
  have hwrite : ∀ p < P, writeIndependent (data p) (epf p) idx (List.range' (pre num p) (num p)) 0 =
      .ok ((List.range (num p)).map (fun k => (pre num p + k, (⟨t, d, slice (gcat P (fun p => (data p).rows))
        (pre (fun f => (fileRows files f).length) (pre num p + k)) (fileRows files (pre num p + k)).length⟩ : TypedArray τ α)))) := by
    intro p hp
    rw [writeIndependent_ok (data p) (epf p) idx (fun i => (fileRows files i).length)]
    · congr 1
      apply List.map_congr_left
      intro k hk
      have hk := List.mem_range.1 hk
      have hpr : pre (sizes (fun p => (data p).rows)) p = pre (fun f => (fileRows files f).length) (pre num p) := by
        rw [pre_blocks]
        exact pre_congr (fun i hi => hrows i (by omega))
      have hsl := slice_gcat (P := P) (r := p) (a := fun p => (data p).rows) hp
      have hin : pre (fun k => (fileRows files (pre num p + k)).length) k + (fileRows files (pre num p + k)).length ≤ (data p).rows.length := by
        rw [hrows p hp]
        exact pre_lt_total (f := fun k => (fileRows files (pre num p + k)).length) hk
      simp only [Nat.zero_add]
      rw [pre_shift, ← hpr]
      conv_lhs => rw [← hsl]
      rw [slice_slice _ _ _ _ _ hin]
      have := hc p hp
      obtain ⟨e1, e2⟩ := this
      subst e1 e2
      rfl
    · intro i hi1 hi2
      rw [hepf p hp]
      apply dictGet_ok
      · exact List.mem_map.2 ⟨i, by rw [List.mem_range'_1]; omega, rfl⟩
      · intro w hw
        obtain ⟨j, hj, hjw⟩ := List.mem_map.1 hw
        rw [List.mem_range'_1] at hj
        simp only [Prod.mk.injEq] at hjw
        rw [← hjw.2]
        exact hidx j (hlt p hp j hj.2) i (hlt p hp i hi2) hjw.1
    · rw [hrows p hp]; omega
  unfold multiFileWrite
  rw [if_pos hF]
  rw [allRanks_ok (g := fun p => (List.range (num p)).map (fun k => (pre num p + k, (⟨t, d, slice (gcat P (fun p => (data p).rows))
        (pre (fun f => (fileRows files f).length) (pre num p + k)) (fileRows files (pre num p + k)).length⟩ : TypedArray τ α))))]
  · simp only [Except.andThen]
    have hflat : ((List.range P).map (fun p => (List.range (num p)).map (fun k => (pre num p + k, (⟨t, d, slice (gcat P (fun p => (data p).rows))
        (pre (fun f => (fileRows files f).length) (pre num p + k)) (fileRows files (pre num p + k)).length⟩ : TypedArray τ α))))).flatten =
        (List.range F).map (fun f => (f, (⟨t, d, slice (gcat P (fun p => (data p).rows)) (pre (fun f => (fileRows files f).length) f) (fileRows files f).length⟩ : TypedArray τ α))) := by
      rw [← List.flatMap_def]
      have := gcat_blocks num P (fun f => [(f, (⟨t, d, slice (gcat P (fun p => (data p).rows)) (pre (fun f => (fileRows files f).length) f) (fileRows files f).length⟩ : TypedArray τ α))])
      rw [h1] at this
      rw [List.map_eq_flatMap]
      refine Eq.trans ?_ this.symm
      show gcat P _ = _
      apply gcat_congr
      intro p hp
      rw [List.map_eq_flatMap]
      rfl
    rw [hflat]
    congr 1
    have hfind : ∀ (m : Nat), f < m → ∀ g : Nat → TypedArray τ α, (((List.range m).map (fun f => (f, g f))).find? (fun e => e.1 == f)).map Prod.snd = some (g f) := by
      intro m
      induction m with
      | zero => omega
      | succ m ih =>
        intro hm g
        rw [List.range_succ, List.map_append, List.find?_append]
        by_cases hfm : f < m
        · have := ih hfm g
          cases hx : ((List.range m).map (fun f => (f, g f))).find? (fun e => e.1 == f) with
          | none => rw [hx] at this; simp at this
          | some y => rw [hx] at this; simpa using this
        · have hfe : f = m := by omega
          subst hfe
          have hnone : ((List.range f).map (fun f => (f, g f))).find? (fun e => e.1 == f) = none := by
            rw [List.find?_eq_none]
            intro e hem
            obtain ⟨j, hj, rfl⟩ := List.mem_map.1 hem
            have := List.mem_range.1 hj
            simp; omega
          rw [hnone]
          simp
    exact hfind F hf _
  · intro p hp
    rw [h3 p hp]
    exact hwrite p hp

theorem multiFileWrite_collective {P F : Nat} (hF : 0 < F) (hP : F < P) {files : Nat → Option (TypedArray τ α)} {idx : Nat → Nat}
    {data : Nat → TypedArray τ α} {t : τ} {d : List Nat}
    (hc : ∀ p < P, (data p).dtype = t ∧ (data p).dims = d) {epf : Nat → List (Nat × Nat)} (he : ∀ p < P, elementsPerFile P F files idx p = .ok (epf p))
    (hl : ∀ p < P, (data p).rows.length = ((epf p).map Prod.snd).sum) {itemsize : τ → Nat} {buffer_size fuel : Nat}
    (h0 : 0 < elementSize (itemsize t) d) (hb : elementSize (itemsize t) d ≤ buffer_size) (hfuel : ∀ p < P, (data p).rows.length ≤ fuel) {f : Nat} (hf : f < F) :
    multiFileWrite P F data epf idx itemsize buffer_size fuel f = .ok (some ⟨t, d, slice (gcat P (fun p => (data p).rows))
      (pre (fun f => (fileRows files f).length) f) (fileRows files f).length⟩) := by
  obtain ⟨l, h1, h2, h3, h4, h5⟩ := layout_collective hF hP
  have hsum : ∀ f ≤ F, (l.take f).sum = pre (fun j => l.getD j 0) f := fun f hf => sum_take_eq_pre l (by omega)
  unfold multiFileWrite
  rw [if_neg (by omega), h1]
  simp only [Except.andThen]
  rw [hsum f (by omega)]
  generalize hn : (fun j => l.getD j 0) = n at *
  have hn' : ∀ j, l.getD j 0 = n j := fun j => by rw [← hn]
  simp only [hn'] at *
  have hrank : ∀ f < F, ∀ k < n f, pre n f + k < P := by
    intro f hf k hk
    have := pre_lt_total (f := n) hf
    omega
  have hepf : ∀ f < F, ∀ k < n f, epf (pre n f + k) = [(idx f, numOnTask (fileRows files f).length (n f) k)] := by
    intro f hf k hk
    have := he _ (hrank f hf k hk)
    unfold elementsPerFile at this
    rw [h5 f hf k hk] at this
    simp only [Except.ok.injEq] at this
    rw [← this]
    congr 2
    unfold fileRows
    cases files f with
    | none => simp [numOnTask]
    | some a => rfl
  have hrows : ∀ f < F, ∀ k < n f, (data (pre n f + k)).rows.length = numOnTask (fileRows files f).length (n f) k := by
    intro f hf k hk
    rw [hl _ (hrank f hf k hk), hepf f hf k hk]
    simp
  have hblocklen : ∀ f < F, pre (fun k => (data (pre n f + k)).rows.length) (n f) = (fileRows files f).length := by
    intro f hf
    rw [pre_congr (hrows f hf)]
    exact pre_numOnTask _ _ (h4 f hf)
  rw [allRanks_ok (g := fun k => numOnTask (fileRows files f).length (n f) k)]
  · simp only
    rw [if_neg]
    · have hfirst : pre n f < P := by have := hrank f hf 0 (h4 f hf); omega
      have hk0 : ∀ k < n f, (data (pre n f + k)).dtype = t ∧ (data (pre n f + k)).dims = d := fun k hk => hc _ (hrank f hf k hk)
      obtain ⟨calls, hw, -⟩ := collectiveWrite_ok (P := n f) (data := fun k => data (pre n f + k)) (itemsize := itemsize) (buffer_size := buffer_size) (fuel := fuel)
        (old := emptyArray (pre (fun k => (data (pre n f + k)).rows.length) (n f)))
        (fun r hr => by rw [(hk0 r hr).2, (hk0 0 (h4 f hf)).2]) (fun r hr => by rw [(hk0 r hr).1, (hk0 0 (h4 f hf)).1])
        (by show 0 < elementSize (itemsize (data (pre n f + 0)).dtype) (data (pre n f + 0)).dims; rw [(hk0 0 (h4 f hf)).1, (hk0 0 (h4 f hf)).2]; exact h0) (by show elementSize (itemsize (data (pre n f + 0)).dtype) (data (pre n f + 0)).dims ≤ _; rw [(hk0 0 (h4 f hf)).1, (hk0 0 (h4 f hf)).2]; exact hb)
        (by simp [emptyArray]) (fun r hr => hfuel _ (hrank f hf r hr))
      rw [hw]
      simp only
      rw [List.drop_of_length_le (by simp [emptyArray]), List.append_nil]
      have e1 : gcat P (fun p => (data p).rows) = gcat F (fun f => gcat (n f) (fun k => (data (pre n f + k)).rows)) := by
        rw [← h3]
        exact gcat_blocks n F (fun p => (data p).rows)
      have e2 := slice_gcat (P := F) (r := f) (a := fun f => gcat (n f) (fun k => (data (pre n f + k)).rows)) hf
      have e3 : pre (sizes (fun f => gcat (n f) (fun k => (data (pre n f + k)).rows))) f = pre (fun f => (fileRows files f).length) f := by
        apply pre_congr
        intro i hi
        rw [← hblocklen i (by omega)]
        show (gcat _ _).length = _
        rw [length_gcat]
        rfl
      have e4 : (gcat (n f) (fun k => (data (pre n f + k)).rows)).length = (fileRows files f).length := by
        rw [length_gcat, ← hblocklen f hf]
        rfl
      rw [e1, ← e3, ← e4, e2]
      obtain ⟨e5, e6⟩ := hc _ hfirst
      subst e5 e6
      rfl
    · simp only [List.any_eq_true, decide_eq_true_eq, not_exists, not_and, not_not, ne_eq]
      intro k hk
      have hk := List.mem_range.1 hk
      rw [List.getElem?_map, List.getElem?_range hk, hrows f hf k hk]
      rfl
  · intro k hk
    rw [hepf f hf k hk]
    exact dictGet_ok (by simp) (fun w hw => by simpa using hw)

end Verif
