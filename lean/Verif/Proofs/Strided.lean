import Verif.Model.Strided
import Verif.Proofs.Repartition
import Verif.Proofs.FetchElements
import Verif.Proofs.AlltoallvFlat
import Verif.Lib.Scatter

namespace Verif

variable {α : Type*}

theorem getD_flatten_rows [Inhabited α] {w : Nat} {rows : List (List α)} (h : ∀ x ∈ rows, x.length = w) {i j : Nat} (hj : j < w) :
    rows.flatten.getD (i * w + j) default = (rows.getD i []).getD j default := by
  induction rows generalizing i with
  | nil => simp
  | cons x xs ih =>
    have hx := h x (by simp)
    cases i with
    | zero =>
      rw [List.flatten_cons, Nat.zero_mul, Nat.zero_add, List.getD_append _ _ _ _ (by omega)]
      rfl
    | succ i =>
      rw [List.flatten_cons, List.getD_append_right _ _ _ _ (by rw [hx, Nat.succ_mul]; omega), hx, show (i + 1) * w + j - w = i * w + j by rw [Nat.succ_mul]; omega, ih (fun y hy => h y (List.mem_cons_of_mem _ hy))]
      rfl

namespace Arr2

theorem list_rows [Inhabited α] (a : Arr2 α) : ∀ x ∈ a.list, x.length = a.cols := by
  intro x hx
  obtain ⟨i, -, rfl⟩ := List.mem_map.1 hx
  simp

@[simp] theorem length_list [Inhabited α] (a : Arr2 α) : a.list.length = a.rows := by simp [list]

/-- The rows, element by element -/
theorem list_eq [Inhabited α] {a : Arr2 α} {R : List (List α)} (h1 : R.length = a.rows) (h2 : ∀ x ∈ R, x.length = a.cols)
    (h : ∀ i < a.rows, ∀ j < a.cols, a.get i j = R.flatten.getD (i * a.cols + j) default) : a.list = R := by
  apply List.ext_getElem (by simp [h1])
  intro i hi hi'
  have hia : i < a.rows := by rw [← h1]; exact hi'
  have hrow : a.list[i] = (List.range a.cols).map (a.get i) := by
    simp [list]
  rw [hrow]
  have hl : (R[i]).length = a.cols := h2 _ (List.getElem_mem _)
  apply List.ext_getElem (by simp [hl])
  intro j hj hj'
  rw [List.getElem_map, List.getElem_range, h i hia j (by omega), getD_flatten_rows h2 (by omega), List.getD_eq_getElem _ _ hi', List.getD_eq_getElem _ _ hj']

theorem fresh_flatStride (fortran : Bool) (r c : Nat) (mem : List α) :
    (fresh fortran r c mem).flatStride = if fortran = true ∧ 2 ≤ r ∧ 2 ≤ c then none else some 1 := by
  rcases Nat.eq_zero_or_pos (r * c) with h0 | h0
  · have : ¬ (fortran = true ∧ 2 ≤ r ∧ 2 ≤ c) := by
      rintro ⟨-, h1, h2⟩
      have := Nat.mul_le_mul h1 h2
      omega
    rw [if_neg this]
    unfold flatStride
    rw [if_pos (by cases fortran <;> exact h0)]
  · have hr : 0 < r := Nat.pos_of_mul_pos_right h0
    have hc : 0 < c := Nat.pos_of_mul_pos_left h0
    unfold flatStride
    cases fortran with
    | false =>
      simp only [fresh, Bool.false_eq_true, if_false, false_and]
      rw [if_neg (by omega)]
      by_cases h1 : r = 1
      · rw [if_pos h1]
      · rw [if_neg h1]
        by_cases h2 : c = 1
        · rw [if_pos h2, h2]; rfl
        · rw [if_neg h2, if_pos (Int.mul_one _).symm]
    | true =>
      simp only [fresh, if_true, true_and]
      rw [if_neg (by omega)]
      by_cases h1 : r = 1
      · rw [if_pos h1, if_neg (by omega), h1]; rfl
      · rw [if_neg h1]
        by_cases h2 : c = 1
        · rw [if_pos h2, if_neg (by omega)]
        · rw [if_neg h2, if_pos (show 2 ≤ r ∧ 2 ≤ c by omega), if_neg]
          intro h
          have h3 := Nat.mul_le_mul (show 2 ≤ c by omega) (show 2 ≤ r by omega)
          have h4 : (1 : Int) = ((c * r : Nat) : Int) := by rw [h]; push_cast; rfl
          omega

theorem scatter_range (mem xs : List α) (h : mem.length = xs.length) : scatter mem (List.range xs.length) xs = xs := by
  apply List.ext_getElem?
  intro i
  by_cases hi : i < xs.length
  · rw [getElem?_scatter (k := i) (List.nodup_range) (by simp) (by simp [hi]) (by omega)]
  · rw [List.getElem?_eq_none (by rw [length_scatter]; omega), List.getElem?_eq_none (by omega)]

@[simp] theorem fresh_rows (fortran : Bool) (r c : Nat) (mem : List α) : (fresh fortran r c mem).rows = r := by cases fortran <;> rfl
@[simp] theorem fresh_cols (fortran : Bool) (r c : Nat) (mem : List α) : (fresh fortran r c mem).cols = c := by cases fortran <;> rfl
@[simp] theorem fresh_mem (fortran : Bool) (r c : Nat) (mem : List α) : (fresh fortran r c mem).mem = mem := by cases fortran <;> rfl
@[simp] theorem fresh_base (fortran : Bool) (r c : Nat) (mem : List α) : (fresh fortran r c mem).base = 0 := by cases fortran <;> rfl

/-- A new array has the rows which were stored, unless it is in the order of Fortran with more than one row and more than one column. -/
theorem list_storeFlat_fresh [Inhabited α] {fortran : Bool} {r c : Nat} {mem : List α} (hm : mem.length = r * c) {R : List (List α)} (h1 : R.length = r) (h2 : ∀ x ∈ R, x.length = c) :
    ((fresh fortran r c mem).storeFlat R.flatten).list = if fortran = true ∧ 2 ≤ r ∧ 2 ≤ c then (fresh fortran r c mem).list else R := by
  unfold storeFlat
  rw [fresh_flatStride]
  by_cases h : fortran = true ∧ 2 ≤ r ∧ 2 ≤ c
  · rw [if_pos h, if_pos h]
  · rw [if_neg h, if_neg h]
    have hl : R.flatten.length = r * c := by rw [length_flatten_rows h2, h1]
    have hs : scatter (fresh fortran r c mem).mem ((List.range R.flatten.length).map (fun (k : Nat) => (((fresh fortran r c mem).base : Int) + k * 1).toNat)) R.flatten = R.flatten := by
      have : (List.range R.flatten.length).map (fun (k : Nat) => (((fresh fortran r c mem).base : Int) + k * 1).toNat) = List.range R.flatten.length := by
        conv_rhs => rw [← List.map_id (List.range R.flatten.length)]
        apply List.map_congr_left
        intro k _
        rw [fresh_base]
        simp
      rw [this, fresh_mem]
      exact scatter_range _ _ (by rw [hm, hl])
    dsimp only
    rw [hs]
    apply list_eq
    · simpa using h1
    · simpa using h2
    · simp only [fresh_rows, fresh_cols]
      intro i hi j hj
      unfold get
      congr 1
      simp only [fresh_base]
      cases fortran with
      | false =>
        simp only [fresh, Bool.false_eq_true, if_false]
        have : ((0 : Nat) : Int) + (i : Int) * (c : Int) + (j : Int) * 1 = ((i * c + j : Nat) : Int) := by push_cast; omega
        rw [this]
        rfl
      | true =>
        simp only [fresh, if_true]
        simp only [true_and] at h
        by_cases hr : r = 1
        · obtain rfl : i = 0 := by omega
          subst hr
          simp
        · have hc : c = 1 := by omega
          obtain rfl : j = 0 := by omega
          subst hc
          simp

theorem fresh_bufferOk (fortran : Bool) (r c : Nat) (mem : List α) (counts : List Nat) : (fresh fortran r c mem).bufferOk counts = true := by
  unfold bufferOk
  rw [fresh_flatStride]
  split <;> simp

end Arr2

/-- Consecutive blocks fill a buffer of the right size, whatever was in it. -/
theorem a2avInto_full {P : Nat} {send : Nat → List α} {scnt soff : Nat → Nat → Nat} {recv : Nat → List α} {d : Nat} (h : ∀ s < P, soff s d + scnt s d ≤ (send s).length)
    (hr : (recv d).length = pre (fun s => scnt s d) P) :
    a2avInto P send scnt soff recv (fun d => pre (fun s => scnt s d)) d = gcat P (fun s => slice (send s) (soff s d) (scnt s d)) := by
  have hs : ∀ s < P, sizes (fun s => slice (send s) (soff s d) (scnt s d)) s = scnt s d := by
    intro s hs; exact length_slice_of_le (h s hs)
  have hpre : ∀ s ≤ P, pre (sizes (fun s => slice (send s) (soff s d) (scnt s d))) s = pre (fun s => scnt s d) s := fun s hsP => pre_congr (fun i hi => hs i (by omega))
  have key := foldl_overlay_consecutive P (fun s => slice (send s) (soff s d) (scnt s d)) (recv d) (by rw [hpre P (Nat.le_refl _), hr])
  rw [hpre P (Nat.le_refl _), List.drop_of_length_le (by omega), List.append_nil] at key
  rw [← key]
  unfold a2avInto
  apply List.foldl_ext
  intro b s hsm
  rw [hpre s (Nat.le_of_lt (List.mem_range.1 hsm))]

/-- The messages which rank `me` sends in `repartition` -/
def repartitionCounts (P : Nat) (n ndesired : Nat → Nat) (w me : Nat) : List Nat := (List.range P).map (fun d => repartitionSendCount n ndesired me d * w)

theorem repartition_window (n ndesired : Nat → Nat) (s d : Nat) :
    pre (repartitionSendCount n ndesired s) d + repartitionSendCount n ndesired s d ≤ n s := by
  rw [show pre (repartitionSendCount n ndesired s) d = pre (fun r => repartitionSendCount n ndesired s r) d from rfl, pre_repartitionSendCount, repartitionSendCount_eq]
  have := pre_mono ndesired (show d ≤ d + 1 by omega)
  omega

theorem repartition_recv_count {P : Nat} {n ndesired : Nat → Nat} (h : pre n P = pre ndesired P) {d : Nat} (hd : d < P) :
    pre (fun s => repartitionSendCount n ndesired s d) P = ndesired d := by
  have hsz : sizes (fun s => List.replicate (n s) ()) = n := by funext s; simp [sizes]
  obtain ⟨out, h3, h4⟩ := repartition_ok (arr := fun s => List.replicate (n s) ()) (d := ndesired) (P := P) (by rw [hsz]; exact h)
  have h6 : (out d).length = ndesired d := by
    rw [h4 d hd]
    apply length_slice_of_le
    rw [length_gcat, hsz, h]
    exact pre_lt_total hd
  unfold repartition at h3
  simp only [hsz] at h3
  rw [if_neg (by simpa using h)] at h3
  have h7 := congrFun (Except.ok.inj h3) d
  have hwin : ∀ s < P, pre (repartitionSendCount n ndesired s) d + repartitionSendCount n ndesired s d ≤ (List.replicate (n s) ()).length := by
    intro s hs
    rw [List.length_replicate]
    exact repartition_window n ndesired s d
  rw [a2av_eq hwin] at h7
  rw [← h6, ← h7, length_gcat]
  apply pre_congr
  intro s hs
  simp only [sizes]
  rw [length_slice_of_le (hwin s hs)]

theorem repartition2_eq [Inhabited α] {P w : Nat} {junk : Nat → Nat → α} {arr : Nat → Arr2 α} {ndesired : Nat → Nat} (hw : ∀ p < P, (arr p).cols = w)
    (h : pre (fun p => (arr p).rows) P = pre ndesired P) :
    ((∃ p < P, (arr p).bufferOk (repartitionCounts P (fun p => (arr p).rows) ndesired w p) = false) → repartition2 P junk arr ndesired = .error .valueError) ∧
    ((∀ p < P, (arr p).bufferOk (repartitionCounts P (fun p => (arr p).rows) ndesired w p) = true) →
      ∃ out, repartition2 P junk arr ndesired = .ok out ∧ ∀ p < P, (out p).rows = ndesired p ∧ (out p).cols = w ∧
        (out p).list = if (arr p).columnMajor = true ∧ 2 ≤ ndesired p ∧ 2 ≤ w then (Arr2.fresh true (ndesired p) w ((List.range (ndesired p * w)).map (junk p))).list
          else slice (gcat P (fun p => (arr p).list)) (pre ndesired p) (ndesired p)) := by
  have hcounts : ∀ p < P, (List.range P).map (fun d => repartitionSendCount (fun me => (arr me).rows) ndesired p d * (arr p).cols) = repartitionCounts P (fun p => (arr p).rows) ndesired w p := by
    intro p hp
    rw [hw p hp]
    rfl
  unfold repartition2
  dsimp only
  rw [if_neg (by simpa using h)]
  constructor
  · rintro ⟨p, hp, hb⟩
    rw [if_pos]
    rw [List.any_eq_true]
    refine ⟨p, List.mem_range.2 hp, ?_⟩
    rw [hcounts p hp, hb]
    rfl
  · intro hb
    rw [if_neg]
    · refine ⟨_, rfl, ?_⟩
      intro p hp
      have hrc : pre (alltoall (fun me rank => repartitionSendCount (fun me => (arr me).rows) ndesired me rank) p) P = ndesired p := repartition_recv_count h hp
      have hsz : sizes (fun p => (arr p).list) = fun p => (arr p).rows := by funext p; simp [sizes]
      -- the rows which are received
      have hR : a2avInto P (fun s => (arr s).list) (fun s d => repartitionSendCount (fun me => (arr me).rows) ndesired s d) (fun s d => pre (fun rank => repartitionSendCount (fun me => (arr me).rows) ndesired s rank) d)
          (fun d => (Arr2.fresh (arr d).columnMajor (ndesired d) w ((List.range (ndesired d * w)).map (junk d))).list) (fun d => pre (fun s => repartitionSendCount (fun me => (arr me).rows) ndesired s d)) p =
          slice (gcat P (fun p => (arr p).list)) (pre ndesired p) (ndesired p) := by
        rw [a2avInto_full]
        · obtain ⟨out, h3, h4⟩ := repartition_ok (arr := fun p => (arr p).list) (d := ndesired) (P := P) (by rw [hsz]; exact h)
          unfold repartition at h3
          simp only [hsz] at h3
          rw [if_neg (by simpa using h)] at h3
          rw [← h4 p hp, ← congrFun (Except.ok.inj h3) p, a2av_eq]
          intro s hs
          rw [Arr2.length_list]
          exact repartition_window _ ndesired s p
        · intro s hs
          rw [Arr2.length_list]
          exact repartition_window _ ndesired s p
        · rw [Arr2.length_list, Arr2.fresh_rows]
          exact hrc.symm
      have hflat := a2avInto_flatten (P := P) (w := w) (send := fun s => (arr s).list)
        (recv := fun d => (Arr2.fresh (arr d).columnMajor (ndesired d) w ((List.range (ndesired d * w)).map (junk d))).list)
        (scnt := fun s d => repartitionSendCount (fun me => (arr me).rows) ndesired s d) (soff := fun s d => pre (fun rank => repartitionSendCount (fun me => (arr me).rows) ndesired s rank) d)
        (roff := fun d => pre (fun s => repartitionSendCount (fun me => (arr me).rows) ndesired s d))
        (fun s hs x hx => by rw [Arr2.list_rows _ x hx, hw s hs]) p (fun x hx => by rw [Arr2.list_rows _ x hx, Arr2.fresh_cols])
      rw [hR] at hflat
      have hrec : a2avInto P (fun s => (arr s).flat) (fun s d => repartitionSendCount (fun me => (arr me).rows) ndesired s d * (arr s).cols)
          (fun s d => pre (fun rank => repartitionSendCount (fun me => (arr me).rows) ndesired s rank) d * (arr s).cols)
          (fun d => (Arr2.fresh (arr d).columnMajor (pre (alltoall (fun me rank => repartitionSendCount (fun me => (arr me).rows) ndesired me rank) d) P) (arr d).cols
            ((List.range (pre (alltoall (fun me rank => repartitionSendCount (fun me => (arr me).rows) ndesired me rank) d) P * (arr d).cols)).map (junk d))).flat)
          (fun d s => pre (alltoall (fun me rank => repartitionSendCount (fun me => (arr me).rows) ndesired me rank) d) s * (arr d).cols) p =
          (slice (gcat P (fun p => (arr p).list)) (pre ndesired p) (ndesired p)).flatten := by
        rw [hflat]
        unfold a2avInto
        dsimp only
        rw [hrc, hw p hp]
        apply List.foldl_ext
        intro b s hs
        rw [hw s (List.mem_range.1 hs)]
        rfl
      rw [hrec, hrc, hw p hp]
      have hlist := Arr2.list_storeFlat_fresh (fortran := (arr p).columnMajor) (r := ndesired p) (c := w) (mem := (List.range (ndesired p * w)).map (junk p)) (by simp)
        (R := slice (gcat P (fun p => (arr p).list)) (pre ndesired p) (ndesired p))
        (by
          apply length_slice_of_le
          rw [length_gcat, hsz, h]
          exact pre_lt_total hp)
        (by
          intro x hx
          obtain ⟨q, hq, hx⟩ := List.mem_flatMap.1 (mem_of_mem_slice hx)
          rw [Arr2.list_rows _ x hx, hw q (List.mem_range.1 hq)])
      refine ⟨?_, ?_, ?_⟩
      · unfold Arr2.storeFlat
        split <;> simp
      · unfold Arr2.storeFlat
        split <;> simp
      · rw [hlist]
        by_cases hc : (arr p).columnMajor = true ∧ 2 ≤ ndesired p ∧ 2 ≤ w
        · rw [if_pos hc, if_pos hc, hc.1]
        · rw [if_neg hc, if_neg hc]
    · rw [List.any_eq_true]
      rintro ⟨p, hp, hb'⟩
      have hp := List.mem_range.1 hp
      rw [hcounts p hp, hb p hp, Arr2.fresh_bufferOk] at hb'
      exact absurd hb' (by decide)

theorem mem_pyGet? {l : List α} {i : Int} {x : α} (h : pyGet? l i = some x) : x ∈ l := by
  unfold pyGet? at h
  split at h
  · exact List.mem_of_getElem? h
  · split at h
    · exact List.mem_of_getElem? h
    · exact absurd h (by simp)

theorem mem_fancy? {l : List α} {idx : List Int} {v : List α} (h : fancy? l idx = some v) : ∀ x ∈ v, x ∈ l := by
  unfold fancy? at h
  induction idx generalizing v with
  | nil =>
    simp at h
    subst h
    simp
  | cons i idx ih =>
    rw [List.mapM_cons] at h
    simp only [Option.bind_eq_bind, Option.bind_eq_some_iff, Option.pure_def, Option.some.injEq] at h
    obtain ⟨x, hx, y, hy, rfl⟩ := h
    intro z hz
    rcases List.mem_cons.1 hz with rfl | hz
    · exact mem_pyGet? hx
    · exact ih hy z hz

theorem rows_a2avInto {P w : Nat} {send recv : Nat → List (List α)} {scnt soff roff : Nat → Nat → Nat} (hs : ∀ s < P, ∀ x ∈ send s, x.length = w) {d : Nat} (hr : ∀ x ∈ recv d, x.length = w) :
    ∀ x ∈ a2avInto P send scnt soff recv roff d, x.length = w := by
  unfold a2avInto
  have : ∀ (l : List Nat) (buf : List (List α)), (∀ s ∈ l, s < P) → (∀ x ∈ buf, x.length = w) →
      ∀ x ∈ l.foldl (fun buf s => overlay buf (roff d s) (slice (send s) (soff s d) (scnt s d))) buf, x.length = w := by
    intro l
    induction l with
    | nil => intro buf _ hb; exact hb
    | cons s l ih =>
      intro buf hl hb
      exact ih _ (fun t ht => hl t (List.mem_cons_of_mem _ ht)) (rows_overlay hb (fun x hx => hs s (hl s (by simp)) x (mem_of_mem_slice hx)) _)
  exact this _ _ (fun s hs => List.mem_range.1 hs) hr

theorem fetchElements2_eq [Inhabited α] {P w : Nat} {junk : Nat → Nat → α} {arr : Nat → Arr2 α} {index : Nat → List Int} {result : Option (Nat → Arr2 α)} (hw : ∀ p < P, (arr p).cols = w)
    {fortran : Nat → Bool} {mem : Nat → List α} (hm : ∀ p < P, (mem p).length = (index p).length * w)
    (hbuf : ∀ p < P, fetchBuffer junk arr index result p = Arr2.fresh (fortran p) (index p).length w (mem p))
    (hin : ∀ p < P, ∀ i ∈ index p, 0 ≤ i ∧ i < (pre (fun p => (arr p).rows) P : Int)) :
    ∃ out, fetchElements2 P junk arr index result = .ok out ∧ ∀ p < P, out p =
      if fortran p = true ∧ 2 ≤ (index p).length ∧ 2 ≤ w then
        scatter (Arr2.fresh true (index p).length w (mem p)).list (argsort (index p)) (Arr2.fresh true (index p).length w (mem p)).list
      else (index p).map (fun i => (gcat P (fun p => (arr p).list)).getD i.toNat default) := by
  have hsz : sizes (fun p => (arr p).list) = fun p => (arr p).rows := by funext p; simp [sizes]
  obtain ⟨out, h1, h2⟩ := fetchElements_ok (arr := fun p => (arr p).list) (index := index) (P := P) (result := some (fun p => (fetchBuffer junk arr index result p).list))
    (by
      intro r hr me hme
      obtain rfl := Option.some.inj hr
      rw [Arr2.length_list, hbuf me hme, Arr2.fresh_rows])
    (by rw [hsz]; exact hin)
  unfold fetchElements at h1
  simp only [hsz] at h1
  unfold fetchElements2
  dsimp only
  split at h1
  · next hall =>
    rw [if_pos hall]
    have h1 := Except.ok.inj h1
    rw [if_neg]
    · refine ⟨_, rfl, ?_⟩
      intro p hp
      have hop := congrFun h1 p
      -- the rows which are received
      have hvals : ∀ s < P, ∀ x ∈ (fancy? (arr s).list ((a2av P (fun me => fancy (index me) (argsort (index me))) (fun me p => fetchSendCount P (pre fun p => (arr p).rows) (fancy (index me) (argsort (index me))) p)
          (fun me => pre (fun p => fetchSendCount P (pre fun p => (arr p).rows) (fancy (index me) (argsort (index me))) p)) s).map (fun i => i - ((pre (fun p => (arr p).rows) s : Nat) : Int)))).getD [], x.length = w := by
        intro s hs x hx
        have h3 := List.all_eq_true.1 hall s (List.mem_range.2 hs)
        obtain ⟨v, hv⟩ := Option.isSome_iff_exists.1 h3
        rw [hv] at hx
        rw [Arr2.list_rows _ x (mem_fancy? hv x hx), hw s hs]
      have hrows := rows_a2avInto (P := P) (w := w) (send := fun s => (fancy? (arr s).list ((a2av P (fun me => fancy (index me) (argsort (index me))) (fun me p => fetchSendCount P (pre fun p => (arr p).rows) (fancy (index me) (argsort (index me))) p)
          (fun me => pre (fun p => fetchSendCount P (pre fun p => (arr p).rows) (fancy (index me) (argsort (index me))) p)) s).map (fun i => i - ((pre (fun p => (arr p).rows) s : Nat) : Int)))).getD [])
        (recv := fun p => (fetchBuffer junk arr index result p).list)
        (scnt := alltoall fun me p => fetchSendCount P (pre fun p => (arr p).rows) (fancy (index me) (argsort (index me))) p)
        (soff := fun d => pre (alltoall (fun me p => fetchSendCount P (pre fun p => (arr p).rows) (fancy (index me) (argsort (index me))) p) d))
        (roff := fun me => pre (fun p => fetchSendCount P (pre fun p => (arr p).rows) (fancy (index me) (argsort (index me))) p))
        hvals (d := p) (fun x hx => by rw [Arr2.list_rows _ x hx, hbuf p hp, Arr2.fresh_cols])
      have hflat := a2avInto_flatten (P := P) (w := w) (send := fun s => (fancy? (arr s).list ((a2av P (fun me => fancy (index me) (argsort (index me))) (fun me p => fetchSendCount P (pre fun p => (arr p).rows) (fancy (index me) (argsort (index me))) p)
          (fun me => pre (fun p => fetchSendCount P (pre fun p => (arr p).rows) (fancy (index me) (argsort (index me))) p)) s).map (fun i => i - ((pre (fun p => (arr p).rows) s : Nat) : Int)))).getD [])
        (recv := fun p => (fetchBuffer junk arr index result p).list)
        (scnt := alltoall fun me p => fetchSendCount P (pre fun p => (arr p).rows) (fancy (index me) (argsort (index me))) p)
        (soff := fun d => pre (alltoall (fun me p => fetchSendCount P (pre fun p => (arr p).rows) (fancy (index me) (argsort (index me))) p) d))
        (roff := fun me => pre (fun p => fetchSendCount P (pre fun p => (arr p).rows) (fancy (index me) (argsort (index me))) p))
        hvals p (fun x hx => by rw [Arr2.list_rows _ x hx, hbuf p hp, Arr2.fresh_cols])
      set R := a2avInto P (fun s => (fancy? (arr s).list ((a2av P (fun me => fancy (index me) (argsort (index me))) (fun me p => fetchSendCount P (pre fun p => (arr p).rows) (fancy (index me) (argsort (index me))) p)
          (fun me => pre (fun p => fetchSendCount P (pre fun p => (arr p).rows) (fancy (index me) (argsort (index me))) p)) s).map (fun i => i - ((pre (fun p => (arr p).rows) s : Nat) : Int)))).getD [])
        (alltoall fun me p => fetchSendCount P (pre fun p => (arr p).rows) (fancy (index me) (argsort (index me))) p)
        (fun d => pre (alltoall (fun me p => fetchSendCount P (pre fun p => (arr p).rows) (fancy (index me) (argsort (index me))) p) d))
        (fun p => (fetchBuffer junk arr index result p).list)
        (fun me => pre (fun p => fetchSendCount P (pre fun p => (arr p).rows) (fancy (index me) (argsort (index me))) p)) p with hRdef
      have hop : scatter R (argsort (index p)) R = out p := hop
      have hRlen : R.length = (index p).length := by
        have := congrArg List.length hop
        rw [length_scatter, h2 p hp, List.length_map] at this
        exact this
      have hstore := Arr2.list_storeFlat_fresh (fortran := fortran p) (hm p hp) hRlen hrows
      rw [← hbuf p hp] at hstore
      have hrec : ∀ a b : List α, a = b → (fetchBuffer junk arr index result p).storeFlat a = (fetchBuffer junk arr index result p).storeFlat b := fun a b h => by rw [h]
      rw [hrec _ R.flatten (by
        rw [hflat]
        unfold a2avInto
        dsimp only
        rw [hw p hp]
        apply List.foldl_ext
        intro b s hs
        rw [hw s (List.mem_range.1 hs)]), hstore]
      by_cases hc : fortran p = true ∧ 2 ≤ (index p).length ∧ 2 ≤ w
      · rw [if_pos hc, if_pos hc, hbuf p hp, hc.1]
      · rw [if_neg hc, if_neg hc, hop, h2 p hp]
    · rw [List.any_eq_true]
      rintro ⟨p, hp, hb⟩
      rw [hbuf p (List.mem_range.1 hp), Arr2.fresh_bufferOk] at hb
      exact absurd hb (by decide)
  · cases h1

end Verif
