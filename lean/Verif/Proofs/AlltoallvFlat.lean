import Verif.Proofs.AlltoallvAsync

set_option linter.unusedSectionVars false

/-! Exchanging rows of a two dimensional array element by element. -/

namespace Verif

variable {α : Type*}

theorem length_flatten_rows {w : Nat} {rows : List (List α)} (h : ∀ x ∈ rows, x.length = w) :
    rows.flatten.length = rows.length * w := by
  induction rows with
  | nil => simp
  | cons x xs ih =>
    rw [List.flatten_cons, List.length_append, ih (fun y hy => h y (List.mem_cons_of_mem _ hy)), h x (by simp),
      List.length_cons, Nat.succ_mul]
    omega

theorem flatten_take_rows {w : Nat} {rows : List (List α)} (h : ∀ x ∈ rows, x.length = w) (n : Nat) :
    (rows.take n).flatten = rows.flatten.take (n * w) := by
  induction rows generalizing n with
  | nil => simp
  | cons x xs ih =>
    cases n with
    | zero => simp
    | succ n =>
      have hx := h x (by simp)
      rw [List.take_succ_cons, List.flatten_cons, List.flatten_cons, ih (fun y hy => h y (List.mem_cons_of_mem _ hy)),
        List.take_append, List.take_of_length_le (show x.length ≤ (n + 1) * w by rw [hx, Nat.succ_mul]; omega), hx,
        Nat.succ_mul, Nat.add_sub_cancel]

theorem flatten_drop_rows {w : Nat} {rows : List (List α)} (h : ∀ x ∈ rows, x.length = w) (n : Nat) :
    (rows.drop n).flatten = rows.flatten.drop (n * w) := by
  induction rows generalizing n with
  | nil => simp
  | cons x xs ih =>
    cases n with
    | zero => simp
    | succ n =>
      have hx := h x (by simp)
      rw [List.drop_succ_cons, List.flatten_cons, ih (fun y hy => h y (List.mem_cons_of_mem _ hy)),
        List.drop_append, List.drop_of_length_le (show x.length ≤ (n + 1) * w by rw [hx, Nat.succ_mul]; omega), hx,
        Nat.succ_mul, Nat.add_sub_cancel, List.nil_append]

theorem flatten_slice_rows {w : Nat} {rows : List (List α)} (h : ∀ x ∈ rows, x.length = w) (o n : Nat) :
    (slice rows o n).flatten = slice rows.flatten (o * w) (n * w) := by
  unfold slice
  rw [flatten_take_rows (fun x hx => h x (List.mem_of_mem_drop hx)), flatten_drop_rows h]

theorem mem_of_mem_slice {l : List α} {o n : Nat} {x : α} (h : x ∈ slice l o n) : x ∈ l :=
  List.mem_of_mem_drop (List.mem_of_mem_take h)

theorem flatten_overlay_rows {w : Nat} {buf xs : List (List α)} (hb : ∀ x ∈ buf, x.length = w)
    (hx : ∀ x ∈ xs, x.length = w) (o : Nat) :
    (overlay buf o xs).flatten = overlay buf.flatten (o * w) xs.flatten := by
  unfold overlay
  rw [List.flatten_append, List.flatten_append, flatten_take_rows hb, flatten_drop_rows hb, length_flatten_rows hx,
    Nat.add_mul]

theorem rows_overlay {w : Nat} {buf xs : List (List α)} (hb : ∀ x ∈ buf, x.length = w)
    (hx : ∀ x ∈ xs, x.length = w) (o : Nat) : ∀ x ∈ overlay buf o xs, x.length = w := by
  intro x h
  unfold overlay at h
  rw [List.mem_append, List.mem_append] at h
  rcases h with (h | h) | h
  · exact hb x (List.mem_of_mem_take h)
  · exact hx x h
  · exact hb x (List.mem_of_mem_drop h)

/-- Moving rows is the same as moving `w` times as many elements (`nvalues*send_count`, ... in `repartition` and others). -/
theorem a2avInto_flatten {P w : Nat} {send recv : Nat → List (List α)} {scnt soff roff : Nat → Nat → Nat}
    (hs : ∀ s < P, ∀ x ∈ send s, x.length = w) (d : Nat) (hr : ∀ x ∈ recv d, x.length = w) :
    (a2avInto P send scnt soff recv roff d).flatten =
      a2avInto P (fun s => (send s).flatten) (fun s d => scnt s d * w) (fun s d => soff s d * w)
        (fun d => (recv d).flatten) (fun d s => roff d s * w) d := by
  unfold a2avInto
  have hgen : ∀ (l : List Nat) (buf : List (List α)), (∀ s ∈ l, s < P) → (∀ x ∈ buf, x.length = w) →
      (l.foldl (fun buf s => overlay buf (roff d s) (slice (send s) (soff s d) (scnt s d))) buf).flatten =
      l.foldl (fun buf s => overlay buf (roff d s * w) (slice (send s).flatten (soff s d * w) (scnt s d * w))) buf.flatten := by
    intro l
    induction l with
    | nil => intro buf _ _; rfl
    | cons s l ih =>
      intro buf hl hb
      have hsl : ∀ x ∈ slice (send s) (soff s d) (scnt s d), x.length = w :=
        fun x hx => hs s (hl s (by simp)) x (mem_of_mem_slice hx)
      rw [List.foldl_cons, List.foldl_cons, ih _ (fun t ht => hl t (List.mem_cons_of_mem _ ht)) (rows_overlay hb hsl _),
        flatten_overlay_rows hb hsl, flatten_slice_rows (hs s (hl s (by simp)))]
  exact hgen _ _ (fun s hs => List.mem_range.1 hs) hr

end Verif
