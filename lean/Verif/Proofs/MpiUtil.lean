import Verif.Model.MpiUtil
import Verif.Spec.GatherArray

set_option linter.unusedSectionVars false

namespace Verif

variable {α τ ν : Type*}

theorem swap0_zero (l : List Nat) : swap0 0 l = l := by cases l <;> simp [swap0]

theorem swapaxes_zero (a : NdArray α) : a.swapaxes 0 = a := by
  cases a; simp [NdArray.swapaxes, swap0_zero]

theorem pre_mul (n : Nat → Nat) (m r : Nat) : pre (fun s => n s * m) r = pre n r * m := by
  induction r with
  | zero => simp
  | succ r ih => rw [pre_succ, pre_succ, ih, Nat.add_mul]

/-- Gathering contiguous arrays along the first axis. -/
theorem gatherv_first [Inhabited α] {P : Nat} {b : Nat → NdArray α} {n : Nat → Nat} {ss : List Nat} (hb : ∀ p < P, (b p).shape = n p :: ss) :
    gatherv P (fun p => (b p).ravel) (fun s => n s * ss.prod) (fun s => pre n s * ss.prod) (emptyArray (pre n P * ss.prod)) = gcat P (fun p => (b p).ravel) := by
  have hlen : ∀ p < P, (b p).ravel.length = n p * ss.prod := by
    intro p hp
    rw [NdArray.length_ravel, hb p hp, List.prod_cons]
  have hpre : ∀ r ≤ P, pre (sizes (fun p => (b p).ravel)) r = pre n r * ss.prod := by
    intro r hr
    rw [← pre_mul]
    exact pre_congr (fun i hi => hlen i (by omega))
  have h := foldl_overlay_consecutive P (fun p => (b p).ravel) (emptyArray (pre n P * ss.prod)) (by rw [hpre P (Nat.le_refl _)]; simp [emptyArray])
  rw [List.drop_of_length_le (by rw [hpre P (Nat.le_refl _)]; simp [emptyArray]), List.append_nil] at h
  rw [← h]
  unfold gatherv
  apply List.foldl_ext
  intro buf s hs
  have hsP := List.mem_range.1 hs
  rw [hpre s (by omega), List.take_of_length_le (by rw [hlen s hsP])]

theorem gatherArray_eq [Inhabited α] (P : Nat) (root : Option Nat) (axis : Nat) (a : Nat → NdArray α) (p : Nat) :
    gatherArray P root axis a p = if root = some p ∨ root = none then
      some ((NdArray.ofBuffer ((swap0 axis (a p).shape).set 0 (pre (fun q => (swap0 axis (a q).shape).headD 0) P))
        (gatherv P (fun q => ((a q).swapaxes axis).ravel) (fun s => (swap0 axis (a s).shape).headD 0 * (swap0 axis (a p).shape).tail.prod)
          (fun s => pre (fun q => (swap0 axis (a q).shape).headD 0) s * (swap0 axis (a p).shape).tail.prod)
          (emptyArray ((swap0 axis (a p).shape).set 0 (pre (fun q => (swap0 axis (a q).shape).headD 0) P)).prod))).swapaxes axis) else none := by
  have h1 : ∀ q, (if axis ≠ 0 then (a q).swapaxes axis else a q) = (a q).swapaxes axis := by
    intro q
    split
    · rfl
    · next h => rw [not_not] at h; rw [h, swapaxes_zero]
  have h2 : ∀ o : Option (NdArray α), (if axis ≠ 0 then o.map (fun a => a.swapaxes axis) else o) = o.map (fun a => a.swapaxes axis) := by
    intro o
    split
    · rfl
    · next h => rw [not_not] at h; rw [h]; cases o <;> simp [swapaxes_zero]
  unfold gatherArray
  simp only [h1, h2]
  split <;> rfl

theorem gatherArray_ok [Inhabited α] {P : Nat} {root : Option Nat} {axis : Nat} {a : Nat → NdArray α} {p : Nat} (hp : p < P)
    (hax : ∀ q < P, axis < (a q).shape.length) (hsh : ∀ q < P, ∀ r < P, (a q).shape.set axis 0 = (a r).shape.set axis 0) (hr : root = some p ∨ root = none) :
    ∃ out, gatherArray P root axis a p = some out ∧ IsConcat P axis a out := by
  rw [gatherArray_eq, if_pos hr]
  refine ⟨_, rfl, ?_⟩
  have hhead : ∀ q < P, (swap0 axis (a q).shape).headD 0 = (a q).shape.getD axis 0 := by
    intro q hq
    rw [List.headD_eq_head?_getD, List.head?_eq_getElem?, getElem?_swap0 (hax q hq), List.getD_eq_getElem?_getD]
    split
    · next h => rw [← h]
    · simp
  have hcons : ∀ q < P, swap0 axis (a q).shape = (a q).shape.getD axis 0 :: (swap0 axis (a q).shape).tail := by
    intro q hq
    have hne : swap0 axis (a q).shape ≠ [] := by
      intro h
      have := congrArg List.length h
      rw [length_swap0] at this
      have := hax q hq
      rw [List.length_nil] at *; omega
    conv_lhs => rw [← List.cons_head_tail hne]
    rw [← hhead q hq]
    congr 1
    rw [List.headD_eq_head?_getD, List.head?_eq_some_head hne]; rfl
  have htail : ∀ q < P, (swap0 axis (a q).shape).tail = (swap0 axis (a p).shape).tail := by
    intro q hq
    have h1 := congrArg (swap0 axis) (hsh q hq p hp)
    rw [swap0_set (hax q hq), swap0_set (hax p hp), hcons q hq, hcons p hp] at h1
    simpa using h1
  have hpre : ∀ r ≤ P, pre (fun q => (swap0 axis (a q).shape).headD 0) r = pre (fun q => (a q).shape.getD axis 0) r :=
    fun r hr => pre_congr (fun i hi => hhead i (by omega))
  have hset : (swap0 axis (a p).shape).set 0 (pre (fun q => (a q).shape.getD axis 0) P) =
      pre (fun q => (a q).shape.getD axis 0) P :: (swap0 axis (a p).shape).tail := by rw [hcons p hp]; rfl
  have hbuf : gatherv P (fun q => ((a q).swapaxes axis).ravel) (fun s => (swap0 axis (a s).shape).headD 0 * (swap0 axis (a p).shape).tail.prod)
          (fun s => pre (fun q => (swap0 axis (a q).shape).headD 0) s * (swap0 axis (a p).shape).tail.prod)
          (emptyArray ((swap0 axis (a p).shape).set 0 (pre (fun q => (swap0 axis (a q).shape).headD 0) P)).prod) =
      gcat P (fun q => ((a q).swapaxes axis).ravel) := by
    rw [hpre P (Nat.le_refl _), hset, List.prod_cons, ← hpre P (Nat.le_refl _)]
    apply gatherv_first
    intro q hq
    show swap0 axis (a q).shape = _
    conv_lhs => rw [hcons q hq, htail q hq, ← hhead q hq]
  rw [hbuf, hpre P (Nat.le_refl _)]
  constructor
  · intro q hq
    show swap0 axis ((swap0 axis (a p).shape).set 0 _) = _
    rw [← swap0_set (hax p hp), swap0_swap0 (by simpa using hax p hp)]
    have := congrArg (fun l => l.set axis (pre (fun q => (a q).shape.getD axis 0) P)) (hsh q hq p hp)
    simp only [List.set_set] at this
    exact this.symm
  · intro q hq idx hidx
    have hlen : idx.length = (a q).shape.length := (inShape_iff.1 hidx).1
    have haxi : axis < idx.length := by rw [hlen]; exact hax q hq
    have hmod : idx.modify axis (fun i => pre (fun q => (a q).shape.getD axis 0) q + i) = idx.set axis (pre (fun q => (a q).shape.getD axis 0) q + idx[axis]) := by
      rw [List.modify_eq_set_getElem?, List.getElem?_eq_getElem haxi]; rfl
    have hswapidx : swap0 axis idx = idx[axis] :: (swap0 axis idx).tail := by
      have hne : swap0 axis idx ≠ [] := by
        intro h
        have := congrArg List.length h
        rw [length_swap0, List.length_nil] at this
        omega
      conv_lhs => rw [← List.cons_head_tail hne]
      congr 1
      have : (swap0 axis idx)[0]? = some idx[axis] := by
        rw [getElem?_swap0 haxi]
        split
        · next h => subst h; rw [List.getElem?_eq_getElem haxi]
        · simp
      rw [← List.head?_eq_getElem?, List.head?_eq_some_head hne] at this
      simpa using this
    show (gcat P (fun q => ((a q).swapaxes axis).ravel)).getD (flatIndex _ (swap0 axis _)) default = _
    rw [hmod, swap0_set haxi, hset, hswapidx, List.set_cons_zero, flatIndex, Nat.add_mul, Nat.add_assoc, ← htail q hq]
    have hin : InShape ((a q).swapaxes axis).shape (swap0 axis idx) := inShape_swap0 (hax q hq) hidx
    have hflat : flatIndex ((a q).swapaxes axis).shape (swap0 axis idx) =
        idx[axis] * (swap0 axis (a q).shape).tail.prod + flatIndex (swap0 axis (a q).shape).tail (swap0 axis idx).tail := by
      show flatIndex (swap0 axis (a q).shape) _ = _
      conv_lhs => rw [hswapidx, hcons q hq, flatIndex]
    have hsz : pre (fun q => (a q).shape.getD axis 0) q * (swap0 axis (a q).shape).tail.prod = pre (sizes (fun q => ((a q).swapaxes axis).ravel)) q := by
      rw [← pre_mul]
      apply pre_congr
      intro i hi
      show _ = ((a i).swapaxes axis).ravel.length
      rw [NdArray.length_ravel]
      show _ = (swap0 axis (a i).shape).prod
      conv_rhs => rw [hcons i (by omega), List.prod_cons, htail i (by omega), ← htail q hq]
    rw [hsz, ← hflat, List.getD_eq_getElem?_getD, getElem?_gcat hq (by rw [NdArray.length_ravel]; exact flatIndex_lt hin), NdArray.getElem?_ravel _ hin]
    show (a q).get (swap0 axis (swap0 axis idx)) = _
    rw [swap0_swap0 haxi]

/-! ### replace_none_with_zero_size -/

theorem firstNotNone_eq (l : List (Option ν)) (v : Option ν) : firstNotNone l v = match v with | some x => some x | none => l.findSome? id := by
  unfold firstNotNone
  induction l generalizing v with
  | nil => cases v <;> rfl
  | cons a l ih =>
    rw [List.foldl_cons, ih]
    cases v <;> cases a <;> simp

theorem findSome?_map_map {β γ : Type*} (l : List β) (f : β → Option γ) (g : γ → ν) :
    (l.map (fun p => (f p).map g)).findSome? id = ((l.map f).findSome? id).map g := by
  induction l with
  | nil => rfl
  | cons x l ih =>
    rw [List.map_cons, List.map_cons, List.findSome?_cons, List.findSome?_cons]
    cases h : f x <;> simp [ih]

theorem findSome?_range {f : Nat → Option ν} {P r : Nat} {x : ν} (hr : r < P) (hx : f r = some x) (hn : ∀ q < r, f q = none) :
    ((List.range P).map f).findSome? id = some x := by
  obtain ⟨k, rfl⟩ := Nat.exists_eq_add_of_lt hr
  rw [show r + k + 1 = r + (1 + k) by omega, List.range_add, List.map_append, List.findSome?_append]
  have h1 : ((List.range r).map f).findSome? id = none := by
    rw [List.findSome?_eq_none_iff]
    intro o ho
    obtain ⟨q, hq, rfl⟩ := List.mem_map.1 ho
    exact hn q (List.mem_range.1 hq)
  rw [h1, Nat.add_comm 1 k, List.range_succ_eq_map]
  simp [hx]

theorem replaceNone_some {P : Nat} {arr : Nat → Option (TypedArray τ α)} {p : Nat} {a : TypedArray τ α} (ha : arr p = some a) :
    replaceNone P arr p = .ok (some a) := by
  unfold replaceNone broadcastDtypeAndDims
  simp only [firstNotNone_eq, ha, Option.map_some]

theorem replaceNone_none {P : Nat} {arr : Nat → Option (TypedArray τ α)} {p r : Nat} {a : TypedArray τ α} (hp : arr p = none) (hr : r < P) (ha : arr r = some a)
    (hn : ∀ q < r, arr q = none) : replaceNone P arr p = .ok (some ⟨a.dtype, a.dims, []⟩) := by
  unfold replaceNone broadcastDtypeAndDims
  simp only [firstNotNone_eq, hp, Option.map_none]
  rw [findSome?_map_map, findSome?_map_map, findSome?_range hr ha hn]
  rfl

theorem replaceNone_all {P : Nat} {arr : Nat → Option (TypedArray τ α)} {p : Nat} (hp : p < P) (hn : ∀ q < P, arr q = none) : replaceNone P arr p = .ok none := by
  unfold replaceNone broadcastDtypeAndDims
  simp only [firstNotNone_eq, hn p hp, Option.map_none]
  rw [findSome?_map_map]
  have h1 : ((List.range P).map arr).findSome? id = none := by
    rw [List.findSome?_eq_none_iff]
    intro o ho
    obtain ⟨q, hq, rfl⟩ := List.mem_map.1 ho
    exact hn q (List.mem_range.1 hq)
  rw [h1]
  rfl

end Verif
