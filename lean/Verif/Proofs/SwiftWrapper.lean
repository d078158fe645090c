import Verif.Spec.SwiftWrapper
import Verif.Props.SwiftUnits
import Mathlib.Data.List.Nodup
import Mathlib.Data.List.Induction

/-!
Lemmas for C91.
-/

namespace Verif

variable {K : Type*} [Field K] [LinearOrder K]

omit [Field K] [LinearOrder K] in
theorem find_of_mem {α β : Type*} [DecidableEq α] (l : List (α × β)) (hn : (l.map (·.1)).Nodup) {a : α} {b : β} (h : (a, b) ∈ l) : l.find? (fun x => x.1 = a) = some (a, b) := by
  induction l with
  | nil => cases h
  | cons x l ih =>
    rw [List.map_cons, List.nodup_cons] at hn
    rcases List.mem_cons.1 h with rfl | h
    · rw [List.find?_cons_of_pos (by simp)]
    · rw [List.find?_cons_of_neg, ih hn.2 h]
      intro hx
      rw [decide_eq_true_iff] at hx
      exact hn.1 (hx ▸ List.mem_map_of_mem h)

omit [Field K] [LinearOrder K] in
theorem find_none_of {α β : Type*} [DecidableEq α] (l : List (α × β)) {a : α} (h : ∀ b, (a, b) ∉ l) : l.find? (fun x => x.1 = a) = none := by
  rw [List.find?_eq_none]
  rintro ⟨x, y⟩ hx he
  rw [decide_eq_true_iff] at he
  dsimp only at he
  exact h y (he ▸ hx)

variable {f : H5 K}

omit [Field K] [LinearOrder K] in
theorem obj_of_mem (hf : (f.map (·.1)).Nodup) {p : List Name} {o : H5Obj K} (h : (p, o) ∈ f) : H5.obj f p = some o := by
  unfold H5.obj; rw [find_of_mem f hf h]; rfl

omit [Field K] [LinearOrder K] in
theorem mem_of_obj {p : List Name} {o : H5Obj K} (h : H5.obj f p = some o) : (p, o) ∈ f := by
  unfold H5.obj at h
  obtain ⟨x, hx, rfl⟩ := Option.map_eq_some_iff.1 h
  have h1 := List.mem_of_find?_eq_some hx
  have h2 := List.find?_some hx
  rw [decide_eq_true_iff] at h2
  rwa [← h2]

omit [Field K] [LinearOrder K] in
theorem obj_none_of {p : List Name} (h : ∀ o, (p, o) ∉ f) : H5.obj f p = none := by
  unfold H5.obj; rw [find_none_of f h]; rfl

theorem slashParts_append (cur k1 k2 : Name) : slashParts cur (k1 ++ '/' :: k2) = slashParts cur k1 ++ slashParts [] k2 := by
  induction k1 generalizing cur with
  | nil => rfl
  | cons c k1 ih =>
    rw [List.cons_append, slashParts.eq_2, slashParts.eq_2 cur c k1]
    split
    · rw [ih]; rfl
    · rw [ih]

theorem components_append (k1 k2 : Name) : h5Components (k1 ++ '/' :: k2) = h5Components k1 ++ h5Components k2 := by
  unfold h5Components; rw [slashParts_append, List.filter_append]

theorem slashParts_name (cur n : Name) (h : '/' ∉ n) : slashParts cur n = [cur.reverse ++ n] := by
  induction n generalizing cur with
  | nil => unfold slashParts; rw [List.append_nil]
  | cons c n ih =>
    rw [List.mem_cons, not_or] at h
    unfold slashParts
    rw [if_neg (fun hc => h.1 hc.symm), ih _ h.2, List.reverse_cons, List.append_assoc]; rfl

theorem components_name {n : Name} (h1 : n ≠ []) (h2 : n ≠ ['.']) (h3 : '/' ∉ n) : h5Components n = [n] := by
  unfold h5Components
  rw [slashParts_name [] n h3]
  simp [h1, h2]

omit [Field K] [LinearOrder K] in
theorem walk_append (p a b : List Name) : h5Walk f p (a ++ b) = (match h5Walk f p a with | .error e => .error e | .ok q => h5Walk f q b) := by
  induction a generalizing p with
  | nil => rfl
  | cons c a ih =>
    rw [List.cons_append, h5Walk.eq_2, h5Walk.eq_2 f p c a]
    cases H5.obj f p with
    | none => rfl
    | some o =>
      cases o with
      | dataset d at' => rfl
      | namedType => rfl
      | group at' =>
        dsimp only
        split
        · exact ih _
        · rfl

omit [Field K] [LinearOrder K] in
/-- A path through the file leads to the object with this path. -/
theorem walk_of (hf : f.Ok) (p a : List Name) (o : H5Obj K) (h : (p ++ a, o) ∈ f) : h5Walk f p a = .ok (p ++ a) := by
  induction a using List.reverseRecOn generalizing o with
  | nil => rw [List.append_nil]; rfl
  | append_singleton a n ih =>
    rw [← List.append_assoc] at h ⊢
    obtain ⟨attrs, hp⟩ := hf.parents _ _ _ h
    rw [walk_append, ih _ hp]
    dsimp only
    unfold h5Walk
    rw [obj_of_mem hf.nodup hp, obj_of_mem hf.nodup h]
    rfl

omit [Field K] [LinearOrder K] in
theorem walk_exists (hf : f.Ok) (p a q : List Name) (o : H5Obj K) (hp : (p, o) ∈ f) (h : h5Walk f p a = .ok q) : q = p ++ a ∧ ∃ o, (q, o) ∈ f := by
  induction a generalizing p o with
  | nil => cases h; rw [List.append_nil]; exact ⟨rfl, _, hp⟩
  | cons c a ih =>
    unfold h5Walk at h
    rw [obj_of_mem hf.nodup hp] at h
    cases o with
    | dataset d at' => cases h
    | namedType => cases h
    | group at' =>
      dsimp only at h
      cases ho : H5.obj f (p ++ [c]) with
      | none => rw [ho] at h; cases h
      | some o' =>
        rw [ho, if_pos (by rfl)] at h
        have := ih (p ++ [c]) o' (mem_of_obj ho) h
        rwa [List.append_assoc] at this

omit [Field K] [LinearOrder K] in
theorem open_rel (p : List Name) (key : Name) (h1 : key ≠ []) (h2 : key.head? ≠ some '/') : h5Open f p key = h5Walk f p (h5Components key) := by
  unfold h5Open
  split
  · exact absurd rfl h1
  · exact absurd rfl h2
  · rfl

omit [Field K] [LinearOrder K] in
theorem open_of (hf : f.Ok) (p : List Name) (key : Name) (cs : List Name) (o : H5Obj K) (h1 : key ≠ []) (h2 : key.head? ≠ some '/') (hc : h5Components key = cs) (h : (p ++ cs, o) ∈ f) :
    h5Open f p key = .ok (p ++ cs) := by
  rw [open_rel p key h1 h2, hc, walk_of hf p cs o h]

omit [Field K] [LinearOrder K] in
theorem open_mem (hf : f.Ok) {p q : List Name} {o : H5Obj K} (hp : (p, o) ∈ f) {key : Name} (h : h5Open f p key = .ok q) : ∃ o, (q, o) ∈ f := by
  obtain ⟨ra, hr⟩ := hf.root
  unfold h5Open at h
  split at h
  · cases h
  · exact (walk_exists hf _ _ _ _ hr h).2
  · exact (walk_exists hf _ _ _ _ hp h).2

omit [LinearOrder K] in
theorem floatOf_ok {v : AttrVal K} {x : K} (h : v.IsNumber x) : floatOf v = .ok x := by
  rcases h with rfl | rfl <;> rfl

omit [LinearOrder K] in
theorem floatDict_ok (attrs : List (Name × AttrVal K)) (h : ∀ a ∈ attrs, ∃ x, a.2.IsNumber x) :
    ∃ d, floatDict attrs = .ok d ∧ d.map (·.1) = attrs.map (·.1) ∧ ∀ n v x, (n, v) ∈ attrs → v.IsNumber x → (n, x) ∈ d := by
  induction attrs with
  | nil => exact ⟨[], rfl, rfl, fun n v x h => by cases h⟩
  | cons a attrs ih =>
    obtain ⟨d, hd, hm, hv⟩ := ih (fun b hb => h b (List.mem_cons_of_mem _ hb))
    obtain ⟨x, hx⟩ := h a List.mem_cons_self
    obtain ⟨n, v⟩ := a
    refine ⟨(n, x) :: d, ?_, ?_, ?_⟩
    · unfold floatDict; rw [floatOf_ok hx, hd]
    · rw [List.map_cons, List.map_cons, hm]
    · intro n' v' x' hin hnum
      rcases List.mem_cons.1 hin with he | hin
      · cases he
        have h1 := floatOf_ok hx
        have h2 := floatOf_ok hnum
        rw [h1] at h2
        cases h2
        exact List.mem_cons_self
      · exact List.mem_cons_of_mem _ (hv n' v' x' hin hnum)

omit [Field K] [LinearOrder K] in
theorem attrGet_ok {α : Type*} {d : List (Name × α)} (hn : (d.map (·.1)).Nodup) {n : Name} {x : α} (h : (n, x) ∈ d) : attrGet d n = .ok x := by
  unfold attrGet; rw [find_of_mem d hn h]

/-- The dictionary of numbers of a group -/
theorem group_dict (hf : f.Ok) {p : List Name} (h : NumberGroup f p) : ∃ attrs d, (p, H5Obj.group attrs) ∈ f ∧ floatDict attrs = .ok d ∧
    ∀ n x, HasNumber f p n x → attrGet d n.toList = .ok x := by
  obtain ⟨attrs, hm, hnum⟩ := h
  obtain ⟨d, hd, hk, hv⟩ := floatDict_ok attrs hnum
  refine ⟨attrs, d, hm, hd, ?_⟩
  rintro n x ⟨attrs', v, hm', hin, hnum'⟩
  have h1 := obj_of_mem hf.nodup hm
  have h2 := obj_of_mem hf.nodup hm'
  rw [h1] at h2
  cases h2
  exact attrGet_ok (by rw [hk]; exact hf.attrs _ _ hm) (hv _ _ _ hin hnum')

omit [Field K] [LinearOrder K] in
theorem attrs_of (hf : f.Ok) (p : List Name) (key : Name) (cs : List Name) (attrs : List (Name × AttrVal K)) (h1 : key ≠ []) (h2 : key.head? ≠ some '/') (hc : h5Components key = cs)
    (h : (p ++ cs, H5Obj.group attrs) ∈ f) : h5Attrs f p key = .ok attrs := by
  unfold h5Attrs
  rw [open_of hf p key cs _ h1 h2 hc h]
  dsimp only
  rw [obj_of_mem hf.nodup h]

theorem defineGroup_ok (hf : f.Ok) (ampere : K) (p : List Name) (key : Name) (h1 : key ≠ []) (h2 : key.head? ≠ some '/') (hc : h5Components key = [key]) (name : BaseQuantity → RegName)
    (reg : Registry K) {uI uL uM uT ut : K} (h : HasUnits f (p ++ [key]) uI uL uM uT ut) :
    defineGroup ampere f p key name reg =
      .ok ((name .current, uI * ampere) :: (name .angle, 1) :: (name .temperature, uT) :: (name .time, ut) :: (name .mass, uM) :: (name .length, uL) :: reg) := by
  obtain ⟨attrs, d, hm, hd, hv⟩ := group_dict hf h.numbers
  unfold defineGroup
  rw [open_of hf p key [key] _ h1 h2 hc hm]
  dsimp only
  rw [attrs_of hf p key [key] _ h1 h2 hc hm]
  dsimp only
  unfold defineBase
  rw [hd]
  dsimp only
  rw [hv _ _ h.L, hv _ _ h.M, hv _ _ h.t, hv _ _ h.T, hv _ _ h.I]

omit [LinearOrder K] in
theorem defineGroup_absent (hf : f.Ok) (ampere : K) (p : List Name) (key : Name) (h1 : key ≠ []) (h2 : key.head? ≠ some '/') (hc : h5Components key = [key]) (name : BaseQuantity → RegName)
    (reg : Registry K) (h : ∀ o, (p ++ [key], o) ∉ f) : defineGroup ampere f p key name reg = .ok reg := by
  unfold defineGroup
  rw [open_rel p key h1 h2, hc]
  unfold h5Walk
  rw [obj_none_of h]
  cases H5.obj f p with
  | none => rfl
  | some o => cases o <;> rfl

end Verif
