import Verif.Model.Hdf5Lists
import Verif.Props.Hdf5Groups

/-! C114: lists of datasets, groups and attributes -/

namespace Verif.Hdf5

open FortranReaders

theorem assoc_isSome {α β : Type} [DecidableEq α] (k : α) (l : List (α × β)) : (assoc k l).isSome ↔ ∃ b, (k, b) ∈ l := by
  induction l with
  | nil => simp [assoc]
  | cons x l ih =>
    obtain ⟨a, b⟩ := x
    unfold assoc
    by_cases h : a = k
    · rw [if_pos h, h]
      exact ⟨fun _ => ⟨b, by simp⟩, fun _ => rfl⟩
    · rw [if_neg h, ih]
      constructor
      · rintro ⟨b', hb⟩; exact ⟨b', List.mem_cons_of_mem _ hb⟩
      · rintro ⟨b', hb⟩
        rcases List.mem_cons.1 hb with hb | hb
        · cases hb; exact absurd rfl h
        · exact ⟨b', hb⟩

theorem mem_members {f : H5File} {path : List Name} {c : Name} : c ∈ f.members path ↔ (f.link (path ++ [c])).isSome := by
  unfold H5File.members H5File.link
  rw [List.mem_dedup, List.mem_map, if_neg (by simp), assoc_isSome]
  constructor
  · rintro ⟨⟨p, l⟩, h1, rfl⟩
    rw [List.mem_filter, decide_eq_true_eq] at h1
    obtain ⟨h1, h2, h3⟩ := h1
    dsimp only at h2 h3 ⊢
    refine ⟨l, ?_⟩
    rw [← h3, List.getLastD_eq_getLast?, List.getLast?_eq_some_getLast h2, Option.getD_some, List.dropLast_append_getLast h2]
    exact h1
  · rintro ⟨l, hl⟩
    refine ⟨(path ++ [c], l), ?_, by simp⟩
    rw [List.mem_filter, decide_eq_true_eq]
    exact ⟨hl, by simp, by simp⟩

theorem name_components {cs : List Name} (hp : ∀ c ∈ cs, Part c) {lead : Bool} (hr : cs ≠ [] ∨ lead = true) : h5Components (trimBlanks (absName lead cs)) = cs ∧ trimBlanks (absName lead cs) ≠ [] := by
  by_cases hne : cs = []
  · rcases hr with hr | hr
    · exact absurd hne hr
    · rw [hne, hr]
      decide +kernel
  · obtain ⟨x, h1, h2, h3⟩ := pathName_end hne hp
    have htrim : trimBlanks (absName lead cs) = absName lead cs := by
      apply trimBlanks_last
      unfold absName
      rw [List.getLast?_append, h1]
      simpa using h3
    rw [htrim]
    constructor
    · unfold absName
      cases lead with
      | false => exact components_path hp
      | true =>
        simp only [if_true, List.cons_append, List.nil_append]
        rw [components_slash, components_path hp]
    · unfold absName
      intro h0
      rw [(List.append_eq_nil_iff.1 h0).2] at h1
      simp at h1

section

variable {order : List Name → List Name} {w : World} {ifile : Int} {h : Handle} {f : H5File} {cs : List Name} {lead : Bool}

theorem listObjects_eq (wanted : Option Link → Bool) (hh : w.handle ifile = .ok h) (hf : w.disk h.file = some f) (hw : f.WF) (hp : ∀ c ∈ cs, Part c) (hr : cs ≠ [] ∨ lead = true) (array : Option NameArray) :
    listObjects order wanted w ifile (absName lead cs) array = if f.link cs = some .group then (do
      let names ← storeAll array (((order (f.members cs)).filter (fun c => wanted (f.link (cs ++ [c])))).map (fun c => trimBlanks (assignChar 500 c)))
      .ok (((order (f.members cs)).filter (fun c => wanted (f.link (cs ++ [c])))).length, names)) else .error .abort := by
  obtain ⟨h1, h2⟩ := name_components hp hr
  have h3 : f.find (absName lead cs) = f.link cs := by rw [find_of_link hw h2, h1]
  unfold listObjects
  rw [hh]
  show (match w.disk h.file with
    | none => _
    | some f => _) = _
  rw [hf]
  dsimp only
  unfold h5gopen
  rw [h3, h1]
  by_cases hg : f.link cs = some .group
  · rw [if_pos hg, if_neg (by simp [hg])]
  · rw [if_neg hg, if_pos (by simp [hg])]

theorem trim_assign {a : Nat} {c : Name} (hl : c.length ≤ a) (hb : c.getLast? ≠ some ' ') : trimBlanks (assignChar a c) = c := by
  unfold assignChar
  rw [List.take_of_length_le hl]
  have h1 : ∀ k, trimBlanks (c ++ List.replicate k ' ') = trimBlanks c := by
    intro k
    unfold trimBlanks
    rw [List.reverse_append, List.reverse_replicate]
    congr 1
    induction k with
    | zero => rfl
    | succ k ih => rw [List.replicate_succ, List.cons_append, List.dropWhile_cons_of_pos (by simp)]; exact ih
  rw [h1]
  exact trimBlanks_last hb

/-- The names of the wanted objects, each once -/
theorem objects_names (ho : ∀ l, (order l).Perm l) (wanted : Option Link → Bool) (hno : wanted none = false) (hh : w.handle ifile = .ok h) (hf : w.disk h.file = some f) (hw : f.WF) (hp : ∀ c ∈ cs, Part c)
    (hr : cs ≠ [] ∨ lead = true) (hg : f.link cs = some .group) : ∃ names : List Name, names.Nodup ∧ (∀ c, c ∈ names ↔ wanted (f.link (cs ++ [c])) = true) ∧
      listObjects order wanted w ifile (absName lead cs) none = .ok (names.length, []) ∧
      ∀ a : NameArray, listObjects order wanted w ifile (absName lead cs) (some a) = if names.length ≤ a.size then .ok (names.length, names.map (fun c => assignChar a.len (trimBlanks (assignChar 500 c)))) else .error .other := by
  refine ⟨(order (f.members cs)).filter (fun c => wanted (f.link (cs ++ [c]))), ?_, ?_, ?_, ?_⟩
  · exact (((ho _).nodup_iff).2 (List.nodup_dedup _)).filter _
  · intro c
    rw [List.mem_filter, (ho _).mem_iff, mem_members]
    constructor
    · exact fun hc => hc.2
    · intro hc
      refine ⟨?_, hc⟩
      cases hl : f.link (cs ++ [c]) with
      | none => rw [hl, hno] at hc; cases hc
      | some l => rfl
  · rw [listObjects_eq wanted hh hf hw hp hr, if_pos hg]
    rfl
  · intro a
    rw [listObjects_eq wanted hh hf hw hp hr, if_pos hg]
    unfold storeAll
    dsimp only
    rw [List.length_map]
    split
    · rename_i hc
      rw [if_neg (by omega)]
      rfl
    · rename_i hc
      rw [if_pos (by omega), List.map_map]
      rfl

theorem isDset_iff (l : Option Link) : isDset l = true ↔ ∃ addr, l = some (.dset addr) := by
  unfold isDset
  cases l with
  | none => simp
  | some l => cases l <;> simp

/-- C114: `hdf5_list_datasets` returns the number of datasets in a group and their names, each once, if the array is large enough. With the names they can be opened. -/
theorem C114_datasets (ho : ∀ l, (order l).Perm l) (hh : w.handle ifile = .ok h) (hf : w.disk h.file = some f) (hw : f.WF) (hp : ∀ c ∈ cs, Part c) (hr : cs ≠ [] ∨ lead = true) (hg : f.link cs = some .group) :
    ∃ names : List Name, names.Nodup ∧ (∀ c, c ∈ names ↔ ∃ addr, f.link (cs ++ [c]) = some (.dset addr)) ∧ listDatasets order w ifile (absName lead cs) none = .ok (names.length, []) ∧
      (∀ a : NameArray, names.length ≤ a.size → (∀ c ∈ names, Part c ∧ c.length ≤ a.len ∧ c.length ≤ 500) → ∃ stored, listDatasets order w ifile (absName lead cs) (some a) = .ok (names.length, stored) ∧ stored.map trimBlanks = names) ∧
      ∀ c ∈ names, Part c → ∃ addr, h5dopen f (absName lead (cs ++ [c])) = some addr := by
  obtain ⟨names, h1, h2, h3, h4⟩ := objects_names ho isDset rfl hh hf hw hp hr hg
  simp only [isDset_iff] at h2
  refine ⟨names, h1, h2, h3, ?_, ?_⟩
  · intro a ha hn
    refine ⟨_, by unfold listDatasets; rw [h4 a, if_pos ha], ?_⟩
    rw [List.map_map]
    conv_rhs => rw [← List.map_id names]
    apply List.map_congr_left
    intro c hc
    obtain ⟨n1, n2, n3⟩ := hn c hc
    show trimBlanks (assignChar a.len (trimBlanks (assignChar 500 c))) = c
    rw [trim_assign n3 n1.blank, trim_assign n2 n1.blank]
  · intro c hc hpc
    obtain ⟨addr, haddr⟩ := (h2 c).1 hc
    have hp' : ∀ d ∈ cs ++ [c], Part d := by
      intro d hd
      rcases List.mem_append.1 hd with hd | hd
      · exact hp d hd
      · rw [List.mem_singleton.1 hd]; exact hpc
    obtain ⟨g1, g2⟩ := name_components (lead := lead) hp' (Or.inl (by simp))
    refine ⟨addr, ?_⟩
    unfold h5dopen
    rw [find_of_link hw g2, g1, haddr]

/-- C114: `hdf5_list_groups` returns the number of groups in a group and their names, each once. -/
theorem C114_groups (ho : ∀ l, (order l).Perm l) (hh : w.handle ifile = .ok h) (hf : w.disk h.file = some f) (hw : f.WF) (hp : ∀ c ∈ cs, Part c) (hr : cs ≠ [] ∨ lead = true) (hg : f.link cs = some .group) :
    ∃ names : List Name, names.Nodup ∧ (∀ c, c ∈ names ↔ f.link (cs ++ [c]) = some .group) ∧ listGroups order w ifile (absName lead cs) none = .ok (names.length, []) ∧
      (∀ a : NameArray, names.length ≤ a.size → (∀ c ∈ names, Part c ∧ c.length ≤ a.len ∧ c.length ≤ 500) → ∃ stored, listGroups order w ifile (absName lead cs) (some a) = .ok (names.length, stored) ∧ stored.map trimBlanks = names) ∧
      ∀ c ∈ names, Part c → h5gopen f (absName lead (cs ++ [c])) = true := by
  obtain ⟨names, h1, h2, h3, h4⟩ := objects_names ho (fun l => decide (l = some .group)) rfl hh hf hw hp hr hg
  simp only [decide_eq_true_eq] at h2
  refine ⟨names, h1, h2, h3, ?_, ?_⟩
  · intro a ha hn
    refine ⟨_, by unfold listGroups; rw [h4 a, if_pos ha], ?_⟩
    rw [List.map_map]
    conv_rhs => rw [← List.map_id names]
    apply List.map_congr_left
    intro c hc
    obtain ⟨n1, n2, n3⟩ := hn c hc
    show trimBlanks (assignChar a.len (trimBlanks (assignChar 500 c))) = c
    rw [trim_assign n3 n1.blank, trim_assign n2 n1.blank]
  · intro c hc hpc
    have hp' : ∀ d ∈ cs ++ [c], Part d := by
      intro d hd
      rcases List.mem_append.1 hd with hd | hd
      · exact hp d hd
      · rw [List.mem_singleton.1 hd]; exact hpc
    obtain ⟨g1, g2⟩ := name_components (lead := lead) hp' (Or.inl (by simp))
    unfold h5gopen
    rw [find_of_link hw g2, g1, (h2 c).1 hc]
    rfl

/-- C114: only groups have lists of datasets and groups. -/
theorem C114_not_group (hh : w.handle ifile = .ok h) (hf : w.disk h.file = some f) (hw : f.WF) (hp : ∀ c ∈ cs, Part c) (hr : cs ≠ [] ∨ lead = true) (hg : f.link cs ≠ some .group) (array : Option NameArray) :
    listDatasets order w ifile (absName lead cs) array = .error .abort ∧ listGroups order w ifile (absName lead cs) array = .error .abort := by
  unfold listDatasets listGroups
  rw [listObjects_eq _ hh hf hw hp hr, listObjects_eq _ hh hf hw hp hr, if_neg hg, if_neg hg]
  exact ⟨rfl, rfl⟩

theorem mem_attrNames {f : H5File} {o : Owner} {c : Name} : c ∈ f.attrNames o ↔ (assoc (o, c) f.attrs).isSome := by
  unfold H5File.attrNames
  rw [List.mem_dedup, List.mem_map, assoc_isSome]
  constructor
  · rintro ⟨⟨⟨p, n⟩, b⟩, h1, rfl⟩
    rw [List.mem_filter, decide_eq_true_eq] at h1
    exact ⟨b, h1.2 ▸ h1.1⟩
  · rintro ⟨b, hb⟩
    exact ⟨((o, c), b), by rw [List.mem_filter, decide_eq_true_eq]; exact ⟨hb, rfl⟩, rfl⟩

/-- C114: `hdf5_list_attributes` returns the number of attributes of a group or dataset and their names, each once. -/
theorem C114_attributes (ho : ∀ l, (order l).Perm l) (hh : w.handle ifile = .ok h) (hf : w.disk h.file = some f) (hw : f.WF) (hp : ∀ c ∈ cs, Part c) (hr : cs ≠ [] ∨ lead = true) :
    (f.link cs = none → ∀ array, listAttributes order w ifile (absName lead cs) array = .error .abort) ∧
    (f.link cs ≠ none → ∃ names : List Name, names.Nodup ∧ (∀ c, c ∈ names ↔ (f.attr cs c).isSome) ∧ listAttributes order w ifile (absName lead cs) none = .ok (names.length, []) ∧
      ∀ a : NameArray, names.length ≤ a.size → (∀ c ∈ names, AttrName c ∧ c.length ≤ a.len) → ∃ stored, listAttributes order w ifile (absName lead cs) (some a) = .ok (names.length, stored) ∧ stored.map trimBlanks = names) := by
  obtain ⟨h1, h2⟩ := name_components hp hr
  have h3 : f.find (absName lead cs) = f.link cs := by rw [find_of_link hw h2, h1]
  have hout : ∀ array, listAttributes order w ifile (absName lead cs) array = match f.owner cs with
      | none => .error .abort
      | some o => (do
        let names ← storeAll array (order (f.attrNames o))
        .ok ((order (f.attrNames o)).length, names)) := by
    intro array
    unfold listAttributes
    rw [hh]
    show (match w.disk h.file with
      | none => _
      | some f => _) = _
    rw [hf]
    dsimp only
    rw [h3, h1]
    unfold H5File.owner
    cases hl : f.link cs with
    | none => rfl
    | some l => cases l <;> rfl
  constructor
  · intro hn array
    rw [hout]
    unfold H5File.owner
    rw [hn]
  · intro hn
    obtain ⟨o, hown⟩ : ∃ o, f.owner cs = some o := by
      unfold H5File.owner
      cases hl : f.link cs with
      | none => exact absurd hl hn
      | some l => cases l <;> exact ⟨_, rfl⟩
    refine ⟨order (f.attrNames o), ((ho _).nodup_iff).2 (List.nodup_dedup _), ?_, ?_, ?_⟩
    · intro c
      rw [(ho _).mem_iff, mem_attrNames]
      unfold H5File.attr
      rw [hown]
      rfl
    · rw [hout, hown]; rfl
    · intro a ha hc
      refine ⟨_, by rw [hout, hown]; dsimp only; unfold storeAll; dsimp only; rw [if_neg (by omega)]; rfl, ?_⟩
      rw [List.map_map]
      conv_rhs => rw [← List.map_id (order (f.attrNames o))]
      apply List.map_congr_left
      intro c hcm
      exact trim_assign (hc c hcm).2 (hc c hcm).1.blank

/-- C114: a name which is longer than the elements of the array is cut, so what is returned is not the name of this dataset. -/
theorem C114_long_defect (ho : ∀ l, (order l).Perm l) (hh : w.handle ifile = .ok h) (hf : w.disk h.file = some f) (hw : f.WF) (hp : ∀ c ∈ cs, Part c) (hr : cs ≠ [] ∨ lead = true) (hg : f.link cs = some .group)
    {a : NameArray} {r : Nat × List Name} (e : listDatasets order w ifile (absName lead cs) (some a) = .ok r) {c : Name} {addr : Nat} (hc : f.link (cs ++ [c]) = some (.dset addr)) (hb : c.getLast? ≠ some ' ') (h5 : c.length ≤ 500) (hl : a.len < c.length) :
    c.take a.len ∈ r.2 ∧ c ∉ r.2.map trimBlanks := by
  obtain ⟨names, h1, h2, h3, h4⟩ := objects_names ho isDset rfl hh hf hw hp hr hg
  simp only [isDset_iff] at h2
  unfold listDatasets at e
  rw [h4 a] at e
  split at e
  · cases e
    constructor
    · refine List.mem_map.2 ⟨c, (h2 c).2 ⟨addr, hc⟩, ?_⟩
      rw [trim_assign h5 hb]
      unfold assignChar
      rw [Nat.sub_eq_zero_of_le (by omega), List.replicate_zero, List.append_nil]
    · intro hm
      obtain ⟨s, hs, hsc⟩ := List.mem_map.1 hm
      obtain ⟨d, -, rfl⟩ := List.mem_map.1 hs
      have hlen : ∀ s : Name, (trimBlanks s).length ≤ s.length := by
        intro s
        unfold trimBlanks
        rw [List.length_reverse]
        exact (List.dropWhile_sublist _).length_le.trans (by simp)
      have h5 := hlen (assignChar a.len (trimBlanks (assignChar 500 d)))
      rw [hsc] at h5
      have h6 : (assignChar a.len (trimBlanks (assignChar 500 d))).length = a.len := by
        unfold assignChar
        rw [List.length_append, List.length_take, List.length_replicate]
        omega
      omega
  · cases e

end

namespace ExHdf5Lists

def t : DType := ⟨.integer true, 1⟩
def f : H5File := { links := [(["g".toList, "ids".toList], .dset 0), (["g".toList, "sub".toList], .group), (["g".toList, "pos".toList], .dset 0), (["g".toList], .group)], heap := [⟨t, [2], [some 2], [[3], [4]]⟩], attrs := [((.dset 0, "unit".toList), ⟨t, [], [[7]]⟩)] }
def w : World := { disk := fun n => if n = "x".toList then some f else none, table := some [some ⟨"x".toList, false, "x".toList⟩] }

example : listDatasets List.reverse w 1 "/g".toList (some ⟨3, 4⟩) = .ok (2, ["pos ".toList, "ids ".toList]) := by decide +kernel
example : listDatasets id w 1 "g ".toList none = .ok (2, []) := by decide +kernel
example : listGroups id w 1 "/g".toList (some ⟨1, 4⟩) = .ok (1, ["sub ".toList]) := by decide +kernel
example : listGroups id w 1 "/".toList (some ⟨1, 4⟩) = .ok (1, ["g   ".toList]) := by decide +kernel
example : listDatasets id w 1 "/".toList (some ⟨1, 4⟩) = .ok (0, []) := by decide +kernel
/-- The array is too short, and its elements are too short. -/
example : listDatasets id w 1 "/g".toList (some ⟨1, 4⟩) = .error .other := by decide +kernel
example : listDatasets id w 1 "/g".toList (some ⟨2, 2⟩) = .ok (2, ["id".toList, "po".toList]) := by decide +kernel
example : listDatasets id w 1 "/g/ids".toList none = .error .abort := by decide +kernel
/-- Two links to one dataset have the same attributes. -/
example : listAttributes id w 1 "/g/pos".toList (some ⟨1, 5⟩) = .ok (1, ["unit ".toList]) ∧ listAttributes id w 1 "/g".toList (some ⟨1, 5⟩) = .ok (0, []) := by decide +kernel
theorem wf : f.WF := by
  have hm : ∀ (p : List Name) (l : Link), f.link p = some l → p = [] ∧ l = .group ∨ (p, l) ∈ f.links := by
    intro p l h
    unfold H5File.link at h
    split at h
    · rename_i hp; cases h; exact Or.inl ⟨hp, rfl⟩
    · right
      have h2 := h
      have : ∀ (ls : List (List Name × Link)), assoc p ls = some l → (p, l) ∈ ls := by
        intro ls
        induction ls with
        | nil => intro h; cases h
        | cons x ls ih =>
          obtain ⟨a, b⟩ := x
          intro h
          unfold assoc at h
          split at h
          · rename_i ha; cases h; rw [ha]; simp
          · exact List.mem_cons_of_mem _ (ih h)
      exact this _ h
  have hd : ∀ x ∈ f.links, f.reach [] x.1 = some x.2 := by decide +kernel
  have ha : ∀ x ∈ f.links, ∀ a, x.2 = .dset a → a < f.heap.length := by
    intro x hx a h
    have h0 : ∀ x ∈ f.links, x.2 = .dset 0 ∨ x.2 = .group := by decide +kernel
    rcases h0 x hx with h2 | h2 <;> rw [h2] at h <;> cases h
    decide
  constructor
  · intro p a h
    rcases hm p _ h with h | h
    · cases h.2
    · exact ha _ h a rfl
  · intro p l h
    rcases hm p l h with ⟨rfl, rfl⟩ | h
    · rfl
    · exact hd _ h

/-- The hypotheses of the theorems -/
example : Part "g".toList ∧ f.link ["g".toList] = some .group ∧ f.link ["g".toList, "pos".toList] = some (.dset 0) ∧ w.handle 1 = .ok ⟨"x".toList, false, "x".toList⟩ := ⟨⟨by decide, by decide, by decide, by decide⟩, by decide +kernel, by decide +kernel, by decide +kernel⟩

end ExHdf5Lists

end Verif.Hdf5
