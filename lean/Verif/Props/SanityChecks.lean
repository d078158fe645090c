import Verif.Proofs.SnapCheck

set_option linter.unusedSectionVars false

/-!
C73, C74, C75, C76: what the sanity checks of catalogues and snapshots accept.
-/

namespace Verif

/-! ### C73: group and subhalo tables of L-Gadget2 -/

/-- `GroupTabFile.sanity_check` accepts exactly the tables in which the sizes add up, offsets are in range and each group follows the one
before. -/
theorem C73_groups {numpy2 : Bool} {t : GroupTab2} (hlen : t.len.length = t.off.length) (hn : t.ngroups = t.off.length)
    (hid : InInt32 t.nids) (h1 : ∀ x ∈ t.off, InInt32 x) (h2 : ∀ x ∈ t.len, InInt32 x)
    (hpos : numpy2 = true → ∀ x ∈ t.len, 0 ≤ x) : t.check numpy2 = .ok () ↔ t.Sane :=
  groupTab2_check hlen hn hid h1 h2 hpos

/-- All others raise `SanityCheckFailedException`. -/
theorem C73_groups_error (numpy2 : Bool) (t : GroupTab2) : t.check numpy2 = .ok () ∨ t.check numpy2 = .error .sanityCheck := by
  have h : t.check numpy2 = .ok () ∨ ∃ e, t.check numpy2 = .error e ∧ e = .sanityCheck := by
    unfold GroupTab2.check
    refine bind_cases (raiseIf_cases' _ rfl) (bind_cases (raiseIf_cases' _ rfl) ?_)
    split
    · exact raiseIf_cases' _ rfl
    · exact Or.inl rfl
  rcases h with h | ⟨e, h, rfl⟩
  · exact Or.inl h
  · exact Or.inr h

/-- If the first group starts at the first particle, in an accepted table each particle is in one group and no other. -/
theorem C73_groups_tile {numpy2 : Bool} {t : GroupTab2} (hlen : t.len.length = t.off.length) (hn : t.ngroups = t.off.length)
    (hid : InInt32 t.nids) (h1 : ∀ x ∈ t.off, InInt32 x) (h2 : ∀ x ∈ t.len, InInt32 x) (hpos : ∀ x ∈ t.len, 0 ≤ x)
    (hok : t.check numpy2 = .ok ()) (h0 : ∀ o, t.off[0]? = some o → o = 0) (k : Nat) (hk : (k : Int) < t.nids) :
    ∃! i : Nat, ∃ o n, t.off[i]? = some o ∧ t.len[i]? = some n ∧ o ≤ k ∧ k < o + n := by
  obtain ⟨htot, hr, hx⟩ := (C73_groups hlen hn hid h1 h2 (fun _ => hpos)).1 hok
  have hrl := repFrom_length 0 hpos
  have hkl : k < (repFrom 0 t.len).length := by omega
  have hpre : ∀ i o, t.off[i]? = some o → o = (t.len.take i).sum := by
    intro i o ho
    have hil := (List.getElem?_eq_some_iff.1 ho).1
    have e0 : t.off[0]? = some t.off[0] := List.getElem?_eq_getElem (by omega)
    have := sum_take_of_next hx hlen e0 i ho
    rw [h0 _ e0] at this
    omega
  have hnext : ∀ (i : Nat) n, t.len[i]? = some n → (t.len.take (i + 1)).sum = (t.len.take i).sum + n := by
    intro i n hi
    rw [List.take_add_one, hi, Option.toList_some, List.sum_append, List.sum_singleton]
  have hg := List.getElem?_eq_getElem hkl
  obtain ⟨m, a, b, c, d⟩ := (repFrom_getElem? 0 hpos k _).1 hg
  have ho : t.off[m]? = some (t.off[m]'(by omega)) := List.getElem?_eq_getElem (by omega)
  have hl : t.len[m]? = some t.len[m] := List.getElem?_eq_getElem b
  refine ⟨m, ⟨_, _, ho, hl, ?_, ?_⟩, ?_⟩
  · rw [hpre m _ ho]; exact c
  · rw [hpre m _ ho, ← hnext m _ hl]; exact d
  · rintro i ⟨o, n, ho', hl', c', d'⟩
    have hil := (List.getElem?_eq_some_iff.1 hl').1
    have := (repFrom_getElem? 0 hpos k (i : Int)).2 ⟨i, by simp, hil, by rw [← hpre i o ho']; exact c', by rw [hnext i n hl', ← hpre i o ho']; exact d'⟩
    rw [hg, a] at this
    simp at this
    omega

/-- The offset of the first group is not tested: this table is accepted although its group ends after the last particle. -/
theorem C73_start_not_checked (numpy2 : Bool) : (⟨1, 2, [2], [1]⟩ : GroupTab2).check numpy2 = .ok () := by
  cases numpy2 <;> decide +kernel

/-- `SubTabFile.sanity_check` accepts exactly the tables with consistent counts and parents, with ranges inside the arrays, and with finite
properties. -/
theorem C73_subhalos {t : SubTab2} (hl1 : t.sublen.length = t.suboffset.length) (hl2 : (t.subparent.length : Int) = t.nsub)
    (hid : 0 ≤ t.nids) (h1 : ∀ x ∈ t.suboffset, InInt32 x) (h2 : ∀ x ∈ t.sublen, InInt32 x) : t.check = .ok () ↔ t.Sane :=
  subTab2_check hl1 hl2 hid h1 h2

/-- Others raise `SanityCheckFailedException`, but a negative number of subhalos may raise `ValueError`. -/
theorem C73_subhalos_error (t : SubTab2) :
    t.check = .ok () ∨ t.check = .error .sanityCheck ∨ (t.check = .error .valueError ∧ ∃ n ∈ t.nsubperhalo, n < 0) := by
  have h : t.check = .ok () ∨ ∃ e, t.check = .error e ∧ (e = .sanityCheck ∨ (e = .valueError ∧ ∃ n ∈ t.nsubperhalo, n < 0)) := by
    unfold SubTab2.check
    refine bind_cases (raiseIf_cases' _ (Or.inl rfl)) (bind_cases (raiseIf_cases' _ (Or.inl rfl)) (bind_cases (raiseIf_cases' _ (Or.inl rfl)) ?_))
    unfold npRepeatRange
    split
    · rename_i hb
      right
      refine ⟨_, rfl, Or.inr ⟨rfl, ?_⟩⟩
      simpa using hb
    · show _ ∨ _
      exact bind_cases (raiseIf_cases' _ (Or.inl rfl)) (raiseIf_cases' _ (Or.inl rfl))
  rcases h with h | ⟨e, h, rfl | ⟨rfl, hn⟩⟩
  · exact Or.inl h
  · exact Or.inr (Or.inl h)
  · exact Or.inr (Or.inr ⟨h, hn⟩)

/-- The end of a subhalo is computed with 32 bits: this table is accepted although its subhalo ends far beyond the 10 particles. -/
theorem C73_end_overflows : (⟨1, 10, 1, [1], [0], [1], [2147483647], [0], []⟩ : SubTab2).check = .ok () := by decide +kernel

namespace ExSanity

def groups : GroupTab2 := ⟨3, 6, [2, 0, 4], [0, 2, 2]⟩

example : groups.check true = .ok () := by decide +kernel
example : groups.check false = .ok () := by decide +kernel
example : groups.Sane := (C73_groups (numpy2 := true) (by decide) (by decide) (by decide) (by decide) (by decide) (by decide)).1 (by decide +kernel)
example : ∃! i : Nat, ∃ o n, groups.off[i]? = some o ∧ groups.len[i]? = some n ∧ o ≤ (3 : Nat) ∧ (3 : Nat) < o + n :=
  C73_groups_tile (numpy2 := false) (by decide) (by decide) (by decide) (by decide) (by decide) (by decide) (by decide +kernel) (by decide) 3 (by decide)
example : (⟨3, 6, [2, 0, 4], [0, 2, 3]⟩ : GroupTab2).check true = .error .sanityCheck := by decide +kernel
example : (⟨3, 7, [2, 0, 4], [0, 2, 2]⟩ : GroupTab2).check true = .error .sanityCheck := by decide +kernel

def subs : SubTab2 := ⟨3, 10, 4, [3, 0, 1], [0, 7, 3], [2, 2, 1, 5], [0, 2, 4, 5], [0, 0, 0, 2], [[.fin 1, .fin (-2)], [.fin 0]]⟩

example : subs.check = .ok () := by decide +kernel
example : subs.Sane := (C73_subhalos (by decide) (by decide) (by decide) (by decide) (by decide)).1 (by decide +kernel)
example : ({ subs with subparent := [0, 0, 2, 2] } : SubTab2).check = .error .sanityCheck := by decide +kernel
example : ({ subs with nsubperhalo := [4, -1, 1] } : SubTab2).check = .error .valueError := by decide +kernel
example : ({ subs with finite := [[.nan]] } : SubTab2).check = .error .sanityCheck := by decide +kernel

end ExSanity

/-! ### C74: particle IDs -/

/-- L-Gadget2: the IDs accepted are those with a hash key of 24 bits above 34 bits and an ID of at most 2160^3 in the low 34 bits, in which
at most one particle has ID zero. -/
theorem C74_ids (ids : List Nat) : idsCheck2 ids = .ok () ↔ SaneIDs2 ids := idsCheck2_ok ids

theorem C74_ids_error (ids : List Nat) : idsCheck2 ids = .ok () ∨ idsCheck2 ids = .error .sanityCheck := by
  have h : idsCheck2 ids = .ok () ∨ ∃ e, idsCheck2 ids = .error e ∧ e = .sanityCheck := by
    unfold idsCheck2
    exact bind_cases (raiseIf_cases' _ rfl) (bind_cases (raiseIf_cases' _ rfl) (bind_cases (raiseIf_cases' _ rfl) (raiseIf_cases' _ rfl)))
  rcases h with h | ⟨e, h, rfl⟩
  · exact Or.inl h
  · exact Or.inr h

/-- L-Gadget3 and P-Gadget3: IDs are accepted if the file has the size expected and no ID appears twice. -/
theorem C74_unique (used : Bool) (ids : List Nat) : idsCheck3 used ids = .ok () ↔ used = true ∧ ids.Nodup := idsCheck3_ok used ids

theorem C74_unique_error (used : Bool) (ids : List Nat) : idsCheck3 used ids = .ok () ∨ idsCheck3 used ids = .error .sanityCheck := by
  have h : idsCheck3 used ids = .ok () ∨ ∃ e, idsCheck3 used ids = .error e ∧ e = .sanityCheck := by
    unfold idsCheck3
    exact bind_cases (raiseIf_cases' _ rfl) (raiseIf_cases' _ rfl)
  rcases h with h | ⟨e, h, rfl⟩
  · exact Or.inl h
  · exact Or.inr h

namespace ExSanity

example : idsCheck2 [5 * 2 ^ 34 + 7, 0, 2 ^ 58 - 2 ^ 34 + 2160 ^ 3] = .ok () := by decide +kernel
example : SaneIDs2 [5 * 2 ^ 34 + 7, 0, 2 ^ 58 - 2 ^ 34 + 2160 ^ 3] := (C74_ids _).1 (by decide +kernel)
example : idsCheck2 [3 * 2 ^ 34, 7, 0] = .error .sanityCheck := by decide +kernel
example : idsCheck2 [2 ^ 58] = .error .sanityCheck := by decide +kernel
example : idsCheck3 true [4, 9, 2] = .ok () := by decide +kernel
example : idsCheck3 true [4, 9, 4] = .error .sanityCheck := by decide +kernel

end ExSanity

/-! ### C75: snapshots of the Millennium simulation -/

/-- In Python 2 the files accepted are those with particles inside the box and at most 0.1 per cent outside of the cell in which the hash table
has them, with velocities and IDs in range. -/
theorem C75_snapshot {bs : Nat} (hbs : 0 < bs) {t : SnapCheck} {bits : Nat} (h0 : 0 < bits) (h10 : bits ≤ 10) (hsize : t.hashtabsize = 8 ^ bits)
    (hbox : 0 < t.boxsize) (htab : BlockTable t.pos.length t.first t.last t.blockid) (hf : 0 ≤ t.first) (hlast : t.last < 8 ^ bits) :
    t.check ⟨false, false⟩ bs = .ok () ↔ t.Sane bits :=
  snapCheck_python2 hbs h0 h10 hsize hbox htab hf hlast

/-- In Python 3 no file with particles is accepted. -/
theorem C75_python3 {bs : Nat} {t : SnapCheck} {numpy2 : Bool} (h : t.pos ≠ []) : t.check ⟨true, numpy2⟩ bs ≠ .ok () :=
  snapCheck_python3 h

namespace ExSanity

/-- Two bits: 4 cells of size 25 in each direction. Cell 8 is at (0, 2, 0), cell 9 at (0, 3, 0) is empty, cell 10 is at (0, 3, 1). The second
particle is in the cell if the box is periodic, but for one part in a thousand. -/
def snap : SnapCheck where
  boxsize := 100
  total := [0, 3, 1, 0, 0, 0]
  hashtabsize := 64
  pos := [(.fin 12, .fin 60, .fin 24), (.fin (9999 / 100), .fin 74, .fin 25), (.fin 5, .fin 100, .fin 30)]
  vel := [(.fin 1, .fin (-5), .fin 0), (.fin 1000000, .fin 0, .fin 0), (.fin 1, .fin 1, .fin 1)]
  ids := [4294967299, 0, 7]
  first := 8
  last := 10
  blockid := [0, 2, 2]

theorem snap_table : BlockTable snap.pos.length snap.first snap.last snap.blockid := ⟨by decide, by decide, by decide, by decide⟩

example : snap.check ⟨false, false⟩ 2 = .ok () := by decide +kernel
example : snap.Sane 2 := (C75_snapshot (bs := 2) (by decide) (by decide) (by decide) (by decide) (by decide +kernel) snap_table (by decide) (by decide)).1 (by decide +kernel)
example : snap.check ⟨true, false⟩ 2 = .error .typeError := by decide +kernel
example : ({ snap with blockid := [0, 1, 2] } : SnapCheck).check ⟨false, false⟩ 2 = .error .sanityCheck := by decide +kernel
example : ({ snap with pos := [(.fin 12, .fin 60, .fin 24), (.fin 99, .fin 74, .fin 25), (.fin 5, .fin 100, .fin 30)] } : SnapCheck).check ⟨false, false⟩ 2 = .error .sanityCheck := by
  decide +kernel
example : ({ snap with ids := [4294967300] } : SnapCheck).check ⟨false, false⟩ 2 = .error .sanityCheck := by decide +kernel

end ExSanity

/-! ### C76: tables of L-Gadget3 and P-Gadget3 -/

/-- L-Gadget3: the subhalo tables accepted -/
theorem C76_subhalos_lgadget3 {t : SubTab3} (hw : t.WellFormed false) :
    t.checkL = .ok () ↔ t.Sane false ["Halo_M_Mean200", "Halo_M_Crit200", "Halo_M_TopHat200", "GroupVelDisp"]
      ["SubPos", "SubVel", "SubCofM", "SubSpin", "SubVelDisp", "SubVmax", "SubRVmax", "SubHalfMass"] :=
  subTab3_check false _ _ hw

/-- P-Gadget3: the subhalo tables accepted -/
theorem C76_subhalos_pgadget3 {t : SubTab3} (hw : t.WellFormed true) :
    t.checkP = .ok () ↔ t.Sane true
      ["GroupMass", "Halo_M_Mean200", "Halo_R_Mean200", "Halo_M_Crit200", "Halo_R_Crit200", "Halo_M_TopHat200", "Halo_R_TopHat200"]
      ["SubMass", "SubPos", "SubVel", "SubCofM", "SubSpin", "SubVelDisp", "SubVmax", "SubRVmax", "SubHalfMass"] :=
  subTab3_check true _ _ hw

theorem propsCheck_cases {prop : String → List Flt} {positive : List String} (names : List String) :
    propsCheck prop positive names = .ok () ∨ ∃ e, propsCheck prop positive names = .error e ∧ (e = .sanityCheck ∨ e = .other) := by
  induction names with
  | nil => exact Or.inl rfl
  | cons n names ih =>
    unfold propsCheck
    exact bind_cases (raiseIf_cases' _ (Or.inr rfl)) (bind_cases (raiseIf_cases' _ (Or.inr rfl)) ih)

/-- Other tables raise `SanityCheckFailedException` or `Exception`. -/
theorem C76_subhalos_error (ge : List Int → List Int → List Int) (gp sp : List String) (t : SubTab3) :
    t.checkWith ge gp sp = .ok () ∨ ∃ e, t.checkWith ge gp sp = .error e ∧ (e = .sanityCheck ∨ e = .other) := by
  unfold SubTab3.checkWith
  have r : ∀ b, raiseIf b .sanityCheck = .ok () ∨ ∃ e', raiseIf b .sanityCheck = .error e' ∧ (e' = Err.sanityCheck ∨ e' = Err.other) :=
    fun b => raiseIf_cases' b (Or.inl rfl)
  refine bind_cases (r _) (bind_cases (r _) (bind_cases (r _) (bind_cases (r _) (bind_cases (r _) (bind_cases (r _)
    (bind_cases (propsCheck_cases _) (bind_cases (r _) (bind_cases (r _) (bind_cases (propsCheck_cases _) (bind_cases (r _) ?_))))))))))
  split
  · exact r _
  · exact Or.inl rfl

/-- P-Gadget3: the group tables accepted, if masses are finite -/
theorem C76_groups_pgadget3 {t : GroupTab3} (hl : t.len.length = t.off.length)
    (h1 : ∀ m ∈ t.mass, ∃ q, m = .fin q) (h2 : ∀ l ∈ t.massType, ∃ q : List ℚ, l = q.map .fin) : t.check = .ok () ↔ t.Sane :=
  groupTab3_check hl h1 h2

theorem C76_groups_error (t : GroupTab3) : t.check = .ok () ∨ t.check = .error .sanityCheck := by
  have h : t.check = .ok () ∨ ∃ e, t.check = .error e ∧ e = .sanityCheck := by
    unfold GroupTab3.check
    exact bind_cases (raiseIf_cases' _ rfl) (bind_cases (raiseIf_cases' _ rfl) (bind_cases (raiseIf_cases' _ rfl) (raiseIf_cases' _ rfl)))
  rcases h with h | ⟨e, h, rfl⟩
  · exact Or.inl h
  · exact Or.inr h

/-- The mass test can not fail for a group whose mass is negative or not a number, whatever the masses of the types. -/
theorem C76_bad_mass_accepted {t : GroupTab3} (i : Nat) (types : List Flt) (m : Flt) (hm : (∃ q < 0, m = .fin q) ∨ m = .nan)
    (hi : t.massType[i]? = some types) (hi' : t.mass[i]? = some m) :
    ({ t with massType := t.massType.eraseIdx i, mass := t.mass.eraseIdx i } : GroupTab3).check = t.check := by
  have hd : massDiffers types m = false := by
    unfold massDiffers
    rcases hm with ⟨q, hq, rfl⟩ | rfl
    · have key : ∀ x : Flt, (x.abs.div (.fin q)).gt (1 / 100000) = false := by
        intro x
        cases x with
        | fin a =>
          show Flt.gt (if q = 0 then _ else Flt.fin (|a| / q)) _ = false
          rw [if_neg hq.ne]
          have := div_nonpos_of_nonneg_of_nonpos (abs_nonneg a) hq.le
          simp only [Flt.gt, decide_eq_false_iff_not, not_lt]
          linarith [show (0 : ℚ) < 1 / 100000 by norm_num]
        | inf b => simp [Flt.abs, Flt.div, Flt.gt, hq]
        | nan => rfl
      exact key _
    · cases (types.foldl Flt.add (.fin 0)) <;> rfl
  have hany : (List.zipWith massDiffers (t.massType.eraseIdx i) (t.mass.eraseIdx i)).any id = (List.zipWith massDiffers t.massType t.mass).any id := by
    generalize t.massType = a at *
    generalize t.mass = b at *
    clear hm
    induction i generalizing a b with
    | zero =>
      cases a with
      | nil => cases hi
      | cons x a =>
        cases b with
        | nil => cases hi'
        | cons y b =>
          simp only [List.getElem?_cons_zero, Option.some.injEq] at hi hi'
          subst hi hi'
          simp [hd]
    | succ i ih =>
      cases a with
      | nil => cases hi
      | cons x a =>
        cases b with
        | nil => cases hi'
        | cons y b =>
          simp only [List.getElem?_cons_succ] at hi hi'
          simp only [List.eraseIdx_cons_succ, List.zipWith_cons_cons, List.any_cons, id_eq, ih a hi b hi']
  unfold GroupTab3.check
  rw [hany]

namespace ExSanity

def subs3 : SubTab3 where
  all_used := true
  totnids := 10
  totngroups := 3
  totnsubgroups := 4
  grouplen := [5, 0, 5]
  groupoffset := [0, 5, 5]
  nsubs := [3, 0, 1]
  firstsub := [0, 0, 3]
  sublen := [2, 2, 1, 5]
  suboffset := [0, 2, 4, 5]
  subgrnr := [0, 0, 0, 2]
  prop := fun name => if name = "SubVel" then [.fin (-3), .fin 4] else [.fin 0, .fin 1]

theorem subs3_wf (wide : Bool) : subs3.WellFormed wide := by
  refine ⟨by decide, by decide, by decide, by decide, ?_, by decide, by decide, by decide, by decide⟩
  cases wide <;> decide

example : subs3.checkL = .ok () := by decide +kernel
example : subs3.checkP = .ok () := by decide +kernel
example : ∃ gp sp, subs3.Sane false gp sp := ⟨_, _, (C76_subhalos_lgadget3 (subs3_wf false)).1 (by decide +kernel)⟩
example : ∃ gp sp, subs3.Sane true gp sp := ⟨_, _, (C76_subhalos_pgadget3 (subs3_wf true)).1 (by decide +kernel)⟩
example : ({ subs3 with subgrnr := [0, 2, 0, 2] } : SubTab3).checkL = .error .sanityCheck := by decide +kernel
example : ({ subs3 with prop := fun name => if name = "SubHalfMass" then [.fin (-3)] else [] } : SubTab3).checkP = .error .other := by decide +kernel
/-- P-Gadget3 notices a group which ends after 2^31 particles, L-Gadget3 does not. -/
example : ({ subs3 with groupoffset := [0, 5, 2147483647] } : SubTab3).checkP = .error .sanityCheck ∧
    ({ subs3 with groupoffset := [0, 5, 2147483647] } : SubTab3).checkL = .ok () := by decide +kernel

def groups3 : GroupTab3 where
  all_used := true
  nids := 7
  len := [5, 2]
  lenType := [[2, 3, 0], [0, 1, 1]]
  off := [4000000000, 4000000005]
  mass := [.fin 3, .fin 0]
  massType := [[.fin 1, .fin 2, .fin (1 / 100000)], [.fin 0, .fin 0, .fin 0]]

example : groups3.check = .ok () := by decide +kernel
example : groups3.Sane := (C76_groups_pgadget3 (by decide) (fun m hm => by
    simp only [groups3, List.mem_cons, List.not_mem_nil, or_false] at hm
    rcases hm with rfl | rfl <;> exact ⟨_, rfl⟩) (fun l hl => by
    simp only [groups3, List.mem_cons, List.not_mem_nil, or_false] at hl
    rcases hl with rfl | rfl
    · exact ⟨[1, 2, 1 / 100000], rfl⟩
    · exact ⟨[0, 0, 0], rfl⟩)).1 (by decide +kernel)
example : ({ groups3 with mass := [.fin 4, .fin 0] } : GroupTab3).check = .error .sanityCheck := by decide +kernel
/-- Masses which are not numbers or negative are accepted. -/
example : ({ groups3 with mass := [.nan, .fin (-1)] } : GroupTab3).check = .ok () := by decide +kernel
/-- With at most one particle in the file the offsets are not tested, even if there are several groups. -/
example : ({ groups3 with nids := 1, off := [3, 0] } : GroupTab3).check = .ok () := by decide +kernel

end ExSanity

end Verif
