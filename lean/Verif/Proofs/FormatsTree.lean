import Verif.Proofs.ReadBinaryNames
import Verif.Props.ReadBinary
import Verif.Model.Formats

/-! Attributes of groups at the top level. -/

namespace Verif

/-- Block of attribute `a` of the group `grp` -/
def attrAt (g : BGroup) (grp a : Name) : Option Nat := (dget g.groups grp).bind (fun h => dget h.attrs a)

theorem addBlock_data_attrs (id fuel : Nat) (g g' : BGroup) (name : Name) (flag : Bool) (h : BGroup.addBlock false id fuel g name = .ok (g', flag)) :
    g'.attrs = g.attrs ∧ ∀ grp a, attrAt g' grp a = attrAt g grp a := by
  induction fuel generalizing g g' name flag with
  | zero => cases g; simp [BGroup.addBlock] at h
  | succ n ih =>
    obtain ⟨attrs, datasets, groups⟩ := g
    rcases hsp : splitPath name with ⟨_ | head, tail⟩
    · simp only [BGroup.addBlock, hsp, Bool.false_eq_true, if_false] at h
      split at h
      · cases h
      · split at h
        · cases h
        · cases h
          exact ⟨rfl, fun _ _ => rfl⟩
    · simp only [BGroup.addBlock, hsp] at h
      split at h
      · cases h
      · rcases hq : BGroup.addBlock false id n ((dget groups head).getD .empty) tail with e | ⟨r, fl⟩
        · rw [hq] at h; cases h
        · rw [hq] at h
          cases h
          obtain ⟨h1, -⟩ := ih _ _ _ _ hq
          refine ⟨rfl, fun grp a => ?_⟩
          by_cases hg : head = grp
          · subst hg
            cases hd : dget groups head with
            | none =>
              simp only [attrAt, BGroup.groups, dget_dset, if_true, Option.bind_some, h1, hd, Option.getD_none, Option.bind_none]
              rfl
            | some k => simp [attrAt, BGroup.groups, dget_dset, h1, hd]
          · simp [attrAt, BGroup.groups, dget_dset, hg]

theorem addBlock_data_top (id fuel : Nat) (g g' : BGroup) (name : Name) (flag : Bool) (h : BGroup.addBlock false id fuel g name = .ok (g', flag)) (n : Name) (x : Nat × List (Name × Nat))
    (hx : dget g'.datasets n = some x) : comps name = [n] ∨ ∃ y, dget g.datasets n = some y := by
  cases fuel with
  | zero => cases g; simp [BGroup.addBlock] at h
  | succ m =>
    obtain ⟨attrs, datasets, groups⟩ := g
    rcases hsp : splitPath name with ⟨_ | head, tail⟩
    · rw [splitPath_none hsp]
      simp only [BGroup.addBlock, hsp, Bool.false_eq_true, if_false] at h
      split at h
      · cases h
      · split at h
        · cases h
        · cases h
          simp only [BGroup.datasets, dget_dset] at hx
          split at hx
          · rename_i ht; exact Or.inl (by rw [ht])
          · exact Or.inr ⟨x, hx⟩
    · simp only [BGroup.addBlock, hsp] at h
      split at h
      · cases h
      · rcases hq : BGroup.addBlock false id m ((dget groups head).getD .empty) tail with e | ⟨r, fl⟩
        · rw [hq] at h; cases h
        · rw [hq] at h
          cases h
          exact Or.inr ⟨x, hx⟩

theorem addBlock_attr_group (id fuel : Nat) (g : BGroup) (name grp a : Name) (h1 : splitPath name = (some grp, a)) (h2 : splitPath a = (none, a))
    (hd : dget g.datasets grp = none) (ha : attrAt g grp a = none) :
    ∃ g', BGroup.addBlock true id (fuel + 2) g name = .ok (g', true) ∧ g'.datasets = g.datasets ∧
      ∀ grp' a', attrAt g' grp' a' = if grp' = grp ∧ a' = a then some id else attrAt g grp' a' := by
  obtain ⟨attrs, datasets, groups⟩ := g
  simp only [BGroup.datasets] at hd
  rcases hk : (dget groups grp).getD .empty with ⟨ka, kd, kg⟩
  have hka : dget ka a = none := by
    simp only [attrAt, BGroup.groups] at ha
    cases hg : dget groups grp with
    | none => rw [hg] at hk; simp [BGroup.empty] at hk; simp [hk.1, dget]
    | some k => rw [hg] at hk ha; simp at hk; subst hk; simpa [BGroup.attrs] using ha
  refine ⟨.mk attrs datasets (dset groups grp (.mk (dset ka a id) kd kg)), ?_, rfl, ?_⟩
  · rw [BGroup.addBlock]
    simp only [h1, hd, Option.isSome_none, Bool.false_eq_true, and_false, if_false, hk]
    rw [BGroup.addBlock]
    simp [h2, hka]
  · intro grp' a'
    by_cases hg : grp = grp'
    · subst hg
      have hold : attrAt (.mk attrs datasets groups) grp a' = dget ka a' := by
        simp only [attrAt, BGroup.groups]
        cases hg : dget groups grp with
        | none => rw [hg] at hk; simp [BGroup.empty] at hk; simp [hk.1, dget]
        | some k => rw [hg] at hk; simp at hk; subst hk; simp [BGroup.attrs]
      rw [hold]
      simp only [attrAt, BGroup.groups, dget_dset, if_true, Option.bind_some, BGroup.attrs, true_and]
      by_cases hh : a = a'
      · simp [hh]
      · simp [hh, Ne.symm hh]
    · simp [attrAt, BGroup.groups, dget_dset, hg, Ne.symm hg]

theorem attrAt_getItem (g : BGroup) (grp a : Name) (id fuel : Nat) (h : splitPath grp = (none, grp)) (ha : attrAt g grp a = some id) :
    ∃ k, BGroup.getItem (fuel + 1) g grp = .ok (.group k) ∧ dget k.attrs a = some id := by
  simp only [attrAt] at ha
  cases hg : dget g.groups grp with
  | none => rw [hg] at ha; cases ha
  | some k => rw [hg] at ha; exact ⟨k, by simp [BGroup.getItem, h, hg], ha⟩

end Verif
