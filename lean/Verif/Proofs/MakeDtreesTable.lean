import Verif.Spec.MakeDtreesTable
import Verif.Proofs.Formats
import Verif.Props.DtreesTable
import Verif.Props.IndexTrees
import Verif.Props.TreeMass
import Verif.Props.Match
import Verif.Lib.Scatter

/-! Lemmas for C87 -/

namespace Verif

theorem length_intBytes (size : Nat) (x : Int) : (intBytes size x).length = size := by simp [intBytes]

theorem intValue_intBytes {size : Nat} {x : Int} (h0 : 0 ≤ x) (h : 2 * x < 256 ^ size) : intValue (intBytes size x) = x := by
  have hx : x % 256 ^ size = x := Int.emod_eq_of_lt h0 (by omega)
  obtain ⟨k, rfl⟩ := Int.eq_ofNat_of_zero_le h0
  have hk : 2 * k < 256 ^ size := by exact_mod_cast h
  unfold intValue intBytes
  rw [hx, Int.toNat_natCast, length_leBytes, leNat_leBytes size k (by omega), if_neg (by omega)]

theorem dset_absent {β : Type*} {d : List (Name × β)} {k : Name} (h : k ∉ d.map Prod.fst) (v : β) : dset d k v = d ++ [(k, v)] := by
  induction d with
  | nil => rfl
  | cons e d ih =>
    obtain ⟨k', w⟩ := e
    simp only [List.map_cons, List.mem_cons, not_or] at h
    rw [dset, if_neg (fun hh => h.1 hh.symm), ih h.2]
    rfl

theorem dget_absent {β : Type*} {d : List (Name × β)} {k : Name} (h : k ∉ d.map Prod.fst) : dget d k = none := by
  unfold dget
  rw [Option.map_eq_none_iff, List.find?_eq_none]
  intro e he hk
  exact h (List.mem_map.2 ⟨e, he, by simpa using hk⟩)

theorem acyclic_of_forward {node desc snap : List Int} (hl : snap.length = node.length) (hld : desc.length = node.length) (h : Forward node desc snap) : Acyclic node desc := by
  have key : ∀ i j, Relation.TransGen (IsDesc node desc) i j → i < node.length ∧ j < node.length ∧ snap.getD i 0 < snap.getD j 0 := by
    have one : ∀ i j, IsDesc node desc i j → i < node.length ∧ j < node.length ∧ snap.getD i 0 < snap.getD j 0 := by
      intro i j hij
      obtain ⟨v, h1, h2⟩ := hij
      have hi := (List.getElem?_eq_some_iff.1 h1).1
      have hj := (List.getElem?_eq_some_iff.1 h2).1
      refine ⟨by omega, hj, ?_⟩
      rw [List.getD_eq_getElem _ _ (by omega), List.getD_eq_getElem _ _ (by omega)]
      exact h i j _ _ ⟨v, h1, h2⟩ (List.getElem?_eq_getElem (by omega)) (List.getElem?_eq_getElem (by omega))
    intro i j hij
    induction hij with
    | single hh => exact one _ _ hh
    | tail _ hh ih =>
      obtain ⟨a, b, c⟩ := one _ _ hh
      exact ⟨ih.1, b, lt_trans ih.2.2 c⟩
  intro i hi
  exact lt_irrefl _ (key i i hi).2.2

/-- `branchMass` returns an array for all arguments with unique indexes. -/
theorem branchMass_returns {M : Type*} [AddCommMonoid M] [LinearOrder M] {node desc snap : List Int} {mass : List M} {idx orderN : List Nat} (h : MassArgs node desc snap mass idx orderN) {junk : List M}
    (hj : junk.length = node.length) : ∃ out, branchMass node desc mass idx orderN junk = .ok out ∧ out.length = node.length := by
  obtain ⟨ptr, h1, -⟩ := C34_match (arr1 := fancy desc idx) h.sortN
  unfold branchMass
  simp only [h1]
  exact ⟨_, rfl, by rw [length_scatter, hj]⟩

theorem pos_sub_le {D : List (Option Nat)} {order : List Nat} (hs : Setup D order) {i : Nat} (hi : i < D.length) (hr : Rooted D i) : pos D order i + (sub D order i).length ≤ D.length := by
  obtain ⟨A, B, hAB⟩ := dfs_infix hs hi hr
  have hnd := nodup_dfs hs
  have hlen : (dfs D order).length ≤ D.length := by
    have hsub : dfs D order ⊆ List.range D.length := fun x hx => List.mem_range.2 ((mem_dfs hs).1 hx).1
    have := (List.subperm_of_subset hnd hsub).length_le
    rwa [List.length_range] at this
  have hpos : pos D order i = A.length := by
    unfold pos
    rw [hAB] at hnd
    rw [hAB, List.append_assoc, sub_eq hs.valid order hi hr]
    rw [sub_eq hs.valid order hi hr] at hnd
    rw [List.idxOf_append_of_notMem, List.cons_append, List.idxOf_cons_self, Nat.add_zero]
    intro hA
    rw [List.append_assoc] at hnd
    exact (List.nodup_append.1 hnd).2.2 i hA i (by simp) rfl
  rw [hAB] at hlen
  simp only [List.length_append] at hlen
  omega

theorem elements_newArray (t : SqlDType) (l : List (List Byte)) : (newArray t l).component 0 = l := by
  unfold newArray Arr.component
  rw [List.map_map]
  conv => rhs; rw [← List.map_id l]
  rfl

theorem columnsOf_newArray (name : List Char) (t : SqlDType) (l : List (List Byte)) : columnsOf name (newArray t l) = [⟨name, t, l⟩] := by
  unfold columnsOf
  rw [if_neg (by simp [newArray]), elements_newArray]
  rfl

theorem tableArray_newArray {n : Nat} {t : SqlDType} {l : List (List Byte)} (hl : l.length = n) (hs : ∀ x ∈ l, x.length = t.itemsize) : TableArray n (newArray t l) := by
  refine ⟨by simp [newArray, hl], Or.inl rfl, ?_⟩
  intro row hrow
  obtain ⟨x, hx, rfl⟩ := List.mem_map.1 hrow
  refine ⟨rfl, fun y hy => ?_⟩
  rw [List.mem_singleton.1 hy]
  exact hs x hx

end Verif
