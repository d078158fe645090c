import Verif.Proofs.IdlReaders
import Verif.Props.FormatsPlain

/-! Proofs for the program in IDL which reads tree files. -/

namespace Verif.IdlReaders

open Files FortranReaders SnapshotPrograms

/-- The trees one after the other -/
def splitTrees : List Nat → List (List Byte) → List (List (List Byte))
  | [], _ => []
  | n :: ns, R => R.take n :: splitTrees ns (R.drop n)

theorem splitTrees_eq (ns : List Nat) (R : List (List Byte)) : splitTrees ns R = (List.range ns.length).map (fun t => (R.drop (ns.take t).sum).take (ns.getD t 0)) := by
  induction ns generalizing R with
  | nil => rfl
  | cons n ns ih =>
    rw [splitTrees, ih, List.length_cons, List.range_succ_eq_map, List.map_cons, List.map_map]
    congr 1
    refine List.map_congr_left (fun t _ => ?_)
    simp only [Function.comp_def, List.take_succ_cons, List.sum_cons, List.getD_cons_succ, List.drop_drop]

theorem treeLoop_eq (ns : List Nat) {R : List (List Byte)} (hR : IsArray (dtypeSize false haloStruct) ns.sum R) (rest : List Byte) :
    treeLoop (ns.map (fun n : Nat => (n : Int))) (R.flatten ++ rest) = if 0 ∈ ns then .error .valueError else .ok (splitTrees ns R) := by
  induction ns generalizing R with
  | nil => rw [if_neg (by simp)]; rfl
  | cons n ns ih =>
    rw [List.map_cons]
    unfold treeLoop
    simp only [bind, Except.bind]
    by_cases h0 : n = 0
    · subst h0
      rw [show idlSize ((0 : Nat) : Int) = .error .valueError from rfl, if_pos (by simp)]
    · rw [idlSize_pos h0]
      dsimp only
      have hsum : (n :: ns).sum = n + ns.sum := List.sum_cons
      rw [hsum] at hR
      have h1 : IsArray (dtypeSize false haloStruct) n (R.take n) := ⟨by rw [List.length_take, hR.1]; omega, fun v hv => hR.2 v (List.mem_of_mem_take hv)⟩
      have h2 : IsArray (dtypeSize false haloStruct) ns.sum (R.drop n) := ⟨by rw [List.length_drop, hR.1]; omega, fun v hv => hR.2 v (List.mem_of_mem_drop hv)⟩
      have hb : R.flatten ++ rest = arrayBytes false (R.take n) ++ ((R.drop n).flatten ++ rest) := by
        have : arrayBytes false (R.take n) = (R.take n).flatten := by
          unfold arrayBytes storeItem
          simp [List.flatMap_id']
        rw [this, ← List.append_assoc, ← List.flatten_append, List.take_append_drop]
      rw [hb, readItem_of false h1]
      dsimp only
      rw [ih h2]
      by_cases hz : 0 ∈ ns
      · rw [if_pos hz, if_pos (by simp [hz])]
      · rw [if_neg hz, if_neg (by simp only [List.mem_cons, not_or]; exact ⟨fun h => h0 h.symm, hz⟩)]
        rfl

theorem haloStruct_size : dtypeSize false haloStruct = structSize (mpaHalo 8 false) := by decide +kernel

theorem readTreeFile_eq (big : Bool) {fs : ByteFS} {base : Name} (hb : Compact base) {num : Nat} (hn : num < 1000) (i : Nat) {C : Content} {trees halos : Nat} {n : Nat → Nat}
    (hf : (Files.mpaTree 8 false trees halos).Fits C) (h1 : intIn C "Ntrees" = trees) (h2 : ∀ t < trees, int32Value ((C "NPerTree".toList).getD t []) = n t)
    (h3 : ((List.range trees).map n).sum = halos) (ft : Starts fs (treePath "trees" base num i) big C (Files.mpaTree 8 false trees halos)) :
    readTreeFile big fs base num i = if trees = 0 ∨ 0 ∈ (List.range trees).map n then .error .valueError else .ok (intIn C "Ntrees", intIn C "Nhalos", (List.range trees).map (treeOf C n)) := by
  obtain ⟨rt, ft⟩ := ft
  have rows : ∀ r ∈ (Files.mpaTree 8 false trees halos).flatMap Section.rows, r.Fits C := by
    intro r hr
    obtain ⟨s, h1, h2⟩ := List.mem_flatMap.1 hr
    exact hf.rows s h1 r h2
  have hp := plain_bytes big C (L := Files.mpaTree 8 false trees halos) (by intro s hs; simp only [Files.mpaTree, List.mem_cons, List.not_mem_nil, or_false] at hs; rcases hs with rfl | rfl <;> rfl)
  have st : (Files.mpaTree 8 false trees halos).flatMap Section.rows = ["Ntrees", "Nhalos"].map (one 4) ++ ([col 4 trees "NPerTree"] ++ [structs (structSize (mpaHalo 8 false)) halos "HaloList"]) := rfl
  rw [st] at rows hp
  have hlist := rows (structs (structSize (mpaHalo 8 false)) halos "HaloList") (by simp)
  have hper : (C "NPerTree".toList).length = trees := by
    have := (rows (col 4 trees "NPerTree") (by simp)).1
    rw [show (col 4 trees "NPerTree").shape.prod = trees from prod_one _] at this
    exact this
  unfold readTreeFile
  rw [(treeName_eq hb hn i).1]
  simp only [bind, Except.bind]
  rw [openr_some ft, hp]
  simp only [List.flatMap_append, List.append_assoc]
  rw [readu_rows big (C := C) (items := [(4, 1), (4, 1)]) (l := ["Ntrees", "Nhalos"].map (one 4)) (.cons ⟨rfl, rfl⟩ (.cons ⟨rfl, rfl⟩ .nil)) (fun r h => rows r (List.mem_append_left _ h)) (by decide)]
  dsimp only
  rw [show long ((["Ntrees", "Nhalos"].map (one 4)).map (fun r => C r.name)) 0 = intIn C "Ntrees" from rfl, show long ((["Ntrees", "Nhalos"].map (one 4)).map (fun r => C r.name)) 1 = intIn C "Nhalos" from rfl, h1]
  by_cases h0 : trees = 0
  · rw [if_pos (Or.inl h0), h0]
    rfl
  rw [idlSize_pos h0]
  dsimp only
  rw [readu_rows big (C := C) (items := [(4, trees)]) (l := [col 4 trees "NPerTree"]) (.cons ⟨rfl, prod_one _⟩ .nil) (fun r h => rows r (List.mem_append_right _ (List.mem_append_left _ h)))
    (by intro r h; rw [List.mem_singleton.1 h]; rfl)]
  dsimp only
  have hns : ((([col 4 trees "NPerTree"].map (fun r => C r.name)).headD []).map int32Value) = ((List.range trees).map n).map (fun n : Nat => (n : Int)) := by
    show (C "NPerTree".toList).map int32Value = _
    rw [List.map_map]
    refine List.ext_getElem (by rw [List.length_map, List.length_map, List.length_range]; exact hper) ?_
    intro t ht _
    rw [List.length_map, hper] at ht
    simp only [List.getElem_map, List.getElem_range, Function.comp_def]
    rw [← h2 t ht, List.getD_eq_getElem _ _ (by rw [hper]; exact ht)]
  have hraw : [structs (structSize (mpaHalo 8 false)) halos "HaloList"].flatMap (Row.bytes big C) = (C "HaloList".toList).flatten := by
    rw [List.flatMap_singleton]
    show (C "HaloList".toList).flatMap (storeItem big false) = _
    unfold storeItem
    simp [List.flatMap_id']
  have harr : IsArray (dtypeSize false haloStruct) ((List.range trees).map n).sum (C "HaloList".toList) := by
    rw [haloStruct_size, h3]
    have h := hlist
    unfold Row.Fits at h
    rw [show (structs (structSize (mpaHalo 8 false)) halos "HaloList").shape.prod = halos from prod_one _] at h
    exact h
  rw [hns, hraw, treeLoop_eq _ harr]
  by_cases hz : 0 ∈ (List.range trees).map n
  · rw [if_pos hz, if_pos (Or.inr hz)]
  · rw [if_neg hz, if_neg (by rintro (h | h); exacts [h0 h, hz h])]
    dsimp only
    congr 3
    rw [splitTrees_eq, List.length_map, List.length_range]
    refine List.map_congr_left (fun t ht => ?_)
    have ht := List.mem_range.1 ht
    unfold treeOf
    rw [← List.map_take, List.take_range, Nat.min_eq_left (by omega), List.getD_eq_getElem _ _ (by simpa using ht), List.getElem_map, List.getElem_range]

theorem haloStruct_tags : haloStruct = (mpaHaloFields 8 false).map (fun fld => { fld with name := haloTag fld.name }) := by decide +kernel

end Verif.IdlReaders
