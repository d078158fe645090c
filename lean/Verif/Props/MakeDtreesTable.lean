import Verif.Proofs.MakeDtreesTable

/-! C87: The table made from tree files has the arrays of the trees and a depth first numbering of the halos. -/

namespace Verif

variable {M : Type*} [AddCommMonoid M] [LinearOrder M] [IsOrderedAddMonoid M] [Inhabited M]

/-- The functions of numpy do what their names say: they sort, and new memory has the size which is asked for. -/
structure TreeOps.Good (ops : TreeOps M) : Prop where
  argsort : ∀ l, IsArgsort l (ops.argsort l)
  argsortM : ∀ l, IsArgsort l (ops.argsortM l)
  lexsort : ∀ l, IsArgsort l (ops.lexsort l)
  empty : ∀ n, (ops.empty n).length = n

/-- Files which can be read: all of them are there and continue arrays of the first one, which have `n` halos in total. The arrays with the given names are those used for the numbering. -/
structure TreeInput (files : Nat → Option TreeFile) (f0 : TreeFile) (n : Nat) (aN aD aS aM : Arr) : Prop where
  first : files 0 = some f0
  names : (f0.haloTrees.map Prod.fst).Nodup
  later : ∀ i, 0 < i → i < f0.numberOfFiles → ∃ f, files i = some f ∧ (f.haloTrees.map Prod.fst).Nodup ∧
    ∀ e ∈ f.haloTrees, ∃ a, f0.array e.1 = some a ∧ e.2.dtype = a.dtype ∧ e.2.rowShape = a.rowShape
  arrays : ∀ c ∈ treeArrays files f0, TableArray n c.2
  node : ("nodeIndex".toList, aN) ∈ treeArrays files f0 ∧ aN.isInts
  desc : ("descendantIndex".toList, aD) ∈ treeArrays files f0 ∧ aD.isInts
  snap : ("snapshotNumber".toList, aS) ∈ treeArrays files f0 ∧ aS.isInts
  mass : ("nodeMass".toList, aM) ∈ treeArrays files f0 ∧ aM.isFloats
  unique : (aN.elements.map intValue).Nodup

variable {ops : TreeOps M} {files : Nat → Option TreeFile} {f0 : TreeFile} {n : Nat} {aN aD aS aM : Arr}

theorem TreeInput.massArgs (ho : ops.Good) (h : TreeInput files f0 n aN aD aS aM) :
    MassArgs (aN.elements.map intValue) (aD.elements.map intValue) (aS.elements.map intValue) (aM.elements.map ops.massValue) (ops.lexsort (lexKeys (aN.elements.map intValue) (aS.elements.map intValue)))
      (ops.argsort (fancy (aN.elements.map intValue) (ops.lexsort (lexKeys (aN.elements.map intValue) (aS.elements.map intValue))))) := by
  have l1 := (h.arrays _ h.node.1).1
  have l2 := (h.arrays _ h.desc.1).1
  have l3 := (h.arrays _ h.snap.1).1
  have l4 := (h.arrays _ h.mass.1).1
  exact ⟨h.unique, by simp [Arr.elements, l1, l2], by simp [Arr.elements, l1, l3], by simp [Arr.elements, l1, l4], ho.lexsort _, ho.argsort _⟩

theorem TreeInput.length_node (h : TreeInput files f0 n aN aD aS aM) : (aN.elements.map intValue).length = n := by
  have l1 := (h.arrays _ h.node.1).1
  simp [Arr.elements, l1]

theorem names_treeArrays : (treeArrays files f0).map Prod.fst = f0.haloTrees.map Prod.fst := by
  unfold treeArrays
  rw [List.map_map]
  rfl

theorem TreeInput.lookup (h : TreeInput files f0 n aN aD aS aM) :
    dget (treeArrays files f0) "nodeIndex".toList = some aN ∧ dget (treeArrays files f0) "descendantIndex".toList = some aD ∧ dget (treeArrays files f0) "snapshotNumber".toList = some aS ∧
      dget (treeArrays files f0) "nodeMass".toList = some aM := by
  have hn : ((treeArrays files f0).map Prod.fst).Nodup := by rw [names_treeArrays]; exact h.names
  exact ⟨dget_of_mem hn h.node.1, dget_of_mem hn h.desc.1, dget_of_mem hn h.snap.1, dget_of_mem hn h.mass.1⟩

theorem leNat_lt_pow (v : List Byte) : leNat v < 256 ^ v.length := by
  induction v with
  | nil => simp [leNat]
  | cons b v ih =>
    have := b.isLt
    simp only [leNat, List.length_cons, pow_succ]
    omega

theorem leBytes_leNat (v : List Byte) : leBytes v.length (leNat v) = v := by
  induction v with
  | nil => rfl
  | cons b v ih =>
    have hb := b.isLt
    simp only [leNat, List.length_cons, leBytes]
    rw [show ((b : Nat) + 256 * leNat v) / 256 = leNat v by omega, ih]
    congr 1
    apply Fin.ext
    show ((b : Nat) + 256 * leNat v) % 256 = b
    omega

/-- C87: numbers are in two's complement: an element is the only number in the range of its type with these bytes. -/
theorem C87_values {size : Nat} (h0 : 0 < size) :
    (∀ x : Int, -(256 ^ size) ≤ 2 * x → 2 * x < 256 ^ size → intValue (intBytes size x) = x) ∧
    (∀ v : List Byte, v.length = size → -(256 ^ size) ≤ 2 * intValue v ∧ 2 * intValue v < 256 ^ size ∧ intBytes size (intValue v) = v) := by
  have hpos : (0 : Int) < 256 ^ size := by positivity
  constructor
  · intro x h1 h2
    by_cases hx : 0 ≤ x
    · exact intValue_intBytes hx h2
    · have hm : x % 256 ^ size = x + 256 ^ size := by
        rw [← Int.add_emod_right]
        exact Int.emod_eq_of_lt (by omega) (by omega)
      obtain ⟨k, hk⟩ := Int.eq_ofNat_of_zero_le (show 0 ≤ x + 256 ^ size by omega)
      have hk' : k < 256 ^ size := by
        have : (k : Int) < 256 ^ size := by omega
        exact_mod_cast this
      have hk2 : 256 ^ size ≤ 2 * k := by
        have : (256 ^ size : Int) ≤ 2 * k := by omega
        exact_mod_cast this
      unfold intValue intBytes
      rw [hm, hk, Int.toNat_natCast, length_leBytes, leNat_leBytes size k hk', if_pos hk2]
      omega
  · intro v hv
    have hlt : leNat v < 256 ^ size := hv ▸ leNat_lt_pow v
    have hlt' : (leNat v : Int) < 256 ^ size := by exact_mod_cast hlt
    unfold intValue
    rw [hv]
    by_cases h : 2 * leNat v ≥ 256 ^ size
    · have h' : (256 ^ size : Int) ≤ 2 * leNat v := by exact_mod_cast h
      rw [if_pos h]
      refine ⟨by omega, by omega, ?_⟩
      unfold intBytes
      rw [Int.sub_emod_right, Int.emod_eq_of_lt (by omega) hlt', Int.toNat_natCast, ← hv, leBytes_leNat]
    · have h' : (2 * leNat v : Int) < 256 ^ size := by
        have : 2 * leNat v < 256 ^ size := by omega
        exact_mod_cast this
      rw [if_neg h]
      refine ⟨by omega, by omega, ?_⟩
      unfold intBytes
      rw [Int.emod_eq_of_lt (by omega) hlt', Int.toNat_natCast, ← hv, leBytes_leNat]

/-- C87: If descendants are found at later times, the data file of the table has one record for each halo, with all arrays of the trees and four more columns, which are right. The script defines all these
columns. -/
theorem C87_table (ho : ops.Good) (h : TreeInput files f0 n aN aD aS aM) (hforward : Forward (aN.elements.map intValue) (aD.elements.map intValue) (aS.elements.map intValue))
    (hsupported : ∀ c ∈ outColumns (treeArrays files f0), SqlSupported c.dtype) (hnew : ∀ m ∈ newNames, m ∉ f0.haloTrees.map Prod.fst)
    (hdistinct : ((outColumns (treeArrays files f0)).map OutColumn.name ++ newNames).Nodup) (hsize : 2 * n < 256 ^ aD.dtype.itemsize) (hmass : ∀ v, (ops.massBytes v).length = aM.dtype.itemsize)
    (memory : Nat → Nat → List Byte) (tablename : List Char) :
    ∃ (mb : List M) (df main last : List Int) (cdf cmain clast : List (List Byte)) (file : List Byte) (parts : List (List Char)),
      IndexedTrees (aN.elements.map intValue) (aD.elements.map intValue) (aM.elements.map ops.massValue) mb df main last ∧
      cdf.map intValue = df ∧ cmain.map intValue = main ∧ clast.map intValue = last ∧
      Returns (fun fuel => .ok (makeDtreesTable ops memory tablename files fuel)) (.ok ⟨some file, .ok ("create table ".toList ++ tablename ++ " (\n".toList ++ parts.flatten ++ ")\n".toList)⟩) ∧
      ∃ cols, cols = outColumns (treeArrays files f0) ++ [⟨"mBranch".toList, aM.dtype, mb.map ops.massBytes⟩, ⟨"depthFirst".toList, aD.dtype, cdf⟩, ⟨"endMainBranch".toList, aD.dtype, cmain⟩,
          ⟨"lastProgenitor".toList, aD.dtype, clast⟩] ∧
        List.Forall₂ DefinesColumn cols parts ∧ file.length = n * bytesBefore cols cols.length ∧
        ∀ r < n, ∀ j c, cols[j]? = some c → some (slice file (r * bytesBefore cols cols.length + bytesBefore cols j) c.dtype.itemsize) = c.values[r]? := by
  have hma := h.massArgs ho
  have hln := h.length_node
  obtain ⟨hg1, hg2, hg3, hg4⟩ := h.lookup
  have hlm : (aM.elements.map ops.massValue).length = n := by rw [hma.lenM, hln]
  obtain ⟨mb, hb1, hb2, hb3⟩ := C61_branch_mass hma hforward (junk := ops.empty (aM.elements.map ops.massValue).length) (by rw [ho.empty, hma.lenM])
  have hta : TreeArgs (aN.elements.map intValue) (aD.elements.map intValue) mb (ops.argsort (aN.elements.map intValue)) (ops.argsortM mb) ops.argsort :=
    ⟨h.unique, hma.lenD, hb2, ho.argsort _, ho.argsortM _, ho.argsort⟩
  have hac := acyclic_of_forward hma.lenS hma.lenD hforward
  obtain ⟨df, main, last, hret⟩ := C57_returns hta hac
  obtain ⟨hn1, hn2⟩ := C57_numbers hta hac hret
  obtain ⟨D, r1, -, r3, r4, r5, r6, r7, r8⟩ := depthFirst_result hta hac hret
  rw [hln] at r1
  have hbytes : ∀ l : List Int, (∀ i < n, ∃ k : Nat, l[i]? = some (k : Int) ∧ k ≤ n) → l.length = n → (l.map (intBytes aD.dtype.itemsize)).map intValue = l := by
    intro l hl hlen
    rw [List.map_map]
    conv => rhs; rw [← List.map_id l]
    apply List.map_congr_left
    intro x hx
    obtain ⟨i, hi⟩ := List.mem_iff_getElem?.1 hx
    obtain ⟨k, hk, hkn⟩ := hl i (by have := (List.getElem?_eq_some_iff.1 hi).1; omega)
    rw [hi, Option.some.injEq] at hk
    subst hk
    have : (2 * k : Nat) < 256 ^ aD.dtype.itemsize := by omega
    exact intValue_intBytes (by omega) (by exact_mod_cast this)
  have hle : ∀ i < n, pos D (ops.argsortM mb) i + (sub D (ops.argsortM mb) i).length ≤ n := by
    intro i hi
    rw [← r1]
    exact pos_sub_le r3 (by omega) (r7 i (by omega))
  have hle2 : ∀ i < n, 1 ≤ (mainBranch D (ops.argsortM mb) i).length ∧ (mainBranch D (ops.argsortM mb) i).length ≤ (sub D (ops.argsortM mb) i).length := by
    intro i hi
    refine ⟨?_, mainBranch_length_le i⟩
    rw [mainBranch_eq r3 (by omega) (r7 i (by omega))]
    simp
  have hcdf := hbytes df (fun i hi => ⟨_, (r8 i (by omega)).1, by have := hle i hi; have := hle2 i hi; omega⟩) (by omega)
  have hclast := hbytes last (fun i hi => ⟨_, (r8 i (by omega)).2.1, hle i hi⟩) (by omega)
  have hcmain := hbytes main (fun i hi => ⟨_, (r8 i (by omega)).2.2, by have := hle i hi; have := hle2 i hi; omega⟩) (by omega)
  -- the new arrays
  have hsz : ∀ l : List Int, ∀ x ∈ l.map (intBytes aD.dtype.itemsize), x.length = aD.dtype.itemsize := by
    intro l x hx
    obtain ⟨v, -, rfl⟩ := List.mem_map.1 hx
    exact length_intBytes _ _
  set new : List (List Char × Arr) := [("mBranch".toList, newArray aM.dtype (mb.map ops.massBytes)), ("depthFirst".toList, newArray aD.dtype (df.map (intBytes aD.dtype.itemsize))),
    ("endMainBranch".toList, newArray aD.dtype (main.map (intBytes aD.dtype.itemsize))), ("lastProgenitor".toList, newArray aD.dtype (last.map (intBytes aD.dtype.itemsize)))] with hnewdef
  have hcols : outColumns (treeArrays files f0 ++ new) = outColumns (treeArrays files f0) ++ [⟨"mBranch".toList, aM.dtype, mb.map ops.massBytes⟩, ⟨"depthFirst".toList, aD.dtype, df.map (intBytes aD.dtype.itemsize)⟩,
      ⟨"endMainBranch".toList, aD.dtype, main.map (intBytes aD.dtype.itemsize)⟩, ⟨"lastProgenitor".toList, aD.dtype, last.map (intBytes aD.dtype.itemsize)⟩] := by
    unfold outColumns
    rw [List.flatMap_append]
    congr 1
    simp only [hnewdef, List.flatMap_cons, List.flatMap_nil, columnsOf_newArray]
    rfl
  have hne : treeArrays files f0 ++ new ≠ [] := by simp [hnewdef]
  have harr : ∀ c ∈ treeArrays files f0 ++ new, TableArray n c.2 := by
    intro c hc
    rcases List.mem_append.1 hc with hc | hc
    · exact h.arrays c hc
    · simp only [hnewdef, List.mem_cons, List.not_mem_nil, or_false] at hc
      rcases hc with rfl | rfl | rfl | rfl
      · refine tableArray_newArray (by rw [List.length_map, hb2, hln]) ?_
        intro x hx
        obtain ⟨v, -, rfl⟩ := List.mem_map.1 hx
        exact hmass v
      · exact tableArray_newArray (by rw [List.length_map]; omega) (hsz _)
      · exact tableArray_newArray (by rw [List.length_map]; omega) (hsz _)
      · exact tableArray_newArray (by rw [List.length_map]; omega) (hsz _)
  have hnd : ((outColumns (treeArrays files f0 ++ new)).map OutColumn.name).Nodup := by
    rw [hcols, List.map_append]
    exact hdistinct
  have hcolumn : ∀ name (a : Arr), (name, a) ∈ treeArrays files f0 → a.rowShape = [] → SqlSupported a.dtype := by
    intro name a ha hshape
    exact hsupported ⟨name, a.dtype, a.component 0⟩ (List.mem_flatMap.2 ⟨_, ha, by unfold columnsOf; rw [if_neg (by rw [hshape]; simp)]; exact List.mem_cons_self⟩)
  have hD := hcolumn _ _ h.desc.1 h.desc.2.1
  have hM := hcolumn _ _ h.mass.1 h.mass.2.1
  have hs : ∀ c ∈ outColumns (treeArrays files f0 ++ new), SqlSupported c.dtype := by
    intro c hc
    rw [hcols] at hc
    rcases List.mem_append.1 hc with hc | hc
    · exact hsupported c hc
    · simp only [List.mem_cons, List.not_mem_nil, or_false] at hc
      rcases hc with rfl | rfl | rfl | rfl
      · exact hM
      · exact hD
      · exact hD
      · exact hD
  obtain ⟨file, t1, t2, t3⟩ := C70_table hne harr hnd memory tablename
  obtain ⟨parts, s1, s2⟩ := C70_script hne harr hnd hs memory tablename
  refine ⟨mb, df, main, last, _, _, _, file, parts, ?_, hcdf, hcmain, hclast, ?_, _, rfl, ?_, ?_, ?_⟩
  · refine ⟨⟨hb2, hn1, by rw [hln]; omega, by rw [hln]; omega⟩, hb3, hn2, ?_, ?_, ?_⟩
    · intro i x a b l ha hb hl
      exact C58_progenitors hta hac hret ha hb hl
    · intro i k k' a b m m' hk hk' ha hb hab hm hm'
      exact C57_progenitor_order hta hac hret hk hk' ha hb hab hm hm'
    · obtain ⟨mp, m1, m2, m3⟩ := C59_main_branch hta hac hret
      exact ⟨mp, fun i k hik => ⟨(m1 i k hik).1, (m1 i k hik).2.1⟩, m2, m3⟩
  · obtain ⟨N, hN⟩ := hret
    refine ⟨N, fun fuel hf => ?_⟩
    have hadd : addDepthFirstIndex ops fuel (treeArrays files f0) = .ok (treeArrays files f0 ++ new) := by
      unfold addDepthFirstIndex
      simp only [hg1, hg2, hg3, hg4]
      rw [if_neg (not_not.2 ⟨h.node.2, h.desc.2, h.snap.2, h.mass.2⟩)]
      simp only [hb1, hN fuel hf]
      have hn0 : ∀ m ∈ newNames, m ∉ (treeArrays files f0).map Prod.fst := by rw [names_treeArrays]; exact hnew
      have e1 := hn0 "mBranch".toList (by simp [newNames])
      have e2 := hn0 "depthFirst".toList (by simp [newNames])
      have e3 := hn0 "endMainBranch".toList (by simp [newNames])
      have e4 := hn0 "lastProgenitor".toList (by simp [newNames])
      rw [dset_absent e1, dset_absent (k := "depthFirst".toList) (by rw [List.map_append, List.mem_append, not_or]; exact ⟨e2, by simp⟩),
        dset_absent (k := "endMainBranch".toList) (by rw [List.map_append, List.map_append, List.mem_append, List.mem_append, not_or, not_or]; exact ⟨⟨e3, by simp⟩, by simp⟩),
        dset_absent (k := "lastProgenitor".toList) (by rw [List.map_append, List.map_append, List.map_append, List.mem_append, List.mem_append, List.mem_append, not_or, not_or, not_or]; exact ⟨⟨⟨e4, by simp⟩, by simp⟩, by simp⟩)]
      simp only [hnewdef, List.append_assoc, List.cons_append, List.nil_append]
    dsimp only
    unfold makeDtreesTable
    rw [C71_read h.first h.names h.later]
    change Except.ok (match addDepthFirstIndex ops fuel (treeArrays files f0) with | .error e => _ | .ok data => _) = _
    rw [hadd]
    rw [← s1, ← t1]
  · rw [← hcols]; exact s2
  · rw [← hcols]; exact t2
  · rw [← hcols]; exact t3

/-- C87: A halo which is its own descendant is noticed, and nothing is written. -/
theorem C87_cycle (ho : ops.Good) (h : TreeInput files f0 n aN aD aS aM) (hc : ¬ Acyclic (aN.elements.map intValue) (aD.elements.map intValue)) (memory : Nat → Nat → List Byte) (tablename : List Char) :
    Returns (fun fuel => .ok (makeDtreesTable ops memory tablename files fuel)) (.ok ⟨none, .error .assertion⟩) := by
  have hma := h.massArgs ho
  obtain ⟨hg1, hg2, hg3, hg4⟩ := h.lookup
  obtain ⟨mb, hb1, hb2⟩ := branchMass_returns hma (junk := ops.empty (aM.elements.map ops.massValue).length) (by rw [ho.empty, hma.lenM])
  have hta : TreeArgs (aN.elements.map intValue) (aD.elements.map intValue) mb (ops.argsort (aN.elements.map intValue)) (ops.argsortM mb) ops.argsort :=
    ⟨h.unique, hma.lenD, hb2, ho.argsort _, ho.argsortM _, ho.argsort⟩
  obtain ⟨N, hN⟩ := C57_cycle hta hc
  refine ⟨N, fun fuel hf => ?_⟩
  have hadd : addDepthFirstIndex ops fuel (treeArrays files f0) = .error .assertion := by
    unfold addDepthFirstIndex
    simp only [hg1, hg2, hg3, hg4]
    rw [if_neg (not_not.2 ⟨h.node.2, h.desc.2, h.snap.2, h.mass.2⟩)]
    simp only [hb1, hN fuel hf]
  dsimp only
  unfold makeDtreesTable
  rw [C71_read h.first h.names h.later]
  change Except.ok (match addDepthFirstIndex ops fuel (treeArrays files f0) with | .error e => _ | .ok data => _) = _
  rw [hadd]

omit [IsOrderedAddMonoid M] [Inhabited M] in
/-- C87: If one of the arrays which are needed is missing, it is a KeyError and nothing is written. -/
theorem C87_missing (h0 : files 0 = some f0) (hnd : (f0.haloTrees.map Prod.fst).Nodup)
    (hlater : ∀ i, 0 < i → i < f0.numberOfFiles → ∃ f, files i = some f ∧ (f.haloTrees.map Prod.fst).Nodup ∧
      ∀ e ∈ f.haloTrees, ∃ a, f0.array e.1 = some a ∧ e.2.dtype = a.dtype ∧ e.2.rowShape = a.rowShape)
    (hm : ∃ m ∈ ["nodeIndex".toList, "descendantIndex".toList, "snapshotNumber".toList, "nodeMass".toList], m ∉ f0.haloTrees.map Prod.fst) (memory : Nat → Nat → List Byte) (tablename : List Char) (fuel : Nat) :
    makeDtreesTable ops memory tablename files fuel = ⟨none, .error .keyError⟩ := by
  unfold makeDtreesTable
  rw [C71_read h0 hnd hlater]
  change (match addDepthFirstIndex ops fuel (treeArrays files f0) with | .error e => _ | .ok data => _) = _
  have hadd : addDepthFirstIndex ops fuel (treeArrays files f0) = .error .keyError := by
    obtain ⟨m, hm, hmn⟩ := hm
    rw [← names_treeArrays (files := files)] at hmn
    have hnone := dget_absent hmn
    unfold addDepthFirstIndex
    simp only [List.mem_cons, List.not_mem_nil, or_false] at hm
    split
    · rename_i g1 g2 g3 g4
      exfalso
      rcases hm with rfl | rfl | rfl | rfl
      · rw [hnone] at g1; cases g1
      · rw [hnone] at g2; cases g2
      · rw [hnone] at g3; cases g3
      · rw [hnone] at g4; cases g4
    · rfl
  rw [hadd]

end Verif
