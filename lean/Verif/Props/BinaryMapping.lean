import Verif.Proofs.BinaryMapping

/-! C129: binary files as mappings, datasets as sequences, and closing of files -/

namespace Verif.BinaryMapping

/-- **C129** (groups): after any declarations, the keys of the file and of each group are different, there are as many as `len` says, and the keys are exactly the names without slashes which can be looked up. -/
theorem C129_keys (s : Bool) (file : List Byte) (ops : List BOp) {h : BGroup} (hh : h = (BFile.run s file ops).root ∨ ∃ p : Name, BGroup.getItem (p.length + 1) (BFile.run s file ops).root p = .ok (.group h)) :
    (keysOf h).Nodup ∧ lenOf h = (keysOf h).length ∧ ∀ k, k ∈ keysOf h ↔ '/' ∉ k ∧ ∃ node, BGroup.getItem (k.length + 1) h k = .ok node := by
  have hg : ∃ cs, groupAt (BFile.run s file ops).root cs = some h := by
    rcases hh with rfl | ⟨p, hp⟩
    · exact ⟨[], rfl⟩
    · exact getItem_group _ _ _ _ hp
  obtain ⟨cs, hcs⟩ := hg
  have ht := WriteHdf5.run_tidy s file ops cs h hcs
  obtain ⟨p1, p2⟩ := run_plain s file ops cs h hcs
  refine ⟨?_, by simp [lenOf, keysOf], fun k => ?_⟩
  · unfold keysOf
    rw [List.nodup_append]
    refine ⟨ht.ds, ht.gs, ?_⟩
    rintro a ha b hb rfl
    obtain ⟨d, hd⟩ := (dget_isSome_iff _ _).2 ha
    obtain ⟨g, hg⟩ := (dget_isSome_iff _ _).2 hb
    rw [ht.disj _ _ hd] at hg
    cases hg
  · constructor
    · intro hk
      have hs : '/' ∉ k := by
        rcases List.mem_append.1 hk with hk | hk
        · obtain ⟨e, he, rfl⟩ := List.mem_map.1 hk
          exact p1 e he
        · obtain ⟨e, he, rfl⟩ := List.mem_map.1 hk
          exact p2 e he
      exact ⟨hs, (getItem_plain hs h).2 hk⟩
    · rintro ⟨hs, hn⟩
      exact (getItem_plain hs h).1 hn

/-- **C129** (datasets): if a dataset with dimensions can be read, iteration gives as many rows as `len` says. Each row has all elements of the other dimensions, and the rows together are the dataset. -/
theorem C129_rows (s : Bool) (file : List Byte) (b : Block) {n : Nat} {rest : List Nat} (hb : b.shape = n :: rest) {vals : List (List Byte)} (hv : b.readAll s file = .ok vals) :
    ∃ rows, blockIter s file b = .ok rows ∧ blockLen b = .ok n ∧ rows.length = n ∧ (∀ r ∈ rows, r.length = rest.foldl (fun n s => n * s) 1) ∧ rows.flatten = vals := by
  generalize hw : rest.foldl (fun n s => n * s) 1 = w
  have hsize : b.size = n * w := by
    unfold Block.size
    rw [hb, List.foldl_cons, foldl_mul, Nat.one_mul, hw]
  unfold Block.readAll at hv
  rw [hsize] at hv
  obtain ⟨f, h1, -, h2⟩ := read_part s file b (key := []) hv (by simp)
  refine ⟨(List.range n).map (fun i => (rowKey w i).map f), ?_, by simp only [blockLen, hb], by simp, ?_, ?_⟩
  · unfold blockIter
    simp only [hb, hw]
    apply iterRows_ok
    intro i hi
    apply h2
    intro j hj
    rw [← rowKeys]
    exact List.mem_flatMap.2 ⟨i, hi, hj⟩
  · intro r hr
    obtain ⟨i, _, rfl⟩ := List.mem_map.1 hr
    simp [rowKey]
  · rw [h1, ← rowKeys, List.map_flatMap]
    rfl

/-- **C129**: a scalar has no length and can not be iterated. -/
theorem C129_scalar (s : Bool) (file : List Byte) (b : Block) (hb : b.shape = []) : blockLen b = .error .typeError ∧ blockIter s file b = .error .typeError := by
  simp only [blockLen, blockIter, hb, and_self]

section close

variable {φ : Type} [DecidableEq φ]

/-- **C129** (closing): after any events, `close()` closes the file if and only if a dataset of the file, or an attribute of the file or of a group, holds it open; it does nothing to other files. -/
theorem C129_close (s : Bool) (bytes : List Byte) (bops : List BOp) (disk : φ → Option (List Byte)) (ops : List (CacheOp φ)) (dsOf : Nat → Nat) (fname : φ)
    (hp : ∀ id, Member (BFile.run s bytes bops).root id → PartOf (cacheRun disk ops) (dsOf id) fname) :
    (IsOpen (closeFile disk (cacheRun disk ops) dsOf (BFile.run s bytes bops).root) fname ↔
      IsOpen (cacheRun disk ops) fname ∧ ∀ id, Member (BFile.run s bytes bops).root id → ¬ Holds (cacheRun disk ops) (dsOf id)) ∧
    ∀ other, other ≠ fname → (IsOpen (closeFile disk (cacheRun disk ops) dsOf (BFile.run s bytes bops).root) other ↔ IsOpen (cacheRun disk ops) other) := by
  have ht := WriteHdf5.run_tidy s bytes bops
  have := close_fold (disk := disk) (dsOf := dsOf) (fname := fname) (closeIds (BFile.run s bytes bops).root) (cacheRun_inv disk ops) (fun id hid => hp id ((closeIds_member ht id).1 hid))
  unfold closeFile
  simpa only [closeIds_member ht] using this

end close

namespace ExBinaryMapping

def i4 : DType := ⟨4, '<'⟩

/-- A dataset with an attribute, a group with a dataset and an attribute -/
def bops : List BOp := [.addDataset "d".toList i4 [2, 2], .addAttribute "d/x".toList i4 [], .addDataset "g/e".toList i4 [], .addAttribute "g/y".toList i4 []]

def bytes : List Byte := List.replicate 28 1

def root : BGroup := (BFile.run true bytes bops).root

example : keysOf root = ["d".toList, "g".toList] ∧ lenOf root = 2 := by decide +kernel

example : blockIter true [1, 0, 2, 0, 3, 0, 4, 0] ⟨⟨2, '<'⟩, 0, [2, 2], '<'⟩ = .ok [[[1, 0], [2, 0]], [[3, 0], [4, 0]]] := by decide +kernel

/-- Blocks 0, 3 and 2 are closed, but not the attribute of the dataset. -/
example : closeIds root = [0, 3, 2] := by decide +kernel

def disk (f : Nat) : Option (List Byte) := if f = 0 then some bytes else none

/-- All blocks are made. -/
def made : List (CacheOp Nat) := [.create 0, .create 0, .create 0, .create 0]

/-- After reading the dataset the file is open, and `close()` closes it. -/
example : (cacheRun disk (made ++ [.access 0])).objs.map MapObj.closed = [false] ∧ (closeFile disk (cacheRun disk (made ++ [.access 0])) id root).objs.map MapObj.closed = [true] := by decide +kernel

end ExBinaryMapping

open ExBinaryMapping in
/-- **C129**, defect: attributes of a dataset are not closed. If only such an attribute was read the file is still open after `close()`, and so after a `with` statement. The same holds for blocks of `read_and_skip`. -/
theorem C129_close_defect :
    (closeFile disk (cacheRun disk (made ++ [.access 1])) id root).objs.map MapObj.closed = [false] ∧
    (closeFile disk (cacheRun disk [.create 0, .access 0]) id (BFile.run true bytes [.readAndSkip i4 []]).root).objs.map MapObj.closed = [false] := by decide +kernel

end Verif.BinaryMapping
