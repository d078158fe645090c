import Verif.Spec.HashSnapshot
import Verif.Proofs.Ranges
import Verif.Props.Peano
import Mathlib.Data.List.GetD
import Mathlib.Data.List.Count
import Mathlib.Tactic.Ring
import Mathlib.Tactic.Linarith

/-! Reading cells of a snapshot with a hash table. -/

namespace Verif

variable {α : Type*}

/-! ### Lists in order -/

theorem sorted_first {β : Type*} (key : β → Int) (l : List β) (hs : l.Pairwise (fun p q => key p ≤ key q)) (a : Int) (ha : ∀ p ∈ l, a ≤ key p) :
    l = l.filter (fun p => decide (key p = a)) ++ l.filter (fun p => decide (a < key p)) := by
  induction l with
  | nil => rfl
  | cons x l ih =>
    rw [List.pairwise_cons] at hs
    by_cases hx : key x = a
    · rw [List.filter_cons_of_pos (by simpa using hx), List.filter_cons_of_neg (by simp; omega), List.cons_append, ← ih hs.2 (fun p hp => ha p (by simp [hp]))]
    · have hax : a < key x := by have := ha x (by simp); omega
      rw [List.filter_cons_of_neg (by simpa using hx), List.filter_cons_of_pos (by simpa using hax)]
      have h1 : l.filter (fun p => decide (key p = a)) = [] := by
        rw [List.filter_eq_nil_iff]
        intro p hp
        have := hs.1 p hp
        simp; omega
      have h2 : l.filter (fun p => decide (a < key p)) = l := by
        rw [List.filter_eq_self]
        intro p hp
        have := hs.1 p hp
        simp; omega
      rw [h1, h2, List.nil_append]

/-- A flag for each particle from flags for cells and numbers of particles in cells -/
theorem flags_of_sorted {β : Type*} (key : β → Int) (flag : Int → Bool) (n : Nat) (l : List β) (hs : l.Pairwise (fun p q => key p ≤ key q)) (a : Int) (ha : ∀ p ∈ l, a ≤ key p ∧ key p < a + n) :
    (List.range n).flatMap (fun (j : Nat) => List.replicate (l.filter (fun p => decide (key p = a + j))).length (flag (a + j))) = l.map (fun p => flag (key p)) := by
  induction n generalizing l a with
  | zero =>
    have : l = [] := by
      rw [List.eq_nil_iff_forall_not_mem]
      intro p hp
      have := ha p hp
      omega
    subst this
    rfl
  | succ n ih =>
    have hsplit := sorted_first key l hs a (fun p hp => (ha p hp).1)
    conv_rhs => rw [hsplit, List.map_append]
    rw [List.range_succ_eq_map, List.flatMap_cons, List.flatMap_map]
    congr 1
    · simp only [Nat.cast_zero, add_zero]
      symm
      rw [List.eq_replicate_iff]
      refine ⟨by simp, ?_⟩
      intro b hb
      rw [List.mem_map] at hb
      obtain ⟨p, hp, rfl⟩ := hb
      have := List.of_mem_filter hp
      rw [decide_eq_true_eq] at this
      rw [this]
    · have h := ih (l.filter (fun p => decide (a < key p))) (hs.filter _) (a + 1) (by
        intro p hp
        have h1 := List.of_mem_filter hp
        have h2 := ha p (List.mem_of_mem_filter hp)
        rw [decide_eq_true_eq] at h1
        push_cast at h2
        omega)
      rw [← h]
      congr 1
      funext j
      have e : a + 1 + (j : Int) = a + ((j + 1 : Nat) : Int) := by push_cast; ring
      rw [e]
      congr 2
      rw [List.filter_filter]
      apply List.filter_congr
      intro p _
      rw [Bool.eq_iff_iff]
      simp only [Bool.and_eq_true, decide_eq_true_eq]
      push_cast
      constructor
      · intro h; exact ⟨h, by omega⟩
      · intro h; exact h.1

/-- Numbers of particles in the cells -/
theorem numInCell_spec {nhash : Nat} {first last : Int} {ps : List (CellParticle α)} (h : CellOrdered nhash first last ps) (hne : first ≤ last) :
    numInCell (hashedFile first last ps) = (List.range (last - first + 1).toNat).map (fun (j : Nat) => ((ps.filter (fun p => decide (p.cell = first + j))).length : Int)) := by
  obtain ⟨h1, h2, h3, h4, h5⟩ := h
  have hcount : ∀ c : Int, ((ps.filter (fun p => decide (p.cell < c + 1))).length : Int) - (ps.filter (fun p => decide (p.cell < c))).length = (ps.filter (fun p => decide (p.cell = c))).length := by
    intro c
    clear h4 h5
    induction ps with
    | nil => rfl
    | cons p ps ih =>
      simp only [List.filter_cons, decide_eq_true_eq]
      split <;> split <;> split <;> (try simp only [List.length_cons]) <;> push_cast <;> omega
  have hlast : (ps.length : Int) = (ps.filter (fun p => decide (p.cell < last + 1))).length := by
    rw [List.filter_eq_self.2]
    intro p hp
    have := h5 p hp
    simp; omega
  unfold numInCell hashedFile
  simp only
  apply List.ext_getElem
  · simp only [List.length_zipWith, List.length_append, List.length_tail, List.length_map, List.length_range, List.length_singleton]; omega
  · intro j hj1 hj2
    simp only [List.length_map, List.length_range] at hj2
    rw [List.getElem_zipWith, List.getElem_map, List.getElem_range, List.getElem_map, List.getElem_range]
    rw [← hcount (first + j)]
    congr 1
    by_cases hj : j + 1 < (last - first + 1).toNat
    · rw [List.getElem_append_left (by simp; omega), List.getElem_tail, List.getElem_map, List.getElem_range]
      push_cast
      congr 3
      rw [add_assoc]
    · rw [List.getElem_append_right (by simp; omega), List.getElem_singleton, hlast]
      congr 5
      funext p
      congr 2
      omega

theorem selectMask_map {β γ : Type*} (l : List γ) (f : γ → β) (g : γ → Bool) : selectMask (l.map f) (l.map g) = .ok ((l.filter g).map f) := by
  unfold selectMask
  rw [if_neg (by simp)]
  congr 1
  induction l with
  | nil => rfl
  | cons x l ih =>
    rw [List.map_cons, List.map_cons, List.zip_cons_cons]
    by_cases hx : g x = true
    · rw [List.filter_cons_of_pos (by simpa using hx), List.filter_cons_of_pos hx, List.map_cons, List.map_cons, ih]
    · rw [List.filter_cons_of_neg (by simpa using hx), List.filter_cons_of_neg hx, ih]

theorem zip_flatMap_range {β : Type*} (n : Nat) (f : Nat → β) (c : Nat → Nat) :
    (((List.range n).map f).zip ((List.range n).map (fun j => (c j : Int)))).flatMap (fun e => List.replicate e.2.toNat e.1) = (List.range n).flatMap (fun j => List.replicate (c j) (f j)) := by
  generalize List.range n = l
  induction l with
  | nil => rfl
  | cons a l ih =>
    rw [List.map_cons, List.map_cons, List.zip_cons_cons, List.flatMap_cons, List.flatMap_cons, ih]
    rfl

theorem hashRead_spec {nhash : Nat} {first last : Int} {ps : List (CellParticle α)} (h : CellOrdered nhash first last ps) (hne : first ≤ last) (flag : Int → Bool) :
    hashRead (hashedFile first last ps) ((List.range (last - first + 1).toNat).map (fun (j : Nat) => flag (first + j))) = .ok (particleArrays (ps.filter (fun p => flag p.cell))) := by
  obtain ⟨h1, h2, h3, h4, h5⟩ := id h
  unfold hashRead
  rw [if_neg]
  · rw [numInCell_spec h hne, npRepeat_ok (by simp) (by
      intro r hr
      rw [List.mem_map] at hr
      obtain ⟨j, -, rfl⟩ := hr
      omega), zip_flatMap_range, flags_of_sorted CellParticle.cell flag _ ps h4 first (fun p hp => by have := h5 p hp; omega)]
    simp only [hashedFile]
    rw [selectMask_map, selectMask_map, selectMask_map]
    rfl
  · simp only [hashedFile, List.map_eq_nil_iff]
    rw [List.range_eq_nil]
    omega

/-! ### Flags of cells -/

theorem foldl_set_flags (l : List Nat) (g : List Bool) : (l.foldl (fun g i => g.set i true) g).length = g.length ∧
    ∀ i < g.length, (l.foldl (fun g i => g.set i true) g).getD i false = (g.getD i false || decide (i ∈ l)) := by
  induction l generalizing g with
  | nil => simp
  | cons a l ih =>
    rw [List.foldl_cons]
    obtain ⟨h1, h2⟩ := ih (g.set a true)
    refine ⟨by rw [h1, List.length_set], ?_⟩
    intro i hi
    rw [h2 i (by simpa using hi)]
    simp only [List.getD_eq_getElem?_getD, List.getElem?_set]
    by_cases hai : a = i
    · subst hai; simp [hi]
    · simp [hai, Ne.symm hai]

/-- A key stands for a cell. -/
def keyCell (nhash : Nat) (k : Int) : Int := if k < 0 then k + nhash else k

theorem flagCells_spec {nhash : Nat} {keys : List Int} (h : ∀ k ∈ keys, -(nhash : Int) ≤ k ∧ k < nhash) :
    flagCells nhash keys = .ok ((List.range nhash).map (fun (c : Nat) => decide (∃ k ∈ keys, keyCell nhash k = c))) := by
  unfold flagCells
  rw [if_pos (by rw [List.all_eq_true]; intro k hk; simpa using h k hk)]
  congr 1
  have e : keys.foldl (fun g (k : Int) => g.set (if k < 0 then k + nhash else k).toNat true) (List.replicate nhash false) = (keys.map (fun k => (keyCell nhash k).toNat)).foldl (fun g i => g.set i true) (List.replicate nhash false) := by
    rw [List.foldl_map]; rfl
  rw [e]
  obtain ⟨h1, h2⟩ := foldl_set_flags (keys.map (fun k => (keyCell nhash k).toNat)) (List.replicate nhash false)
  apply List.ext_getElem
  · rw [h1]; simp
  · intro i hi1 hi2
    have hi : i < nhash := by simpa using hi2
    have := h2 i (by simpa using hi)
    rw [List.getD_eq_getElem _ _ hi1] at this
    rw [this, List.getElem_map, List.getElem_range, List.getD_eq_getElem _ _ (by simpa using hi), List.getElem_replicate, Bool.false_or, decide_eq_decide, List.mem_map]
    constructor
    · rintro ⟨k, hk, hki⟩
      refine ⟨k, hk, ?_⟩
      have := h k hk
      unfold keyCell at hki ⊢
      split at hki <;> omega
    · rintro ⟨k, hk, hki⟩
      exact ⟨k, hk, by rw [hki]; simp⟩

/-- The flags of the cells of a file -/
theorem flags_slice {nhash : Nat} (flag : Int → Bool) {first last : Int} (h1 : 0 ≤ first) (h2 : first ≤ last + 1) (h3 : last < nhash) :
    slice ((List.range nhash).map (fun (c : Nat) => flag c)) (sliceBound nhash first) (sliceBound nhash (last + 1) - sliceBound nhash first) = (List.range (last - first + 1).toNat).map (fun (j : Nat) => flag (first + j)) := by
  have ha : sliceBound nhash first = first.toNat := by unfold sliceBound; rw [if_neg (by omega)]; omega
  have hb : sliceBound nhash (last + 1) = (last + 1).toNat := by unfold sliceBound; rw [if_neg (by omega)]; omega
  rw [ha, hb]
  apply List.ext_getElem
  · simp only [slice, List.length_take, List.length_drop, List.length_map, List.length_range]; omega
  · intro i hi1 hi2
    simp only [slice, List.getElem_take, List.getElem_drop, List.getElem_map, List.getElem_range]
    congr 1
    push_cast
    omega

/-! ### The loop over files -/

/-- Entries of the cache are right. -/
def HashTableOk (files : Nat → HashFile α) (table : HashTable) : Prop := ∀ i r, table.lookup i = some r → r = ((files i).first_hash_cell, (files i).last_hash_cell)

theorem hashCells_ok {files : Nat → HashFile α} {table : HashTable} (h : HashTableOk files table) (i : Nat) :
    HashTableOk files (hashCells files table i).1 ∧ (hashCells files table i).2 = ((files i).first_hash_cell, (files i).last_hash_cell) := by
  unfold hashCells
  rcases hl : table.lookup i with _ | r
  · refine ⟨?_, rfl⟩
    intro j r hj
    rw [List.lookup_cons] at hj
    by_cases hji : j = i
    · subst hji
      simp only [beq_self_eq_true, Option.some.injEq] at hj
      exact hj.symm
    · have hb : (j == i) = false := by simpa using hji
      rw [hb] at hj
      exact h j r hj
  · exact ⟨h, h i r hl⟩

theorem hashLoop_cache {files : Nat → HashFile α} (grid : List Bool) (is : List Nat) {table : HashTable} (h : HashTableOk files table) (out : List (List α × List α × List α)) :
    HashTableOk files (hashLoop files grid is table out).1 := by
  induction is generalizing table out with
  | nil => exact h
  | cons i is ih =>
    have h' := (hashCells_ok h i).1
    simp only [hashLoop]
    split
    · split
      · exact h'
      · exact ih h' _
    · exact ih h' _

theorem readCells_cache {files : Nat → HashFile α} (nfiles nhash : Nat) {table : HashTable} (h : HashTableOk files table) (keys : List Int) : HashTableOk files (readCells files nfiles nhash table keys).1 := by
  unfold readCells
  split
  · exact h
  · rename_i grid _
    have h' := hashLoop_cache grid (List.range nfiles) h []
    rcases hl : hashLoop files grid (List.range nfiles) table [] with ⟨t, r⟩
    rw [hl] at h'
    rcases r with e | r <;> exact h'

/-- What is described by the files: cells and particles -/
structure HashedFiles (α : Type*) where
  first : Nat → Int
  last : Nat → Int
  ps : Nat → List (CellParticle α)

def HashedFiles.files (d : HashedFiles α) (i : Nat) : HashFile α := hashedFile (d.first i) (d.last i) (d.ps i)

/-- Some of the selected cells are in the file. -/
def HashedFiles.touched (d : HashedFiles α) (flag : Int → Bool) (i : Nat) : Bool := ((List.range (d.last i - d.first i + 1).toNat).map (fun (j : Nat) => flag (d.first i + j))).any (fun c => c)

theorem HashedFiles.touched_iff (d : HashedFiles α) (flag : Int → Bool) (i : Nat) : d.touched flag i = true ↔ ∃ c, d.first i ≤ c ∧ c ≤ d.last i ∧ flag c = true := by
  unfold HashedFiles.touched
  rw [List.any_eq_true]
  constructor
  · rintro ⟨x, hx, hx'⟩
    rw [List.mem_map] at hx
    obtain ⟨j, hj, rfl⟩ := hx
    rw [List.mem_range] at hj
    exact ⟨_, by omega, by omega, hx'⟩
  · rintro ⟨c, h1, h2, h3⟩
    refine ⟨flag c, ?_, h3⟩
    rw [List.mem_map]
    refine ⟨(c - d.first i).toNat, by rw [List.mem_range]; omega, ?_⟩
    congr 1
    omega

theorem hashLoop_spec (d : HashedFiles α) {nhash nfiles : Nat} (hd : ∀ i < nfiles, CellOrdered nhash (d.first i) (d.last i) (d.ps i)) (flag : Int → Bool) (is : List Nat) (his : ∀ i ∈ is, i < nfiles)
    {table : HashTable} (h : HashTableOk d.files table) (out : List (List α × List α × List α)) :
    (hashLoop d.files ((List.range nhash).map (fun (c : Nat) => flag c)) is table out).2 =
      .ok (out ++ (is.filter (fun i => d.touched flag i)).map (fun i => particleArrays ((d.ps i).filter (fun p => flag p.cell)))) := by
  induction is generalizing table out with
  | nil => simp [hashLoop]
  | cons i is ih =>
    obtain ⟨h1, h2, h3, h4, h5⟩ := id (hd i (his i (by simp)))
    obtain ⟨k1, k2⟩ := hashCells_ok h i
    simp only [hashLoop, k2, List.length_map, List.length_range]
    have e1 : (d.files i).first_hash_cell = d.first i := rfl
    have e2 : (d.files i).last_hash_cell = d.last i := rfl
    rw [e1, e2, flags_slice flag h1 h2 h3]
    have e3 : ((List.range (d.last i - d.first i + 1).toNat).map (fun (j : Nat) => flag (d.first i + j))).any (fun c => c) = d.touched flag i := rfl
    rw [e3]
    by_cases ht : d.touched flag i = true
    · have hne : d.first i ≤ d.last i := by
        obtain ⟨c, c1, c2, -⟩ := (d.touched_iff flag i).1 ht
        omega
      have hf : d.files i = hashedFile (d.first i) (d.last i) (d.ps i) := rfl
      rw [if_pos ht, hf, hashRead_spec (hd i (his i (by simp))) hne flag, List.filter_cons_of_pos ht]
      simp only
      rw [ih (fun j hj => his j (by simp [hj])) k1]
      simp
    · rw [if_neg ht, List.filter_cons_of_neg ht]
      exact ih (fun j hj => his j (by simp [hj])) k1 out

/-- Files which are not read have no particles in the cells. -/
theorem untouched_empty (d : HashedFiles α) {nhash nfiles : Nat} (hd : ∀ i < nfiles, CellOrdered nhash (d.first i) (d.last i) (d.ps i)) (flag : Int → Bool) {β : Type*} (f : CellParticle α → β) (is : List Nat) (his : ∀ i ∈ is, i < nfiles) :
    ((is.filter (fun i => d.touched flag i)).map (fun i => ((d.ps i).filter (fun p => flag p.cell)).map f)).flatten = ((is.flatMap d.ps).filter (fun p => flag p.cell)).map f := by
  induction is with
  | nil => rfl
  | cons i is ih =>
    rw [List.flatMap_cons, List.filter_append, List.map_append, ← ih (fun j hj => his j (by simp [hj]))]
    by_cases ht : d.touched flag i = true
    · rw [List.filter_cons_of_pos ht, List.map_cons, List.flatten_cons]
    · have : (d.ps i).filter (fun p => flag p.cell) = [] := by
        rw [List.filter_eq_nil_iff]
        intro p hp hf
        have := (hd i (his i (by simp))).2.2.2.2 p hp
        exact ht ((d.touched_iff flag i).2 ⟨p.cell, this.1, this.2, hf⟩)
      rw [List.filter_cons_of_neg ht, this, List.map_nil, List.nil_append]

end Verif
