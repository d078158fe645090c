import Verif.Proofs.IdlReaders
import Verif.Spec.IdlTables

/-! C128: the programs in IDL which look up a subhalo or a group in a table of all of them -/

namespace Verif.IdlTables

open Files FortranReaders SnapshotPrograms IdlReaders

variable {big : Bool} {fs : ByteFS} {num n : Nat} {columns : List (List (List Byte))}

theorem compact_toList {s : String} (h : s.toList.all (fun c => !(c == ' ' || c == '\t')) = true) : removeBlanks s.toList = s.toList := by
  unfold removeBlanks
  rw [List.filter_eq_self]
  intro c hc
  exact List.all_eq_true.1 h c hc

theorem tableName_eq {stem : String} (hst : stem.toList.all (fun c => !(c == ' ' || c == '\t')) = true) (hn : num < 1000) : tableName stem num = tablePath stem num := by
  unfold tableName tablePath
  rw [exts_eq hn, removeBlanks_append, removeBlanks_append, compact_toList hst, compact_toList (s := ".all") (by decide)]
  congr 2
  apply removeBlanks_compact
  rw [← exts_eq hn]
  intro c hc
  unfold exts at hc
  have h1 := List.mem_of_mem_drop (List.mem_of_mem_take hc)
  rcases List.mem_append.1 h1 with h1 | h1
  · have : ∀ c ∈ "000".toList, c ≠ ' ' ∧ c ≠ '\t' := by decide
    exact this c h1
  · have := (List.mem_filter.1 h1).2
    simp at this
    exact this

/-- **C128** (tables): a table is read with all its columns. -/
theorem C128_table {name : Name} (h : TableStored fs name big n columns) : readTable big fs name columns.length = .ok columns := by
  obtain ⟨h0, h1, h2, rest, h3⟩ := h
  unfold readTable openr
  rw [h3]
  have ha : IsArray 4 1 [leBytes 4 n] := ⟨rfl, by simp⟩
  have hr : readu big [(4, 1)] (arrayBytes big [leBytes 4 n] ++ (columns.flatMap (arrayBytes big) ++ rest)) = .ok ([[leBytes 4 n]], columns.flatMap (arrayBytes big) ++ rest) := by
    have := readu_of big (items := [(4, 1)]) (vss := [[leBytes 4 n]]) (List.Forall₂.cons ha List.Forall₂.nil) (columns.flatMap (arrayBytes big) ++ rest)
    simpa using this
  show (readu big [(4, 1)] _ >>= _) = _
  rw [hr]
  have hl : long [[leBytes 4 n]] 0 = n := int32_leBytes n h1
  have hs : idlSize (long [[leBytes 4 n]] 0) = .ok n := by
    rw [hl]
    unfold idlSize
    rw [if_neg (by omega), Int.toNat_natCast]
  show (idlSize (long [[leBytes 4 n]] 0) >>= _) = _
  rw [hs]
  have hf : List.Forall₂ (fun (it : Nat × Nat) v => IsArray it.1 it.2 v) (List.replicate columns.length (4, n)) columns := by
    clear h3 hr
    induction columns with
    | nil => exact List.Forall₂.nil
    | cons c l ih => exact List.Forall₂.cons (h2 c List.mem_cons_self) (ih (fun c hc => h2 c (List.mem_cons_of_mem _ hc)))
  show (readu big (List.replicate columns.length (4, n)) (columns.flatMap (arrayBytes big) ++ rest) >>= _) = _
  rw [readu_of big hf rest]
  rfl

theorem elem_ok {α : Type} {a : List α} {i : Nat} {x : α} (h : a[i]? = some x) : elem a (i : Int) = .ok x := by
  unfold elem
  rw [if_neg (by omega), Int.toNat_natCast, h]

theorem elem_error {α : Type} {a : List α} {i : Nat} (h : a.length ≤ i) : elem a (i : Int) = .error .indexError := by
  unfold elem
  rw [if_neg (by omega), Int.toNat_natCast, List.getElem?_eq_none h]

theorem column_ok {c i : Nat} {x : Int} (h : ((columns.getD c [])[i]?).map int32Value = some x) : column columns c (i : Int) = .ok x := by
  rcases hv : (columns.getD c [])[i]? with _ | v
  · rw [hv] at h; simp at h
  · rw [hv] at h
    unfold column
    rw [elem_ok hv]
    exact congrArg Except.ok (Option.some.inj h)

section tree

variable {mostBound : Int → Except Err (List Nat)} {treeIDs : Int → Int → Except Err (List Nat)} {i sub id : Nat} {ids : List Nat}

/-- **C128** (read_sub_tree.pro): for a row of the table which is right, the number from the tree is the most bound particle of the subhalo. But the number from the catalogue is that of the subhalo of the same file whose
number in the file is the number of the row in the whole table; if there is none the program stops. -/
theorem C128_sub_tree (hn : num < 1000) (hc : columns.length = 6) (hs : TableStored fs (tablePath "subid_trees_" num) big n columns) (hr : SubRow columns mostBound treeIDs i ids sub id) :
    (∀ x, ids[i]? = some x → readSubTree big fs num mostBound treeIDs i = .ok (x, id)) ∧ (ids.length ≤ i → readSubTree big fs num mostBound treeIDs i = .error .indexError) := by
  obtain ⟨⟨f, f1, f2⟩, _, _, fnr, tid, tree, node, t1, t2, t3, t4, t5⟩ := hr
  have ht := C128_table hs
  rw [hc] at ht
  have start : readSubTree big fs num mostBound treeIDs i = (elem ids (i : Int) >>= fun first => column columns 3 (i : Int) >>= fun treefnr => column columns 4 (i : Int) >>= fun treeid =>
      treeIDs treefnr treeid >>= fun tree => column columns 5 (i : Int) >>= fun node => elem tree node >>= fun second => .ok (first, second)) := by
    unfold readSubTree
    rw [tableName_eq (by decide) hn, ht]
    show (column columns 0 (i : Int) >>= _) = _
    rw [column_ok f1]
    show (mostBound f >>= _) = _
    rw [f2]
    rfl
  rw [start]
  constructor
  · intro x hx
    rw [elem_ok hx]
    show (column columns 3 (i : Int) >>= _) = _
    rw [column_ok t1]
    show (column columns 4 (i : Int) >>= _) = _
    rw [column_ok t2]
    show (treeIDs fnr tid >>= _) = _
    rw [t3]
    show (column columns 5 (i : Int) >>= _) = _
    rw [column_ok t4]
    show (elem tree (node : Int) >>= _) = _
    rw [elem_ok t5]
    rfl
  · intro h
    rw [elem_error h]
    rfl

/-- **C128**: the program prints the same number twice, as it should, if and only if the number of the subhalo in its file is the number of the row. -/
theorem C128_same_iff (hn : num < 1000) (hc : columns.length = 6) (hs : TableStored fs (tablePath "subid_trees_" num) big n columns) (hr : SubRow columns mostBound treeIDs i ids sub id) (hd : ids.Nodup) :
    (∃ x, readSubTree big fs num mostBound treeIDs i = .ok (x, x)) ↔ sub = i := by
  obtain ⟨h1, h2⟩ := C128_sub_tree hn hc hs hr
  constructor
  · rintro ⟨x, hx⟩
    rcases hi : ids[i]? with _ | y
    · rw [h2 (List.getElem?_eq_none_iff.1 hi)] at hx
      cases hx
    · rw [h1 y hi] at hx
      injection hx with hx
      obtain ⟨rfl, rfl⟩ := Prod.mk.inj hx
      have a := hr.bound
      obtain ⟨l1, e1⟩ := List.getElem?_eq_some_iff.1 a
      obtain ⟨l2, e2⟩ := List.getElem?_eq_some_iff.1 hi
      exact (List.Nodup.getElem_inj_iff hd).1 (e1.trans e2.symm)
  · rintro rfl
    exact ⟨id, h1 id hr.bound⟩

/-- **C128**, defect: if the table has the subhalos of one file after the other, the check fails or the program stops for every subhalo which is not in the first file with subhalos. -/
theorem C128_sub_tree_defect (hn : num < 1000) (hc : columns.length = 6) (hs : TableStored fs (tablePath "subid_trees_" num) big n columns) (hr : SubRow columns mostBound treeIDs i ids sub id) (hd : ids.Nodup)
    {before : Nat} (hb : 0 < before) (hi : i = before + sub) : ∀ x, readSubTree big fs num mostBound treeIDs i ≠ .ok (x, x) := by
  intro x hx
  have := (C128_same_iff hn hc hs hr hd).1 ⟨x, hx⟩
  omega

end tree

section group

variable {groupLen : Int → Except Err (List Int)} {subhalos : Int → Except Err SubFile} {i g first : Nat} {s : SubFile} {m : List Byte} {k : Int}

/-- **C128** (read_group_m200.pro): for a row of the table which is right, the mass is printed twice as it should be, with the number of particles of the group and with the group of its first subhalo. If there is
no such subhalo the program stops. -/
theorem C128_group (hn : num < 1000) (hc : columns.length = 4) (hs : TableStored fs (tablePath "group_m200_" num) big n columns) (hr : GroupRow columns groupLen subhalos i g s m k first) :
    (∀ p, s.parent[first]? = some p → readGroupM200 big fs num groupLen subhalos i = .ok ⟨m, k, m, first, p, g⟩) ∧ (s.parent.length ≤ first → readGroupM200 big fs num groupLen subhalos i = .error .indexError) := by
  obtain ⟨⟨f, len, f1, f2, f3, f4⟩, ⟨m1, m2⟩, g1, g2⟩ := hr
  have ht := C128_table hs
  rw [hc] at ht
  have start : readGroupM200 big fs num groupLen subhalos i = (elem s.parent (first : Int) >>= fun parent => .ok ⟨m, k, m, first, parent, g⟩) := by
    unfold readGroupM200
    rw [tableName_eq (by decide) hn, ht]
    show (column columns 1 (i : Int) >>= _) = _
    rw [column_ok f1]
    show (groupLen f >>= _) = _
    rw [f2]
    show (elem (columns.getD 0 []) (i : Int) >>= _) = _
    rw [elem_ok m1]
    show (column columns 2 (i : Int) >>= _) = _
    rw [column_ok g1]
    show (elem len (g : Int) >>= _) = _
    rw [elem_ok f4]
    show (subhalos f >>= _) = _
    rw [f3]
    show (elem s.mCrit (g : Int) >>= _) = _
    rw [elem_ok m2]
    show (elem s.firstSub (g : Int) >>= _) = _
    rw [elem_ok g2]
    rfl
  rw [start]
  constructor
  · intro p hp
    rw [elem_ok hp]
    rfl
  · intro h
    rw [elem_error h]
    rfl

/-- **C128**: the printed groups agree if the group has subhalos, where the first one belongs to the group. -/
theorem C128_group_subhalos (hn : num < 1000) (hc : columns.length = 4) (hs : TableStored fs (tablePath "group_m200_" num) big n columns) (hr : GroupRow columns groupLen subhalos i g s m k first)
    (hp : s.parent[first]? = some (g : Int)) : ∃ r, readGroupM200 big fs num groupLen subhalos i = .ok r ∧ r.m200 = r.mCrit ∧ r.parent = r.group ∧ r.groupLen = k :=
  ⟨_, (C128_group hn hc hs hr).1 _ hp, rfl, rfl, rfl⟩

/-- **C128**, defect: a group without subhalos, after which no subhalos follow in its file, has the number of all subhalos of the file as `FirstSubOfHalo`, and the program stops before line 84. -/
theorem C128_no_subhalos_defect (hn : num < 1000) (hc : columns.length = 4) (hs : TableStored fs (tablePath "group_m200_" num) big n columns)
    (hr : GroupRow columns groupLen subhalos i g s m k s.parent.length) : readGroupM200 big fs num groupLen subhalos i = .error .indexError :=
  (C128_group hn hc hs hr).2 (le_refl _)

/-- **C128** (order): if the masses of the table are in descending order, at most `i` groups have a larger mass than that in row `i`, and more than `i` groups have at least this mass. Row 1000 is therefore for the
group after the thousand most massive ones. -/
theorem C128_place {K : Type} [LinearOrder K] (val : List Byte → K) {masses : List (List Byte)} (hd : masses.Pairwise (fun a b => val b ≤ val a)) (hm : masses[i]? = some m) :
    masses.countP (fun x => decide (val m < val x)) ≤ i ∧ i < masses.countP (fun x => decide (val m ≤ val x)) := by
  induction masses generalizing i with
  | nil => simp at hm
  | cons a l ih =>
    rw [List.pairwise_cons] at hd
    cases i with
    | zero =>
      rw [List.getElem?_cons_zero, Option.some_inj] at hm
      subst hm
      constructor
      · rw [Nat.le_zero, List.countP_eq_zero]
        intro x hx
        rcases List.mem_cons.1 hx with rfl | hx
        · simp
        · simpa using hd.1 x hx
      · rw [List.countP_cons_of_pos (by simp)]
        omega
    | succ i =>
      rw [List.getElem?_cons_succ] at hm
      obtain ⟨h1, h2⟩ := ih hd.2 hm
      have hs := hd.1 m (List.mem_of_getElem? hm)
      constructor
      · rw [List.countP_cons]
        split <;> omega
      · rw [List.countP_cons, if_pos (by simpa using hs)]
        omega

end group

namespace ExIdlTables

/-- Two files with two and three subhalos, and one tree with all of them -/
def mostBound (f : Int) : Except Err (List Nat) := if f = 0 then .ok [10, 11] else if f = 1 then .ok [20, 21, 22] else .error .ioError

def treeIDs (_ _ : Int) : Except Err (List Nat) := .ok [22, 21, 20, 11, 10]

def subTable : List (List (List Byte)) := ([[0, 0, 1, 1, 1], [0, 1, 0, 1, 2], [0, 0, 0, 0, 0], [0, 0, 0, 0, 0], [0, 0, 0, 0, 0], [4, 3, 2, 1, 0]] : List (List Nat)).map (·.map (leBytes 4))

def groups : List (List (List Byte)) := ([[9, 7, 5], [1, 0, 0], [0, 1, 0], [0, 0, 0]] : List (List Nat)).map (·.map (leBytes 4))

def store (name : Name) : Option (List Byte) :=
  if name = "subid_trees_063.all".toList then some (arrayBytes true [leBytes 4 5] ++ (subTable.flatMap (arrayBytes true) ++ []))
  else if name = "group_m200_063.all".toList then some (arrayBytes true [leBytes 4 3] ++ (groups.flatMap (arrayBytes true) ++ []))
  else none

theorem stored : TableStored store (tablePath "subid_trees_" 63) true 5 subTable := ⟨by decide, by decide, by decide +kernel, [], by decide +kernel⟩

example : SubRow subTable mostBound treeIDs 2 [20, 21, 22] 0 20 :=
  ⟨⟨1, by decide +kernel, rfl⟩, by decide +kernel, rfl, 0, 0, [22, 21, 20, 11, 10], 2, by decide +kernel, by decide +kernel, rfl, by decide +kernel, rfl⟩

/-- Both numbers agree for the first file only; the last subhalos are not found. -/
example : (List.range 5).map (fun i => (readSubTree true store 63 mostBound treeIDs i).toOption) = [some (10, 10), some (11, 11), some (22, 20), none, none] := by decide +kernel

def groupLen (f : Int) : Except Err (List Int) := if f = 0 then .ok [50, 70] else .ok [90]

def subhalos (f : Int) : Except Err SubFile := if f = 0 then .ok ⟨[leBytes 4 5, leBytes 4 7], [0, 1], [0]⟩ else .ok ⟨[leBytes 4 9], [0], [0, 0]⟩

theorem storedGroups : TableStored store (tablePath "group_m200_" 63) true 3 groups := ⟨by decide, by decide, by decide +kernel, [], by decide +kernel⟩

example : GroupRow groups groupLen subhalos 2 0 ⟨[leBytes 4 5, leBytes 4 7], [0, 1], [0]⟩ (leBytes 4 5) 50 0 :=
  ⟨⟨0, [50, 70], by decide +kernel, rfl, rfl, rfl⟩, ⟨by decide +kernel, by decide +kernel⟩, by decide +kernel, rfl⟩

/-- The second group has no subhalos. -/
example : (List.range 3).map (fun i => (readGroupM200 true store 63 groupLen subhalos i).toOption.map fun r => (r.groupLen, r.parent, r.group)) = [some (90, 0, 0), none, some (50, 0, 0)] := by decide +kernel

example : (groups.getD 0 []).Pairwise (fun a b => leNat b ≤ leNat a) := by decide +kernel

end ExIdlTables

end Verif.IdlTables
