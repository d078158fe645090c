import Verif.Spec.IdlReaders
import Verif.Model.IdlTables

/-! Tables of all subhalos and groups, and what they should say -/

namespace Verif.IdlTables

open Files FortranReaders

/-- A file which begins with the number of elements and some columns of numbers with four bytes -/
def TableStored (fs : ByteFS) (name : Name) (big : Bool) (n : Nat) (columns : List (List (List Byte))) : Prop :=
  0 < n ∧ n < 2147483648 ∧ (∀ c ∈ columns, c.length = n ∧ ∀ v ∈ c, v.length = 4) ∧ ∃ rest, fs name = some (arrayBytes big [leBytes 4 n] ++ (columns.flatMap (arrayBytes big) ++ rest))

/-- Name of the table of snapshot `num` -/
def tablePath (stem : String) (num : Nat) : Name := stem.toList ++ threeDigits num ++ ".all".toList

/-- Row `i` of the table of subhalos is right: it names subhalo `sub` of file `file`, whose most bound particle is `id`, and the halo of a tree with the same most bound particle. -/
structure SubRow (columns : List (List (List Byte))) (mostBound : Int → Except Err (List Nat)) (treeIDs : Int → Int → Except Err (List Nat)) (i : Nat) (ids : List Nat) (sub id : Nat) : Prop where
  file : ∃ f, ((columns.getD 0 [])[i]?).map int32Value = some f ∧ mostBound f = .ok ids
  number : ((columns.getD 1 [])[i]?).map int32Value = some (sub : Int)
  bound : ids[sub]? = some id
  halo : ∃ fnr tid tree node, ((columns.getD 3 [])[i]?).map int32Value = some fnr ∧ ((columns.getD 4 [])[i]?).map int32Value = some tid ∧ treeIDs fnr tid = .ok tree ∧
    ((columns.getD 5 [])[i]?).map int32Value = some ((node : Nat) : Int) ∧ tree[node]? = some id

/-- Row `i` of the table of groups is right: it has the mass of group `g` of file `file`. `len` and `s` are the contents of this file, and `n` and `first` are for this group. -/
structure GroupRow (columns : List (List (List Byte))) (groupLen : Int → Except Err (List Int)) (subhalos : Int → Except Err SubFile) (i g : Nat) (s : SubFile) (m : List Byte) (n : Int) (first : Nat) : Prop where
  file : ∃ f len, ((columns.getD 1 [])[i]?).map int32Value = some f ∧ groupLen f = .ok len ∧ subhalos f = .ok s ∧ len[g]? = some n
  mass : (columns.getD 0 [])[i]? = some m ∧ s.mCrit[g]? = some m
  group : ((columns.getD 2 [])[i]?).map int32Value = some (g : Int)
  firstOf : s.firstSub[g]? = some (first : Int)

end Verif.IdlTables
