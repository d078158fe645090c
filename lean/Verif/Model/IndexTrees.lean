import Verif.Model.Match

/-!
`depth_first_index` (python/virgo/database/index_trees.py 10-116).

Index arrays in which -1 stands for "none" are lists of `Option Nat`; all indexes which occur are those of halos, so that the tests `>= 0` and `== -1` decide between the two cases.
The sorting orders returned by `np.argsort`, which is not stable, are arguments. The arrays hold signed integers which do not overflow.
-/

namespace Verif

variable {α β : Type*}

/-- An array index or -1 -/
def toPtr (v : Int) : Option Nat := if v < 0 then none else some v.toNat

/-- `prog_ptr`, `next_ptr` -/
structure Links where
  prog : List (Option Nat)
  next : List (Option Nat)
  deriving DecidableEq

/-- One iteration of the loop which makes the linked lists (32-46) -/
def addProgenitor (desc_ptr : List (Option Nat)) (l : Links) (iprog : Nat) : Links :=
  match desc_ptr.getD iprog none with
  | none => l
  | some idesc =>
    match l.prog.getD idesc none with
    | none => { l with prog := l.prog.set idesc (some iprog) }
    | some itmp => ⟨l.prog.set idesc (some iprog), l.next.set iprog (some itmp)⟩

/-- Lines 27-46; `order` is `np.argsort(mBranch)`. -/
def makeLinks (desc_ptr : List (Option Nat)) (order : List Nat) : Links :=
  order.foldl (addProgenitor desc_ptr) ⟨List.replicate desc_ptr.length none, List.replicate desc_ptr.length none⟩

/-- Places in the walk over one tree: line 62, the loops at 67 and 76, line 89, and the end -/
inductive WalkPc
  | assign | descend | ascend | check | done
  deriving DecidableEq

/-- Variables of the walk (51-90); the end of the list `next_prog` is the head of `stack`. -/
structure Walk where
  pc : WalkPc
  ihalo : Nat
  stack : List (Option Nat)
  depthFirst : List Int
  next_index : Nat
  deriving DecidableEq

def walkStep (desc_ptr : List (Option Nat)) (l : Links) (ifinal : Nat) (w : Walk) : Except Err Walk :=
  match w.pc with
  -- (62-63)
  | .assign => .ok { w with pc := .descend, depthFirst := w.depthFirst.set w.ihalo w.next_index, next_index := w.next_index + 1 }
  -- (67-72)
  | .descend =>
    match l.prog.getD w.ihalo none with
    | some k => .ok { pc := .descend, ihalo := k, stack := l.next.getD k none :: w.stack, depthFirst := w.depthFirst.set k w.next_index, next_index := w.next_index + 1 }
    | none => .ok { w with pc := .ascend }
  -- (76-86)
  | .ascend =>
    match desc_ptr.getD w.ihalo none with
    | some d =>
      match w.stack with
      | [] => .error .indexError
      | some isibling :: rest => .ok { w with pc := .check, ihalo := isibling, stack := l.next.getD isibling none :: rest }
      | none :: rest => .ok { w with ihalo := d, stack := rest }
    | none => .ok { w with pc := .check }
  -- (89-90)
  | .check => if w.ihalo = ifinal then .ok { w with pc := .done } else .ok { w with pc := .assign }
  | .done => .ok w

/-- The walk over one tree (59-90); `fuel` bounds the number of steps. -/
def walkRun (desc_ptr : List (Option Nat)) (l : Links) (ifinal : Nat) : Nat → Walk → Except Err Walk
  | 0, _ => .error .diverges
  | fuel + 1, w =>
    if w.pc = .done then .ok w
    else match walkStep desc_ptr l ifinal w with
      | .error e => .error e
      | .ok w => walkRun desc_ptr l ifinal fuel w

/-- The loop over final halos (54-90) -/
def walkAll (desc_ptr : List (Option Nat)) (l : Links) (fuel : Nat) : List Nat → List Int → Nat → Except Err (List Int × Nat)
  | [], depthFirst, next_index => .ok (depthFirst, next_index)
  | ifinal :: finals, depthFirst, next_index =>
    match walkRun desc_ptr l ifinal fuel ⟨.assign, ifinal, [none], depthFirst, next_index⟩ with
    | .error e => .error e
    | .ok w => walkAll desc_ptr l fuel finals w.depthFirst w.next_index

/-- One iteration of the loop over progenitors (97-104): `(lastProgenitor, endMainBranch)` -/
def updateLast (desc_ptr : List (Option Nat)) (prog : List (Option Nat)) (a : List Int × List Int) (iprog : Nat) : List Int × List Int :=
  match desc_ptr.getD iprog none with
  | none => a
  | some idesc =>
    (a.1.set idesc (max (a.1.getD iprog 0) (a.1.getD idesc 0)),
      if prog.getD idesc none = some iprog then a.2.set idesc (max (a.2.getD iprog 0) (a.2.getD idesc 0)) else a.2)

/-- `depth_first_index(nodeIndex, descendantIndex, mBranch)` (10-116), which returns depthFirst, endMainBranch, lastProgenitor. `orderN`, `orderM` and `orderD` are the results of `argsort`
of `nodeIndex` (in `match`), of `mBranch` (32) and of `-depthFirst` (97). -/
def depthFirstIndex [LinearOrder α] [Inhabited α] (nodeIndex descendantIndex : List α) (orderN orderM : List Nat) (orderD : List Int → List Nat) (fuel : Nat) :
    Except Err (List Int × List Int × List Int) :=
  -- (23)
  match matchArr descendantIndex nodeIndex false none orderN with
  | .error e => .error e
  | .ok ptr =>
    let desc_ptr := ptr.map toPtr
    -- (27-46)
    let l := makeLinks desc_ptr orderM
    -- (49-90)
    let finals := (List.range desc_ptr.length).filter (fun i => decide (desc_ptr.getD i none = none))
    match walkAll desc_ptr l fuel finals (List.replicate descendantIndex.length (-1)) 1 with
    | .error e => .error e
    | .ok (depthFirst, _) =>
      -- (93-104)
      let r := (orderD (depthFirst.map (fun x => -x))).foldl (updateLast desc_ptr l.prog) (depthFirst, depthFirst)
      -- (107-113)
      if r.2.any (fun x => decide (x < 0)) ∨ r.1.any (fun x => decide (x < 0)) ∨ depthFirst.any (fun x => decide (x < 0)) then .error .assertion
      else if (r.1.zip r.2).any (fun x => decide (x.1 < x.2)) ∨ (r.2.zip depthFirst).any (fun x => decide (x.1 < x.2)) then .error .assertion
      else .ok (depthFirst, r.2, r.1)

end Verif
