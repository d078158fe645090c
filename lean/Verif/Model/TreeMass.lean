import Verif.Model.IndexTrees
import Mathlib.Data.Prod.Lex
import Mathlib.Algebra.Order.Field.Basic

/-!
Tree masses and main progenitors (python/virgo/database/index_trees.py 119-241). Masses are exact. `idx` is the result of `np.lexsort((-nodeIndex,snapnum))` and `orderN` that of `argsort` in `match`.
-/

namespace Verif

variable {M : Type*}

/-- Keys of `np.lexsort((-nodeIndex,snapnum))`: the last one given is the first to be compared. -/
def lexKeys (nodeIndex snapnum : List Int) : List (Int ×ₗ Int) := List.zipWith (fun s v => toLex (s, -v)) snapnum nodeIndex

/-- Body of the loop over halos (187-191) -/
def treeMassStep [AddCommMonoid M] (ptr : List (Option Nat)) (mb : List M) (i : Nat) : List M :=
  match ptr.getD i none with
  | none => mb
  | some j => mb.set j (mb.getD j 0 + mb.getD i 0)

/-- `find_progenitor_tree_mass(nodeIndex, descendantIndex, snapnum, mass)` (163-197). `junk` are the contents of `np.empty_like(mass)`. `mdesc` (183-184) is not used by the code. -/
def treeMass [AddCommMonoid M] (nodeIndex descendantIndex : List Int) (mass : List M) (idx orderN : List Nat) (junk : List M) : Except Err (List M) :=
  -- (174-177)
  let ni := fancy nodeIndex idx
  let di := fancy descendantIndex idx
  let mbranch := idx.map (fun i => mass.getD i 0)
  -- (180)
  match matchArr di ni false none orderN with
  | .error e => .error e
  | .ok ptr =>
    -- (187-191)
    let mbranch := (List.range nodeIndex.length).foldl (treeMassStep (ptr.map toPtr)) mbranch
    -- (194-195)
    .ok (scatter junk idx mbranch)

/-- Entries of `mdesc` (222-223): the mass of the descendant, or zero -/
def descMass [Zero M] (mb : List M) : Option Nat → M
  | none => 0
  | some j => mb.getD j 0

/-- Body of the loop over halos (226-235) -/
def branchMassStep [AddCommMonoid M] [LinearOrder M] (ptr : List (Option Nat)) (mdesc mb : List M) (i : Nat) : List M :=
  match ptr.getD i none with
  | none => mb
  | some j =>
    let desc_mbranch := mb.getD j 0
    let prog_mbranch := mdesc.getD i 0 + mb.getD i 0
    if prog_mbranch > desc_mbranch then mb.set j prog_mbranch else mb

/-- `find_progenitor_branch_mass_delucia(nodeIndex, descendantIndex, snapnum, mass)` (200-241) -/
def branchMass [AddCommMonoid M] [LinearOrder M] (nodeIndex descendantIndex : List Int) (mass : List M) (idx orderN : List Nat) (junk : List M) : Except Err (List M) :=
  -- (213-216)
  let ni := fancy nodeIndex idx
  let di := fancy descendantIndex idx
  let mbranch := idx.map (fun i => mass.getD i 0)
  -- (219)
  match matchArr di ni false none orderN with
  | .error e => .error e
  | .ok ptr =>
    -- (222-223)
    let mdesc := (ptr.map toPtr).map (descMass mbranch)
    -- (226-235)
    let mbranch := (List.range nodeIndex.length).foldl (branchMassStep (ptr.map toPtr) mdesc) mbranch
    -- (238-239)
    .ok (scatter junk idx mbranch)

/-- State of the first loop of `find_main_progenitor` for one halo: `mbranch_max[j]`, `mainprog[j]`. `min_prog_snap` (140, 147) is not used by the code. -/
structure MainProg (M : Type*) where
  mbranch_max : List M
  mainprog : List Int

/-- One iteration of the loop (141-147) -/
def mainProgStep [Zero M] [LinearOrder M] (nodeIndex : List Int) (mbranch : List M) (ptr : List (Option Nat)) (s : MainProg M) (i : Nat) : MainProg M :=
  match ptr.getD i none with
  | none => s
  | some j =>
    if mbranch.getD i 0 > s.mbranch_max.getD j 0 then ⟨s.mbranch_max.set j (mbranch.getD i 0), s.mainprog.set j (nodeIndex.getD i 0)⟩ else s

/-- `abs(mbranch[i]-mbranch_max[j])/mbranch[i] < eps` (155); dividing by zero gives infinity or NaN, so that the comparison is false. -/
def isTie [Field M] [LinearOrder M] (eps a b : M) : Bool := decide (a ≠ 0 ∧ |a - b| / a < eps)

/-- One iteration of the loop (152-156) -/
def tieStep [Field M] [LinearOrder M] (eps : M) (mbranch mbranch_max : List M) (ptr : List (Option Nat)) (nt : List Int) (i : Nat) : List Int :=
  match ptr.getD i none with
  | none => nt
  | some j => if isTie eps (mbranch.getD i 0) (mbranch_max.getD j 0) then nt.set j (nt.getD j 0 + 1) else nt

/-- `find_main_progenitor(nodeIndex, descendantIndex, snapnum, mbranch)` (119-160), which returns `ntie, mainprog`. -/
def findMainProgenitor [Field M] [LinearOrder M] (eps : M) (nodeIndex descendantIndex : List Int) (mbranch : List M) (idx orderN : List Nat) : Except Err (List Int × List Int) :=
  let n := nodeIndex.length
  -- (136)
  match matchArr descendantIndex nodeIndex false none orderN with
  | .error e => .error e
  | .ok ptr =>
    let ptr := ptr.map toPtr
    -- (130, 139-147)
    let s := idx.foldl (mainProgStep nodeIndex mbranch ptr) ⟨List.replicate mbranch.length 0, List.replicate n (-1)⟩
    -- (151-156)
    let ntie := idx.foldl (tieStep eps mbranch s.mbranch_max ptr) (List.replicate n 0)
    -- (157-158)
    let ntie := ntie.map (fun x => x - 1)
    .ok (ntie.map (fun x => if x < 0 then 0 else x), s.mainprog)

end Verif
