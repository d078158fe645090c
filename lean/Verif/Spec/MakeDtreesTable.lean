import Verif.Model.MakeDtreesTable
import Verif.Spec.DtreesTable
import Verif.Spec.IndexTrees
import Verif.Spec.TreeMass

/-!
What the table of merger trees should contain.
-/

namespace Verif

/-- The arrays of the trees: those of the first file, continued in the others -/
def treeArrays (files : Nat → Option TreeFile) (f0 : TreeFile) : List (List Char × Arr) :=
  f0.haloTrees.map (fun e => (e.1, { e.2 with rows := (List.range (max 1 f0.numberOfFiles)).flatMap (valuesIn files e.1) }))

/-- Columns which are added -/
def newNames : List (List Char) := ["mBranch".toList, "depthFirst".toList, "endMainBranch".toList, "lastProgenitor".toList]

/-- The added columns are right: `mb` is the largest total mass of a chain of progenitors; halos are numbered such that the tree and the main branch of each halo are ranges of numbers which start with
its own, and progenitors of a halo are in descending order of `mb`. -/
structure IndexedTrees {M : Type*} [AddCommMonoid M] [LinearOrder M] (node desc : List Int) (mass mb : List M) (df main last : List Int) : Prop where
  lengths : mb.length = node.length ∧ df.length = node.length ∧ main.length = node.length ∧ last.length = node.length
  masses : ∀ i < node.length, ∃ v, mb[i]? = some v ∧ (∃ x, ChainMass (IsDesc node desc) (fun k => mass.getD k 0) x i v) ∧
    ∀ x w, ChainMass (IsDesc node desc) (fun k => mass.getD k 0) x i w → w ≤ v
  numbers : df.Perm ((List.range node.length).map (fun k : Nat => (k : Int) + 1))
  tree : ∀ i x a b l, df[i]? = some a → df[x]? = some b → last[i]? = some l → (InTree node desc x i ↔ a ≤ b ∧ b ≤ l)
  order : ∀ i k k' a b m m', IsDesc node desc k i → IsDesc node desc k' i → df[k]? = some a → df[k']? = some b → a < b → mb[k]? = some m → mb[k']? = some m' → m' ≤ m
  branch : ∃ mainProg : Nat → Option Nat,
    (∀ i k, mainProg i = some k → IsDesc node desc k i ∧ (∀ k' m m', IsDesc node desc k' i → mb[k]? = some m → mb[k']? = some m' → m' ≤ m)) ∧
    (∀ i, mainProg i = none → ∀ k, ¬ IsDesc node desc k i) ∧
    ∀ i x a b e, df[i]? = some a → df[x]? = some b → main[i]? = some e → ((∃ d, follow mainProg d i = some x) ↔ a ≤ b ∧ b ≤ e)

end Verif
