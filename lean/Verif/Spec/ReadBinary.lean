import Verif.Model.ReadBinary

/-! Independent descriptions for the properties of read_binary. -/

namespace Verif

/-- Bytes skipped explicitly by the caller -/
def skipped : List BOp → Int
  | [] => 0
  | .skipBytes n :: rest => n + skipped rest
  | _ :: rest => skipped rest

/-- The block contains byte `i` of the file. -/
def Block.covers (i : Int) (b : Block) : Bool := decide (b.offset ≤ i ∧ i < b.offset + b.nbytes)

/-- Every byte of a file of `n` bytes is in exactly one block, and no block contains anything else. -/
def Tiles (blocks : List Block) (n : Nat) : Prop := ∀ i : Int, blocks.countP (Block.covers i) = if 0 ≤ i ∧ i < n then 1 else 0

/-- A value (bytes in little endian order) from its bytes in a file with the given byte order, on any machine -/
def fileValue (sysLittle : Bool) (endian : Char) (hasOrder : Bool) (item : List Byte) : List Byte :=
  if hasOrder = true ∧ (endian = '>' ∨ (endian = '=' ∧ sysLittle = false)) then item.reverse else item

/-- Bytes of element `i` of an array with elements of `size` bytes which starts at `offset` -/
def elementBytes (file : List Byte) (offset size i : Nat) : List Byte := (file.drop (offset + size * i)).take size

/-- The byte orders of numpy types -/
def DType.Valid (d : DType) : Prop := d.byteorder = '<' ∨ d.byteorder = '>' ∨ d.byteorder = '=' ∨ d.byteorder = '|'

end Verif

namespace Verif

/-- The parts of a string between slashes -/
def splitSlash : Name → List Name
  | [] => [[]]
  | c :: cs =>
    if c = '/' then [] :: splitSlash cs
    else match splitSlash cs with
      | [] => [[c]]
      | h :: t => (c :: h) :: t

/-- The parts which are not empty -/
def pieces (p : Name) : List Name := (splitSlash p).filter (fun w => w ≠ [])

/-- Components of a path: leading, trailing and repeated slashes do not matter. A path of slashes only is the empty name. -/
def comps (p : Name) : List Name := if pieces p = [] then [[]] else pieces p

/-- What is found at the given components: a dataset with its number (`some (some id)`), a group (`some none`), or nothing -/
def kindAt : BGroup → List Name → Option (Option Nat)
  | _, [] => none
  | g, [n] => match dget g.groups n with
    | some _ => some none
    | none => (dget g.datasets n).map (fun d => some d.1)
  | g, n :: m :: rest => match dget g.groups n with
    | some h => kindAt h (m :: rest)
    | none => none

/-- The same for the result of a lookup -/
def BNode.kind : BNode → Option Nat
  | .dataset id _ => some id
  | .group _ => none

end Verif

namespace Verif

/-- The attribute `a` of what is at the given components (`[]`: the file itself): the number of its block -/
def attrAtPath : BGroup → List Name → Name → Option Nat
  | g, [], a => dget g.attrs a
  | g, n :: rest, a => match dget g.groups n with
    | some h => attrAtPath h rest a
    | none => if rest = [] then (dget g.datasets n).bind (fun d => dget d.2 a) else none

/-- What is left of a path after `k` components have been taken off -/
def restAfter : Nat → Name → Name
  | 0, p => p
  | k + 1, p => restAfter k (((stripSlashes p).dropWhile (fun c => c != '/')).drop 1)

/-- The attribute declared with `name` is the attribute `a` of what is at `cs`: if a dataset is on the way it belongs to that dataset and the rest of the path is its name,
otherwise it belongs to a group and its name is the last component. -/
def AttrTarget (g : BGroup) (name : Name) (cs : List Name) (a : Name) : Prop :=
  (cs <+: comps name ∧ cs ≠ comps name ∧ (∃ id, kindAt g cs = some (some id)) ∧ a = restAfter cs.length name) ∨
  ((∀ (ds : List Name) (id : Nat), ds <+: comps name → ds ≠ comps name → kindAt g ds ≠ some (some id)) ∧ comps name = cs ++ [a])

end Verif
