import Verif.Model.FileCache

/-!
Binary files as mappings, datasets as sequences, and `close()` (python/virgo/util/read_binary.py). `BinaryFile.__exit__` (426-428) calls `close()`, which is that of `BinaryGroup`.
-/

namespace Verif.BinaryMapping

/-- `BinaryGroup.__iter__` (140-142): the keys in their order -/
def keysOf (g : BGroup) : List Name := g.datasets.map Prod.fst ++ g.groups.map Prod.fst

/-- `BinaryGroup.__len__` (137-138) -/
def lenOf (g : BGroup) : Nat := g.datasets.length + g.groups.length

/-- `BinaryDataset.__len__` and `len` (364-374) -/
def blockLen (b : Block) : Except Err Nat := match b.shape with
  | [] => .error .typeError
  | n :: _ => .ok n

/-- Positions of the elements of `self[i,...]` in the flattened array, for an array with rows of `w` elements -/
def rowKey (w i : Nat) : List Nat := (List.range w).map (fun j => i * w + j)

/-- The loop of `__iter__` over some rows -/
def iterRows (sysLittle : Bool) (file : List Byte) (b : Block) (w : Nat) : List Nat → Except Err (List (List (List Byte)))
  | [] => .ok []
  | i :: is => do
    let row ← b.read sysLittle file (rowKey w i)
    let rest ← iterRows sysLittle file b w is
    .ok (row :: rest)

/-- `BinaryDataset.__iter__` (382-387): all rows, if none of them is an error -/
def blockIter (sysLittle : Bool) (file : List Byte) (b : Block) : Except Err (List (List (List Byte))) := match b.shape with
  | [] => .error .typeError
  | n :: rest => iterRows sysLittle file b (rest.foldl (fun n s => n * s) 1) (List.range n)

mutual
/-- `BinaryGroup.close()` (255-261): the blocks which are closed, in this order. `BinaryAttrs.close()` (112-114) closes attributes of the group, `BinaryDataset.close()` (389-391) does not close attributes of the dataset. -/
def closeIds : BGroup → List Nat
  | .mk attrs datasets groups => attrs.map Prod.snd ++ datasets.map (fun e => e.2.1) ++ closeGroups groups
/-- The loop over groups (260-261) -/
def closeGroups : List (Name × BGroup) → List Nat
  | [] => []
  | (_, g) :: rest => closeIds g ++ closeGroups rest
end

/-- `close()` of a file whose block number `id` is dataset `dsOf id` of all datasets of the program -/
def closeFile {φ : Type} [DecidableEq φ] (disk : φ → Option (List Byte)) (s : CacheState φ) (dsOf : Nat → Nat) (g : BGroup) : CacheState φ :=
  (closeIds g).foldl (fun s id => (cacheStep disk s (.close (dsOf id))).1) s

end Verif.BinaryMapping
