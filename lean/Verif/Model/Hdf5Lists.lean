import Verif.Model.Hdf5Files
import Mathlib.Data.List.Dedup

/-!
Lists of the objects in a group and of the attributes of an object (fortran/hdf5_wrapper/src/hdf5_wrapper.F90, 806-989). The HDF5 library numbers objects and attributes in an order of its own, which is a
parameter `order`.
-/

namespace Verif.Hdf5

open FortranReaders

/-- Names of the objects in a group -/
def H5File.members (f : H5File) (path : List Name) : List Name :=
  ((f.links.filter (fun l => decide (l.1 ≠ [] ∧ l.1.dropLast = path))).map (fun l => l.1.getLastD [])).dedup

/-- The array in which names are returned: number of elements and `LEN` of each -/
structure NameArray where
  size : Nat
  len : Nat

/-- Names which are stored one after another in an array. Storing after its end is `.other`. -/
def storeAll (array : Option NameArray) (names : List Name) : Except Err (List Name) :=
  match array with
  | none => .ok []
  | some a => if a.size < names.length then .error .other else .ok (names.map (assignChar a.len))

/-- `hdf5_list_datasets` and `hdf5_list_groups` (809-922): the number of objects of the given kind, and their names, if there is an array for them. `obj_name` has 500 characters. -/
def listObjects (order : List Name → List Name) (wanted : Option Link → Bool) (w : World) (ifile : Int) (name : Name) (array : Option NameArray) : Except Err (Nat × List Name) := do
  let h ← w.handle ifile
  match w.disk h.file with
  | none => .error .other
  | some f =>
    if h5gopen f name = false then .error .abort
    else do
      let path := h5Components (trimBlanks name)
      let found := (order (f.members path)).filter (fun c => wanted (f.link (path ++ [c])))
      let names ← storeAll array (found.map (fun c => trimBlanks (assignChar 500 c)))
      .ok (found.length, names)

/-- The object is a dataset -/
def isDset : Option Link → Bool
  | some (.dset _) => true
  | _ => false

/-- `hdf5_list_datasets` (809-863) -/
def listDatasets (order : List Name → List Name) : World → Int → Name → Option NameArray → Except Err (Nat × List Name) := listObjects order isDset

/-- `hdf5_list_groups` (868-922) -/
def listGroups (order : List Name → List Name) : World → Int → Name → Option NameArray → Except Err (Nat × List Name) := listObjects order (fun l => decide (l = some .group))

/-- Names of the attributes of an object -/
def H5File.attrNames (f : H5File) (o : Owner) : List Name := ((f.attrs.filter (fun a => decide (a.1.1 = o))).map (fun a => a.1.2)).dedup

/-- `hdf5_list_attributes` (927-989) -/
def listAttributes (order : List Name → List Name) (w : World) (ifile : Int) (name : Name) (array : Option NameArray) : Except Err (Nat × List Name) := do
  let h ← w.handle ifile
  match w.disk h.file with
  | none => .error .other
  | some f => do
    let o ← match f.find name with
      | some .group => .ok (Owner.group (h5Components (trimBlanks name)))
      | some (.dset a) => .ok (Owner.dset a)
      | none => .error .abort
    let found := order (f.attrNames o)
    let names ← storeAll array found
    .ok (found.length, names)

end Verif.Hdf5
