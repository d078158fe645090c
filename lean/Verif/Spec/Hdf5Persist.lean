import Verif.Spec.Hdf5Files

/-!
Calls which leave a dataset or an attribute of a file as it is
-/

namespace Verif.Hdf5

open FortranReaders

/-- The call makes the file anew, or writes to the object which is the dataset `name` in it, under whatever name and through whatever handle. -/
def Touches (w : World) (op : Op) (file name : Name) : Prop :=
  (∃ fname, op = .create fname ∧ trimBlanks fname = file) ∨
    ∃ ifile name' a h f x, op = .write ifile name' a ∧ w.handle ifile = .ok h ∧ h.file = file ∧ w.disk file = some f ∧ h5dopen f name' = some x ∧ h5dopen f name = some x

/-- No call of the program touches the dataset. -/
def Keeps (file name : Name) : World → List Op → Prop
  | _, [] => True
  | w, op :: ops => ¬ Touches w op file name ∧ ∀ w', step w op = .ok w' → Keeps file name w' ops

/-- The call makes the file anew, writes this attribute, or replaces the dataset which it belongs to. -/
def TouchesAttr (w : World) (op : Op) (file name : Name) : Prop :=
  (∃ fname, op = .create fname ∧ trimBlanks fname = file) ∨
    (∃ ifile name' o t arr h f k, op = .attr ifile name' o t arr ∧ w.handle ifile = .ok h ∧ h.file = file ∧ w.disk file = some f ∧ attrKey f name' = .ok k ∧ attrKey f name = .ok k) ∨
    ∃ ifile name' a h f x attr, op = .write ifile name' a ∧ a.overwrite = true ∧ w.handle ifile = .ok h ∧ h.file = file ∧ w.disk file = some f ∧ h5dopen f name' = some x ∧ attrKey f name = .ok (.dset x, attr)

/-- No call of the program touches the attribute. -/
def KeepsAttr (file name : Name) : World → List Op → Prop
  | _, [] => True
  | w, op :: ops => ¬ TouchesAttr w op file name ∧ ∀ w', step w op = .ok w' → KeepsAttr file name w' ops

end Verif.Hdf5
