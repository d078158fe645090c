import Verif.Model.HashSnapshot

namespace Verif.FloatBits

/-- `Snapshot.read_region(coords)` (python/virgo/formats/subfind_lgadget2.py 456-475) for `coords` from `lo` to `hi`, with results of divisions rounded by `fl` (463, 464). Whole numbers are exact. `float_sizes` is
as in `Verif.readRegion`. -/
def readRegion {α : Type*} (fl : ℚ → ℚ) (float_sizes : Bool) (files : Nat → HashFile α) (nfiles nhash : Nat) (boxsize : ℚ) (table : HashTable) (lo hi : ℚ × ℚ × ℚ) :
    HashTable × Except Err (List α × List α × List α) :=
  let (ncell, bits) := gridSize nhash
  let cellsize := fl (boxsize / ncell)
  let cell := fun (p : ℚ × ℚ × ℚ) => (⌊fl (p.1 / cellsize)⌋, ⌊fl (p.2.1 / cellsize)⌋, ⌊fl (p.2.2 / cellsize)⌋)
  if float_sizes = false then (table, .error .typeError)
  else match regionCells ncell (cell lo) (cell hi) with
    | .error e => (table, .error e)
    | .ok cells => match phKeys 10000 cells bits with
      | .error e => (table, .error e)
      | .ok keys => readCells files nfiles nhash table keys

end Verif.FloatBits
