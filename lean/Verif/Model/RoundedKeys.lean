import Verif.Model.Peano

namespace Verif.FloatBits

/-- `peano_hilbert_keys_from_coords(pos, boxsize, bits)` (python/virgo/util/peano.py 143-171) with rounding: `fl64` rounds to `float64`, and `fl` to the type of the elements of `pos`. In an operation of an array
with a Python number, NumPy converts the number to the type of the array. -/
def keysFromCoords (fl64 fl : ℚ → ℚ) (blocksize : Nat) (pos : List (ℚ × ℚ × ℚ)) (boxsize : ℚ) (bits : Nat) : Except Err (List Int) :=
  -- (153)
  let cellsize := fl64 (boxsize / (2 : ℚ) ^ bits)
  -- (163-165)
  let cell := fun (x : ℚ) => wrap32 ⌊fl (x / fl cellsize)⌋
  blockwise (fun l => phKeysBlock (l.map (fun p => (cell p.1, cell p.2.1, cell p.2.2))) bits) blocksize pos

end Verif.FloatBits
