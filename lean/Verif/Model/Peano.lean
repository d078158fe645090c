import Verif.Lib.Np
import Verif.Lib.Dist
import Mathlib.Data.Rat.Floor

/-!
Peano-Hilbert keys (python/virgo/util/peano.py).
-/

namespace Verif

/-- `quadrants` (python/virgo/util/peano.py 11-35), flat -/
def quadrantsTable : List Nat := [
  0, 7, 1, 6, 3, 4, 2, 5,
  7, 4, 6, 5, 0, 3, 1, 2,
  4, 3, 5, 2, 7, 0, 6, 1,
  3, 0, 2, 1, 4, 7, 5, 6,
  1, 0, 6, 7, 2, 3, 5, 4,
  0, 3, 7, 4, 1, 2, 6, 5,
  3, 2, 4, 5, 0, 1, 7, 6,
  2, 1, 5, 6, 3, 0, 4, 7,
  6, 1, 7, 0, 5, 2, 4, 3,
  1, 2, 0, 3, 6, 5, 7, 4,
  2, 5, 3, 4, 1, 6, 0, 7,
  5, 6, 4, 7, 2, 1, 3, 0,
  7, 6, 0, 1, 4, 5, 3, 2,
  6, 5, 1, 2, 7, 4, 0, 3,
  5, 4, 2, 3, 6, 7, 1, 0,
  4, 7, 3, 0, 5, 6, 2, 1,
  6, 7, 5, 4, 1, 0, 2, 3,
  7, 0, 4, 3, 6, 1, 5, 2,
  0, 1, 3, 2, 7, 6, 4, 5,
  1, 6, 2, 5, 0, 7, 3, 4,
  2, 3, 1, 0, 5, 4, 6, 7,
  3, 4, 0, 7, 2, 5, 1, 6,
  4, 5, 7, 6, 3, 2, 0, 1,
  5, 2, 6, 1, 4, 3, 7, 0]

/-- `quadrants[rotation,bitx,bity,bitz]` -/
def quadrants (rotation bitx bity bitz : Nat) : Nat := quadrantsTable.getD (rotation * 8 + bitx * 4 + bity * 2 + bitz) 0

/-- (37-40) -/
def rotxmapTable : List Nat := [4, 5, 6, 7, 8, 9, 10, 11, 12, 13, 14, 15, 0, 1, 2, 3, 17, 18, 19, 16, 23, 20, 21, 22]
/-- (42-45) -/
def rotymapTable : List Nat := [1, 2, 3, 0, 16, 17, 18, 19, 11, 8, 9, 10, 22, 23, 20, 21, 14, 15, 12, 13, 4, 5, 6, 7]
/-- (47) -/
def rotxTable : List Nat := [3, 0, 0, 2, 2, 0, 0, 1]
/-- (48) -/
def rotyTable : List Nat := [0, 1, 1, 2, 2, 3, 3, 0]
/-- (49) -/
def senseTable : List Int := [-1, -1, -1, 1, 1, -1, -1, -1]

/-- The loops which fill `quadrants_inverse_x`, `_y` and `_z` (51-62): entries `(rotation, quad)` set in order, flat. -/
def quadrantsInverse : List (Nat × Nat × Nat) :=
  (List.range 24).foldl (fun t rotation => (List.range 2).foldl (fun t bitx => (List.range 2).foldl (fun t bity => (List.range 2).foldl (fun t bitz =>
    t.set (rotation * 8 + quadrants rotation bitx bity bitz) (bitx, bity, bitz)) t) t) t) (List.replicate 192 (0, 0, 0))

/-- Conversion to `int32` -/
def wrap32 (x : Int) : Int := (x + 2147483648) % 4294967296 - 2147483648

/-- Value of an integer stored as `int64` -/
def wrap64 (x : Int) : Int := (x + 9223372036854775808) % 18446744073709551616 - 9223372036854775808

/-- `where(x & mask, 1, 0)` where `mask` is a power of two (x may be negative: two's complement) -/
def maskBit (x : Int) (mask : Nat) : Nat := if (x / (mask : Int)) % 2 = 1 then 1 else 0

/-- `while rot>0: rotation = table[rotation]; rot -= 1` (109-114) -/
def rotateOne (table : List Nat) : Nat → Nat → Nat
  | 0, rotation => rotation
  | rot + 1, rotation => rotateOne table rot (table.getD rotation 0)

/-- Variables of `peano_hilbert_keys_block` for one point -/
structure PhState where
  key : Int
  rotation : Nat
  sense : Int
  deriving DecidableEq

/-- One pass of the loop over bits for scalars (87-115) -/
def phStep (x y z : Int) (mask : Nat) (s : PhState) : PhState :=
  let quad := quadrants s.rotation (maskBit x mask) (maskBit y mask) (maskBit z mask)
  let key := wrap64 (wrap64 (s.key * 8) + (if s.sense = 1 then (quad : Int) else 7 - quad))
  let sense := s.sense * senseTable.getD quad 0
  let rotation := rotateOne rotxmapTable (rotxTable.getD quad 0) s.rotation
  let rotation := rotateOne rotymapTable (rotyTable.getD quad 0) rotation
  ⟨key, rotation, sense⟩

/-- The loop over bits for scalars (87-117): `n` passes left -/
def phLoop (x y z : Int) : Nat → Nat → PhState → PhState
  | 0, _, s => s
  | n + 1, mask, s => phLoop x y z n (mask >>> 1) (phStep x y z mask s)

/-- `peano_hilbert_keys_block(ix, iy, iz, bits)` for scalars (65-119). `1 << -1` raises `ValueError`; masks above `int32` raise `OverflowError` in numpy 2. -/
def phKeyScalar (ix iy iz : Int) (bits : Nat) : Except Err Int :=
  if bits = 0 then .error .valueError
  else if bits > 31 then .error .other
  else .ok (phLoop (wrap32 ix) (wrap32 iy) (wrap32 iz) bits (1 <<< (bits - 1)) ⟨0, 0, 1⟩).key

/-- `while any(rot>0): ind = rot>0; rotation[ind] = table[rotation[ind]]; rot[ind] -= 1` (98-106). `fuel` is at least the sum of `rot`, which falls in each pass. -/
def rotateAll (table : List Nat) : Nat → List Nat → List Nat → List Nat
  | 0, rotation, _ => rotation
  | fuel + 1, rotation, rot =>
    if rot.any (fun k => decide (k > 0)) then
      rotateAll table fuel (List.zipWith (fun r k => if k > 0 then table.getD r 0 else r) rotation rot) (rot.map (fun k => if k > 0 then k - 1 else k))
    else rotation

/-- One pass of the loop over bits for arrays (87-106, 117). `pts` are the columns `x`, `y`, `z`. -/
def phStepAll (pts : List (Int × Int × Int)) (mask : Nat) (s : List PhState) : List PhState :=
  let quad := List.zipWith (fun p s => quadrants s.rotation (maskBit p.1 mask) (maskBit p.2.1 mask) (maskBit p.2.2 mask)) pts s
  let key := List.zipWith (fun (s : PhState) (q : Nat) => wrap64 (wrap64 (s.key * 8) + (if s.sense = 1 then (q : Int) else 7 - q))) s quad
  let sense := List.zipWith (fun s q => s.sense * senseTable.getD q 0) s quad
  let rotx := quad.map (fun q => rotxTable.getD q 0)
  let roty := quad.map (fun q => rotyTable.getD q 0)
  let rotation := rotateAll rotxmapTable rotx.sum (s.map PhState.rotation) rotx
  let rotation := rotateAll rotymapTable roty.sum rotation roty
  List.zipWith (fun k rs => ⟨k, rs.1, rs.2⟩) key (rotation.zip sense)

/-- The loop over bits for arrays -/
def phLoopAll (pts : List (Int × Int × Int)) : Nat → Nat → List PhState → List PhState
  | 0, _, s => s
  | n + 1, mask, s => phLoopAll pts n (mask >>> 1) (phStepAll pts mask s)

/-- `peano_hilbert_keys_block(ix, iy, iz, bits)` for arrays of the same length (65-119) -/
def phKeysBlock (pts : List (Int × Int × Int)) (bits : Nat) : Except Err (List Int) :=
  if bits = 0 then .error .valueError
  else if bits > 31 then .error .other
  else .ok ((phLoopAll (pts.map (fun p => (wrap32 p.1, wrap32 p.2.1, wrap32 p.2.2))) bits (1 <<< (bits - 1)) (pts.map (fun _ => ⟨0, 0, 1⟩))).map PhState.key)

/-- `for i1 in range(0, n, blocksize): out[i1:i2] = f(in[i1:i2])` (130-138, 155-169, 247-254), the starts of the blocks left to do given as list -/
def blockLoop {α β : Type*} (f : List α → Except Err (List β)) (blocksize : Nat) (input : List α) : List Nat → List β → Except Err (List β)
  | [], out => .ok out
  | i1 :: rest, out =>
    let i2 := if i1 + blocksize > input.length then input.length else i1 + blocksize
    match f (slice input i1 (i2 - i1)) with
    | .error e => .error e
    | .ok res => blockLoop f blocksize input rest (overlay out i1 res)

/-- `range(0, n, step)` -/
def rangeStep (n step : Nat) : List Nat := (List.range ((n + step - 1) / step)).map (fun k => k * step)

/-- All blocks. `ndarray(n)` has unspecified contents. -/
def blockwise {α β : Type*} [Inhabited β] (f : List α → Except Err (List β)) (blocksize : Nat) (input : List α) : Except Err (List β) :=
  if blocksize = 0 then .error .valueError
  else blockLoop f blocksize input (rangeStep input.length blocksize) (List.replicate input.length default)

/-- `peano_hilbert_keys(ix, iy, iz, bits)` (122-140); `blocksize` is 10000 (9) -/
def phKeys (blocksize : Nat) (pts : List (Int × Int × Int)) (bits : Nat) : Except Err (List Int) := blockwise (fun l => phKeysBlock l bits) blocksize pts

/-- `peano_hilbert_keys_from_coords(pos, boxsize, bits)` (143-171) in exact arithmetic -/
def phKeysFromCoords (blocksize : Nat) (pos : List (ℚ × ℚ × ℚ)) (boxsize : ℚ) (bits : Nat) : Except Err (List Int) :=
  let cellsize := boxsize / (2 : ℚ) ^ bits
  blockwise (fun l => phKeysBlock (l.map (fun p => (wrap32 ⌊p.1 / cellsize⌋, wrap32 ⌊p.2.1 / cellsize⌋, wrap32 ⌊p.2.2 / cellsize⌋))) bits) blocksize pos

/-- Variables of `peano_hilbert_key_inverses_block` for one key -/
structure PhInvState where
  x : Int
  y : Int
  z : Int
  rotation : Nat
  sense : Int
  deriving DecidableEq, Inhabited

/-- One pass of the loop over bits for scalars (201-230). `(key & (7 << shift)) >> shift` is `key / 2^shift % 8`. -/
def phInvStep (key : Int) (shift : Nat) (s : PhInvState) : PhInvState :=
  let keypart := (key / (2 ^ shift : Nat)) % 8
  let quad := (if s.sense = 1 then keypart else 7 - keypart).toNat
  let q := quadrantsInverse.getD (s.rotation * 8 + quad) (0, 0, 0)
  let sense := s.sense * senseTable.getD quad 0
  let rotation := rotateOne rotxmapTable (rotxTable.getD quad 0) s.rotation
  let rotation := rotateOne rotymapTable (rotyTable.getD quad 0) rotation
  ⟨wrap32 (s.x * 2 + q.1), wrap32 (s.y * 2 + q.2.1), wrap32 (s.z * 2 + q.2.2), rotation, sense⟩

/-- The loop (199-230): `n` passes left, the shift is `3 * (n - 1)` -/
def phInvLoop (key : Int) : Nat → PhInvState → PhInvState
  | 0, s => s
  | n + 1, s => phInvLoop key n (phInvStep key (3 * n) s)

/-- `peano_hilbert_key_inverses_block(key, bits)` for a scalar (174-232). `7 << -3` raises `ValueError`; masks above `int64` raise `OverflowError`. -/
def phInverseScalar (key : Int) (bits : Nat) : Except Err (Int × Int × Int) :=
  if bits = 0 then .error .valueError
  else if bits > 21 then .error .other
  else
    let s := phInvLoop key bits ⟨0, 0, 0, 0, 1⟩
    .ok (s.x, s.y, s.z)

/-- One pass of the loop over bits for arrays (201-221) -/
def phInvStepAll (keys : List Int) (shift : Nat) (s : List PhInvState) : List PhInvState :=
  let quad := List.zipWith (fun (key : Int) (s : PhInvState) => (if s.sense = 1 then (key / (2 ^ shift : Nat)) % 8 else 7 - (key / (2 ^ shift : Nat)) % 8).toNat) keys s
  let q := List.zipWith (fun s q => quadrantsInverse.getD (s.rotation * 8 + q) (0, 0, 0)) s quad
  let sense := List.zipWith (fun s q => s.sense * senseTable.getD q 0) s quad
  let rotx := quad.map (fun q => rotxTable.getD q 0)
  let roty := quad.map (fun q => rotyTable.getD q 0)
  let rotation := rotateAll rotxmapTable rotx.sum (s.map PhInvState.rotation) rotx
  let rotation := rotateAll rotymapTable roty.sum rotation roty
  List.zipWith (fun sq rs => ⟨wrap32 (sq.1.x * 2 + sq.2.1), wrap32 (sq.1.y * 2 + sq.2.2.1), wrap32 (sq.1.z * 2 + sq.2.2.2), rs.1, rs.2⟩) (s.zip q) (rotation.zip sense)

/-- The loop for arrays -/
def phInvLoopAll (keys : List Int) : Nat → List PhInvState → List PhInvState
  | 0, s => s
  | n + 1, s => phInvLoopAll keys n (phInvStepAll keys (3 * n) s)

/-- `peano_hilbert_key_inverses_block(key, bits)` for arrays (174-232) -/
def phInversesBlock (keys : List Int) (bits : Nat) : Except Err (List (Int × Int × Int)) :=
  if bits = 0 then .error .valueError
  else if bits > 21 then .error .other
  else .ok ((phInvLoopAll keys bits (keys.map (fun _ => ⟨0, 0, 0, 0, 1⟩))).map (fun s => (s.x, s.y, s.z)))

/-- `peano_hilbert_key_inverses(key, bits)` (235-256) -/
def phInverses (blocksize : Nat) (keys : List Int) (bits : Nat) : Except Err (List (Int × Int × Int)) := blockwise (fun l => phInversesBlock l bits) blocksize keys

end Verif
