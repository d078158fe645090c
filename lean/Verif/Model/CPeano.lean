import Verif.Lib.Np

/-!
Peano-Hilbert keys in C (examples/millennium/fortran/peano_keys.c). `int` has 32 bits in two's complement; whether `char` is signed is a parameter.
What C leaves undefined (overflow of `int`, wrong shifts, wrong indexes) is the error `.other`.
-/

namespace Verif.CPeano

/-- A result of arithmetic on `int` -/
def cInt (x : Int) : Except Err Int := if -2147483648 ≤ x ∧ x < 2147483648 then .ok x else .error .other

/-- `x << n` of an `int` -/
def cShl (x n : Int) : Except Err Int :=
  if n < 0 ∨ 32 ≤ n ∨ x < 0 then .error .other else cInt (x * 2 ^ n.toNat)

/-- Value kept in a `char` -/
def cChar (signed : Bool) (x : Int) : Int := if signed then (x + 128) % 256 - 128 else x % 256

/-- `table[i]` -/
def cGet (table : List Int) (i : Int) : Except Err Int :=
  if i < 0 then .error .other else match table[i.toNat]? with
    | some v => .ok v
    | none => .error .other

/-- `quadrants` (14-45), flat -/
def quadrantsC : List Int := [
  0, 7, 1, 6, 3, 4, 2, 5,
  7, 4, 6, 5, 0, 3, 1, 2,
  4, 3, 5, 2, 7, 0, 6, 1,
  3, 0, 2, 1, 4, 7, 5, 6,
  1, 0, 6, 7, 2, 3, 5, 4,
  0, 3, 7, 4, 1, 2, 6, 5,
  3, 2, 4, 5, 0, 1, 7, 6,
  2, 1, 5, 6, 3, 0, 4, 7,
  6, 1, 7, 0, 5, 2, 4, 3,
  1, 2, 0, 3, 6, 5, 7, 4,
  2, 5, 3, 4, 1, 6, 0, 7,
  5, 6, 4, 7, 2, 1, 3, 0,
  7, 6, 0, 1, 4, 5, 3, 2,
  6, 5, 1, 2, 7, 4, 0, 3,
  5, 4, 2, 3, 6, 7, 1, 0,
  4, 7, 3, 0, 5, 6, 2, 1,
  6, 7, 5, 4, 1, 0, 2, 3,
  7, 0, 4, 3, 6, 1, 5, 2,
  0, 1, 3, 2, 7, 6, 4, 5,
  1, 6, 2, 5, 0, 7, 3, 4,
  2, 3, 1, 0, 5, 4, 6, 7,
  3, 4, 0, 7, 2, 5, 1, 6,
  4, 5, 7, 6, 3, 2, 0, 1,
  5, 2, 6, 1, 4, 3, 7, 0]

/-- (49-51) -/
def rotxmapC : List Int := [4, 5, 6, 7, 8, 9, 10, 11, 12, 13, 14, 15, 0, 1, 2, 3, 17, 18, 19, 16, 23, 20, 21, 22]
/-- (53-55) -/
def rotymapC : List Int := [1, 2, 3, 0, 16, 17, 18, 19, 11, 8, 9, 10, 22, 23, 20, 21, 14, 15, 12, 13, 4, 5, 6, 7]
/-- (57) -/
def rotxC : List Int := [3, 0, 0, 2, 2, 0, 0, 1]
/-- (58) -/
def rotyC : List Int := [0, 1, 1, 2, 2, 3, 3, 0]
/-- (60) -/
def senseC (signed : Bool) : List Int := [-1, -1, -1, 1, 1, -1, -1, -1].map (cChar signed)

/-- `while(rot > 0) { rotation = table[rotation]; rot--; }` (94-98, 100-104, 154-158, 160-164). The first argument bounds the number of passes. -/
def cRotate (signed : Bool) (table : List Int) : Nat → Int → Int → Except Err Int
  | 0, _, _ => .error .diverges
  | fuel + 1, rot, rotation =>
    if rot > 0 then do
      let rotation ← cGet table rotation
      cRotate signed table fuel (cChar signed (rot - 1)) rotation
    else .ok rotation

/-- The end of the passes of both loops (90-104, 150-164): the next rotation and sense -/
def cTurn (signed : Bool) (rotation sense quad : Int) : Except Err (Int × Int) := do
  let rotx ← cGet rotxC quad
  let roty ← cGet rotyC quad
  let f ← cGet (senseC signed) quad
  let sense := cChar signed (sense * f)
  let rotation ← cRotate signed rotxmapC 256 rotx rotation
  let rotation ← cRotate signed rotymapC 256 roty rotation
  .ok (rotation, sense)

/-- `(x & mask) ? 1 : 0` where `mask` is the power of two `2^n` (x may be negative: two's complement) -/
def cBit (x : Int) (n : Nat) : Int := if (x / 2 ^ n) % 2 = 1 then 1 else 0

/-- The loop (79-105) with `n` passes left: `mask` is `2^(n-1)`. -/
def cKeyLoop (signed : Bool) (x y z : Int) : Nat → Int → Int → Int → Except Err Int
  | 0, key, _, _ => .ok key
  | n + 1, key, rotation, sense => do
    let quad ← cGet quadrantsC (rotation * 8 + cBit x n * 4 + cBit y n * 2 + cBit z n)
    let key ← cShl key 3
    let key ← cInt (key + (if sense = 1 then quad else 7 - quad))
    let rs ← cTurn signed rotation sense quad
    cKeyLoop signed x y z n key rs.1 rs.2

/-- `peano_hilbert_key_(x, y, z, bits)` (68-108) -/
def cKey (signed : Bool) (x y z bits : Int) : Except Err Int := do
  let _ ← cShl 1 (bits - 1)
  cKeyLoop signed x y z bits.toNat 0 0 1

/-- Static variables (62-65) -/
structure Static where
  flag : Int
  qx : List Int
  qy : List Int
  qz : List Int
  deriving DecidableEq

/-- Their values when the program starts -/
def static0 : Static := ⟨1, List.replicate 192 0, List.replicate 192 0, List.replicate 192 0⟩

/-- The pass of the innermost loop (124-129) -/
def fillOne (rotation bitx bity bitz : Nat) (s : Static) : Static :=
  let quad := (quadrantsC.getD (rotation * 8 + bitx * 4 + bity * 2 + bitz) 0).toNat
  { s with
    qx := s.qx.set (rotation * 8 + quad) bitx
    qy := s.qy.set (rotation * 8 + quad) bity
    qz := s.qz.set (rotation * 8 + quad) bitz }

/-- The initialisation in the first call (117-130) -/
def fillStatic (s : Static) : Static :=
  if s.flag ≠ 0 then
    (List.range 24).foldl (fun s rotation => (List.range 2).foldl (fun s bitx => (List.range 2).foldl (fun s bity => (List.range 2).foldl
      (fun s bitz => fillOne rotation bitx bity bitz s) s) s) s) { s with flag := 0 }
  else s

/-- The loop (140-165) with `n` passes left: `shift` is `3 * (n - 1)` and `mask` is `7 << shift`, so that `(key & mask) >> shift` is the
octal digit of the key in two's complement. -/
def cInvLoop (signed : Bool) (s : Static) (key : Int) : Nat → Int → Int → Int → Int → Int → Except Err (Int × Int × Int)
  | 0, x, y, z, _, _ => .ok (x, y, z)
  | n + 1, x, y, z, rotation, sense => do
    let keypart := key / 2 ^ (3 * n) % 8
    let quad := if sense = 1 then keypart else 7 - keypart
    let ix ← cGet s.qx (rotation * 8 + quad)
    let x ← cShl x 1
    let x ← cInt (x + ix)
    let iy ← cGet s.qy (rotation * 8 + quad)
    let y ← cShl y 1
    let y ← cInt (y + iy)
    let iz ← cGet s.qz (rotation * 8 + quad)
    let z ← cShl z 1
    let z ← cInt (z + iz)
    let rs ← cTurn signed rotation sense quad
    cInvLoop signed s key n x y z rs.1 rs.2

/-- `peano_hilbert_key_inverse_(key, bits, x, y, z)` (112-166), with the static variables before and after -/
def cInverse (signed : Bool) (s : Static) (key bits : Int) : Except Err ((Int × Int × Int) × Static) := do
  let s := fillStatic s
  let shift ← cInt (3 * (bits - 1))
  let _ ← cShl 7 shift
  let r ← cInvLoop signed s key bits.toNat 0 0 0 0 1
  .ok (r, s)

/-- Calls of a program one after the other -/
def cInverseCalls (signed : Bool) : Static → List (Int × Int) → Except Err (List (Int × Int × Int))
  | _, [] => .ok []
  | s, c :: cs => do
    let r ← cInverse signed s c.1 c.2
    let rest ← cInverseCalls signed r.2 cs
    .ok (r.1 :: rest)

end Verif.CPeano
