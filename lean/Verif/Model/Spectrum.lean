import Verif.Model.PythonPrograms
import Mathlib.Algebra.Order.Field.Basic
import Mathlib.Algebra.BigOperators.Group.List.Basic

/-!
examples/millennium/idl/PlotSpectrum.pro, which plots a power spectrum.

The tables (46-85, 151-189) are arguments. Arithmetic is exact, in any ordered field `K`; `lg` is `alog10`, `log` is `alog`, `exp` and `sqrt` are parameters. Integers are exact; in IDL the index `istart` has 16 bits, so
that the model holds for up to 32767 bins. What is plotted is the result.
-/

namespace Verif.Spectrum

variable {K : Type} [Field K] [LinearOrder K]

/-- A line of a table: columns 0, 4, 7, 8 and 9 (PlotSpectrum.pro, 65-85) -/
structure Bin (K : Type) where
  k : K
  count : K
  shape : K
  power : K
  conv : K
  deriving DecidableEq

/-- A point of the binned spectrum: `k_list_A`, `Delta2_list_A`, `count_list_A` -/
structure Point (K : Type) where
  k : K
  d2 : K
  count : K
  deriving DecidableEq

/-- `K_A(ind)` and similar arrays: an index after the end is the last one, as in IDL for an array of indices. -/
def pick (a : List K) (ind : List Nat) : List K := ind.map fun i => a.getD (min i (a.length - 1)) 0

/-- `max(a)` for an array which has an element -/
def maxOf : List K → K
  | [] => 0
  | x :: l => l.foldl max x

/-- `min(a)` for an array which has an element -/
def minOf : List K → K
  | [] => 0
  | x :: l => l.foldl min x

/-- `(deltak ge mindlogk) and (count ge MinModeCount)` (99-101, 128-130) -/
def isWide (lg : K → K) (minDlogK minCount : K) (rows : List (Bin K)) (ind : List Nat) : Bool :=
  decide (minDlogK ≤ lg (maxOf (pick (rows.map fun r => r.k) ind)) - lg (minOf (pick (rows.map fun r => r.k) ind))) && decide (minCount ≤ (pick (rows.map fun r => r.count) ind).sum)

/-- `b = fix(total(double(ind)*ModeCount_A(ind))/total(ModeCount_A(ind)))` (103, 132), for counts which are not negative -/
def centreBin [FloorRing K] (rows : List (Bin K)) (ind : List Nat) : Nat :=
  ⌊(List.zipWith (fun (i : Nat) c => (i : K) * c) ind (pick (rows.map fun r => r.count) ind)).sum / (pick (rows.map fun r => r.count) ind).sum⌋.toNat

/-- The new point (102-108, 131-137). The scalar index `b` must be in range. -/
def point [FloorRing K] (rows : List (Bin K)) (ind : List Nat) : Except Err (Point K) :=
  match rows[centreBin rows ind]? with
  | none => .error .indexError
  | some r => .ok ⟨r.k, r.conv * ((pick (rows.map fun r => r.power) ind).sum / (pick (rows.map fun r => r.count) ind).sum) * r.shape, (pick (rows.map fun r => r.count) ind).sum⟩

/-- `repeat begin ... endrep until istart ge Bins` (98-115, 127-144). `out` has the points without the first element 0. -/
def rebinLoop [FloorRing K] (lg : K → K) (minDlogK minCount : K) (rows : List (Bin K)) (bins : Nat) : Nat → Nat → List Nat → List (Point K) → Except Err (List (Point K))
  | 0, _, _, _ => .error .diverges
  | fuel + 1, istart, ind, out =>
    if isWide lg minDlogK minCount rows ind = true then do
      let p ← point rows ind
      if bins ≤ istart + 1 then .ok (out ++ [p]) else rebinLoop lg minDlogK minCount rows bins fuel (istart + 1) [istart + 1] (out ++ [p])
    else if bins ≤ istart + 1 then .ok out else rebinLoop lg minDlogK minCount rows bins fuel (istart + 1) (ind ++ [istart + 1]) out

/-- `K_list_A = k_list_A(1:*)` (116-118, 145-147): there must be an element. -/
def tail1 (out : List (Point K)) : Except Err (List (Point K)) := if out = [] then .error .indexError else .ok out

/-- 93-118, 122-147 -/
def rebin [FloorRing K] (lg : K → K) (minDlogK : K) (fuel : Nat) (bins : Nat) (rows : List (Bin K)) : Except Err (List (Point K)) := do
  let out ← rebinLoop lg minDlogK 140 rows bins fuel 0 [0] []
  tail1 out

/-- `MinDlogK` (91) -/
def minDlogK (lg : K → K) (rowsA : List (Bin K)) : K := (lg (maxOf (rowsA.map fun r => r.k)) - lg (minOf (rowsA.map fun r => r.k))) / 180

/-- The linear spectrum: `where (d2_linear gt 0)`, the extrapolation and scaling (185-207). The elements at n-2 and n-1 must exist. -/
def linear (log exp : K → K) (growthfac : K) (table : List (K × K)) : Except Err (List (K × K)) :=
  match (table.filter fun x : K × K => decide (0 < x.2)).reverse with
  | (k2, d2) :: (k1, d1) :: _ =>
    .ok (((table.filter fun x : K × K => decide (0 < x.2)) ++ [(400, exp (log (d2 / d1) / log (k2 / k1) * log (400 / k2) + log d2))]).map fun x : K × K => (x.1, x.2 / growthfac ^ 2))
  | _ => .error .indexError

/-- Error bars (268-276) -/
def errorBars (lg sqrt : K → K) (b : List (Point K)) : List (K × K × K) :=
  (b.filter fun p => decide (p.count / 2 < 10000)).map fun p => (p.k, lg (p.d2 * (1 - 1 / sqrt (p.count / 2))), lg (p.d2 * (1 + 1 / sqrt (p.count / 2))))

/-- `where` and the elements it gives (312-313, 338-339): there must be one. -/
def choose (f : Point K → Bool) (l : List (Point K)) : Except Err (List (Point K)) := if l.filter f = [] then .error .indexError else .ok (l.filter f)

/-- What is plotted -/
structure Plot (K : Type) where
  linear : List (K × K)
  bars : List (K × K × K)
  red : List (K × K)
  blue : List (K × K)
  deriving DecidableEq

/-- PlotSpectrum.pro, 48-344, without the shot noise. `Bins` is read twice (51, 55), so that both loops use the number of rows in the second table. An array without rows can not be made. `ind` (325), which leaves out
points below the shot noise, is not used. -/
def plotSpectrum [FloorRing K] (lg log exp sqrt : K → K) (fuel : Nat) (a b : List (Bin K)) (growthfac : K) (table : List (K × K)) : Except Err (Plot K) := do
  if a = [] ∨ b = [] then .error .valueError
  let la ← rebin lg (minDlogK lg a) fuel b.length a
  let lb ← rebin lg (minDlogK lg a) fuel b.length b
  let lin ← linear log exp growthfac table
  let cb ← choose (fun p => decide (p.k < 5) && decide (1 / 100 ≤ p.k)) lb
  let ca ← choose (fun p => decide (5 ≤ p.k) && decide (p.k ≤ 200)) la
  .ok ⟨lin.map (fun x => (x.1, lg x.2)), errorBars lg sqrt lb, cb.map (fun p => (p.k, lg p.d2)), ca.map (fun p => (p.k, lg p.d2))⟩

end Verif.Spectrum
