import Verif.Model.PythonPrograms

/-!
Programs which compute profiles of groups: examples/millennium/idl/IdlGroupLib/show_profile.pro, plot_profile_vmax.pro and plot_profile_dens.pro, and examples/millennium2/python/compute_rvmax.py.

What they read from files (with the C library for IDL or the Python reader) are arguments. Arithmetic is exact, in any ordered field `K`. `sqrt`, the logarithm `log` and the number `pi` are parameters, and `order l` is any
answer of `sort(l)` in IDL and of `np.argsort(l)` in Python. Plots are left out; what is plotted is the result.
-/

namespace Verif.Profiles

open PythonPrograms

variable {K : Type} [Field K] [LinearOrder K]

/-! ### Centre of a group -/

/-- `x^2 + y^2 + z^2` -/
def square (p : Row K) : K := p.1 ^ 2 + p.2.1 ^ 2 + p.2.2 ^ 2

/-- `r=sqrt(x^2 + y^2 + z^2)` (show_profile.pro, 116, 120, 138) -/
def radii (sqrt : K → K) (pos : List (Row K)) : List K := pos.map fun p => sqrt (square p)

/-- `max(r)` of an array which has an element -/
def arrayMax : List K → Except Err K
  | [] => .error .valueError
  | x :: l => .ok (l.foldl max x)

/-- `where(r lt rmax)`, without the value -1 which stands for no index -/
def whereLess (r : List K) (rmax : K) : List Nat := (List.range r.length).filter fun i => decide (r.getD i 0 < rmax)

/-- `n_elements(ind)`, which is 1 if there is no index -/
def numElements (ind : List Nat) : Nat := max 1 ind.length

/-- `total(x(ind), /double)/n_elements(ind)` for each coordinate (show_profile.pro, 124-126) -/
def meanAt (pos : List (Row K)) (ind : List Nat) : Row K := ((numElements ind : K)⁻¹) • (ind.map fun i => pos.getD i 0).sum

/-- What the loop leaves: positions relative to the centre, the centre, and the last distances `r` -/
structure Centred (K : Type) where
  pos : List (Row K)
  centre : Row K
  r : List K
  deriving DecidableEq

/-- The loop (show_profile.pro, 119-136; plot_profile_vmax.pro, 140-162; plot_profile_dens.pro, 176-198). `nmin` is 15 or 25. show_profile.pro does not have the centre `xxc`, `yyc`, `zzc`. -/
def shrinkLoop (sqrt : K → K) (nmin : Nat) : Nat → List (Row K) → Row K → K → Except Err (Centred K)
  | 0, _, _, _ => .error .diverges
  | fuel + 1, pos, centre, rmax =>
    if nmin ≤ numElements (whereLess (radii sqrt pos) rmax) then
      shrinkLoop sqrt nmin fuel (pos.map fun p => p - meanAt pos (whereLess (radii sqrt pos) rmax)) (centre + meanAt pos (whereLess (radii sqrt pos) rmax)) (9 / 10 * rmax)
    else .ok ⟨pos, centre, radii sqrt pos⟩

/-- The positions relative to the densest point (show_profile.pro, 112-136) -/
def shrink (sqrt : K → K) (nmin fuel : Nat) (pos : List (Row K)) : Except Err (Centred K) := do
  let rmax ← arrayMax (radii sqrt pos)
  shrinkLoop sqrt nmin fuel pos 0 rmax

/-! ### Circular velocity -/

/-- `r(sort(r))` -/
def sorted (order : List K → List Nat) (r : List K) : List K := (order r).map fun i => r.getD i 0

/-- `m= lindgen(n_Elements(r))+1`, `r=r(sort(r))`, `v= sqrt(m/r)`: what is plotted (show_profile.pro, 140-146; plot_profile_vmax.pro, 219-225) -/
def velocities (sqrt : K → K) (order : List K → List Nat) (r : List K) : List (K × K) :=
  List.zipWith (fun r i => (r, sqrt (((i : Nat) + 1 : K) / r))) (sorted order r) (List.range r.length)

/-- show_profile.pro, 112-146 -/
def showProfile (sqrt : K → K) (order : List K → List Nat) (fuel : Nat) (pos : List (Row K)) : Except Err (List (K × K)) := do
  let c ← shrink sqrt 15 fuel pos
  .ok (velocities sqrt order (radii sqrt c.pos))

/-! ### Density -/

/-- `where(r lt rad)` and `r(ind)` (plot_profile_vmax.pro, 216-217; plot_profile_dens.pro, 243-244) for positions from get_spherical_region_coordinates -/
def within (sqrt : K → K) (region : List (Row K)) (rad : K) : Except Err (List K) :=
  if (radii sqrt region).filter (fun r => decide (r < rad)) = [] then .error .indexError else .ok ((radii sqrt region).filter (fun r => decide (r < rad)))

/-- plot_profile_vmax.pro, 128-225: the centre relative to `Pos`, and what is plotted. `region centre rad` is what get_spherical_region_coordinates returns. -/
def plotVmax (sqrt : K → K) (order : List K → List Nat) (fuel : Nat) (pos : List (Row K)) (region : Row K → K → List (Row K)) : Except Err (Row K × List (K × K)) := do
  let c ← shrink sqrt 25 fuel pos
  let rad ← arrayMax c.r
  let r ← within sqrt (region c.centre rad) rad
  .ok (c.centre, velocities sqrt order r)

/-- `delta ge 200*rhocrit` for `delta= m/(4*!PI/3.0 * r^3)` (plot_profile_dens.pro, 249-252). Infinity, for `r = 0`, is larger. -/
def dense (pi rhocrit m r : K) : Bool := decide (r = 0) || decide (200 * rhocrit ≤ m / (4 * pi / 3 * r ^ 3))

/-- `r200` (plot_profile_dens.pro, 245-253) for sorted radii. Index -1, if there is no particle, is out of range. -/
def radius200 (pi rhocrit partMass : K) (r : List K) : Except Err K :=
  match (List.range r.length).filter (fun i => dense pi rhocrit (partMass * ((i : Nat) + 1 : K)) (r.getD i 0)) with
  | [] => .error .indexError
  | i :: ind => arrayMax ((i :: ind).map fun i => r.getD i 0)

/-- `b = (alog(r(i))-alog(mi))/(alog(ma)-alog(mi)) * BINS` (plot_profile_dens.pro, 271) -/
def binOf (log : K → K) (mi ma : K) (bins : Nat) (r : K) : K := (log r - log mi) / (log ma - log mi) * bins

/-- The loop over particles (plot_profile_dens.pro, 269-276). The index is the integer part of `b`. -/
def histogram [FloorRing K] (log : K → K) (mi ma : K) (bins : Nat) : List K → List Int → List Int
  | [], count => count
  | x :: r, count =>
    let b := binOf log mi ma bins x
    if 0 ≤ b ∧ b < bins then histogram log mi ma bins r (count.modify ⌊b⌋.toNat (· + 1)) else histogram log mi ma bins r count

/-- Results of plot_profile_dens.pro -/
structure Density (K : Type) where
  centre : Row K
  r200 : K
  m200 : K
  count : List Int
  deriving DecidableEq

/-- plot_profile_dens.pro, 164-276; `mi`, `ma` and `BINS` as in 262-265. The fit (291-325) is left out. -/
def plotDens [FloorRing K] (sqrt log : K → K) (pi : K) (order : List K → List Nat) (fuel : Nat) (time rhocrit partMass : K) (pos : List (Row K)) (region : Row K → K → List (Row K)) : Except Err (Density K) := do
  let c ← shrink sqrt 25 fuel pos
  let rad ← arrayMax c.r
  let r ← within sqrt (region c.centre rad) rad
  let r := sorted order (r.map fun x => x * time)
  let r200 ← radius200 pi rhocrit partMass r
  .ok ⟨c.centre, r200, 200 * 4 * pi / 3 * r200 ^ 3 * rhocrit, histogram log (1 / 1000) 5 25 r ((List.range 25).map fun i : Nat => (i : Int))⟩

/-! ### Vmax -/

/-- `np.argmax` -/
def argmax : List K → Except Err Nat
  | [] => .error .valueError
  | x :: l => .ok ((x :: l).findIdx (fun v => decide (v = l.foldl max x)))

/-- Units in compute_rvmax.py: `MSOLAR_IN_KG * 1.0e10`, `MPC_IN_M` and `G_SI` -/
structure Units (K : Type) where
  mass : K
  length : K
  g : K

/-- `vcirc` for one particle (compute_rvmax.py, 58-63): `i` particles are before it. -/
def vcirc (sqrt : K → K) (u : Units K) (mpart a : K) (i : Nat) (r : K) : K := if 0 < r then sqrt (u.g * ((i : K) * mpart * u.mass) / (r * a * u.length)) / 1000 else 0

/-- compute_rvmax.py, 39-69: `RVmax` and `Vmax` from the particles of a group with the positions `pos` and subhalos `subnr`, for subhalo `isub` with the position `centre` -/
def computeRvmax [FloorRing K] (sqrt : K → K) (u : Units K) (order : List K → List Nat) (pos : List (Row K)) (subnr : List Int) (isub : Int) (centre : Row K) (boxsize mpart a : K) : Except Err (K × K) := do
  let rel := pos.map fun p => wrapRow boxsize (p - centre)
  let rel := ((rel.zip subnr).filter fun x => decide (x.2 = isub)).map (·.1)
  let radius := sorted order (radii sqrt rel)
  let v := List.zipWith (vcirc sqrt u mpart a) (List.range radius.length) radius
  let imax ← argmax v
  .ok (radius.getD imax 0 * a, v.getD imax 0)

end Verif.Profiles
