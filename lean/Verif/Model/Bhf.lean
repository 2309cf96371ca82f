import Verif.Model.Angles
import Verif.Model.Cheb
import Verif.Model.Ylm
import Verif.Model.YlmCoeffs
/-!
Model of the black-hole filler, Src/Main/Modules/Physics/BlackHole/bh_bhfiller.c, bh_bhf_ChebTn_filler.c,
bh_bhf_polynomial_smoother.c, and of the patch search by angles it uses,
Src/Main/Modules/Manifold/coordinate_utilities.c:1047-1165.  Over `ℝ` (`double` is exact, libm's functions are the
mathematical ones); `e` is ROUND_OFF_ERR.
-/
namespace Elliptica.Bhf
open Coord Angles Real

/-- bh_bhfiller.h:21-24 `IJsymm3` -/
def symm3 (i j : ℕ) : ℕ :=
  if j ≥ i then 5 * ((j + i * 2) / 6) + (j + i * 2) % 6 else 5 * ((i + j * 2) / 6) + (i + j * 2) % 6

/-- A patch of the region BH_around_IB: its coordinate map, and what the two-dimensional interpolation on its face K = 0
returns at (X,Y) for the field, its first and its second derivatives (bh_bhfiller.c:927-958; the interpolation itself is
the object of C41).  Simplification: these are functions of (X,Y). -/
structure Outer where
  geo : Coord.Patch ℝ
  f : ℝ → ℝ → ℝ
  df : Fin 3 → ℝ → ℝ → ℝ
  ddf : ℕ → ℝ → ℝ → ℝ

/-- Euclidean length, `root_square(3,x,0)` -/
noncomputable def len (x : Fin 3 → ℝ) : ℝ := √(x 0 * x 0 + x 1 * x 1 + x 2 * x 2)

/-- distance, `root_square(3,x,y)` -/
noncomputable def dist3 (x y : Fin 3 → ℝ) : ℝ := len fun i => x i - y i

/-- the library of the coordinate maps over ℝ; `big` = DBL_MAX -/
noncomputable def lib (big : ℝ) : Lib ℝ := ⟨big, Real.sqrt⟩

/-- Is the interpolation of the surface function at (X,Y) a number?  cubed_spherical_coordinate.c:1109-1124 evaluates
cos(n acos(.)) at the coordinate mapped to [-1,1] (coordinate_systems.c:594-601), which is not a number outside. -/
noncomputable def isNumber (e : ℝ) (p : Coord.Patch ℝ) (X Y : ℝ) : Bool :=
  decide (|Cheb.toCheb e (p.mn 0) (p.mx 0) X| ≤ 1) && decide (|Cheb.toCheb e (p.mn 1) (p.mx 1) Y| ≤ 1)

/-- coordinate_utilities.c:1071-1158, one turn of the loop: the coordinates X (with X[2] = 0, set by the callers) when the
patch is accepted.  A candidate at which the surface function is not a number is rejected (every comparison fails).
Where a denominator of the candidate vanishes C has an infinity, which is rejected as well; here the quotient is 0 and
the comparison of the angles rejects it. -/
noncomputable def candidate (e big : ℝ) (center : Fin 3 → ℝ) (theta phi : ℝ) (p : Coord.Patch ℝ) : Res (Option (Fin 3 → ℝ)) :=
  (XYofAngles e p.side theta phi).bind fun ab =>
    let X : Fin 3 → ℝ := fun i => if i = 0 then ab.1 else if i = 1 then ab.2 else 0
    if isNumber e p ab.1 ab.2 then
      match xOfXCS (lib big) e dist3 p X with
      | none => .ok none
      | some x =>
        let y : Fin 3 → ℝ := fun i => x i - center i
        if Tol.eql e (arccos (y 2 / len y)) theta && Tol.eql e (Angles.arctan e (y 1) (y 0)) phi then .ok (some X) else .ok none
    else .ok none

/-- coordinate_utilities.c:1047-1165 `find_XYZ_and_patch_of_theta_phi_CS` -/
noncomputable def find (e big : ℝ) (center : Fin 3 → ℝ) (theta phi : ℝ) : List Outer → Res (Outer × (Fin 3 → ℝ))
  | [] => .abort
  | p :: l => (candidate e big center theta phi p.geo).bind fun r =>
      match r with
      | some X => .ok (p, X)
      | none => find e big center theta phi l

/-- bh_bhf_ChebTn_filler.c:14-34 `bh_bhf_ChebTn_extrapolate` (its assertion N==6 holds, bh_bhfiller.c:107, 191) -/
noncomputable def coeffs (fr0 fr1 dfdr ddfddr R : ℝ) : ℕ → ℝ
  | 0 => (3.0 / 128.0) * ddfddr * R ^ 2 - 37.0 / 256.0 * dfdr * R + (49.0 / 128.0) * fr0 + (79.0 / 128.0) * fr1
  | 1 => -1.0 / 256.0 * ddfddr * R ^ 2 - 5.0 / 256.0 * dfdr * R - 35.0 / 64.0 * fr0 + (35.0 / 64.0) * fr1
  | 2 => -1.0 / 32.0 * ddfddr * R ^ 2 + (11.0 / 64.0) * dfdr * R + (5.0 / 32.0) * fr0 - 5.0 / 32.0 * fr1
  | 3 => (3.0 / 512.0) * ddfddr * R ^ 2 + (7.0 / 512.0) * dfdr * R + (5.0 / 128.0) * fr0 - 5.0 / 128.0 * fr1
  | 4 => (1.0 / 128.0) * ddfddr * R ^ 2 - 7.0 / 256.0 * dfdr * R - 5.0 / 128.0 * fr0 + (5.0 / 128.0) * fr1
  | 5 => -1.0 / 512.0 * ddfddr * R ^ 2 + (3.0 / 512.0) * dfdr * R + (1.0 / 128.0) * fr0 - 1.0 / 128.0 * fr1
  | _ => 0

/-- the normal vector, bh_bhfiller.c:441-443, 922-924 -/
noncomputable def normal (theta phi : ℝ) : Fin 3 → ℝ := fun i =>
  if i = 0 then sin theta * cos phi else if i = 1 then sin theta * sin phi else cos theta

/-- bh_bhfiller.c:477, 961 `dfdr` -/
def firstDer (N df : Fin 3 → ℝ) : ℝ := N 0 * df 0 + N 1 * df 1 + N 2 * df 2

/-- bh_bhfiller.c:479-491, 963-975 `ddfddr`: `x` is the surface point relative to the centre, KD[i==j] the Kronecker delta -/
noncomputable def secondDer (N x df : Fin 3 → ℝ) (ddf : ℕ → ℝ) (R : ℝ) : ℝ :=
  ∑ i : Fin 3, (∑ j : Fin 3, (((if i = j then 1 else 0) / R - x i * x j / (R * (R * R))) * df j + N j * ddf (symm3 i j))) * N i

/-- bh_bhfiller.c:903-979 (ChebTn_general_s2): the six coefficients from the data of the outside patch at the angles, and
the radius of the surface there.  The assertion of `x_of_X` at 903 holds for the X that was found. -/
noncomputable def radial (e big : ℝ) (center : Fin 3 → ℝ) (outs : List Outer) (fr0 theta phi : ℝ) : Res ((ℕ → ℝ) × ℝ) :=
  (find e big center theta phi outs).bind fun o =>
    let X := o.2
    let R := len fun i => xOfX (lib big) o.1.geo X i - center i
    let N := normal theta phi
    let ox : Fin 3 → ℝ := fun i => R * N i
    let df : Fin 3 → ℝ := fun d => o.1.df d (X 0) (X 1)
    .ok (coeffs fr0 (o.1.f (X 0) (X 1)) (firstDer N df) (secondDer N ox df (fun m => o.1.ddf m (X 0) (X 1)) R) R, R)

/-- bh_bhfiller.c:982-984 the value at the radius r -/
noncomputable def atRadius (e : ℝ) (a : (ℕ → ℝ) × ℝ) (r : ℝ) : ℝ :=
  ∑ i ∈ Finset.range 6, a.1 i * Cheb.chebT e i (2 * r / a.2 - 1)

/-- bh_bhfiller.c:871-985 (ChebTn_general_s2), one point inside: `x` relative to the centre.  Values below Rmin stay 0
(alloc_double clears).  At r = 0 the angles are not numbers, so no patch is found. -/
noncomputable def fillGeneral (e big : ℝ) (center : Fin 3 → ℝ) (outs : List Outer) (fr0 Rmin : ℝ) (x : Fin 3 → ℝ) : Res ℝ :=
  let r := len x
  if r < Rmin then .ok 0
  else if r = 0 then .abort
  else (radial e big center outs fr0 (arccos (x 2 / r)) (Angles.arctan e (x 1) (x 0))).map fun a => atRadius e a r

/-- bh_bhfiller.c:404-497 (ChebTn_Ylm_perfect_s2): the coefficients on the grid of angles; the surface is the sphere of
radius R.  `X_of_x` of the assertion at 438 overwrites X by the coordinates of the same point.  The loops are in order of
i, j; a failure of any point ends the run. -/
noncomputable def gridLoop (e big : ℝ) (tab : ℕ → ℕ → ℝ) (center : Fin 3 → ℝ) (outs : List Outer) (fr0 R : ℝ) (Ntheta Nphi : ℕ) :
    ℕ → Res (ℕ → ℕ → ℝ)
  | 0 => .ok fun _ _ => 0
  | n + 1 =>
    (gridLoop e big tab center outs fr0 R Ntheta Nphi n).bind fun g =>
    let theta := Ylm.thetaAt (fun i n => tab n i) Ntheta (n / Nphi)
    let phi := Ylm.phiAt Nphi (n % Nphi)
    (find e big center theta phi outs).bind fun o =>
      let X := o.2
      let N := normal theta phi
      let df : Fin 3 → ℝ := fun d => o.1.df d (X 0) (X 1)
      .ok fun k q => if q = n then
        coeffs fr0 (o.1.f (X 0) (X 1)) (firstDer N df) (secondDer N (fun i => R * N i) df (fun m => o.1.ddf m (X 0) (X 1)) R) R k
        else g k q

/-- bh_bhfiller.c:499-507: the harmonic coefficients of the six arrays, `n` of them -/
noncomputable def ylmLoop (tab : ℕ → ℕ → ℝ) (g : ℕ → ℕ → ℝ) (Ntheta Nphi L : ℕ) : ℕ → Res (ℕ → (ℕ → ℝ) × (ℕ → ℝ))
  | 0 => .ok fun _ => (fun _ => 0, fun _ => 0)
  | n + 1 => (ylmLoop tab g Ntheta Nphi L n).bind fun c =>
      (Ylm.getCoeffs tab (g n) Ntheta Nphi L (fun _ => 0, fun _ => 0)).bind fun b => .ok fun k => if k = n then b else c k

/-- bh_bhfiller.c:548-556 the sum over the coefficients -/
noncomputable def sumLoop (e : ℝ) (c : ℕ → (ℕ → ℝ) × (ℕ → ℝ)) (L : ℕ) (theta phi t : ℝ) : ℕ → Res ℝ
  | 0 => .ok 0
  | n + 1 => (sumLoop e c L theta phi t n).bind fun s =>
      (Ylm.interp (c n).1 (c n).2 L theta phi).bind fun y => .ok (s + y * Cheb.chebT e n t)

/-- bh_bhfiller.c:404-559 (ChebTn_Ylm_perfect_s2), one point inside: `x` relative to the centre, |x| ≤ R not 0 (at other
points theta is not a number in C) -/
noncomputable def fillPerfect (e big : ℝ) (tab : ℕ → ℕ → ℝ) (center : Fin 3 → ℝ) (outs : List Outer) (fr0 R : ℝ) (L Ntheta Nphi : ℕ)
    (x : Fin 3 → ℝ) : Res ℝ :=
  (gridLoop e big tab center outs fr0 R Ntheta Nphi (Ntheta * Nphi)).bind fun g =>
  (ylmLoop tab g Ntheta Nphi L 6).bind fun c =>
  let r := if len x > R then R else len x
  if r = 0 then .ub
  else sumLoop e c L (arccos (x 2 / r)) (Angles.arctan e (x 1) (x 0)) (2 * r / R - 1) 6

/-- bh_bhfiller.c:1455-1465 `approx_expmr_C0`, Attenuate_Factor0 = 1 (line 10) -/
noncomputable def expC0 (r0 fr0 r : ℝ) : ℝ := fr0 * exp (1 * |r - r0| / r0)

/-- bh_bhfiller.c:1467-1484 `approx_r_expmr_C1` -/
noncomputable def expC1 (r0 fr0 dfr0 r : ℝ) : ℝ :=
  let a := fr0 + 1 * fr0 - dfr0 * r0
  let b := dfr0 - (1 * fr0) / r0
  (a + b * r) * exp (1 * |r - r0| / r0)

/-- bh_bhf_polynomial_smoother.c:9-15 -/
noncomputable def polySmoother (r rmax rmin : ℝ) : ℝ :=
  let x := (2 * r - rmax - rmin) / (rmax - rmin)
  (35.0 / 256.0) * x ^ 9 - 45.0 / 64.0 * x ^ 7 + (189.0 / 128.0) * x ^ 5 - 105.0 / 64.0 * x ^ 3 + (315.0 / 256.0) * x + 1.0 / 2.0

/-- bh_bhfiller.c:1063-1081 `bh_bhf_smoother` (the statements after the first return of the last branch are not reached) -/
noncomputable def smoother (r rmax rmin : ℝ) : ℝ :=
  if r ≥ rmax then 1 else if r ≤ rmin then 0 else polySmoother r rmax rmin

/-- the regular expression `.+_(U|D)[[:digit:]]` searched in a name at the positions after the first character -/
def hasIndex : Str → Bool
  | '_' :: c :: d :: s => ((c = 'U' || c = 'D') && ('0' ≤ d && d ≤ '9')) || hasIndex (c :: d :: s)
  | _ :: s => hasIndex s
  | [] => false

/-- regex_search(".+_(U|D)[[:digit:]]",s) -/
def indexed (s : Str) : Bool := hasIndex s.tail

/-- the digit of an index -/
def digit (i : ℕ) : Char := if i = 0 then '0' else if i = 1 then '1' else '2'

/-- bh_bhfiller.c:992-1043 `collect_names`: the names of the three first and the six second derivatives of the field, as
functions of i (and j ≥ i).  Simplification: the buffers of 99 bytes are long enough. -/
def dNames (name : Str) : (ℕ → Str) × (ℕ → ℕ → Str) :=
  match name with
  | '_' :: s =>
    if indexed s then
      (fun i => ['_', 'd'] ++ s ++ ['D', digit i], fun i j => ['_', 'd', 'd'] ++ s ++ ['D', digit i, 'D', digit j])
    else
      -- line 1015 writes df[0] in every turn, the others keep the zeros of calloc
      (fun i => if i = 0 then ['_', 'd'] ++ s ++ ['_', 'D', digit 2] else [],
       fun i j => ['_', 'd', 'd'] ++ s ++ ['_', 'D', digit i, 'D', digit j])
  | s =>
    if indexed s then (fun i => ['d'] ++ s ++ ['D', digit i], fun i j => ['d', 'd'] ++ s ++ ['D', digit i, 'D', digit j])
    else (fun i => ['d'] ++ s ++ ['_', 'D', digit i], fun i j => ['d', 'd'] ++ s ++ ['_', 'D', digit i, 'D', digit j])

end Elliptica.Bhf
