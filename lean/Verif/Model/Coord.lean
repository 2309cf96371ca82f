import Verif.Model.Tol
/-!
Model of the cubed-spherical coordinate maps: Src/Main/Modules/Manifold/coordinate_utilities.c:251-372 (x_of_X),
374-421 (Cartesian), 422-585 (X_of_x), 587-612 (find_node), and cubed_spherical_coordinate.c:8276-8319.

`double` is an exact ordered field `K`; `sqrt` is a parameter (its value plays no role in the inversion), and so are
the interpolated surface functions `R1f`, `R2f` (R_interpolation_CS, a function of X[0], X[1]).
-/
namespace Elliptica.Coord

/-- core typedef: the six sides of a cubed sphere -/
inductive Side where
  | up | down | left | right | back | front
deriving DecidableEq, Repr

/-- the patch types of the coordinate maps -/
inductive CType where
  | obScs | otScs | nsCs | srCs | otT1 | otT2
deriving DecidableEq, Repr

/-- cubed_spherical_coordinate.c:8276-8319 SignAndIndex_permutation_CubedSphere: (sign is -1?, a, b, c) -/
def perm : Side → Bool × Fin 3 × Fin 3 × Fin 3
  | .up => (false, 0, 1, 2)
  | .down => (true, 1, 0, 2)
  | .left => (true, 0, 2, 1)
  | .right => (false, 2, 0, 1)
  | .back => (true, 2, 1, 0)
  | .front => (false, 1, 2, 0)

variable {K : Type} [Field K] [LinearOrder K]

/-- the sign `S` of a side -/
def sgn (s : Side) : K := if (perm s).1 then -1 else 1

/-- what the maps read from the patch -/
structure Patch (K : Type) where
  side : Side
  type : CType
  R1f : K → K → K
  R2f : K → K → K
  xc1 : K
  xc2 : K
  R1 : K
  R2 : K
  c : Fin 3 → K
  mn : Fin 3 → K
  mx : Fin 3 → K

/-- library constants: DBL_MAX and sqrt -/
structure Lib (K : Type) where
  big : K
  sqrt : K → K

/-- `d = sqrt(1+Pow2(X[0])+Pow2(X[1]))` -/
def dd (L : Lib K) (X0 X1 : K) : K := L.sqrt (1 + X0 * X0 + X1 * X1)

/-- `x1` of the switch statements, coordinate_utilities.c:273-354 and 452-540 (same expressions in both maps) -/
def x1 (L : Lib K) (p : Patch K) (X0 X1 : K) : K :=
  let S := sgn p.side
  match p.type with
  | .obScs => S * (if p.xc1 = L.big then p.R1f X0 X1 / dd L X0 X1 else p.xc1)
  | .otScs => S * (if p.xc1 = L.big then p.R1f X0 X1 / dd L X0 X1 else p.xc1)
  | .nsCs => p.xc1
  | .srCs => S * p.R1f X0 X1 / dd L X0 X1
  | .otT1 => p.xc1
  | .otT2 => S * p.R1 / dd L X0 X1

/-- `x2` (types OB_T_SCS, NS_T_CS, SR_T_CS) -/
def x2 (L : Lib K) (p : Patch K) (X0 X1 : K) : K :=
  let S := sgn p.side
  match p.type with
  | .obScs => S * (if p.xc2 = L.big then p.R2f X0 X1 / dd L X0 X1 else p.xc2)
  | .nsCs => S * p.R2f X0 X1 / dd L X0 X1
  | .srCs => p.xc2
  | _ => 0

/-- `ratio` (types OT_T_SCS, OT_T1_CS, OT_T2_CS) -/
def ratio (L : Lib K) (p : Patch K) (X0 X1 : K) : K :=
  match p.type with
  | .otScs => 1 - p.R1f X0 X1 / p.R2f X0 X1
  | .otT1 => 1 - sgn p.side * dd L X0 X1 * p.xc1 / p.R2
  | .otT2 => 1 - p.R1 / p.R2
  | _ => 0

/-- the types whose third coordinate is linear in the Cartesian one -/
def linear : CType → Bool
  | .obScs | .nsCs | .srCs => true
  | _ => false

/-- coordinate_utilities.c:271-357: the Cartesian point of X (no check) -/
def xOfX (L : Lib K) (p : Patch K) (X : Fin 3 → K) : Fin 3 → K :=
  let S : K := sgn p.side
  let (_, a, b, c) := perm p.side
  let A := x1 L p (X 0) (X 1)
  let xc := if linear p.type then A + (x2 L p (X 0) (X 1) - A) * X 2
            else A / (1 - ratio L p (X 0) (X 1) * X 2)
  fun i => if i = c then xc + p.c c else if i = a then S * xc * X 0 + p.c a
           else if i = b then S * xc * X 1 + p.c b else 0

/-- coordinate_utilities.c:446-543: X of a Cartesian point, before adjustments -/
def rawX (L : Lib K) (p : Patch K) (cart : Fin 3 → K) : Fin 3 → K :=
  let S : K := sgn p.side
  let (_, i, j, k) := perm p.side
  let x := fun l => cart l - p.c l
  let X0 := S * x i / x k
  let X1 := S * x j / x k
  let A := x1 L p X0 X1
  let X2 := if linear p.type then (x k - A) / (x2 L p X0 X1 - A) else (1 - A / x k) / ratio L p X0 X1
  fun l => if l = 0 then X0 else if l = 1 then X1 else X2

/-- coordinate_utilities.c:546-553 (and 411-418): snap to the boundary values when equal up to round-off `e` -/
def snap (e mn mx v : K) : K :=
  let v := if Tol.eql e v mx then mx else v
  if Tol.eql e v mn then mn else v

/-- all three coordinates snapped -/
def adjust (e : K) (p : Patch K) (X : Fin 3 → K) : Fin 3 → K := fun l => snap e (p.mn l) (p.mx l) (X l)

/-- coordinate_utilities.c:580-581: push X[2] into the box -/
def push2 (p : Patch K) (X : Fin 3 → K) : Fin 3 → K := fun l =>
  if l = 2 then
    let v := if X 2 > p.mx 2 then p.mx 2 else X 2
    if v < p.mn 2 then p.mn 2 else v
  else X l

/-- coordinate_utilities.c:571-572 (MaxMag_d of two norms, at least 1) -/
def scale (u v : K) : K :=
  let s0 := if u > v then u else v
  if s0 < 1 then 1 else s0

/-- coordinate_utilities.c:425-585 X_of_x with check_flg = 1.  `nrm` is root_square(3,.,0) and `dst` the distance
root_square(3,.,.); EPS_coord_general * precision_factor is `eps`.  `none` = returns 0. -/
def XOfxCS (L : Lib K) (e eps : K) (nrm : (Fin 3 → K) → K) (dst : (Fin 3 → K) → (Fin 3 → K) → K)
    (p : Patch K) (cart : Fin 3 → K) : Option (Fin 3 → K) :=
  let X := adjust e p (rawX L p cart)
  if ¬ Tol.isInside eps X p.mn p.mx then none
  else
    let xt := xOfX L p X
    if Tol.eql e (dst cart xt / scale (nrm cart) (nrm xt)) 0 then some (push2 p X) else none

/-- coordinate_utilities.c:255-372 x_of_X with check_flg = 1 (its test calls X_of_x without check, whose last lines push
X[2] into the box) -/
def xOfXCS (L : Lib K) (e : K) (dst : (Fin 3 → K) → (Fin 3 → K) → K) (p : Patch K) (X : Fin 3 → K) :
    Option (Fin 3 → K) :=
  let x := xOfX L p X
  if Tol.eql e (dst X (push2 p (adjust e p (rawX L p x)))) 0 then some x else none

/-- coordinate_utilities.c:379-420 X_of_x for Cartesian patches -/
def XOfxCart (e h : K) (mn mx x : Fin 3 → K) : Option (Fin 3 → K) :=
  if Tol.isInside h x mn mx then some (fun l => snap e (mn l) (mx l) (x l)) else none

/-- coordinate_utilities.c:592-612 find_node, the loop over the nodes: distances `nrm` in node order, current index,
current (found index, res) -/
def findNodeLoop (h : K) : List K → Nat → Option Nat × K → Option Nat × K
  | [], _, acc => acc
  | d :: ds, i, (v, res) =>
    if Tol.lssEql h d res then findNodeLoop h ds (i + 1) (some i, d) else findNodeLoop h ds (i + 1) (v, res)

/-- coordinate_utilities.c:592-612: `nx` = |x|, `ec` = EPS_collocation, `e` round-off -/
def findNode (e ec h nx : K) (ds : List K) : Option Nat :=
  let r0 := ec * nx
  (findNodeLoop h ds 0 (none, if Tol.grt e r0 ec then r0 else ec)).1

end Elliptica.Coord
