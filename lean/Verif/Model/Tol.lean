import Verif.Model.Common
import Mathlib.Algebra.Order.Field.Basic
/-!
Model of the comparisons "up to round-off": Src/Main/Core/core_lib.h:27-33, and (with `e` = h) of the
`*_coord` macros, Src/Main/Modules/Manifold/coordinate_utilities.h:25-29.  `double` is an exact ordered
field `K`.
-/
namespace Elliptica.Tol

variable {K : Type} [Field K] [LinearOrder K]

/-- core_lib.h:29 LSS; coordinate_utilities.h:25 -/
def lss (e x y : K) : Bool := decide (x < y - e)
/-- core_lib.h:30 GRT; coordinate_utilities.h:26 -/
def grt (e x y : K) : Bool := decide (x > y + e)
/-- core_lib.h:31 EQL; coordinate_utilities.h:27 -/
def eql (e x y : K) : Bool := decide (x < y + e) && decide (x > y - e)
/-- core_lib.h:32 LSSEQL; coordinate_utilities.h:28 -/
def lssEql (e x y : K) : Bool := lss e x y || eql e x y
/-- core_lib.h:33 GRTEQL; coordinate_utilities.h:29 -/
def grtEql (e x y : K) : Bool := grt e x y || eql e x y

/-- coordinate_utilities.h:32-35 `IsInside`: a point in the box [min,max] up to h -/
def isInside (h : K) (x mn mx : Fin 3 → K) : Bool :=
  lssEql h (x 0) (mx 0) && grtEql h (x 0) (mn 0) && lssEql h (x 1) (mx 1) && grtEql h (x 1) (mn 1) &&
    lssEql h (x 2) (mx 2) && grtEql h (x 2) (mn 2)

/-- useful_functions.c:152-189 `check_interface` for face `u` = 0..5 (I_0,I_n0,J_0,J_n1,K_0,K_n2).
`face u` is the coordinate of the first point of face `u` across the face (patch->node[ind]->X[u/2]),
`nrm` is root_square(3,X,0), `eps` is EPS of useful_functions.h:10 and `e` the round-off. -/
def checkInterface (e eps nrm : K) (face : Fin 6 → K) (X : Fin 3 → K) (u : Fin 6) : Bool :=
  let r0 := eps * nrm
  let res := if grt e r0 eps then r0 else eps
  let d := face u - X ⟨u.val / 2, by omega⟩
  lssEql e (if d < 0 then -d else d) res

/-- useful_functions.c:125-146 `IsOnFace`: flags and count.  `X` is what X_of_x_precision returned (`none`
when it reports that the point is not in the patch). -/
def isOnFace (e eps : K) (nrm : (Fin 3 → K) → K) (face : Fin 6 → K) (X : Option (Fin 3 → K)) :
    (Fin 6 → Bool) × Nat :=
  match X with
  | none => (fun _ => false, 0)
  | some X =>
    let f := checkInterface e eps (nrm X) face X
    (f, ((List.finRange 6).filter f).length)

end Elliptica.Tol
