import Verif.Model.Coord
import Mathlib.Analysis.SpecialFunctions.Trigonometric.Arctan
import Mathlib.Analysis.SpecialFunctions.Trigonometric.Inverse
/-!
Model of the angles of cubed-sphere points: Src/Main/Modules/Maths/General/general.c:356-428 and
Src/Main/Modules/Manifold/coordinate_utilities.c:671-710, 955-997, 1043-1145.  Over `ℝ`; libm's functions are the
mathematical ones; `e` is ROUND_OFF_ERR.
-/
namespace Elliptica.Angles
open Coord Real

/-- general.c:358-389 `arctan` -/
noncomputable def arctan (e y x : ℝ) : ℝ :=
  if Tol.eql e x 0 then
    if Tol.eql e y 0 then 0 else if y > 0 then π / 2 else 3 * π / 2
  else if x > 0 then
    if Tol.eql e y 0 then 0 else if y > 0 then Real.arctan (y / x) else 2 * π - Real.arctan (-y / x)
  else
    if Tol.eql e y 0 then π else if y > 0 then π - Real.arctan (y / -x) else π + Real.arctan (-y / -x)

/-- coordinate_utilities.c:674-710 theta_phi_of_XY_CS and 959-997 find_theta_phi_of_XYZ_CS (identical switch):
(theta, phi) -/
noncomputable def thetaPhi (e : ℝ) (s : Side) (a b : ℝ) : ℝ × ℝ :=
  let d := Real.sqrt (1 + a * a + b * b)
  match s with
  | .up => (arccos (1 / d), arctan e b a)
  | .down => (arccos (-1 / d), arctan e a b)
  | .left => (arccos (b / d), arctan e (-1) a)
  | .right => (arccos (a / d), arctan e 1 b)
  | .back => (arccos (a / d), arctan e b (-1))
  | .front => (arccos (b / d), arctan e a 1)

/-- general.c:394-428 `arctan_argument_signum`: (sign of y, sign of x), or the program stops -/
noncomputable def argSign (e phi : ℝ) : Res (ℝ × ℝ) :=
  if phi < 0 ∨ phi ≥ 2 * π then .abort
  else if Tol.grtEql e phi 0 && Tol.lssEql e phi (π / 2) then .ok (1, 1)
  else if Tol.grtEql e phi (π / 2) && Tol.lssEql e phi π then .ok (1, -1)
  else if Tol.grtEql e phi π && Tol.lssEql e phi (3 * π / 2) then .ok (-1, -1)
  else if Tol.grtEql e phi (3 * π / 2) && Tol.lss e phi (2 * π) then .ok (-1, 1)
  else .abort

/-- coordinate_utilities.c:1078-1107: magnitudes (a,b) -/
noncomputable def magnitudes (s : Side) (theta phi : ℝ) : ℝ × ℝ :=
  let t := tan phi
  let t2 := t * t
  let c2 := cos theta * cos theta
  match s with
  | .up => (√((1 - c2) / (c2 + c2 * t2)), t * √((1 - c2) / (c2 * (1 + t2))))
  | .down => (t * √((1 - c2) / (c2 * (1 + t2))), √((1 - c2) / (c2 + c2 * t2)))
  | .left => (1 / t, √((c2 + c2 * t2) / ((1 - c2) * t2)))
  | .right => (√((c2 + c2 * t2) / ((1 - c2) * t2)), 1 / t)
  | .back => (√((c2 + c2 * t2) / (1 - c2)), t)
  | .front => (t, √((c2 + c2 * t2) / (1 - c2)))

/-- coordinate_utilities.c:1112-1140: signs (a_sign,b_sign) -/
noncomputable def signs (e : ℝ) (s : Side) (theta phi : ℝ) : Res (ℝ × ℝ) :=
  let z : ℝ := if cos theta > 0 then 1 else -1
  (argSign e phi).bind fun (ys, xs) =>
    .ok (match s with
      | .up => (xs, ys)
      | .down => (ys, xs)
      | .left => (xs, z)
      | .right => (z, xs)
      | .back => (z, ys)
      | .front => (ys, z))

/-- coordinate_utilities.c:1142-1143: the candidate X[0], X[1] on a side -/
noncomputable def XYofAngles (e : ℝ) (s : Side) (theta phi : ℝ) : Res (ℝ × ℝ) :=
  (signs e s theta phi).bind fun (as, bs) =>
    let (a, b) := magnitudes s theta phi
    .ok (|a| * as, |b| * bs)

end Elliptica.Angles
