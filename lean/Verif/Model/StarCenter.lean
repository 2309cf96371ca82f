import Verif.Model.Common
import Verif.Model.Text
import Verif.Model.Tol
import Verif.Model.Interp
import Verif.Model.Tov
import Verif.Spec.Fields
/-!
Model of Src/Main/Modules/Physics/Star/star_NS.c: the centre of the star, the spin part of the velocity and the start-off from a
solution of the TOV equations, over `ℝ`.  The functions on the patches are functions on space: the interpolation of the enthalpy is
taken to return the enthalpy (C41).
-/
namespace Elliptica.Star
open Elliptica.Fields Elliptica.Text

/-- what a call of the root finder leaves behind: success, solution slot, residual -/
structure Found where
  ok : Bool
  x : Pt
  residual : ℝ

/-- star_NS.c:830-878 `star_NS_find_where_denthalpy_is_0` (the equations 886-984 enter through the outcome of the search); the present centre is the guess -/
noncomputable def findCenter (e tol : ℝ) (C : Pt) (o : Found) : Pt := if o.ok ∨ Tol.lss e o.residual √tol then o.x else C

/-- star_NS.c:756, 1019: the centre has not moved -/
noncomputable def still (e : ℝ) (C R : Pt) : Bool := Tol.eql e (R 0 - C 0) 0 && Tol.eql e (R 1 - C 1) 0 && Tol.eql e (R 2 - C 2) 0

/-- star_NS.c:735-826 `adjust_NS_center_interpolation`; `inside` says that a patch is found for a point, with or without force -/
noncomputable def byInterpolation (e W : ℝ) (C R : Pt) (inside : Pt → Bool) (h : Pt → ℝ) : Pt → ℝ :=
  if still e C R then h
  else fun x =>
    let y : Pt := fun i => x i + (R i - C i)
    if inside y then (1 - W) * h x + W * h y else h x

/-- star_NS.c:988-1052 `adjust_NS_center_Taylor_expansion`; `found`: the centre is in a patch; `dh`: the derivatives at the centre -/
noncomputable def byTaylor (e W : ℝ) (C R : Pt) (found : Bool) (dh : Fin 3 → ℝ) (h : Pt → ℝ) : Res (Pt → ℝ) :=
  if still e C R then .ok h
  else if !found then .abort
  else .ok fun x => h x - W * (dh 0 * (x 0 - C 0) + dh 1 * (x 1 - C 1) + dh 2 * (x 2 - C 2))

/-- star_NS.c:13-103 `star_NS_keep_center_fixed`; `dh` is the derivative of a function at the centre -/
noncomputable def keepCenter (e W tol : ℝ) (C : Pt) (found : Bool) (inside : Pt → Bool) (D : (Pt → ℝ) → Fin 3 → ℝ) (method : Str)
    (o : Found) (h : Pt → ℝ) : Res (Pt → ℝ) :=
  if !found then .abort
  else if strcmpI (some method) (some "Interpolation".toList) then .ok (byInterpolation e W C (findCenter e tol C o) inside h)
  else if strcmpI (some method) (some "Taylor_expansion".toList) then byTaylor e W C (findCenter e tol C o) found (D h) h
  else .abort

/-- star_NS.c:425-445 `W_spin_vector_idealfluid`, 1126-1128 -/
noncomputable def spinW (Om C : Fin 3 → ℝ) (p : Pt) : Fin 3 → ℝ :=
  let x := p 0 - C 0
  let y := p 1 - C 1
  let z := p 2 - C 2
  ![Om 1 * z - Om 2 * y, Om 2 * x - Om 0 * z, Om 0 * y - Om 1 * x]

/-- star_NS.c:1092, 1144: the distance from the centre -/
noncomputable def dist (C p : Pt) : ℝ := √((p 0 - C 0) ^ 2 + (p 1 - C 1) ^ 2 + (p 2 - C 2) ^ 2)

/-- the fields of a star at a point -/
structure Fluid where
  psi : ℝ
  alphaPsi : ℝ
  h : ℝ
  rho0 : ℝ
  phi : ℝ
  W : Fin 3 → ℝ

/-- star_NS.c:1123 the velocity potential; `Om` is the angular velocity of the system -/
noncomputable def startPhi (Om yCM : ℝ) (C p : Pt) : ℝ := -Om * (C 1 - yCM) * (p 0 - C 0)

/-- star_NS.c:1086-1129: a point inside the star.  Outside of the table the spline returns DBL_MAX; what becomes of it is not
modelled (`.ub`).  A star without mass has no table: a null pointer is read -/
noncomputable def startInside (e : ℝ) (N : ℕ) (t : Tov.Out) (rho0 : ℝ → ℝ) (Om yCM : ℝ) (spin : Fin 3 → ℝ) (C p : Pt) : Res Fluid :=
  match t.prof, t.rest with
  | some pr, some re =>
    (Interp.spline e N re.rbar re.psi (dist C p)).bind fun psi =>
    (Interp.spline e N re.rbar pr.h (dist C p)).bind fun h =>
      match psi, h with
      | some psi, some h =>
        let alpha := √(1 - 2 * t.admM / pr.r (N - 1)) / h
        .ok ⟨psi, psi * alpha, h, rho0 h, startPhi Om yCM C p, spinW spin C p⟩
      | _, _ => .ub
  | _, _ => .ub

/-- star_NS.c:1136-1155: a point outside the star, psi and alphaPsi -/
noncomputable def startOutside (M : ℝ) (C p : Pt) : ℝ × ℝ :=
  let r := dist C p
  let psi := 1 + 0.5 * M / r
  let alpha := (1 - 0.5 * M / r) / (1 + 0.5 * M / r)
  (psi, psi * alpha)

end Elliptica.Star
