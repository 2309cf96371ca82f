import Verif.Model.Assemble
import Verif.Model.Sewing
import Mathlib.Analysis.SpecialFunctions.Pow.Real
import Mathlib.Analysis.SpecialFunctions.Exp
/-!
Model of the project Poisson0, Src/Projects/Poissons/Poisson0: the equation ∇²α = -3 (1 + r²)^(-5/2) with the value
(1 + r²)^(-1/2) on the boundary, its Jacobian, the initial guess and the field the answer is compared with.
`double` is ℝ; `x ijk` are the Cartesian coordinates patch->node[ijk]->x.
-/
namespace Elliptica.Poisson
open Real Elliptica.Deriv Elliptica.Jac Elliptica.Schur

variable (e : ℝ)

/-- pow(x,2) + pow(y,2) + pow(z,2) + 1 -/
noncomputable def rho (x : Fin 3 → ℝ) : ℝ := x 0 ^ 2 + x 1 ^ 2 + x 2 ^ 2 + 1

/-- poisson0_ddm_schur_eq_alpha.c:12-39 `eq_alpha`: the three second derivatives (from the same field, whose coefficients
are kept), then F_eq at every node -/
noncomputable def eqAlpha (p : Patch) (x : ℕ → Fin 3 → ℝ) (f : Coeff.St ℝ) : Res (Coeff.St ℝ × (ℕ → ℝ)) :=
  (takeDer e p f [.x 0, .x 0]).bind fun a =>
  (takeDer e p a.1 [.x 1, .x 1]).bind fun b =>
  (takeDer e p b.1 [.x 2, .x 2]).bind fun c =>
  .ok (c.1, fun ijk => a.2 ijk + b.2 ijk + c.2 ijk + 3 * rho (x ijk) ^ (-2.5 : ℝ))

/-- poisson0_ddm_schur_bc.c:23-25 outerB_F -/
noncomputable def bcOuter (x : ℕ → Fin 3 → ℝ) (v : ℕ → ℝ) (ijk : ℕ) : ℝ := v ijk - rho (x ijk) ^ (-0.5 : ℝ)

/-- poisson0_ddm_schur_bc.c:36-38 innerB_F -/
noncomputable def bcInner (x : ℕ → Fin 3 → ℝ) (v : ℕ → ℝ) (ijk : ℕ) : ℝ := v ijk - rho (x ijk) ^ (-0.5 : ℝ)

/-- poisson0_ddm_schur_jacobian_eq.c:22-28 Bpart; `ws` is the previous content of the Jacobian workspace -/
noncomputable def jacB (p : Patch) (ws : Pts) (ijk lmn : ℕ) : ℝ :=
  entry2 e p ws 0 ijk lmn + entry2 e p ws 3 ijk lmn + entry2 e p ws 5 ijk lmn

/-- poisson0_ddm_schur_jacobian_eq.c:36-42 Epart -/
noncomputable def jacE (p : Patch) (ws : Pts) (ijk lmn : ℕ) : ℝ :=
  entry2 e p ws 0 ijk lmn + entry2 e p ws 3 ijk lmn + entry2 e p ws 5 ijk lmn

/-- poisson0_ddm_schur_jacobian_bc.c:24-25, 45-46 kd[ijk==lmn] -/
noncomputable def jacBcB (ijk lmn : ℕ) : ℝ := if ijk = lmn then 1 else 0

/-- poisson0_ddm_schur_jacobian_bc.c:34-35, 55-56 -/
noncomputable def jacBcE (_ _ : ℕ) : ℝ := 0

/-- the part of a patch used here: grid, nodes, labels, flags -/
structure Dom extends Sew.Dom where
  x : ℕ → Fin 3 → ℝ
  outerB : Bool
  innerB : Bool

/-- the number of nodes in a direction -/
def Dom.n (d : Dom) (i : ℕ) : ℕ := d.P.n (ax i)

/-- `make_f` with the functions of the project; the field enters with whatever coefficients it has -/
noncomputable def residual (d : Dom) (f : Coeff.St ℝ) : Res (ℕ → ℝ) :=
  (eqAlpha e d.P d.x f).bind fun r =>
    makeF d.L (innerCount d.n) (d.sfs.map (·.toSubFace)) r.2 (pick d.outerB d.innerB (bcOuter d.x f.v) (bcInner d.x f.v))

/-- `making_B_and_E` with the functions of the project -/
noncomputable def matrices (d : Dom) (ws : Pts) : (ℕ × ℕ → ℝ) × (ℕ × ℕ → ℝ) :=
  makeBE d.L (innerCount d.n) d.NS (nn d.P) (jacB e d.P ws) (jacE e d.P ws) (pick d.outerB d.innerB (jacBcB, jacBcE) (jacBcB, jacBcE))

/-- poisson0_initial_data.c:12-31: the initial guess -/
noncomputable def guess (x : Fin 3 → ℝ) : ℝ :=
  let r2 := x 0 ^ 2 + x 1 ^ 2 + x 2 ^ 2
  1 / sqrt (r2 + 1) + 0.1 * exp (-sqrt r2)

/-- poisson0_analyze.c:25-29 alpha_real -/
noncomputable def real (x : Fin 3 → ℝ) : ℝ := 1 / sqrt (x 0 ^ 2 + x 1 ^ 2 + x 2 ^ 2 + 1)

end Elliptica.Poisson
