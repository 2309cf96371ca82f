import Verif.Model.Gen.Fluid
import Verif.Model.Tol
import Verif.Model.EoS
/-!
The decisions the code takes around the generated formulas of the fluid.
`isfinite` is decided by the operations that make the value of the formula infinite or not a number in
floating point: a division by zero and the root of a negative number.
-/
namespace Elliptica.Fluid
open Elliptica.Gen.Fluid

open Classical in
/-- Tij_NS_ifluid_xcts_gConf_enthalpy.c:85-94: the enthalpy of a node from the Euler constant, 1 where
the formula has no finite value (psi = 0, alpha = 0, a negative argument of a root) -/
noncomputable def enthalpyOf (x : In) : ℝ :=
  if x.psi = 0 ∨ Enth.alpha x = 0 ∨ -4 * (Enth.alpha x) ^ 4 * (Enth.uW x) ^ 2 + (Enth.b x) ^ 2 < 0 ∨ Enth.h2 x < 0 then 1
  else Enth.h x

open Classical in
/-- star_NS_baryonic_gConf_mass.c:93-113: the integrand of the baryonic mass at a node; `dens` is the
rest mass density the equation of state returns at an enthalpy, `e` is ROUND_OFF_ERR -/
noncomputable def massIntegrand (e : ℝ) (dens : ℝ → ℝ) (x : In) : ℝ :=
  if x.psi = 0 ∨ Mass.alpha x = 0 ∨ -4 * (Mass.alpha x) ^ 4 * (Mass.uW x) ^ 2 + (Mass.b x) ^ 2 < 0 ∨ Mass.h2 x < 0
      ∨ Tol.lssEql e (Mass.h x) 1 = true then 0 * 0 * Mass.alpha x * Mass.psi6 x
  else dens (Mass.h x) * Mass.u0 x * Mass.alpha x * Mass.psi6 x

/-- star_NS_ifluid_gConf_force_bal.c:158-162, with star_NS_ifluid_gConf_dLnGamma.c:104-109 for
`dLnGamma` = dG/G: the value of the root function, from G and Gtilda and their derivatives along the
direction at the centre -/
noncomputable def forceBalance (g dg gt dgt : ℝ) : ℝ := dgt / gt + 2 * (dg / g)

/-- Tij_NS_ifluid_xcts_gConf_update.c:180-195 `Tij_NS_neat_enthalpy` at a node -/
noncomputable def neat (e h : ℝ) : ℝ := if Tol.lssEql e h 1 = true then 1 else h

/-- Tij_NS_ifluid_xcts_gConf_update.c:118-135, 149-166: a field filled from the equation of state, 0 where the value is not
finite (`Res.ub` of the functions of a polytrope: see `EoS.cpow`); the optional spectral filter that follows is not
modelled -/
noncomputable def fromEos (r : Res ℝ) : Res ℝ :=
  match r with
  | .ub => .ok 0
  | r => r

/-- Tij_NS_ifluid_xcts_gConf_update.c:36-43 at a node: the enthalpy after an update; with the parameter enthalpy_neat the
weight is 0 (line 17) and the old value is only made neat; `w` is the weight otherwise, RELAX_UPDATE_FUNC of
macros_lib.h takes W·new + (1-W)·old -/
noncomputable def newEnthalpy (e : ℝ) (neatIt : Bool) (w : ℝ) (x : In) : ℝ :=
  let W := if neatIt then 0 else w
  let h := if Tol.eql e W 0 = true then x.enthalpy else W * enthalpyOf x + (1 - W) * x.enthalpy
  if neatIt then neat e h else h

end Elliptica.Fluid
