import Mathlib.Analysis.Calculus.Deriv.Basic
import Mathlib.Analysis.Real.Pi.Bounds
import Mathlib.Analysis.SpecialFunctions.Exp
import Mathlib.Algebra.Module.Basic
/-!
What a relativistic star is, written down without reference to the program.
Units G = c = 1; the metric is -exp(2φ) dt² + dr²/(1-2m/r) + r² dΩ².
-/
namespace Elliptica.TovSpec
open Real

/-- one step of the classical Runge-Kutta method of fourth order for y' = f(t,y) -/
noncomputable def rk4 {V : Type*} [AddCommGroup V] [Module ℝ V] (f : ℝ → V → V) (s t : ℝ) (y : V) : V :=
  let k1 := f t y
  let k2 := f (t + s / 2) (y + (s / 2) • k1)
  let k3 := f (t + s / 2) (y + (s / 2) • k2)
  let k4 := f (t + s) (y + s • k3)
  y + (s / 6) • (k1 + (2 : ℝ) • k2 + (2 : ℝ) • k3 + k4)

/-- dΦ/dr of the TOV equations -/
noncomputable def grav (r m p : ℝ) : ℝ := (m + 4 * π * r ^ 3 * p) / (r * (r - 2 * m))

/-- The star at the layer with enthalpy `h`: radius `r`, enclosed mass `m` and the pressure `p`, all functions of the
enthalpy, obey dm = 4πr²e dr and hydrostatic equilibrium dp = -(e+p) Φ' dr -/
structure Tov (e p r m : ℝ → ℝ) (h : ℝ) : Prop where
  mass : HasDerivAt m (4 * π * r h ^ 2 * e h * deriv r h) h
  hydro : HasDerivAt p (-(e h + p h) * grav (r h) (m h) (p h) * deriv r h) h
  radius : DifferentiableAt ℝ r h

/-- the first law for a cold fluid of enthalpy h = (e+p)/ρ: dp = ρ dh -/
def FirstLaw (e p : ℝ → ℝ) (h : ℝ) : Prop := HasDerivAt p ((e h + p h) / h) h

/-- a layer that is neither the centre nor an horizon nor weightless -/
structure Layer (e p r m : ℝ → ℝ) (h : ℝ) : Prop where
  enthalpy : 0 < h
  rpos : 0 < r h
  horizon : 2 * m h < r h
  weight : 0 < m h + 4 * π * r h ^ 3 * p h
  matter : 0 < e h + p h

end Elliptica.TovSpec
