import Mathlib.Analysis.SpecialFunctions.Gaussian.GaussianIntegral
/-!
The complementary error function of libm.
-/
namespace Elliptica

/-- erfc(x) = 2/√π ∫_x^∞ exp(-t²) dt -/
noncomputable def erfc (x : ℝ) : ℝ := 2 / Real.sqrt Real.pi * ∫ t in Set.Ioi x, Real.exp (-t ^ 2)

end Elliptica
