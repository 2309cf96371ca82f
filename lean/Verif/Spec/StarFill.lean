import Mathlib.Analysis.Calculus.Deriv.Basic
import Mathlib.Data.Real.Basic
/-!
What the user expects of the continuation of a field outside a star, independently of the code.
-/
namespace Elliptica.StarFillSpec

/-- From the radius r0 on, g is a twice continuously differentiable function that has, at r0, the value v, the slope s and the
second derivative k (h is the same function, prolonged to all positive radii). -/
def Continues (g : ℝ → ℝ) (r0 v s k : ℝ) : Prop :=
  ∃ h h1 h2 : ℝ → ℝ, (∀ r, r0 ≤ r → h r = g r) ∧ (∀ r, 0 < r → HasDerivAt h (h1 r) r) ∧ (∀ r, 0 < r → HasDerivAt h1 (h2 r) r) ∧
    ContinuousOn h2 (Set.Ioi 0) ∧ h r0 = v ∧ h1 r0 = s ∧ h2 r0 = k

end Elliptica.StarFillSpec
