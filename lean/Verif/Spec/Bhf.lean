import Mathlib.Algebra.Polynomial.Derivative
import Mathlib.Algebra.Polynomial.Degree.Defs
import Mathlib.Analysis.Calculus.FDeriv.Basic
import Mathlib.Analysis.Calculus.FDeriv.Pi
import Mathlib.Data.Real.Basic
/-!
What the user expects of the black-hole filler, independently of the code.
-/
namespace Elliptica.BhfSpec
open Polynomial

/-- A polynomial of degree at most 5 in the radius that starts at the centre with the value v0 and no slope, and that has
the value v, the slope s, the second derivative k and no third derivative at the radius R. -/
structure Joins (p : ℝ[X]) (v0 R v s k : ℝ) : Prop where
  deg : p.natDegree ≤ 5
  center : p.eval 0 = v0
  center1 : (derivative p).eval 0 = 0
  surf : p.eval R = v
  surf1 : (derivative p).eval R = s
  surf2 : (derivative (derivative p)).eval R = k
  surf3 : (derivative (derivative (derivative p))).eval R = 0

/-- the point at the distance s from c in the direction N -/
def ray (c N : Fin 3 → ℝ) (s : ℝ) : Fin 3 → ℝ := fun i => c i + s * N i

/-- f is twice differentiable with the partial derivatives F and the second partial derivatives H -/
structure Smooth (f : (Fin 3 → ℝ) → ℝ) (F : Fin 3 → (Fin 3 → ℝ) → ℝ) (H : Fin 3 → Fin 3 → (Fin 3 → ℝ) → ℝ) : Prop where
  first : ∀ x, HasFDerivAt f (∑ i, F i x • ContinuousLinearMap.proj (R := ℝ) (φ := fun _ : Fin 3 => ℝ) i) x
  second : ∀ i x, HasFDerivAt (F i) (∑ j, H i j x • ContinuousLinearMap.proj (R := ℝ) (φ := fun _ : Fin 3 => ℝ) j) x
  symm : ∀ i j x, H i j x = H j i x
  cont : ∀ i j, Continuous (H i j)

end Elliptica.BhfSpec
