import Mathlib.Algebra.Polynomial.Derivative
/-!
What a natural cubic spline is (specification, independent of the code).
-/
namespace Elliptica.Spec
open Polynomial

/-- `P 0 … P (n-1)` is a natural cubic spline through the `n+1` points (x i, f i): cubic pieces that take the data values at
both ends of their segment, with equal first and second derivatives where they meet, and no curvature at the two ends. -/
structure NaturalSpline {K : Type} [Field K] (n : ℕ) (x f : ℕ → K) (P : ℕ → K[X]) : Prop where
  cubic : ∀ i < n, (P i).natDegree ≤ 3
  left : ∀ i < n, (P i).eval (x i) = f i
  right : ∀ i < n, (P i).eval (x (i + 1)) = f (i + 1)
  slope : ∀ i, i + 1 < n → (derivative (P i)).eval (x (i + 1)) = (derivative (P (i + 1))).eval (x (i + 1))
  curv : ∀ i, i + 1 < n → (derivative (derivative (P i))).eval (x (i + 1)) = (derivative (derivative (P (i + 1)))).eval (x (i + 1))
  first : (derivative (derivative (P 0))).eval (x 0) = 0
  last : (derivative (derivative (P (n - 1)))).eval (x n) = 0

end Elliptica.Spec
