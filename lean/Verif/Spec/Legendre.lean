import Mathlib.Algebra.Polynomial.Derivative
import Mathlib.Analysis.SpecialFunctions.Trigonometric.Basic
/-!
Legendre polynomials (Rodrigues' formula), associated Legendre functions and spherical harmonics, by their textbook
definitions.
-/
namespace Elliptica.Legendre
open Polynomial Nat

/-- Rodrigues: P_l = 1/(2^l l!) d^l/dx^l (x² - 1)^l -/
noncomputable def legendre (l : ℕ) : ℝ[X] := C (1 / (2 ^ l * (l ! : ℝ))) * derivative^[l] ((X ^ 2 - 1) ^ l)

/-- P_l^m(x) = (-1)^m (1-x²)^{m/2} d^m/dx^m P_l(x), with the Condon-Shortley phase -/
noncomputable def assoc (l m : ℕ) (x : ℝ) : ℝ := (-1) ^ m * √(1 - x ^ 2) ^ m * (derivative^[m] (legendre l)).eval x

/-- Y_l^m(θ,φ) = √((2l+1)/(4π) (l-m)!/(l+m)!) P_l^m(cos θ) e^{imφ} for m ≥ 0, and (-1)^m times the conjugate of Y_l^{|m|}
for m < 0 -/
noncomputable def Y (l : ℕ) (m : ℤ) (θ φ : ℝ) : ℂ :=
  let k := m.natAbs
  let N : ℝ := √((2 * l + 1) / (4 * Real.pi) * ((l - k)! / (l + k)!))
  if 0 ≤ m then N * assoc l k (Real.cos θ) * Complex.exp (Complex.I * k * φ)
  else (-1) ^ k * (starRingEnd ℂ) (N * assoc l k (Real.cos θ) * Complex.exp (Complex.I * k * φ))

end Elliptica.Legendre
