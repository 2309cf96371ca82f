import Verif.Spec.Deriv
import Verif.Spec.Erfc
import Mathlib.Analysis.SpecialFunctions.Log.Basic
import Mathlib.RingTheory.Polynomial.Chebyshev
/-!
Vocabulary of C83: the Chebyshev expansion of the values on a patch.
-/
namespace Elliptica.Filter
open Finset Polynomial Elliptica.Deriv

/-- the unit coordinate in [-1,1] of the i-th point of direction d (the least patch coordinate is 1, the greatest -1) -/
noncomputable def unit (p : Patch) (d : Fin 3) (i : ℕ) : ℝ := (2 * ptv p d i - (p.mx d + p.mn d)) / (p.mn d - p.mx d)

/-- at every grid point the value is Σ c_ijk T_i(ξ) T_j(η) T_k(ζ), with the Chebyshev polynomials of degree less than the number
of points of each direction -/
def Expands (p : Patch) (v : Coeff.Data ℝ) (c : ℕ → ℕ → ℕ → ℝ) : Prop :=
  ∀ t, Inside p t → v (idx p t) = ∑ i ∈ range (p.n 0), ∑ j ∈ range (p.n 1), ∑ k ∈ range (p.n 2),
    c i j k * ((Chebyshev.T ℝ i).eval (unit p 0 (t 0)) * (Chebyshev.T ℝ j).eval (unit p 1 (t 1)) *
      (Chebyshev.T ℝ k).eval (unit p 2 (t 2)))

/-- J. P. Boyd, The Erfc-Log Filter (1996), equation (15): σ(θ) = ½ erfc( 2 √p θ̄ √(-log(1-4θ̄²) / (4θ̄²)) ), θ̄ = |θ| - ½ -/
noncomputable def boyd (p : ℕ) (th : ℝ) : ℝ :=
  erfc (2 * Real.sqrt p * (|th| - 1 / 2) * Real.sqrt (-Real.log (1 - 4 * (|th| - 1 / 2) ^ 2) / (4 * (|th| - 1 / 2) ^ 2))) / 2

end Elliptica.Filter
