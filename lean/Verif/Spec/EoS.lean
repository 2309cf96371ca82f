import Mathlib.Analysis.SpecialFunctions.Pow.Deriv
/-!
Vocabulary of C58: cold matter with a piecewise polytropic pressure.
-/
namespace Elliptica.EoS
open Set Filter Topology

/-- the densities of piece i of N pieces with thresholds rho 1 < ... < rho (N-1) -/
def Piece (N : ℕ) (rho : ℕ → ℝ) (i : ℕ) : Set ℝ :=
  {r | 0 < r ∧ (1 ≤ i → rho i ≤ r) ∧ (i + 1 < N → r ≤ rho (i + 1))}

/-- its interior -/
def Inner (N : ℕ) (rho : ℕ → ℝ) (i : ℕ) : Set ℝ :=
  {r | 0 < r ∧ (1 ≤ i → rho i < r) ∧ (i + 1 < N → r < rho (i + 1))}

/-- pressure p and specific internal energy u of the density: a power law with exponent g i on each (closed) piece, with
constant K0 on the first; u is continuous, vanishes at zero density and obeys the first law du = p/r² dr -/
structure Matter (N : ℕ) (g : ℕ → ℝ) (K0 : ℝ) (rho : ℕ → ℝ) (p u : ℝ → ℝ) : Prop where
  power : ∀ i < N, ∃ C, ∀ r ∈ Piece N rho i, p r = C * r ^ g i
  first : ∀ r ∈ Piece N rho 0, p r = K0 * r ^ g 0
  cont : ∀ i < N, ContinuousOn u (Piece N rho i)
  law : ∀ i < N, ∀ r ∈ Inner N rho i, HasDerivAt u (p r / r ^ 2) r
  zero : Tendsto u (𝓝[>] 0) (𝓝 0)

/-- specific enthalpy -/
noncomputable def enthalpy (p u : ℝ → ℝ) (r : ℝ) : ℝ := 1 + u r + p r / r

/-- usable parameters: exponents above 1, a positive constant, positive increasing thresholds -/
structure Usable (N : ℕ) (g : ℕ → ℝ) (K0 : ℝ) (rho : ℕ → ℝ) : Prop where
  pos : 0 < N
  gam : ∀ i < N, 1 < g i
  kap : 0 < K0
  thr : 1 < N → 0 < rho 1
  inc : ∀ i, 1 ≤ i → i + 1 < N → rho i < rho (i + 1)

end Elliptica.EoS
