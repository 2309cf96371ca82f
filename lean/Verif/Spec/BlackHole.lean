import Verif.Spec.Ks
import Verif.Spec.Adm
/-!
Specification of the quantities of a black hole.
-/
namespace Elliptica.BhSpec
open Elliptica.Adm

/-- Kerr: mass M, spin parameter a and irreducible mass; the area of the horizon, 8πM r₊, is 16π irr² -/
structure Kerr (M a irr : ℝ) : Prop where
  sub : a ^ 2 ≤ M ^ 2
  area : 2 * irr ^ 2 = M * KsSpec.horizon M a

/-- the expansion of the outgoing light rays on a surface with the unit normal s (`ds i j` = ∂_j s^i), in a slice with the metric g, the connection c,
the extrinsic curvature K_ij: Θ = D_i s^i + K_ij s^i s^j - K -/
noncomputable def expansion (c : Fin 3 → Fin 3 → Fin 3 → ℝ) (s : Fin 3 → ℝ) (ds : Fin 3 → Fin 3 → ℝ) (K : Fin 3 → Fin 3 → ℝ) (trK : ℝ) : ℝ :=
  (∑ i, cov c s ds i i) + (∑ i, ∑ j, K i j * s i * s j) - trK

/-- the connection of the metric ψ⁴ h, from that of h: Γ^k_ij + (2/ψ)(δ^k_i ∂_jψ + δ^k_j ∂_iψ - h_ij h^kl ∂_lψ) -/
noncomputable def confChris (h hi : Fin 3 → Fin 3 → ℝ) (c : Fin 3 → Fin 3 → Fin 3 → ℝ) (psi : ℝ) (dpsi : Fin 3 → ℝ) (k i j : Fin 3) : ℝ :=
  c k i j + 2 / psi * ((if k = i then dpsi j else 0) + (if k = j then dpsi i else 0) - h i j * ∑ l, hi k l * dpsi l)

/-- positive definite -/
def PosDef (g : Fin 3 → Fin 3 → ℝ) : Prop := ∀ v : Fin 3 → ℝ, v ≠ 0 → 0 < ∑ i, ∑ j, g i j * v i * v j

/-- the scalar product -/
noncomputable def inner3 (g : Fin 3 → Fin 3 → ℝ) (u v : Fin 3 → ℝ) : ℝ := ∑ i, ∑ j, g i j * u i * v j

/-- v × w -/
def cross (v w : Fin 3 → ℝ) : Fin 3 → ℝ := ![v 1 * w 2 - v 2 * w 1, v 2 * w 0 - v 0 * w 2, v 0 * w 1 - v 1 * w 0]

end Elliptica.BhSpec
