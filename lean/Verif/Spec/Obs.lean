import Verif.Spec.Adm
/-!
Specification of the global quantities of initial data: the integrands, as index formulas with sums.
-/
namespace Elliptica.ObsSpec
open Elliptica.Fields

/-- the divergence of a vector field: D_i V^i = ∂_i V^i + Γ^k_{ki} V^i -/
noncomputable def divergence (c : Fin 3 → Fin 3 → Fin 3 → Pt → ℝ) (V : Fin 3 → Pt → ℝ) (p : Pt) : ℝ :=
  ∑ i, (pd (V i) i p + ∑ k, c k k i p * V i p)

/-- integrand of the ADM mass: n^i γ^{jk} (∂_k γ_{ij} - ∂_i γ_{jk}); `d i j k` = ∂_k γ_{ij} -/
noncomputable def massFlux (gi : Fin 3 → Fin 3 → ℝ) (d : Fin 3 → Fin 3 → Fin 3 → ℝ) (n : Fin 3 → ℝ) : ℝ :=
  ∑ i, n i * ∑ j, ∑ k, gi j k * (d i j k - d j k i)

/-- the totally antisymmetric symbol -/
def eps : Fin 3 → Fin 3 → Fin 3 → ℝ
  | 0, 1, 2 => 1 | 1, 2, 0 => 1 | 2, 0, 1 => 1
  | 2, 1, 0 => -1 | 1, 0, 2 => -1 | 0, 2, 1 => -1
  | _, _, _ => 0

/-- the vector product -/
noncomputable def cross (u v : Fin 3 → ℝ) (a : Fin 3) : ℝ := ∑ b, ∑ c, eps a b c * u b * v c

/-- the covariant divergence of a mixed tensor: D_i T^i_j = ∂_i T^i_j + Γ^i_{ik} T^k_j - Γ^k_{ij} T^i_k -/
noncomputable def mixedDiv (c : Fin 3 → Fin 3 → Fin 3 → Pt → ℝ) (T : Fin 3 → Fin 3 → Pt → ℝ) (p : Pt) (j : Fin 3) : ℝ :=
  ∑ i, (pd (T i j) i p + ∑ k, (c i i k p * T k j p - c k i j p * T i k p))

end Elliptica.ObsSpec
