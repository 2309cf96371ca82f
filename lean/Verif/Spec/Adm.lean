import Mathlib.Algebra.BigOperators.Fin
import Mathlib.Analysis.Calculus.Deriv.Inv
import Mathlib.Tactic.Ring
import Mathlib.Analysis.SpecialFunctions.Trigonometric.Basic
import Verif.Spec.Fields
/-!
Specification of the 3+1 quantities of the initial data: index formulas with sums.
-/
namespace Elliptica.Adm
open Elliptica.Fields

/-- the covariant derivative D_k b^j, `db j k` = ∂_k b^j -/
noncomputable def cov (c : Fin 3 → Fin 3 → Fin 3 → ℝ) (b : Fin 3 → ℝ) (db : Fin 3 → Fin 3 → ℝ) (j k : Fin 3) : ℝ :=
  db j k + ∑ l, c j k l * b l

/-- the conformal Killing operator (Lb)^{ij} = D^i b^j + D^j b^i - (2/3) h^{ij} D_k b^k -/
noncomputable def killing (h : Fin 3 → Fin 3 → ℝ) (c : Fin 3 → Fin 3 → Fin 3 → ℝ) (b : Fin 3 → ℝ) (db : Fin 3 → Fin 3 → ℝ) (i j : Fin 3) : ℝ :=
  (∑ k, h i k * cov c b db j k) + (∑ k, h j k * cov c b db i k) - 2 / 3 * h i j * ∑ k, cov c b db k k

/-- D_j A^{ij} for a tensor A with `dA i j k` = ∂_k A^{ij} -/
noncomputable def divT (c : Fin 3 → Fin 3 → Fin 3 → ℝ) (A : Fin 3 → Fin 3 → ℝ) (dA : Fin 3 → Fin 3 → Fin 3 → ℝ) (i : Fin 3) : ℝ :=
  ∑ j, (dA i j j + ∑ k, (c i j k * A k j + c j j k * A i k))

/-- the momentum constraint of the conformal thin sandwich equations, times 2 α ψ:
`C` weights the geometric part against the source -/
noncomputable def momentum (h : Fin 3 → Fin 3 → ℝ) (c : Fin 3 → Fin 3 → Fin 3 → ℝ) (A : Fin 3 → Fin 3 → ℝ) (dA : Fin 3 → Fin 3 → Fin 3 → ℝ)
    (dK J : Fin 3 → ℝ) (psi alphaPsi C : ℝ) (i : Fin 3) : ℝ :=
  2 * alphaPsi * (C * (divT c A dA i / psi ^ 7 - 2 / 3 * (∑ j, h i j * dK j) / psi) - 8 * Real.pi * J i / psi ^ 3)

/-- contraction A^{ij} B^{kl} g_{ik} g_{jl} -/
noncomputable def contract (g : Fin 3 → Fin 3 → ℝ) (A B : Fin 3 → Fin 3 → ℝ) : ℝ := ∑ i, ∑ j, ∑ k, ∑ l, A i j * B k l * g i k * g j l

/-- a symmetric tensor as it is kept: the components in order only -/
def stored (A : Fin 3 → Fin 3 → ℝ) (i j : Fin 3) : Option ℝ := if i ≤ j then some (A i j) else none

/-- `h` is the inverse of `g` -/
def Inverse (g h : Fin 3 → Fin 3 → ℝ) : Prop := ∀ i j, ∑ k, h i k * g k j = if i = j then 1 else 0

/-- symmetric -/
def Symm (g : Fin 3 → Fin 3 → ℝ) : Prop := ∀ i j, g i j = g j i

end Elliptica.Adm
