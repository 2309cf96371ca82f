import Mathlib.Analysis.SpecialFunctions.Log.Deriv
/-!
Specification of C104: outward direction, logarithmic derivative along it.
-/
namespace Elliptica.MassShedSpec

/-- distance of two points -/
noncomputable def distance (x c : Fin 3 → ℝ) : ℝ := √((x 0 - c 0) ^ 2 + (x 1 - c 1) ^ 2 + (x 2 - c 2) ^ 2)

/-- the unit vector at x that points away from c -/
noncomputable def outward (c x : Fin 3 → ℝ) : Fin 3 → ℝ := fun i => (x i - c i) / distance x c

/-- d ln H / dr at x, along the ray from c through x -/
noncomputable def falloff (H : (Fin 3 → ℝ) → ℝ) (c x : Fin 3 → ℝ) : ℝ :=
  deriv (fun s : ℝ => Real.log (H fun i => c i + s * outward c x i)) (distance x c)

/-- h and dh are the value and the gradient of H at x -/
structure Reads (H : (Fin 3 → ℝ) → ℝ) (x : Fin 3 → ℝ) (h : ℝ) (dh : Fin 3 → ℝ) : Prop where
  value : H x = h
  gradient : ∃ L : (Fin 3 → ℝ) →L[ℝ] ℝ, HasFDerivAt H L x ∧ ∀ v, L v = v 0 * dh 0 + v 1 * dh 1 + v 2 * dh 2

/-- the horizontal components of the position relative to c are zero or not below the round-off -/
def Resolved (e : ℝ) (c x : Fin 3 → ℝ) : Prop := (x 0 = c 0 ∨ e ≤ |x 0 - c 0|) ∧ (x 1 = c 1 ∨ e ≤ |x 1 - c 1|)

end Elliptica.MassShedSpec
