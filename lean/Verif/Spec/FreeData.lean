import Verif.Spec.Fields
import Verif.Spec.BlackHole
/-!
Specification of exact free data.
-/
namespace Elliptica.FdSpec
open Elliptica.Fields

/-- f has first and second derivatives away from the origin, and its Laplacian is zero there -/
def Harmonic (f : Pt → ℝ) : Prop := ∃ d : Fin 3 → Pt → ℝ, ∀ p, p ≠ 0 →
  (∀ i, HasDerivAt (line f i p) (d i p) (p i)) ∧
  ∃ d2 : Fin 3 → ℝ, (∀ i, HasDerivAt (line (d i) i p) (d2 i) (p i)) ∧ d2 0 + d2 1 + d2 2 = 0

end Elliptica.FdSpec
