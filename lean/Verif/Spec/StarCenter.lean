import Verif.Spec.Fields
import Mathlib.LinearAlgebra.CrossProduct
/-!
Specification: velocity fields of rigid rotations, and partial derivatives given as numbers.
-/
namespace Elliptica.StarSpec
open Elliptica.Fields

/-- the partial derivatives of f at p exist and are d -/
def Grad (f : Pt → ℝ) (p : Pt) (d : Fin 3 → ℝ) : Prop := ∀ i, HasDerivAt (line f i p) (d i) (p i)

/-- the velocity of a body that turns with the angular velocity Ω about C -/
def turning (Om C : Fin 3 → ℝ) (p : Pt) : Fin 3 → ℝ := crossProduct Om (fun i => p i - C i)

/-- v is the velocity field of a rigid motion: no strain anywhere -/
def Rigid (v : Pt → Fin 3 → ℝ) : Prop :=
  ∃ A : Fin 3 → Fin 3 → ℝ, (∀ i j, A i j = -A j i) ∧ ∀ p i, Grad (fun q => v q i) p (A i)

end Elliptica.StarSpec
