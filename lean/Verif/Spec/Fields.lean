import Mathlib.Algebra.BigOperators.Fin
import Mathlib.Analysis.Calculus.Deriv.Inv
import Mathlib.Analysis.Calculus.Deriv.Pow
import Mathlib.Analysis.Calculus.Deriv.Add
/-!
Specification: fields on space and their partial derivatives.
-/
namespace Elliptica.Fields

abbrev Pt := Fin 3 → ℝ

/-- the field along the i-th coordinate line through p -/
def line (f : Pt → ℝ) (i : Fin 3) (p : Pt) : ℝ → ℝ := fun t => f (Function.update p i t)

/-- the partial derivative ∂_i f at p -/
noncomputable def pd (f : Pt → ℝ) (i : Fin 3) (p : Pt) : ℝ := deriv (line f i p) (p i)

/-- all partial derivatives of f exist at p -/
def Diff (f : Pt → ℝ) (p : Pt) : Prop := ∀ i, DifferentiableAt ℝ (line f i p) (p i)

theorem line_at (f : Pt → ℝ) (i : Fin 3) (p : Pt) : line f i p (p i) = f p := by
  unfold line; rw [Function.update_eq_self]

theorem Diff.has {f : Pt → ℝ} {p : Pt} (h : Diff f p) (i : Fin 3) : HasDerivAt (line f i p) (pd f i p) (p i) := (h i).hasDerivAt

end Elliptica.Fields
