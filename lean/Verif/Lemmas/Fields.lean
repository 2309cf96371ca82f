import Verif.Spec.Fields
import Mathlib.Analysis.Calculus.Deriv.Add
/-!
Fields that depend on the first coordinate only; used in examples.
-/
namespace Elliptica.Fields

theorem line_first (f : ℝ → ℝ) (i : Fin 3) (p : Pt) : line (fun q => f (q 0)) i p = if i = 0 then f else fun _ => f (p 0) := by
  funext t
  unfold line
  by_cases e : i = 0
  · subst e; simp
  · rw [if_neg e]
    have : (0 : Fin 3) ≠ i := fun h => e h.symm
    simp [Function.update_of_ne this]

theorem pd_first (f : ℝ → ℝ) (i : Fin 3) (p : Pt) : pd (fun q => f (q 0)) i p = if i = 0 then deriv f (p 0) else 0 := by
  unfold pd
  rw [line_first]
  by_cases e : i = 0
  · subst e; simp
  · simp [if_neg e]

theorem diff_first (f : ℝ → ℝ) (p : Pt) (h : DifferentiableAt ℝ f (p 0)) : Diff (fun q => f (q 0)) p := by
  intro i
  rw [line_first]
  by_cases e : i = 0
  · subst e; simpa using h
  · rw [if_neg e]; exact differentiableAt_const _

theorem diff_const (v : ℝ) (p : Pt) : Diff (fun _ => v) p := diff_first (fun _ => v) p (differentiableAt_const _)

theorem pd_const (v : ℝ) (i : Fin 3) (p : Pt) : pd (fun _ => v) i p = 0 := by
  rw [pd_first (fun _ => v) i p]; simp

/-- the first coordinate -/
theorem pd_x (i : Fin 3) : pd (fun q => q 0) i = fun _ => if i = 0 then (1 : ℝ) else 0 := by
  funext p
  rw [pd_first (fun t => t) i p]; simp

theorem diff_x (p : Pt) : Diff (fun q => q 0) p := diff_first (fun t => t) p differentiableAt_fun_id

end Elliptica.Fields
