import Mathlib.Algebra.BigOperators.Fin
import Mathlib.Analysis.Calculus.Deriv.Inv
import Mathlib.Analysis.Calculus.Deriv.Pow
import Mathlib.Analysis.Calculus.Deriv.Add
import Mathlib.Tactic.Ring
import Mathlib.Tactic.FieldSimp
/-!
Specification of the extended conformal thin sandwich equations at a point: index formulas with sums.
-/
namespace Elliptica.Xcts

/-- D^i D_i u for the connection `c` and the inverse metric `h`, from the first and second partial derivatives of u -/
noncomputable def laplace (h : Fin 3 → Fin 3 → ℝ) (c : Fin 3 → Fin 3 → Fin 3 → ℝ) (d : Fin 3 → ℝ) (dd : Fin 3 → Fin 3 → ℝ) : ℝ :=
  ∑ i, ∑ j, h i j * (dd i j - ∑ k, c k i j * d k)

/-- the vacuum part of the Hamiltonian constraint: Δψ - Rψ/8 - K²ψ⁵/12 + A²ψ⁻⁷/8 -/
noncomputable def hamiltonian (lap psi R K A2 : ℝ) : ℝ := lap - R * psi / 8 - K ^ 2 * psi ^ 5 / 12 + A2 / (8 * psi ^ 7)

/-- D_i s^i -/
noncomputable def div (c : Fin 3 → Fin 3 → Fin 3 → ℝ) (s : Fin 3 → ℝ) (ds : Fin 3 → Fin 3 → ℝ) : ℝ := ∑ i, (ds i i + ∑ j, c i i j * s j)

/-- A^{ij} s_i s_j -/
noncomputable def quad (A : Fin 3 → Fin 3 → ℝ) (s : Fin 3 → ℝ) : ℝ := ∑ i, ∑ j, A i j * s i * s j

theorem laplace_deriv (h : Fin 3 → Fin 3 → ℝ) (c : Fin 3 → Fin 3 → Fin 3 → ℝ) (d J : Fin 3 → ℝ) (dd JJ : Fin 3 → Fin 3 → ℝ) :
    HasDerivAt (fun t : ℝ => laplace h c (fun i => d i + t * J i) (fun i j => dd i j + t * JJ i j)) (laplace h c J JJ) 0 := by
  have : (fun t : ℝ => laplace h c (fun i => d i + t * J i) (fun i j => dd i j + t * JJ i j)) =
      fun t => laplace h c d dd + t * laplace h c J JJ := by
    funext t
    simp only [laplace, Fin.sum_univ_three]
    ring
  rw [this]
  simpa using ((hasDerivAt_id (0 : ℝ)).mul_const (laplace h c J JJ)).const_add (laplace h c d dd)

theorem hamiltonian_deriv {l p : ℝ → ℝ} {l' p' t : ℝ} (hl : HasDerivAt l l' t) (hp : HasDerivAt p p' t) (h0 : p t ≠ 0) (R K A2 : ℝ) :
    HasDerivAt (fun s => hamiltonian (l s) (p s) R K A2)
      (l' - R * p' / 8 - K ^ 2 * (5 * p t ^ 4 * p') / 12 - 7 * A2 * p' / (8 * p t ^ 8)) t := by
  unfold hamiltonian
  have h5 := (hp.pow 5).const_mul (K ^ 2)
  have h7 := (hasDerivAt_const t A2).div ((hp.pow 7).const_mul 8) (mul_ne_zero (by norm_num) (pow_ne_zero 7 h0))
  refine (((hl.sub ((hp.const_mul R).div_const 8)).sub (h5.div_const 12)).add h7).congr_deriv ?_
  simp only [Nat.cast_ofNat, Nat.reduceSub, Pi.pow_apply]
  field_simp
  ring

end Elliptica.Xcts
