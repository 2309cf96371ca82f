import Verif.Model.Mat3
import Mathlib.LinearAlgebra.Matrix.Determinant.Basic
import Mathlib.LinearAlgebra.Matrix.NonsingularInverse
import Mathlib.Tactic.FieldSimp
import Mathlib.Tactic.Ring
import Mathlib.Data.Rat.Defs
import Mathlib.Algebra.Field.Rat
/-!
Property C17.
-/
namespace Elliptica.Mat3

variable {K : Type} [Field K] [DecidableEq K]

/-- the macro on the entries of a matrix -/
def inverseOf (A : Matrix (Fin 3) (Fin 3) K) (i j : Fin 3) : Option K :=
  inverse (A 0 0) (A 0 1) (A 0 2) (A 1 0) (A 1 1) (A 1 2) (A 2 0) (A 2 1) (A 2 2) i j

/-- the determinant macro is the determinant -/
theorem C17_det (A : Matrix (Fin 3) (Fin 3) K) :
    det (A 0 0) (A 0 1) (A 0 2) (A 1 0) (A 1 1) (A 1 2) (A 2 0) (A 2 1) (A 2 2) = A.det := by
  rw [Matrix.det_fin_three]; rfl

theorem pick {x y z : K} (h : x = z * y) (hy : y ≠ 0) : cdiv x y = some z := by
  unfold cdiv; rw [if_neg hy, h, mul_div_assoc, div_self hy, mul_one]

/-- C17: for every invertible 3x3 matrix whose first entry is not zero, the nine values written by the macro are the
entries of the inverse.  Missing for the full property: first entry zero, see the violation. -/
theorem C17_inverse_partial (A : Matrix (Fin 3) (Fin 3) K) (hdet : A.det ≠ 0) (h00 : A 0 0 ≠ 0) :
    ∃ B : Matrix (Fin 3) (Fin 3) K, A * B = 1 ∧ B * A = 1 ∧ ∀ i j, inverseOf A i j = some (B i j) := by
  have hd : A 0 0 * A 1 1 * A 2 2 - A 0 0 * A 1 2 * A 2 1 - A 0 1 * A 1 0 * A 2 2 + A 0 1 * A 1 2 * A 2 0 +
      A 0 2 * A 1 0 * A 2 1 - A 0 2 * A 1 1 * A 2 0 = A.det := by rw [Matrix.det_fin_three]
  have hd2 : (A 0 0 * A 1 1 - A 0 1 * A 1 0) * (A 0 0 * A 2 2 - A 0 2 * A 2 0) -
      (A 0 0 * A 1 2 - A 0 2 * A 1 0) * (A 0 0 * A 2 1 - A 0 1 * A 2 0) = A 0 0 * A.det := by rw [← hd]; ring
  have hu : IsUnit A.det := isUnit_iff_ne_zero.2 hdet
  refine ⟨A⁻¹, Matrix.mul_nonsing_inv A hu, Matrix.nonsing_inv_mul A hu, ?_⟩
  have hadj : ∀ i j, (A⁻¹) i j = A.adjugate i j / A.det := by
    intro i j
    rw [Matrix.inv_def, Ring.inverse_eq_inv']
    simp only [Matrix.smul_apply, smul_eq_mul]
    rw [div_eq_mul_inv, mul_comm]
  have hne : A 0 0 * A.det ≠ 0 := mul_ne_zero h00 hdet
  have d1 : ∀ x i j, x = A.adjugate i j → cdiv x A.det = some (A⁻¹ i j) := by
    intro x i j h; refine pick ?_ hdet; rw [hadj, h, div_mul_cancel₀ _ hdet]
  have d2 : ∀ x i j, x = A 0 0 * A.adjugate i j → cdiv x (A 0 0 * A.det) = some (A⁻¹ i j) := by
    intro x i j h; refine pick ?_ hne; rw [hadj, h, mul_comm (A 0 0) A.det, ← mul_assoc, div_mul_cancel₀ _ hdet, mul_comm]
  intro i j
  fin_cases i <;> fin_cases j <;> simp only [inverseOf, inverse, Fin.mk_zero, Fin.mk_one, Fin.reduceFinMk, Fin.val_zero, Fin.val_one, Fin.val_two, Fin.isValue]
  · rw [hd]; apply d1; simp [Matrix.adjugate_fin_three]
  · rw [hd]; apply d1; simp [Matrix.adjugate_fin_three]
  · rw [hd]; apply d1; simp [Matrix.adjugate_fin_three]
  · rw [hd]; apply d1; simp [Matrix.adjugate_fin_three]
  · rw [hd2]; apply d2; simp [Matrix.adjugate_fin_three]
  · rw [hd2]; apply d2; simp [Matrix.adjugate_fin_three]; ring
  · rw [hd]; apply d1; simp [Matrix.adjugate_fin_three]
  · rw [hd2]; apply d2; simp [Matrix.adjugate_fin_three]; ring
  · rw [hd2]; apply d2; simp [Matrix.adjugate_fin_three]

/-- The symmetric macro writes the upper half of the inverse. -/
theorem C17_symmetric_partial (A : Matrix (Fin 3) (Fin 3) K) (hsym : A.transpose = A) (hdet : A.det ≠ 0) (h00 : A 0 0 ≠ 0) :
    ∃ B : Matrix (Fin 3) (Fin 3) K, A * B = 1 ∧ B * A = 1 ∧ B.transpose = B ∧
      ∀ i j : Fin 3, i ≤ j → inverseSym (A 0 0) (A 0 1) (A 0 2) (A 1 1) (A 1 2) (A 2 2) i j = some (B i j) := by
  obtain ⟨B, h1, h2, h3⟩ := C17_inverse_partial A hdet h00
  refine ⟨B, h1, h2, ?_, ?_⟩
  · have h4 : B.transpose * A = 1 := by
      have := congrArg Matrix.transpose h1
      rwa [Matrix.transpose_mul, hsym, Matrix.transpose_one] at this
    calc B.transpose = B.transpose * (A * B) := by rw [h1, Matrix.mul_one]
      _ = B := by rw [← Matrix.mul_assoc, h4, Matrix.one_mul]
  · intro i j hij
    have e1 : A 1 0 = A 0 1 := congrFun (congrFun hsym 0) 1
    have e2 : A 2 0 = A 0 2 := congrFun (congrFun hsym 0) 2
    have e3 : A 2 1 = A 1 2 := congrFun (congrFun hsym 1) 2
    rw [inverseSym, if_pos (by simpa using hij), ← h3 i j, inverseOf, e1, e2, e3]

/-- Violation: whenever the first entry is zero - invertible or not - four of the nine entries are 0/0. -/
theorem C17_zero_violation (A : Matrix (Fin 3) (Fin 3) K) (h00 : A 0 0 = 0) :
    inverseOf A 1 1 = none ∧ inverseOf A 1 2 = none ∧ inverseOf A 2 1 = none ∧ inverseOf A 2 2 = none := by
  simp only [inverseOf, inverse, Fin.val_one, Fin.val_two, h00, cdiv]
  have : (0 * A 1 1 - A 0 1 * A 1 0) * (0 * A 2 2 - A 0 2 * A 2 0) -
      (0 * A 1 2 - A 0 2 * A 1 0) * (0 * A 2 1 - A 0 1 * A 2 0) = 0 := by ring
  simp only [this, if_true, and_self]

/-- e.g. the permutation of the first two axes -/
example : (!![0, 1, 0; 1, 0, 0; 0, 0, 1] : Matrix (Fin 3) (Fin 3) ℚ).det ≠ 0 := by
  rw [Matrix.det_fin_three]; simp
example : (!![2, 1, 0; 1, 3, 0; 0, 0, 1] : Matrix (Fin 3) (Fin 3) ℚ).det = 5 := by
  rw [Matrix.det_fin_three]; simp; norm_num

end Elliptica.Mat3
