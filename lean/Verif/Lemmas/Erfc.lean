import Verif.Spec.Erfc
/-!
Properties of erfc.
-/
namespace Elliptica
open Real MeasureTheory Set

theorem gauss_int : Integrable fun t : ℝ => exp (-t ^ 2) := by
  have := integrable_exp_neg_mul_sq (b := 1) one_pos
  simpa using this

theorem gauss_total : ∫ t : ℝ, exp (-t ^ 2) = √π := by
  have := integral_gaussian 1
  simpa using this

theorem gauss_split (x : ℝ) : (∫ t in Iic x, exp (-t ^ 2)) + ∫ t in Ioi x, exp (-t ^ 2) = √π := by
  rw [← gauss_total]
  exact intervalIntegral.integral_Iic_add_Ioi gauss_int.integrableOn gauss_int.integrableOn

theorem gauss_neg (x : ℝ) : ∫ t in Ioi (-x), exp (-t ^ 2) = ∫ t in Iic x, exp (-t ^ 2) := by
  have := integral_comp_neg_Iic x fun t : ℝ => exp (-t ^ 2)
  simp only [neg_sq] at this
  exact this.symm

theorem erfc_neg (x : ℝ) : erfc (-x) + erfc x = 2 := by
  unfold erfc
  rw [gauss_neg, ← mul_add, gauss_split]
  have : √π ≠ 0 := (sqrt_pos.2 pi_pos).ne'
  field_simp

theorem erfc_zero : erfc 0 = 1 := by
  have := erfc_neg 0
  rw [neg_zero] at this
  linarith

theorem erfc_anti : Antitone erfc := by
  intro x y h
  unfold erfc
  refine mul_le_mul_of_nonneg_left ?_ (by positivity)
  exact setIntegral_mono_set gauss_int.integrableOn (Filter.Eventually.of_forall fun t => (exp_pos _).le)
    (Ioi_subset_Ioi h).eventuallyLE

theorem erfc_nonneg (x : ℝ) : 0 ≤ erfc x := by
  unfold erfc
  exact mul_nonneg (by positivity) (integral_nonneg fun t => (exp_pos _).le)

theorem erfc_le_two (x : ℝ) : erfc x ≤ 2 := by
  have := erfc_neg x
  have := erfc_nonneg (-x)
  linarith

end Elliptica
