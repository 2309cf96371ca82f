import Verif.Model.Ks
import Verif.Spec.Ks
import Verif.Lemmas.Gen.KsX
import Mathlib.Tactic.LinearCombination
import Mathlib.Algebra.BigOperators.Fin
/-!
Lemmas on the Kerr-Schild functions.
-/
namespace Elliptica.Ks
open Elliptica.Fields Elliptica.KsSpec

/-- the velocity of the hole -/
def Par.B (P : Par) : Fin 3 → ℝ := ![P.Bx, P.By, P.Bz]

/-- a moving hole: B2 is B·B -/
structure Par.Moving (P : Par) : Prop where
  b2 : P.B2 = dot P.B P.B
  pos : 0 < P.B2
  lt : P.B2 < 1

/-- a hole at rest: B2 is the small number that avoids a division by zero -/
structure Par.AtRest (P : Par) : Prop where
  zero : P.B = 0
  pos : 0 < P.B2
  lt : P.B2 < 1

section
variable (P : Par)

theorem root_pos (h : P.B2 < 1) : 0 < √(1 - P.B2) := Real.sqrt_pos.mpr (by linarith)
theorem root_sq (h : P.B2 < 1) : √(1 - P.B2) ^ 2 = 1 - P.B2 := Real.sq_sqrt (by linarith)

/-- the coefficients of the boost -/
noncomputable def bm (P : Par) (i j : Fin 3) : ℝ := (if i = j then 1 else 0) + (1 / √(1 - P.B2) - 1) * P.B i * P.B j / P.B2

theorem den_moving (h : P.Moving) : P.B2 * (√(1 - P.B2) - P.Bx ^ 2 - P.By ^ 2 - P.Bz ^ 2) - (-1 + √(1 - P.B2)) * (P.Bx ^ 2 + P.By ^ 2 + P.Bz ^ 2) = P.B2 * √(1 - P.B2) ^ 2 := by
  have h1 : P.B2 = P.Bx ^ 2 + P.By ^ 2 + P.Bz ^ 2 := by rw [h.b2]; simp [dot, Par.B]; ring
  have h2 := root_sq P h.lt
  rw [h2]
  rw [show P.B2 * (√(1 - P.B2) - P.Bx ^ 2 - P.By ^ 2 - P.Bz ^ 2) - (-1 + √(1 - P.B2)) * (P.Bx ^ 2 + P.By ^ 2 + P.Bz ^ 2) =
    P.B2 * (√(1 - P.B2) - (P.Bx ^ 2 + P.By ^ 2 + P.Bz ^ 2)) - (-1 + √(1 - P.B2)) * (P.Bx ^ 2 + P.By ^ 2 + P.Bz ^ 2) by ring, ← h1]
  ring

end

theorem dX_D0_eq (P : Par) (q : Pt) (h : P.Moving) : dX_D0 P q = Real.cos P.phiy * (Real.cos P.phiz * bm P 0 0 + Real.sin P.phiz * bm P 1 0) - Real.sin P.phiy * bm P 2 0 := by
  unfold dX_D0
  have h1 : P.B2 = P.Bx ^ 2 + P.By ^ 2 + P.Bz ^ 2 := by rw [h.b2]; simp [dot, Par.B]; ring
  have h2 := root_sq P h.lt
  have h3 := root_pos P h.lt
  have h4 := h.pos
  rw [den_moving P h, div_eq_iff (by positivity)]
  simp only [bm, Par.B, Matrix.cons_val_zero, Matrix.cons_val_one, Matrix.cons_val]
  generalize √(1 - P.B2) = s at *
  have hy : P.By ^ 2 = P.B2 - P.Bx ^ 2 - P.Bz ^ 2 := by linarith
  simp only [if_true, if_false, Fin.reduceEq, one_ne_zero, zero_ne_one]
  have e : P.B2 = 1 - s ^ 2 := by linarith
  have h5 : (1 - s ^ 2) ≠ 0 := by rw [← e]; exact h4.ne'
  rw [e] at hy ⊢
  field_simp
  try rw [hy]
  try ring

theorem dY_D0_eq (P : Par) (q : Pt) (h : P.Moving) : dY_D0 P q = Real.cos P.phiz * bm P 1 0 - Real.sin P.phiz * bm P 0 0 := by
  unfold dY_D0
  have h1 : P.B2 = P.Bx ^ 2 + P.By ^ 2 + P.Bz ^ 2 := by rw [h.b2]; simp [dot, Par.B]; ring
  have h2 := root_sq P h.lt
  have h3 := root_pos P h.lt
  have h4 := h.pos
  rw [den_moving P h, div_eq_iff (by positivity)]
  simp only [bm, Par.B, Matrix.cons_val_zero, Matrix.cons_val_one, Matrix.cons_val]
  generalize √(1 - P.B2) = s at *
  have hy : P.By ^ 2 = P.B2 - P.Bx ^ 2 - P.Bz ^ 2 := by linarith
  simp only [if_true, if_false, Fin.reduceEq, one_ne_zero, zero_ne_one]
  have e : P.B2 = 1 - s ^ 2 := by linarith
  have h5 : (1 - s ^ 2) ≠ 0 := by rw [← e]; exact h4.ne'
  rw [e] at hy ⊢
  field_simp
  try rw [hy]
  try ring

theorem dZ_D0_eq (P : Par) (q : Pt) (h : P.Moving) : dZ_D0 P q = Real.sin P.phiy * (Real.cos P.phiz * bm P 0 0 + Real.sin P.phiz * bm P 1 0) + Real.cos P.phiy * bm P 2 0 := by
  unfold dZ_D0
  have h1 : P.B2 = P.Bx ^ 2 + P.By ^ 2 + P.Bz ^ 2 := by rw [h.b2]; simp [dot, Par.B]; ring
  have h2 := root_sq P h.lt
  have h3 := root_pos P h.lt
  have h4 := h.pos
  rw [den_moving P h, div_eq_iff (by positivity)]
  simp only [bm, Par.B, Matrix.cons_val_zero, Matrix.cons_val_one, Matrix.cons_val]
  generalize √(1 - P.B2) = s at *
  have hy : P.By ^ 2 = P.B2 - P.Bx ^ 2 - P.Bz ^ 2 := by linarith
  simp only [if_true, if_false, Fin.reduceEq, one_ne_zero, zero_ne_one]
  have e : P.B2 = 1 - s ^ 2 := by linarith
  have h5 : (1 - s ^ 2) ≠ 0 := by rw [← e]; exact h4.ne'
  rw [e] at hy ⊢
  field_simp
  try rw [hy]
  try ring

theorem dX_D1_eq (P : Par) (q : Pt) (h : P.Moving) : dX_D1 P q = Real.cos P.phiy * (Real.cos P.phiz * bm P 0 1 + Real.sin P.phiz * bm P 1 1) - Real.sin P.phiy * bm P 2 1 := by
  unfold dX_D1
  have h1 : P.B2 = P.Bx ^ 2 + P.By ^ 2 + P.Bz ^ 2 := by rw [h.b2]; simp [dot, Par.B]; ring
  have h2 := root_sq P h.lt
  have h3 := root_pos P h.lt
  have h4 := h.pos
  rw [den_moving P h, div_eq_iff (by positivity)]
  simp only [bm, Par.B, Matrix.cons_val_zero, Matrix.cons_val_one, Matrix.cons_val]
  generalize √(1 - P.B2) = s at *
  have hy : P.By ^ 2 = P.B2 - P.Bx ^ 2 - P.Bz ^ 2 := by linarith
  simp only [if_true, if_false, Fin.reduceEq, one_ne_zero, zero_ne_one]
  have e : P.B2 = 1 - s ^ 2 := by linarith
  have h5 : (1 - s ^ 2) ≠ 0 := by rw [← e]; exact h4.ne'
  rw [e] at hy ⊢
  field_simp
  try rw [hy]
  try ring

theorem dY_D1_eq (P : Par) (q : Pt) (h : P.Moving) : dY_D1 P q = Real.cos P.phiz * bm P 1 1 - Real.sin P.phiz * bm P 0 1 := by
  unfold dY_D1
  have h1 : P.B2 = P.Bx ^ 2 + P.By ^ 2 + P.Bz ^ 2 := by rw [h.b2]; simp [dot, Par.B]; ring
  have h2 := root_sq P h.lt
  have h3 := root_pos P h.lt
  have h4 := h.pos
  rw [den_moving P h, div_eq_iff (by positivity)]
  simp only [bm, Par.B, Matrix.cons_val_zero, Matrix.cons_val_one, Matrix.cons_val]
  generalize √(1 - P.B2) = s at *
  have hy : P.By ^ 2 = P.B2 - P.Bx ^ 2 - P.Bz ^ 2 := by linarith
  simp only [if_true, if_false, Fin.reduceEq, one_ne_zero, zero_ne_one]
  have e : P.B2 = 1 - s ^ 2 := by linarith
  have h5 : (1 - s ^ 2) ≠ 0 := by rw [← e]; exact h4.ne'
  rw [e] at hy ⊢
  field_simp
  try rw [hy]
  try ring

theorem dZ_D1_eq (P : Par) (q : Pt) (h : P.Moving) : dZ_D1 P q = Real.sin P.phiy * (Real.cos P.phiz * bm P 0 1 + Real.sin P.phiz * bm P 1 1) + Real.cos P.phiy * bm P 2 1 := by
  unfold dZ_D1
  have h1 : P.B2 = P.Bx ^ 2 + P.By ^ 2 + P.Bz ^ 2 := by rw [h.b2]; simp [dot, Par.B]; ring
  have h2 := root_sq P h.lt
  have h3 := root_pos P h.lt
  have h4 := h.pos
  rw [den_moving P h, div_eq_iff (by positivity)]
  simp only [bm, Par.B, Matrix.cons_val_zero, Matrix.cons_val_one, Matrix.cons_val]
  generalize √(1 - P.B2) = s at *
  have hy : P.By ^ 2 = P.B2 - P.Bx ^ 2 - P.Bz ^ 2 := by linarith
  simp only [if_true, if_false, Fin.reduceEq, one_ne_zero, zero_ne_one]
  have e : P.B2 = 1 - s ^ 2 := by linarith
  have h5 : (1 - s ^ 2) ≠ 0 := by rw [← e]; exact h4.ne'
  rw [e] at hy ⊢
  field_simp
  try rw [hy]
  try ring

theorem dX_D2_eq (P : Par) (q : Pt) (h : P.Moving) : dX_D2 P q = Real.cos P.phiy * (Real.cos P.phiz * bm P 0 2 + Real.sin P.phiz * bm P 1 2) - Real.sin P.phiy * bm P 2 2 := by
  unfold dX_D2
  have h1 : P.B2 = P.Bx ^ 2 + P.By ^ 2 + P.Bz ^ 2 := by rw [h.b2]; simp [dot, Par.B]; ring
  have h2 := root_sq P h.lt
  have h3 := root_pos P h.lt
  have h4 := h.pos
  rw [den_moving P h, div_eq_iff (by positivity)]
  simp only [bm, Par.B, Matrix.cons_val_zero, Matrix.cons_val_one, Matrix.cons_val]
  generalize √(1 - P.B2) = s at *
  have hy : P.By ^ 2 = P.B2 - P.Bx ^ 2 - P.Bz ^ 2 := by linarith
  simp only [if_true, if_false, Fin.reduceEq, one_ne_zero, zero_ne_one]
  have e : P.B2 = 1 - s ^ 2 := by linarith
  have h5 : (1 - s ^ 2) ≠ 0 := by rw [← e]; exact h4.ne'
  rw [e] at hy ⊢
  field_simp
  try rw [hy]
  try ring

theorem dY_D2_eq (P : Par) (q : Pt) (h : P.Moving) : dY_D2 P q = Real.cos P.phiz * bm P 1 2 - Real.sin P.phiz * bm P 0 2 := by
  unfold dY_D2
  have h1 : P.B2 = P.Bx ^ 2 + P.By ^ 2 + P.Bz ^ 2 := by rw [h.b2]; simp [dot, Par.B]; ring
  have h2 := root_sq P h.lt
  have h3 := root_pos P h.lt
  have h4 := h.pos
  rw [den_moving P h, div_eq_iff (by positivity)]
  simp only [bm, Par.B, Matrix.cons_val_zero, Matrix.cons_val_one, Matrix.cons_val]
  generalize √(1 - P.B2) = s at *
  have hy : P.By ^ 2 = P.B2 - P.Bx ^ 2 - P.Bz ^ 2 := by linarith
  simp only [if_true, if_false, Fin.reduceEq, one_ne_zero, zero_ne_one]
  have e : P.B2 = 1 - s ^ 2 := by linarith
  have h5 : (1 - s ^ 2) ≠ 0 := by rw [← e]; exact h4.ne'
  rw [e] at hy ⊢
  field_simp
  try rw [hy]
  try ring

theorem dZ_D2_eq (P : Par) (q : Pt) (h : P.Moving) : dZ_D2 P q = Real.sin P.phiy * (Real.cos P.phiz * bm P 0 2 + Real.sin P.phiz * bm P 1 2) + Real.cos P.phiy * bm P 2 2 := by
  unfold dZ_D2
  have h1 : P.B2 = P.Bx ^ 2 + P.By ^ 2 + P.Bz ^ 2 := by rw [h.b2]; simp [dot, Par.B]; ring
  have h2 := root_sq P h.lt
  have h3 := root_pos P h.lt
  have h4 := h.pos
  rw [den_moving P h, div_eq_iff (by positivity)]
  simp only [bm, Par.B, Matrix.cons_val_zero, Matrix.cons_val_one, Matrix.cons_val]
  generalize √(1 - P.B2) = s at *
  have hy : P.By ^ 2 = P.B2 - P.Bx ^ 2 - P.Bz ^ 2 := by linarith
  simp only [if_true, if_false, Fin.reduceEq, one_ne_zero, zero_ne_one]
  have e : P.B2 = 1 - s ^ 2 := by linarith
  have h5 : (1 - s ^ 2) ≠ 0 := by rw [← e]; exact h4.ne'
  rw [e] at hy ⊢
  field_simp
  try rw [hy]
  try ring

theorem k0_eq (P : Par) (q : Pt) (h : P.Moving) : k0 P q = -P.Bx / √(1 - P.B2) + K0 P q * dX_D0 P q + K1 P q * dY_D0 P q + K2 P q * dZ_D0 P q := by
  rw [dX_D0_eq P q h, dY_D0_eq P q h, dZ_D0_eq P q h]
  unfold k0
  have h2 := root_sq P h.lt
  have h3 := root_pos P h.lt
  have h4 := h.pos
  simp only [bm, Par.B, Matrix.cons_val_zero, Matrix.cons_val_one, Matrix.cons_val]
  simp only [if_true, if_false, Fin.reduceEq, one_ne_zero, zero_ne_one]
  field_simp
  ring

theorem k1_eq (P : Par) (q : Pt) (h : P.Moving) : k1 P q = -P.By / √(1 - P.B2) + K0 P q * dX_D1 P q + K1 P q * dY_D1 P q + K2 P q * dZ_D1 P q := by
  rw [dX_D1_eq P q h, dY_D1_eq P q h, dZ_D1_eq P q h]
  unfold k1
  have h2 := root_sq P h.lt
  have h3 := root_pos P h.lt
  have h4 := h.pos
  simp only [bm, Par.B, Matrix.cons_val_zero, Matrix.cons_val_one, Matrix.cons_val]
  simp only [if_true, if_false, Fin.reduceEq, one_ne_zero, zero_ne_one]
  field_simp
  ring

theorem k2_eq (P : Par) (q : Pt) (h : P.Moving) : k2 P q = -P.Bz / √(1 - P.B2) + K0 P q * dX_D2 P q + K1 P q * dY_D2 P q + K2 P q * dZ_D2 P q := by
  rw [dX_D2_eq P q h, dY_D2_eq P q h, dZ_D2_eq P q h]
  unfold k2
  have h2 := root_sq P h.lt
  have h3 := root_pos P h.lt
  have h4 := h.pos
  simp only [bm, Par.B, Matrix.cons_val_zero, Matrix.cons_val_one, Matrix.cons_val]
  simp only [if_true, if_false, Fin.reduceEq, one_ne_zero, zero_ne_one]
  field_simp
  ring

theorem jac_time (P : Par) (h : P.Moving) : jac P.B P.phiy P.phiz 0 0 = 1 / √(1 - P.B2) := by
  simp [jac, frame, rotate, boost, lorentz, dot, h.b2]

theorem dot_pos (P : Par) (h : P.Moving) : dot P.B P.B ≠ 0 := by rw [← h.b2]; exact h.pos.ne'

theorem jac_time0 (P : Par) (h : P.Moving) : jac P.B P.phiy P.phiz 0 1 = -P.Bx / √(1 - P.B2) := by
  rw [h.b2]
  simp [jac, frame, rotate, boost, lorentz, dot, Par.B, Fin.ext_iff]
  ring

theorem jac00 (P : Par) (q : Pt) (h : P.Moving) : jac P.B P.phiy P.phiz 1 1 = dX_D0 P q := by
  rw [dX_D0_eq P q h]
  simp only [bm]
  rw [h.b2]
  simp [jac, frame, rotate, boost, lorentz, dot, Par.B, Fin.ext_iff]
  ring

theorem jac10 (P : Par) (q : Pt) (h : P.Moving) : jac P.B P.phiy P.phiz 2 1 = dY_D0 P q := by
  rw [dY_D0_eq P q h]
  simp only [bm]
  rw [h.b2]
  simp [jac, frame, rotate, boost, lorentz, dot, Par.B, Fin.ext_iff]
  ring

theorem jac20 (P : Par) (q : Pt) (h : P.Moving) : jac P.B P.phiy P.phiz 3 1 = dZ_D0 P q := by
  rw [dZ_D0_eq P q h]
  simp only [bm]
  rw [h.b2]
  simp [jac, frame, rotate, boost, lorentz, dot, Par.B, Fin.ext_iff]
  ring

theorem jac_time1 (P : Par) (h : P.Moving) : jac P.B P.phiy P.phiz 0 2 = -P.By / √(1 - P.B2) := by
  rw [h.b2]
  simp [jac, frame, rotate, boost, lorentz, dot, Par.B, Fin.ext_iff]
  ring

theorem jac01 (P : Par) (q : Pt) (h : P.Moving) : jac P.B P.phiy P.phiz 1 2 = dX_D1 P q := by
  rw [dX_D1_eq P q h]
  simp only [bm]
  rw [h.b2]
  simp [jac, frame, rotate, boost, lorentz, dot, Par.B, Fin.ext_iff]
  ring

theorem jac11 (P : Par) (q : Pt) (h : P.Moving) : jac P.B P.phiy P.phiz 2 2 = dY_D1 P q := by
  rw [dY_D1_eq P q h]
  simp only [bm]
  rw [h.b2]
  simp [jac, frame, rotate, boost, lorentz, dot, Par.B, Fin.ext_iff]
  ring

theorem jac21 (P : Par) (q : Pt) (h : P.Moving) : jac P.B P.phiy P.phiz 3 2 = dZ_D1 P q := by
  rw [dZ_D1_eq P q h]
  simp only [bm]
  rw [h.b2]
  simp [jac, frame, rotate, boost, lorentz, dot, Par.B, Fin.ext_iff]
  ring

theorem jac_time2 (P : Par) (h : P.Moving) : jac P.B P.phiy P.phiz 0 3 = -P.Bz / √(1 - P.B2) := by
  rw [h.b2]
  simp [jac, frame, rotate, boost, lorentz, dot, Par.B, Fin.ext_iff]
  ring

theorem jac02 (P : Par) (q : Pt) (h : P.Moving) : jac P.B P.phiy P.phiz 1 3 = dX_D2 P q := by
  rw [dX_D2_eq P q h]
  simp only [bm]
  rw [h.b2]
  simp [jac, frame, rotate, boost, lorentz, dot, Par.B, Fin.ext_iff]
  ring

theorem jac12 (P : Par) (q : Pt) (h : P.Moving) : jac P.B P.phiy P.phiz 2 3 = dY_D2 P q := by
  rw [dY_D2_eq P q h]
  simp only [bm]
  rw [h.b2]
  simp [jac, frame, rotate, boost, lorentz, dot, Par.B, Fin.ext_iff]
  ring

theorem jac22 (P : Par) (q : Pt) (h : P.Moving) : jac P.B P.phiy P.phiz 3 3 = dZ_D2 P q := by
  rw [dZ_D2_eq P q h]
  simp only [bm]
  rw [h.b2]
  simp [jac, frame, rotate, boost, lorentz, dot, Par.B, Fin.ext_iff]
  ring

theorem jac0t (P : Par) (h : P.Moving) : jac P.B P.phiy P.phiz 1 0 = -(Real.cos P.phiy * (Real.cos P.phiz * P.Bx + Real.sin P.phiz * P.By) - Real.sin P.phiy * P.Bz) / √(1 - P.B2) := by
  rw [h.b2]
  simp [jac, frame, rotate, boost, lorentz, dot, Par.B, Fin.ext_iff]
  ring

theorem jac1t (P : Par) (h : P.Moving) : jac P.B P.phiy P.phiz 2 0 = -(Real.cos P.phiz * P.By - Real.sin P.phiz * P.Bx) / √(1 - P.B2) := by
  rw [h.b2]
  simp [jac, frame, rotate, boost, lorentz, dot, Par.B, Fin.ext_iff]
  ring

theorem jac2t (P : Par) (h : P.Moving) : jac P.B P.phiy P.phiz 3 0 = -(Real.sin P.phiy * (Real.cos P.phiz * P.Bx + Real.sin P.phiz * P.By) + Real.cos P.phiy * P.Bz) / √(1 - P.B2) := by
  rw [h.b2]
  simp [jac, frame, rotate, boost, lorentz, dot, Par.B, Fin.ext_iff]
  ring

/-- the covector k by index -/
noncomputable def kcov (P : Par) (q : Pt) : Fin 4 → ℝ := ![kt P q, k0 P q, k1 P q, k2 P q]

/-- the rest-frame space coordinates of a point as the code computes them -/
noncomputable def XYZ (P : Par) (q : Pt) : Fin 3 → ℝ := ![X P q, Y P q, Z P q]

theorem kcov_eq (P : Par) (q : Pt) (h : P.Moving) (m : Fin 4) :
    kcov P q m = ∑ r, jac P.B P.phiy P.phiz r m * null P.a (XYZ P q) (R P q) r := by
  have hK0 : null P.a (XYZ P q) (R P q) 1 = K0 P q := by unfold K0; simp [null, XYZ]; ring
  have hK1 : null P.a (XYZ P q) (R P q) 2 = K1 P q := by unfold K1; simp [null, XYZ]; ring
  have hK2 : null P.a (XYZ P q) (R P q) 3 = K2 P q := by unfold K2; simp [null, XYZ]
  have hn : null P.a (XYZ P q) (R P q) 0 = 1 := by simp [null]
  rw [Fin.sum_univ_four, hK0, hK1, hK2, hn]
  fin_cases m
  · show kt P q = jac _ _ _ 0 0 * 1 + jac _ _ _ 1 0 * _ + jac _ _ _ 2 0 * _ + jac _ _ _ 3 0 * _
    rw [jac_time P h, jac0t P h, jac1t P h, jac2t P h]
    unfold kt
    ring
  · show k0 P q = jac _ _ _ 0 1 * 1 + jac _ _ _ 1 1 * _ + jac _ _ _ 2 1 * _ + jac _ _ _ 3 1 * _
    rw [jac_time0 P h, jac00 P q h, jac10 P q h, jac20 P q h, k0_eq P q h]
    ring
  · show k1 P q = jac _ _ _ 0 2 * 1 + jac _ _ _ 1 2 * _ + jac _ _ _ 2 2 * _ + jac _ _ _ 3 2 * _
    rw [jac_time1 P h, jac01 P q h, jac11 P q h, jac21 P q h, k1_eq P q h]
    ring
  · show k2 P q = jac _ _ _ 0 3 * 1 + jac _ _ _ 1 3 * _ + jac _ _ _ 2 3 * _ + jac _ _ _ 3 3 * _
    rw [jac_time2 P h, jac02 P q h, jac12 P q h, jac22 P q h, k2_eq P q h]
    ring

/-- the Minkowski product -/
def mink (u v : Fin 4 → ℝ) : ℝ := -(u 0 * v 0) + u 1 * v 1 + u 2 * v 2 + u 3 * v 3

theorem mink_rotate (a b : ℝ) (u v : Fin 4 → ℝ) : mink (rotate a b u) (rotate a b v) = mink u v := by
  have h1 := Real.sin_sq_add_cos_sq a
  have h2 := Real.sin_sq_add_cos_sq b
  simp only [mink, rotate, Matrix.cons_val_zero, Matrix.cons_val_one, Matrix.cons_val]
  linear_combination ((Real.cos b * u 1 + Real.sin b * u 2) * (Real.cos b * v 1 + Real.sin b * v 2) + u 3 * v 3) * h1 + (u 1 * v 1 + u 2 * v 2) * h2

theorem mink_boost (B : Fin 3 → ℝ) (hb : dot B B ≠ 0) (hl : dot B B < 1) (t t' : ℝ) (x x' : Fin 3 → ℝ) :
    mink (boost B t x) (boost B t' x') = -(t * t') + dot x x' := by
  have hg : lorentz B ^ 2 * (1 - dot B B) = 1 := by
    have h0 : 0 < 1 - dot B B := by linarith
    unfold lorentz
    rw [div_pow, Real.sq_sqrt h0.le]
    field_simp
  simp only [mink, boost, Matrix.cons_val_zero, Matrix.cons_val_one, Matrix.cons_val]
  generalize lorentz B = g at *
  have e : dot B B = B 0 * B 0 + B 1 * B 1 + B 2 * B 2 := rfl
  have ep : dot B x = B 0 * x 0 + B 1 * x 1 + B 2 * x 2 := rfl
  have ep' : dot B x' = B 0 * x' 0 + B 1 * x' 1 + B 2 * x' 2 := rfl
  have ex : dot x x' = x 0 * x' 0 + x 1 * x' 1 + x 2 * x' 2 := rfl
  rw [ex]
  generalize dot B B = b at *
  generalize dot B x = p at *
  generalize dot B x' = p' at *
  have k1 : (p / b * p' - t * t') * (g ^ 2 * (1 - b) - 1) = 0 := by rw [hg]; ring
  have k2 : ((g - 1) * p / b - g * t) * ((g - 1) * p' / b - g * t') * (b - (B 0 * B 0 + B 1 * B 1 + B 2 * B 2)) = 0 := by rw [← e]; ring
  have k3 : ((g - 1) * p / b - g * t) * (p' - (B 0 * x' 0 + B 1 * x' 1 + B 2 * x' 2)) = 0 := by rw [← ep']; ring
  have k4 : ((g - 1) * p' / b - g * t') * (p - (B 0 * x 0 + B 1 * x 1 + B 2 * x 2)) = 0 := by rw [← ep]; ring
  have k5 : (p * b⁻¹) * b = p := by field_simp
  have k6 : b * b⁻¹ = 1 := by field_simp
  rw [← sub_eq_zero]
  have : ∀ w : ℝ, w * b * b⁻¹ ^ 2 = w * b⁻¹ := fun w => by field_simp
  simp only [div_eq_mul_inv] at *
  linear_combination k1 - k2 - k3 - k4 + (2 * p * p' * b⁻¹ - p * p' * b⁻¹ * g * 2 + p * p' * b⁻¹ * g ^ 2 - p' * g * (g - 1) * t - p * g * (g - 1) * t' + g ^ 2 * p * p' - p * p' * b⁻¹) * k6

theorem jac_eta (P : Par) (h : P.Moving) (m n : Fin 4) : transform P.B P.phiy P.phiz eta m n = eta m n := by
  have hb := dot_pos P h
  have hl : dot P.B P.B < 1 := by rw [← h.b2]; exact h.lt
  have e : transform P.B P.phiy P.phiz eta m n = mink (fun r => jac P.B P.phiy P.phiz r m) (fun r => jac P.B P.phiy P.phiz r n) := by
    simp [transform, Fin.sum_univ_four, eta, mink]
  rw [e]
  show mink (frame _ _ _ _ _) (frame _ _ _ _ _) = _
  unfold frame
  rw [mink_rotate, mink_boost _ hb hl]
  fin_cases m <;> fin_cases n <;> simp [eta, dot, Fin.ext_iff]

end Elliptica.Ks
