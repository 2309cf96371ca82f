import Verif.Props.KsParams
/-!
Lemmas on the radius function and on the hole at rest.
-/
namespace Elliptica.Ks
open Elliptica.Fields Elliptica.KsSpec

theorem dR_form (P : Par) (q : Pt) (hl2 : P.lit ^ 2 = 1 / 2) (hR : 0 < R P q) (u z : ℝ) :
    P.lit * (u + (1 / 2) * (4 * z * P.a ^ 2 * Z P q + 2 * u * ((-1) * P.a ^ 2 + (X P q) ^ 2 + (Y P q) ^ 2 + (Z P q) ^ 2)) / Tq P q) / Sq P q =
      R P q * (R P q ^ 2 * u + P.a ^ 2 * Z P q * z) / (R P q ^ 4 + P.a ^ 2 * Z P q ^ 2) := by
  have hq := R_quartic P q hl2 hR
  have hS := Sq_pos P q hR
  have hS2 : Sq P q ^ 2 = -P.a ^ 2 + X P q ^ 2 + Y P q ^ 2 + Z P q ^ 2 + Tq P q := Real.sq_sqrt (Real.sqrt_pos.mp hS).le
  have hRd : R P q = P.lit * Sq P q := rfl
  have hR2 : 2 * R P q ^ 2 = -P.a ^ 2 + X P q ^ 2 + Y P q ^ 2 + Z P q ^ 2 + Tq P q := by
    rw [← hS2, hRd]; linear_combination 2 * Sq P q ^ 2 * hl2
  have hT : Tq P q * R P q ^ 2 = R P q ^ 4 + P.a ^ 2 * Z P q ^ 2 := by
    linear_combination (-R P q ^ 2) * hR2 - hq
  have hTp : 0 < Tq P q := by
    have h1 : 0 < Tq P q * R P q ^ 2 := by rw [hT]; positivity
    exact pos_of_mul_pos_left h1 (by positivity)
  have hl0 : P.lit ≠ 0 := by intro h; rw [h] at hl2; norm_num at hl2
  rw [← hT, hRd]
  rw [hRd] at hR2
  field_simp
  linear_combination (-2) * P.lit ^ 2 * u * hS2 + 4 * z * P.a ^ 2 * Z P q * hl2

theorem dR_eq (P : Par) (q : Pt) (hl2 : P.lit ^ 2 = 1 / 2) (hR : 0 < R P q) :
    dR_D0 P q = R P q * (R P q ^ 2 * (dX_D0 P q * X P q + dY_D0 P q * Y P q + dZ_D0 P q * Z P q) + P.a ^ 2 * Z P q * dZ_D0 P q) / (R P q ^ 4 + P.a ^ 2 * Z P q ^ 2) ∧
    dR_D1 P q = R P q * (R P q ^ 2 * (dX_D1 P q * X P q + dY_D1 P q * Y P q + dZ_D1 P q * Z P q) + P.a ^ 2 * Z P q * dZ_D1 P q) / (R P q ^ 4 + P.a ^ 2 * Z P q ^ 2) ∧
    dR_D2 P q = R P q * (R P q ^ 2 * (dX_D2 P q * X P q + dY_D2 P q * Y P q + dZ_D2 P q * Z P q) + P.a ^ 2 * Z P q * dZ_D2 P q) / (R P q ^ 4 + P.a ^ 2 * Z P q ^ 2) := by
  refine ⟨?_, ?_, ?_⟩
  · rw [← dR_form P q hl2 hR]; unfold dR_D0; ring
  · rw [← dR_form P q hl2 hR]; unfold dR_D1; ring
  · rw [← dR_form P q hl2 hR]; unfold dR_D2; ring

theorem rest_dX (P : Par) (q : Pt) (h : P.AtRest) :
    (dX_D0 P q = Real.cos P.phiy * Real.cos P.phiz ∧ dX_D1 P q = Real.cos P.phiy * Real.sin P.phiz ∧ dX_D2 P q = -Real.sin P.phiy) ∧
    (dY_D0 P q = -Real.sin P.phiz ∧ dY_D1 P q = Real.cos P.phiz ∧ dY_D2 P q = 0) ∧
    (dZ_D0 P q = Real.sin P.phiy * Real.cos P.phiz ∧ dZ_D1 P q = Real.sin P.phiy * Real.sin P.phiz ∧ dZ_D2 P q = Real.cos P.phiy) := by
  obtain ⟨hx, hy, hz⟩ := rest_B P h
  have h3 := root_pos P h.lt
  have h4 := h.pos
  refine ⟨⟨?_, ?_, ?_⟩, ⟨?_, ?_, ?_⟩, ⟨?_, ?_, ?_⟩⟩
  · unfold dX_D0; simp only [hx, hy, hz]; field_simp; try ring
  · unfold dX_D1; simp only [hx, hy, hz]; field_simp; try ring
  · unfold dX_D2; simp only [hx, hy, hz]; field_simp; try ring
  · unfold dY_D0; simp only [hx, hy, hz]; field_simp; try ring
  · unfold dY_D1; simp only [hx, hy, hz]; field_simp; try ring
  · unfold dY_D2; simp only [hx, hy, hz]; try field_simp
    try ring
  · unfold dZ_D0; simp only [hx, hy, hz]; field_simp; try ring
  · unfold dZ_D1; simp only [hx, hy, hz]; field_simp; try ring
  · unfold dZ_D2; simp only [hx, hy, hz]; field_simp; try ring

/-- the scalar product of the position and a derivative of it is the coordinate -/
theorem rest_u (P : Par) (q : Pt) (h : P.AtRest) :
    dX_D0 P q * X P q + dY_D0 P q * Y P q + dZ_D0 P q * Z P q = q 0 ∧
    dX_D1 P q * X P q + dY_D1 P q * Y P q + dZ_D1 P q * Z P q = q 1 ∧
    dX_D2 P q * X P q + dY_D2 P q * Y P q + dZ_D2 P q * Z P q = q 2 := by
  obtain ⟨⟨a0, a1, a2⟩, ⟨b0, b1, b2⟩, ⟨c0, c1, c2⟩⟩ := rest_dX P q h
  have hy := Real.sin_sq_add_cos_sq P.phiy
  have hz := Real.sin_sq_add_cos_sq P.phiz
  rw [X_lin, Y_lin, Z_lin, a0, a1, a2, b0, b1, b2, c0, c1, c2]
  refine ⟨?_, ?_, ?_⟩
  · linear_combination (Real.cos P.phiz ^ 2 * q 0 + Real.cos P.phiz * Real.sin P.phiz * q 1) * hy + q 0 * hz
  · linear_combination (Real.sin P.phiz ^ 2 * q 1 + Real.cos P.phiz * Real.sin P.phiz * q 0) * hy + q 1 * hz
  · linear_combination q 2 * hy

end Elliptica.Ks
