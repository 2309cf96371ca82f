import Verif.Props.KsDeriv
/-!
C92: the surface R = const that the code takes for the event horizon of a Kerr-Schild hole.
-/
namespace Elliptica.Ks
open Elliptica.Fields Elliptica.KsSpec

/-- `kerrInv` is the inverse of `kerr` -/
theorem kerrInv_inverse (M a : ℝ) (Q : Fin 3 → ℝ) (r : ℝ) (h : Radius a Q r) (m n : Fin 4) :
    ∑ s, kerrInv M a Q r m s * kerr M a Q r s n = if m = n then 1 else 0 := by
  have hp := h.pos
  have he := h.eq
  have hn : null a Q r 1 ^ 2 + null a Q r 2 ^ 2 + null a Q r 3 ^ 2 = 1 := by
    have : (Q 0 ^ 2 + Q 1 ^ 2) * r ^ 2 + Q 2 ^ 2 * (r ^ 2 + a ^ 2) = (r ^ 2 + a ^ 2) * r ^ 2 := by
      field_simp at he; linarith
    simp only [null, Matrix.cons_val_zero, Matrix.cons_val_one, Matrix.cons_val]
    field_simp
    linear_combination (r ^ 2 + a ^ 2) * this
  have h0 : null a Q r 0 = 1 := by simp [null]
  rw [Fin.sum_univ_four]
  unfold kerrInv kerr
  generalize M * r ^ 3 / (r ^ 4 + a ^ 2 * Q 2 ^ 2) = w
  generalize null a Q r = l at *
  fin_cases m <;> fin_cases n <;> simp [eta, h0]
  · linear_combination (4 * w ^ 2) * hn
  · linear_combination (4 * w ^ 2 * l 1) * hn
  · linear_combination (4 * w ^ 2 * l 2) * hn
  · linear_combination (4 * w ^ 2 * l 3) * hn
  · linear_combination (-4 * w ^ 2 * l 1) * hn
  · linear_combination (-4 * w ^ 2 * l 1 * l 1) * hn
  · linear_combination (-4 * w ^ 2 * l 1 * l 2) * hn
  · linear_combination (-4 * w ^ 2 * l 1 * l 3) * hn
  · linear_combination (-4 * w ^ 2 * l 2) * hn
  · linear_combination (-4 * w ^ 2 * l 2 * l 1) * hn
  · linear_combination (-4 * w ^ 2 * l 2 * l 2) * hn
  · linear_combination (-4 * w ^ 2 * l 2 * l 3) * hn
  · linear_combination (-4 * w ^ 2 * l 3) * hn
  · linear_combination (-4 * w ^ 2 * l 3 * l 1) * hn
  · linear_combination (-4 * w ^ 2 * l 3 * l 2) * hn
  · linear_combination (-4 * w ^ 2 * l 3 * l 3) * hn

/-- `G` is the gradient of R in the coordinates of the rest frame (chain rule) -/
def RestGrad (P : Par) (q : Pt) (G : Fin 3 → ℝ) : Prop := ∀ i : Fin 3, dR P i q = G 0 * dX P i q + G 1 * dY P i q + G 2 * dZ P i q

theorem rest_grad (P : Par) (q : Pt) (h : P.AtRest) (hl2 : P.lit ^ 2 = 1 / 2) (hR : 0 < R P q) (G : Fin 3 → ℝ) (hG : RestGrad P q G) :
    let S := R P q ^ 4 + P.a ^ 2 * Z P q ^ 2
    G 0 = R P q ^ 3 * X P q / S ∧ G 1 = R P q ^ 3 * Y P q / S ∧ G 2 = R P q * (R P q ^ 2 + P.a ^ 2) * Z P q / S := by
  intro S
  obtain ⟨⟨a0, a1, a2⟩, ⟨b0, b1, b2⟩, ⟨c0, c1, c2⟩⟩ := rest_dX P q h
  obtain ⟨r0, r1, r2⟩ := dR_eq P q hl2 hR
  have g0 : dR_D0 P q = G 0 * dX_D0 P q + G 1 * dY_D0 P q + G 2 * dZ_D0 P q := hG 0
  have g1 : dR_D1 P q = G 0 * dX_D1 P q + G 1 * dY_D1 P q + G 2 * dZ_D1 P q := hG 1
  have g2 : dR_D2 P q = G 0 * dX_D2 P q + G 1 * dY_D2 P q + G 2 * dZ_D2 P q := hG 2
  rw [g0, a0, b0, c0] at r0
  rw [g1, a1, b1, c1] at r1
  rw [g2, a2, b2, c2] at r2
  have hy := Real.sin_sq_add_cos_sq P.phiy
  have hz := Real.sin_sq_add_cos_sq P.phiz
  have hS : 0 < S := by positivity
  have hS' : R P q ^ 4 + P.a ^ 2 * Z P q ^ 2 ≠ 0 := hS.ne'
  rw [eq_div_iff hS'] at r0 r1 r2
  refine ⟨?_, ?_, ?_⟩
  · rw [eq_div_iff hS.ne']
    generalize Real.cos P.phiy = cy at *
    generalize Real.sin P.phiy = sy at *
    generalize Real.cos P.phiz = cz at *
    generalize Real.sin P.phiz = sz at *
    linear_combination cy * cz * r0 + cy * sz * r1 - sy * r2 - (G 0 * S - R P q ^ 3 * X P q) * hy - (G 0 * cy ^ 2 * S + G 2 * cy * sy * S - R P q ^ 3 * cy ^ 2 * X P q - R P q ^ 3 * cy * sy * Z P q - R P q * P.a ^ 2 * cy * sy * Z P q) * hz
  · rw [eq_div_iff hS.ne']
    generalize Real.cos P.phiy = cy at *
    generalize Real.sin P.phiy = sy at *
    generalize Real.cos P.phiz = cz at *
    generalize Real.sin P.phiz = sz at *
    linear_combination -sz * r0 + cz * r1 - (G 1 * S - R P q ^ 3 * Y P q) * hz
  · rw [eq_div_iff hS.ne']
    generalize Real.cos P.phiy = cy at *
    generalize Real.sin P.phiy = sy at *
    generalize Real.cos P.phiz = cz at *
    generalize Real.sin P.phiz = sz at *
    linear_combination sy * cz * r0 + sy * sz * r1 + cy * r2 - (G 2 * S - R P q * (R P q ^ 2 + P.a ^ 2) * Z P q) * hy - (G 0 * cy * sy * S + G 2 * sy ^ 2 * S - R P q ^ 3 * cy * sy * X P q - R P q ^ 3 * sy ^ 2 * Z P q - R P q * P.a ^ 2 * sy ^ 2 * Z P q) * hz

/-- C92 for a hole at rest the surface R = const through a point is null exactly when R² - 2MR + a² = 0 -/
theorem C92_null (P : Par) (q : Pt) (h : P.AtRest) (hl2 : P.lit ^ 2 = 1 / 2) (hR : 0 < R P q) (G : Fin 3 → ℝ) (hG : RestGrad P q G) :
    NullSurface (P.Lam * P.M) P.a (XYZ P q) (R P q) G ↔ R P q ^ 2 - 2 * (P.Lam * P.M) * R P q + P.a ^ 2 = 0 := by
  obtain ⟨g0, g1, g2⟩ := rest_grad P q h hl2 hR G hG
  have hq := R_quartic P q hl2 hR
  have hS : 0 < R P q ^ 4 + P.a ^ 2 * Z P q ^ 2 := by positivity
  have e : ∑ i : Fin 3, ∑ j : Fin 3, kerrInv (P.Lam * P.M) P.a (XYZ P q) (R P q) i.succ j.succ * G i * G j =
      (G 0 ^ 2 + G 1 ^ 2 + G 2 ^ 2) - 2 * (P.Lam * P.M * R P q ^ 3 / (R P q ^ 4 + P.a ^ 2 * Z P q ^ 2)) *
        ((R P q * X P q + P.a * Y P q) / (R P q ^ 2 + P.a ^ 2) * G 0 + (R P q * Y P q - P.a * X P q) / (R P q ^ 2 + P.a ^ 2) * G 1 + Z P q / R P q * G 2) ^ 2 := by
    have hn1 : null P.a (XYZ P q) (R P q) 1 = (R P q * X P q + P.a * Y P q) / (R P q ^ 2 + P.a ^ 2) := by simp [null, XYZ]
    have hn2 : null P.a (XYZ P q) (R P q) 2 = (R P q * Y P q - P.a * X P q) / (R P q ^ 2 + P.a ^ 2) := by simp [null, XYZ]
    have hn3 : null P.a (XYZ P q) (R P q) 3 = Z P q / R P q := by simp [null, XYZ]
    rw [← hn1, ← hn2, ← hn3]
    simp only [Fin.sum_univ_three, kerrInv, show XYZ P q 2 = Z P q from rfl]
    simp [eta]
    ring
  have h1 : G 0 ^ 2 + G 1 ^ 2 + G 2 ^ 2 = R P q ^ 2 * (R P q ^ 2 + P.a ^ 2) / (R P q ^ 4 + P.a ^ 2 * Z P q ^ 2) := by
    rw [g0, g1, g2, eq_div_iff hS.ne']
    field_simp
    linear_combination (R P q ^ 2) * hq
  have h2 : (R P q * X P q + P.a * Y P q) / (R P q ^ 2 + P.a ^ 2) * G 0 + (R P q * Y P q - P.a * X P q) / (R P q ^ 2 + P.a ^ 2) * G 1 + Z P q / R P q * G 2 = 1 := by
    rw [g0, g1, g2]
    field_simp
    linear_combination (R P q ^ 2) * hq
  unfold NullSurface
  rw [e, h1, h2]
  have : R P q ^ 2 * (R P q ^ 2 + P.a ^ 2) / (R P q ^ 4 + P.a ^ 2 * Z P q ^ 2) - 2 * (P.Lam * P.M * R P q ^ 3 / (R P q ^ 4 + P.a ^ 2 * Z P q ^ 2)) * 1 ^ 2 =
      R P q ^ 2 / (R P q ^ 4 + P.a ^ 2 * Z P q ^ 2) * (R P q ^ 2 - 2 * (P.Lam * P.M) * R P q + P.a ^ 2) := by ring
  rw [this]
  constructor
  · intro h0
    exact (mul_eq_zero.mp h0).resolve_left (by positivity)
  · intro h0; rw [h0, mul_zero]

/-- C92 the outer radius at which the surface is null is that of the horizon -/
theorem C92_horizon (M a : ℝ) (ha : a ^ 2 ≤ M ^ 2) :
    horizon M a ^ 2 - 2 * M * horizon M a + a ^ 2 = 0 ∧ ∀ r, r ^ 2 - 2 * M * r + a ^ 2 = 0 → r ≤ horizon M a := by
  have h2 := Real.sq_sqrt (show 0 ≤ M ^ 2 - a ^ 2 by linarith)
  have h0 := Real.sqrt_nonneg (M ^ 2 - a ^ 2)
  unfold horizon
  generalize √(M ^ 2 - a ^ 2) = s at *
  refine ⟨by nlinarith, fun r hr => ?_⟩
  by_contra hn
  push Not at hn
  nlinarith

/-- C92 what the surface finder solves: a zero of its function is a point with R = R0 -/
theorem C92_surface (P : Par) (R0 th ph r : ℝ) :
    surfaceEq P R0 th ph r = 0 ↔ R P ![r * Real.sin th * Real.cos ph, r * Real.sin th * Real.sin ph, r * Real.cos th] = R0 := by
  unfold surfaceEq
  constructor <;> intro h <;> linarith

/-- C92 violation: for every hole at rest with a spin, the surface that is found is nowhere null - it is not the horizon (and lies outside it) -/
theorem C92_surface_violation (P : Par) (h : P.AtRest) (hl2 : P.lit ^ 2 = 1 / 2) (hL : P.Lam = 1) (hM : 0 < P.M) (ha : P.a ≠ 0)
    (th ph r : ℝ) (hr : surfaceEq P (surfaceR P.M P.a) th ph r = 0) (G : Fin 3 → ℝ)
    (hG : RestGrad P ![r * Real.sin th * Real.cos ph, r * Real.sin th * Real.sin ph, r * Real.cos th] G) :
    ¬ NullSurface P.M P.a (XYZ P ![r * Real.sin th * Real.cos ph, r * Real.sin th * Real.sin ph, r * Real.cos th])
      (R P ![r * Real.sin th * Real.cos ph, r * Real.sin th * Real.sin ph, r * Real.cos th]) G ∧ horizon P.M P.a < surfaceR P.M P.a := by
  have hR0 := (C92_surface P _ th ph r).mp hr
  have h2 := Real.sq_sqrt (show 0 ≤ P.M ^ 2 + P.a ^ 2 by positivity)
  have h0 := Real.sqrt_nonneg (P.M ^ 2 + P.a ^ 2)
  have ha2 : 0 < P.a ^ 2 := by positivity
  have hp : 0 < surfaceR P.M P.a := by unfold surfaceR; linarith
  constructor
  · have hn := C92_null P _ h hl2 (by rw [hR0]; exact hp) G hG
    rw [hL, one_mul] at hn
    rw [hn, hR0]
    unfold surfaceR
    generalize √(P.M ^ 2 + P.a ^ 2) = s at *
    intro hh
    nlinarith
  · unfold horizon surfaceR
    have : √(P.M ^ 2 - P.a ^ 2) < √(P.M ^ 2 + P.a ^ 2) := Real.sqrt_lt_sqrt_iff_of_pos (by positivity) |>.mpr (by linarith)
    linarith

/-- the hole of the examples: mass 1, spin parameter 1/2 along z, at rest -/
noncomputable def exPar : Par := ⟨1, 1 / 2, 0, 0, 0, 0, 0, 1 / 100, 1, √(1 / 2)⟩

theorem exPar_rest : exPar.AtRest := ⟨by funext i; fin_cases i <;> simp [Par.B, exPar], by norm_num [exPar], by norm_num [exPar]⟩

theorem exPar_lit : 0 < exPar.lit ∧ exPar.lit ^ 2 = 1 / 2 := ⟨Real.sqrt_pos.mpr (by norm_num), Real.sq_sqrt (by norm_num)⟩

/-- on the axis of the spin R is the distance -/
theorem exPar_axis (z : ℝ) (hz : 0 < z) : R exPar ![0, 0, z] = z := by
  have h := rest_XYZ exPar ![0, 0, z] exPar_rest
  have e0 : X exPar ![0, 0, z] = 0 := by rw [show X exPar ![0, 0, z] = _ from congrFun h 0, exPar_rest.zero]; simp [space, frame, rotate, boost, exPar, dot]
  have e1 : Y exPar ![0, 0, z] = 0 := by rw [show Y exPar ![0, 0, z] = _ from congrFun h 1, exPar_rest.zero]; simp [space, frame, rotate, boost, exPar, dot]
  have e2 : Z exPar ![0, 0, z] = z := by rw [show Z exPar ![0, 0, z] = _ from congrFun h 2, exPar_rest.zero]; simp [space, frame, rotate, boost, exPar, dot]
  have hR : 0 < R exPar ![0, 0, z] := (C90_R_pos exPar _ exPar_lit.1).mpr (by rw [e2]; exact fun hh => hz.ne' hh.1)
  have hq := R_quartic exPar ![0, 0, z] exPar_lit.2 hR
  rw [e0, e1, e2] at hq
  have ha : exPar.a = 1 / 2 := rfl
  rw [ha] at hq
  generalize R exPar ![0, 0, z] = r at *
  have : (z ^ 2 - r ^ 2) * (r ^ 2 + (1 / 2) ^ 2) = 0 := by linarith
  rcases mul_eq_zero.mp this with h1 | h1
  · nlinarith
  · nlinarith

/-- the surface has points: on the axis of the example the zero is r = R0 -/
example : surfaceEq exPar (surfaceR exPar.M exPar.a) 0 0 (surfaceR 1 (1 / 2)) = 0 := by
  rw [C92_surface]
  have hp : 0 < surfaceR 1 (1 / 2) := by unfold surfaceR; positivity
  have := exPar_axis _ hp
  simp only [Real.sin_zero, Real.cos_zero, mul_zero, mul_one, zero_mul]
  rw [this]
  rfl

end Elliptica.Ks
