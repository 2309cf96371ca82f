import Verif.Lemmas.Ks
import Verif.Spec.Adm
import Verif.Props.Angles
import Mathlib.LinearAlgebra.Matrix.NonsingularInverse
import Mathlib.Tactic.NormNum
/-!
C90: the Kerr-Schild free data are the 3+1 split of the boosted and rotated Kerr metric.
-/
namespace Elliptica.Ks
open Elliptica.Fields Elliptica.KsSpec

/-- the rest-frame coordinates the code computes are those of the event (0,q) -/
theorem C90_coordinates (P : Par) (q : Pt) (h : P.Moving) : XYZ P q = space (frame P.B P.phiy P.phiz 0 q) := by
  have hl : ∀ m : Fin 4, frame P.B P.phiy P.phiz 0 q m = q 0 * jac P.B P.phiy P.phiz m 1 + q 1 * jac P.B P.phiy P.phiz m 2 + q 2 * jac P.B P.phiy P.phiz m 3 := by
    intro m
    fin_cases m <;> simp [jac, frame, rotate, boost, dot, Fin.ext_iff] <;> ring
  funext i
  fin_cases i
  · show X P q = frame P.B P.phiy P.phiz 0 q 1
    rw [hl, jac00 P q h, jac01 P q h, jac02 P q h, X_lin]; ring
  · show Y P q = frame P.B P.phiy P.phiz 0 q 2
    rw [hl, jac10 P q h, jac11 P q h, jac12 P q h, Y_lin]; ring
  · show Z P q = frame P.B P.phiy P.phiz 0 q 3
    rw [hl, jac20 P q h, jac21 P q h, jac22 P q h, Z_lin]; ring

/-- R is positive exactly off the disc of radius |a| around the hole -/
theorem C90_R_pos (P : Par) (q : Pt) (hl : 0 < P.lit) : 0 < R P q ↔ ¬ (Z P q = 0 ∧ X P q ^ 2 + Y P q ^ 2 ≤ P.a ^ 2) := by
  have hR : R P q = P.lit * Sq P q := rfl
  have hS : 0 < Sq P q ↔ 0 < -P.a ^ 2 + X P q ^ 2 + Y P q ^ 2 + Z P q ^ 2 + Tq P q := Real.sqrt_pos
  have hT : Tq P q = √(4 * P.a ^ 2 * (Z P q) ^ 2 + (-P.a ^ 2 + (X P q) ^ 2 + (Y P q) ^ 2 + (Z P q) ^ 2) ^ 2) := rfl
  have hT0 : 0 ≤ Tq P q := Real.sqrt_nonneg _
  have hT2 : Tq P q ^ 2 = 4 * P.a ^ 2 * (Z P q) ^ 2 + (-P.a ^ 2 + (X P q) ^ 2 + (Y P q) ^ 2 + (Z P q) ^ 2) ^ 2 := by rw [hT]; exact Real.sq_sqrt (by positivity)
  rw [hR, mul_pos_iff_of_pos_left hl, hS]
  constructor
  · rintro h ⟨hz, hxy⟩
    have hw : -P.a ^ 2 + X P q ^ 2 + Y P q ^ 2 + Z P q ^ 2 ≤ 0 := by rw [hz]; nlinarith
    have hp : 0 < Tq P q - -(-P.a ^ 2 + X P q ^ 2 + Y P q ^ 2 + Z P q ^ 2) := by linarith
    have e : (Tq P q - -(-P.a ^ 2 + X P q ^ 2 + Y P q ^ 2 + Z P q ^ 2)) * (Tq P q + -(-P.a ^ 2 + X P q ^ 2 + Y P q ^ 2 + Z P q ^ 2)) = 0 := by
      have : 4 * P.a ^ 2 * Z P q ^ 2 = 0 := by rw [hz]; ring
      linear_combination hT2 + this
    rcases mul_eq_zero.mp e with h0 | h0 <;> linarith
  · intro h
    by_contra hn
    apply h
    push Not at hn
    have hw : -P.a ^ 2 + X P q ^ 2 + Y P q ^ 2 + Z P q ^ 2 ≤ 0 := by linarith
    have h0 : 4 * P.a ^ 2 * Z P q ^ 2 ≤ 0 := by nlinarith
    have h1 : (P.a * Z P q) ^ 2 = 0 := le_antisymm (by nlinarith) (sq_nonneg _)
    have h2 : P.a * Z P q = 0 := by simpa using h1
    rcases mul_eq_zero.mp h2 with ha | hz
    · rw [ha] at hw
      have hz : Z P q ^ 2 ≤ 0 := by nlinarith [sq_nonneg (X P q), sq_nonneg (Y P q)]
      have hz' : Z P q = 0 := by simpa using le_antisymm hz (sq_nonneg _)
      exact ⟨hz', by rw [hz'] at hw; rw [ha]; nlinarith⟩
    · exact ⟨hz, by rw [hz] at hw; nlinarith⟩

theorem R_quartic (P : Par) (q : Pt) (hl2 : P.lit ^ 2 = 1 / 2) (hR : 0 < R P q) :
    R P q ^ 2 * (X P q ^ 2 + Y P q ^ 2) + Z P q ^ 2 * (R P q ^ 2 + P.a ^ 2) = R P q ^ 2 * (R P q ^ 2 + P.a ^ 2) := by
  have hT2 : Tq P q ^ 2 = 4 * P.a ^ 2 * (Z P q) ^ 2 + (-P.a ^ 2 + (X P q) ^ 2 + (Y P q) ^ 2 + (Z P q) ^ 2) ^ 2 := Real.sq_sqrt (by positivity)
  have hS := Sq_pos P q hR
  have hS2 : Sq P q ^ 2 = -P.a ^ 2 + X P q ^ 2 + Y P q ^ 2 + Z P q ^ 2 + Tq P q := Real.sq_sqrt (Real.sqrt_pos.mp hS).le
  have hR2 : R P q ^ 2 = 1 / 2 * (-P.a ^ 2 + X P q ^ 2 + Y P q ^ 2 + Z P q ^ 2 + Tq P q) := by
    rw [← hS2, ← hl2]; unfold R; ring
  have : R P q ^ 2 * (X P q ^ 2 + Y P q ^ 2) + Z P q ^ 2 * (R P q ^ 2 + P.a ^ 2) - R P q ^ 2 * (R P q ^ 2 + P.a ^ 2) = 0 := by
    rw [hR2]
    linear_combination (-1 / 4) * hT2
  linarith

/-- R is the Boyer-Lindquist radius of the point -/
theorem C90_radius (P : Par) (q : Pt) (h : P.Moving) (hl : 0 < P.lit) (hl2 : P.lit ^ 2 = 1 / 2)
    (hd : ¬ (frame P.B P.phiy P.phiz 0 q 3 = 0 ∧ frame P.B P.phiy P.phiz 0 q 1 ^ 2 + frame P.B P.phiy P.phiz 0 q 2 ^ 2 ≤ P.a ^ 2)) :
    Radius P.a (space (frame P.B P.phiy P.phiz 0 q)) (R P q) := by
  have hc := C90_coordinates P q h
  have e0 : X P q = frame P.B P.phiy P.phiz 0 q 1 := congrFun hc 0
  have e1 : Y P q = frame P.B P.phiy P.phiz 0 q 2 := congrFun hc 1
  have e2 : Z P q = frame P.B P.phiy P.phiz 0 q 3 := congrFun hc 2
  have hR : 0 < R P q := (C90_R_pos P q hl).mpr (by rw [e0, e1, e2]; exact hd)
  refine ⟨hR, ?_⟩
  have hq := R_quartic P q hl2 hR
  rw [← hc]
  show (X P q ^ 2 + Y P q ^ 2) / (R P q ^ 2 + P.a ^ 2) + Z P q ^ 2 / R P q ^ 2 = 1
  field_simp
  linarith

theorem K_unit (P : Par) (q : Pt) (hl2 : P.lit ^ 2 = 1 / 2) (hR : 0 < R P q) : K0 P q ^ 2 + K1 P q ^ 2 + K2 P q ^ 2 = 1 := by
  have hq := R_quartic P q hl2 hR
  unfold K0 K1 K2
  field_simp
  have h2 : 0 < P.a ^ 2 + R P q ^ 2 := by positivity
  nlinarith

theorem k_null (P : Par) (q : Pt) (h : P.Moving) (hl2 : P.lit ^ 2 = 1 / 2) (hR : 0 < R P q) :
    k0 P q ^ 2 + k1 P q ^ 2 + k2 P q ^ 2 = kt P q ^ 2 := by
  classical
  let E : Matrix (Fin 4) (Fin 4) ℝ := Matrix.of eta
  let L : Matrix (Fin 4) (Fin 4) ℝ := Matrix.of (jac P.B P.phiy P.phiz)
  have hE : E * E = 1 := by
    ext i j; fin_cases i <;> fin_cases j <;> simp [E, eta, Matrix.mul_apply, Fin.sum_univ_four]
  have hL : L.transpose * E * L = E := by
    ext m n
    have := jac_eta P h m n
    rw [← show transform P.B P.phiy P.phiz eta m n = (L.transpose * E * L) m n by
      simp only [transform, Matrix.mul_apply, Matrix.transpose_apply, L, E, Matrix.of_apply, Finset.sum_mul]
      rw [Finset.sum_comm]
      refine Finset.sum_congr rfl fun r _ => Finset.sum_congr rfl fun s _ => ?_
      ring]
    rw [this]; rfl
  have h1 : (E * L.transpose * E) * L = 1 := by
    rw [show E * L.transpose * E * L = E * (L.transpose * E * L) by simp only [Matrix.mul_assoc], hL, hE]
  have h2 : L * (E * L.transpose * E) = 1 := mul_eq_one_comm.mp h1
  have h3 : L * E * L.transpose = E := by
    have : L * E * L.transpose * E = 1 := by rw [← h2]; simp only [Matrix.mul_assoc]
    calc L * E * L.transpose = L * E * L.transpose * E * E := by rw [Matrix.mul_assoc _ E E, hE, Matrix.mul_one]
      _ = E := by rw [this, Matrix.one_mul]
  let l : Fin 4 → ℝ := null P.a (XYZ P q) (R P q)
  have hk : kcov P q = Matrix.vecMul l L := by
    funext m
    rw [kcov_eq P q h m]
    simp only [Matrix.vecMul, dotProduct, L, Matrix.of_apply, l]
    exact Finset.sum_congr rfl fun r _ => mul_comm _ _
  have h4 : dotProduct (Matrix.vecMul (kcov P q) E) (kcov P q) = dotProduct (Matrix.vecMul l E) l := by
    rw [hk, Matrix.vecMul_vecMul, ← Matrix.mulVec_transpose L l, Matrix.dotProduct_mulVec, Matrix.vecMul_vecMul, h3]
  have hK0 : l 1 = K0 P q := by unfold K0; simp [l, null, XYZ]; ring
  have hK1 : l 2 = K1 P q := by unfold K1; simp [l, null, XYZ]; ring
  have hK2 : l 3 = K2 P q := by unfold K2; simp [l, null, XYZ]
  have hn : l 0 = 1 := by simp [l, null]
  have h5 : dotProduct (Matrix.vecMul l E) l = 0 := by
    have e : dotProduct (Matrix.vecMul l E) l = -(l 0 * l 0) + l 1 * l 1 + l 2 * l 2 + l 3 * l 3 := by
      simp [dotProduct, Matrix.vecMul, Fin.sum_univ_four, E, eta]
    rw [e, hK0, hK1, hK2, hn]
    have := K_unit P q hl2 hR
    linarith
  rw [h5] at h4
  have e : dotProduct (Matrix.vecMul (kcov P q) E) (kcov P q) = -(kt P q * kt P q) + k0 P q * k0 P q + k1 P q * k1 P q + k2 P q * k2 P q := by
    simp [dotProduct, Matrix.vecMul, Fin.sum_univ_four, E, eta, kcov]
  rw [e] at h4
  linarith

end Elliptica.Ks
