import Verif.Lemmas.Gen.KsX
/-!
Generated by tools/gen_ks.py: each listed derivative is the derivative of the function it belongs to.
-/
namespace Elliptica.Ks
open Elliptica.Fields

set_option linter.unusedVariables false
set_option linter.unusedSimpArgs false
set_option linter.unusedTactic false
set_option linter.unreachableTactic false

noncomputable def iw (P : Par) (q : Pt) : ℝ := (X P q) ^ 2 + (Y P q) ^ 2 + (Z P q) ^ 2 - P.a ^ 2

noncomputable def iu0 (P : Par) (q : Pt) : ℝ := X P q * dX_D0 P q + Y P q * dY_D0 P q + Z P q * dZ_D0 P q

noncomputable def ig0 (P : Par) (q : Pt) : ℝ := Z P q * dZ_D0 P q

noncomputable def ie0 (P : Par) (q : Pt) : ℝ := X P q * dX_D0 P q

noncomputable def ip00 (P : Par) (q : Pt) : ℝ := (dX_D0 P q) ^ 2 + (dY_D0 P q) ^ 2 + (dZ_D0 P q) ^ 2

noncomputable def iz00 (P : Par) (q : Pt) : ℝ := (dZ_D0 P q) ^ 2

noncomputable def ip01 (P : Par) (q : Pt) : ℝ := dX_D0 P q * dX_D1 P q + dY_D0 P q * dY_D1 P q + dZ_D0 P q * dZ_D1 P q

noncomputable def iz01 (P : Par) (q : Pt) : ℝ := dZ_D0 P q * dZ_D1 P q

noncomputable def ip02 (P : Par) (q : Pt) : ℝ := dX_D0 P q * dX_D2 P q + dY_D0 P q * dY_D2 P q + dZ_D0 P q * dZ_D2 P q

noncomputable def iz02 (P : Par) (q : Pt) : ℝ := dZ_D0 P q * dZ_D2 P q

noncomputable def iu1 (P : Par) (q : Pt) : ℝ := X P q * dX_D1 P q + Y P q * dY_D1 P q + Z P q * dZ_D1 P q

noncomputable def ig1 (P : Par) (q : Pt) : ℝ := Z P q * dZ_D1 P q

noncomputable def ie1 (P : Par) (q : Pt) : ℝ := X P q * dX_D1 P q

noncomputable def ip11 (P : Par) (q : Pt) : ℝ := (dX_D1 P q) ^ 2 + (dY_D1 P q) ^ 2 + (dZ_D1 P q) ^ 2

noncomputable def iz11 (P : Par) (q : Pt) : ℝ := (dZ_D1 P q) ^ 2

noncomputable def ip12 (P : Par) (q : Pt) : ℝ := dX_D1 P q * dX_D2 P q + dY_D1 P q * dY_D2 P q + dZ_D1 P q * dZ_D2 P q

noncomputable def iz12 (P : Par) (q : Pt) : ℝ := dZ_D1 P q * dZ_D2 P q

noncomputable def iu2 (P : Par) (q : Pt) : ℝ := X P q * dX_D2 P q + Y P q * dY_D2 P q + Z P q * dZ_D2 P q

noncomputable def ig2 (P : Par) (q : Pt) : ℝ := Z P q * dZ_D2 P q

noncomputable def ie2 (P : Par) (q : Pt) : ℝ := X P q * dX_D2 P q

noncomputable def ip22 (P : Par) (q : Pt) : ℝ := (dX_D2 P q) ^ 2 + (dY_D2 P q) ^ 2 + (dZ_D2 P q) ^ 2

noncomputable def iz22 (P : Par) (q : Pt) : ℝ := (dZ_D2 P q) ^ 2

theorem iw_at0 (P : Par) (q : Pt) (hR : 0 < R P q) : HasDerivAt (line (iw P) 0 q) (2 * iu0 P q) (q 0) := by
  refine (((((X_at0 P q).pow 2).add ((Y_at0 P q).pow 2)).add ((Z_at0 P q).pow 2)).sub (hasDerivAt_const _ (P.a ^ 2))).congr_deriv ?_
  simp only [line_at, Nat.cast_ofNat, Nat.reduceSub, pow_one]
  unfold iu0
  ring

theorem iu0_at0 (P : Par) (q : Pt) (hR : 0 < R P q) : HasDerivAt (line (iu0 P) 0 q) (ip00 P q) (q 0) := by
  refine ((((X_at0 P q).mul (dX_D0_at0 P q)).add ((Y_at0 P q).mul (dY_D0_at0 P q))).add ((Z_at0 P q).mul (dZ_D0_at0 P q))).congr_deriv ?_
  simp only [line_at, ddX_D0D0, ddY_D0D0, ddZ_D0D0]
  unfold ip00
  ring

theorem ig0_at0 (P : Par) (q : Pt) (hR : 0 < R P q) : HasDerivAt (line (ig0 P) 0 q) (iz00 P q) (q 0) := by
  refine ((Z_at0 P q).mul (dZ_D0_at0 P q)).congr_deriv ?_
  simp only [line_at, ddZ_D0D0]
  unfold iz00
  ring

theorem ip00_at0 (P : Par) (q : Pt) (hR : 0 < R P q) : HasDerivAt (line (ip00 P) 0 q) 0 (q 0) := hasDerivAt_const (q 0) (ip00 P q)

theorem iz00_at0 (P : Par) (q : Pt) (hR : 0 < R P q) : HasDerivAt (line (iz00 P) 0 q) 0 (q 0) := hasDerivAt_const (q 0) (iz00 P q)

theorem ip01_at0 (P : Par) (q : Pt) (hR : 0 < R P q) : HasDerivAt (line (ip01 P) 0 q) 0 (q 0) := hasDerivAt_const (q 0) (ip01 P q)

theorem iz01_at0 (P : Par) (q : Pt) (hR : 0 < R P q) : HasDerivAt (line (iz01 P) 0 q) 0 (q 0) := hasDerivAt_const (q 0) (iz01 P q)

theorem ip02_at0 (P : Par) (q : Pt) (hR : 0 < R P q) : HasDerivAt (line (ip02 P) 0 q) 0 (q 0) := hasDerivAt_const (q 0) (ip02 P q)

theorem iz02_at0 (P : Par) (q : Pt) (hR : 0 < R P q) : HasDerivAt (line (iz02 P) 0 q) 0 (q 0) := hasDerivAt_const (q 0) (iz02 P q)

theorem iu1_at0 (P : Par) (q : Pt) (hR : 0 < R P q) : HasDerivAt (line (iu1 P) 0 q) (ip01 P q) (q 0) := by
  refine ((((X_at0 P q).mul (dX_D1_at0 P q)).add ((Y_at0 P q).mul (dY_D1_at0 P q))).add ((Z_at0 P q).mul (dZ_D1_at0 P q))).congr_deriv ?_
  simp only [line_at, ddX_D0D1, ddY_D0D1, ddZ_D0D1]
  unfold ip01
  ring

theorem ig1_at0 (P : Par) (q : Pt) (hR : 0 < R P q) : HasDerivAt (line (ig1 P) 0 q) (iz01 P q) (q 0) := by
  refine ((Z_at0 P q).mul (dZ_D1_at0 P q)).congr_deriv ?_
  simp only [line_at, ddZ_D0D1]
  unfold iz01
  ring

theorem ip11_at0 (P : Par) (q : Pt) (hR : 0 < R P q) : HasDerivAt (line (ip11 P) 0 q) 0 (q 0) := hasDerivAt_const (q 0) (ip11 P q)

theorem iz11_at0 (P : Par) (q : Pt) (hR : 0 < R P q) : HasDerivAt (line (iz11 P) 0 q) 0 (q 0) := hasDerivAt_const (q 0) (iz11 P q)

theorem ip12_at0 (P : Par) (q : Pt) (hR : 0 < R P q) : HasDerivAt (line (ip12 P) 0 q) 0 (q 0) := hasDerivAt_const (q 0) (ip12 P q)

theorem iz12_at0 (P : Par) (q : Pt) (hR : 0 < R P q) : HasDerivAt (line (iz12 P) 0 q) 0 (q 0) := hasDerivAt_const (q 0) (iz12 P q)

theorem iu2_at0 (P : Par) (q : Pt) (hR : 0 < R P q) : HasDerivAt (line (iu2 P) 0 q) (ip02 P q) (q 0) := by
  refine ((((X_at0 P q).mul (dX_D2_at0 P q)).add ((Y_at0 P q).mul (dY_D2_at0 P q))).add ((Z_at0 P q).mul (dZ_D2_at0 P q))).congr_deriv ?_
  simp only [line_at, ddX_D0D2, ddY_D0D2, ddZ_D0D2]
  unfold ip02
  ring

theorem ig2_at0 (P : Par) (q : Pt) (hR : 0 < R P q) : HasDerivAt (line (ig2 P) 0 q) (iz02 P q) (q 0) := by
  refine ((Z_at0 P q).mul (dZ_D2_at0 P q)).congr_deriv ?_
  simp only [line_at, ddZ_D0D2]
  unfold iz02
  ring

theorem ip22_at0 (P : Par) (q : Pt) (hR : 0 < R P q) : HasDerivAt (line (ip22 P) 0 q) 0 (q 0) := hasDerivAt_const (q 0) (ip22 P q)

theorem iz22_at0 (P : Par) (q : Pt) (hR : 0 < R P q) : HasDerivAt (line (iz22 P) 0 q) 0 (q 0) := hasDerivAt_const (q 0) (iz22 P q)

theorem Tq_iat0 (P : Par) (q : Pt) (hR : 0 < R P q) : HasDerivAt (line (Tq P) 0 q) ((4 * P.a ^ 2 * ig0 P q + 2 * iw P q * iu0 P q) / Tq P q) (q 0) := by
  refine (Tq_at0 P q hR).congr_deriv ?_
  unfold ig0 iw iu0
  ring

theorem Sq_iat0 (P : Par) (q : Pt) (hR : 0 < R P q) : HasDerivAt (line (Sq P) 0 q)
    ((iu0 P q + (2 * P.a ^ 2 * ig0 P q + iw P q * iu0 P q) / Tq P q) / Sq P q) (q 0) := by
  refine (Sq_at0 P q hR).congr_deriv ?_
  unfold ig0 iw iu0
  ring

theorem iw_at1 (P : Par) (q : Pt) (hR : 0 < R P q) : HasDerivAt (line (iw P) 1 q) (2 * iu1 P q) (q 1) := by
  refine (((((X_at1 P q).pow 2).add ((Y_at1 P q).pow 2)).add ((Z_at1 P q).pow 2)).sub (hasDerivAt_const _ (P.a ^ 2))).congr_deriv ?_
  simp only [line_at, Nat.cast_ofNat, Nat.reduceSub, pow_one]
  unfold iu1
  ring

theorem iu0_at1 (P : Par) (q : Pt) (hR : 0 < R P q) : HasDerivAt (line (iu0 P) 1 q) (ip01 P q) (q 1) := by
  refine ((((X_at1 P q).mul (dX_D0_at1 P q)).add ((Y_at1 P q).mul (dY_D0_at1 P q))).add ((Z_at1 P q).mul (dZ_D0_at1 P q))).congr_deriv ?_
  simp only [line_at, ddX_D0D1, ddY_D0D1, ddZ_D0D1]
  unfold ip01
  ring

theorem ig0_at1 (P : Par) (q : Pt) (hR : 0 < R P q) : HasDerivAt (line (ig0 P) 1 q) (iz01 P q) (q 1) := by
  refine ((Z_at1 P q).mul (dZ_D0_at1 P q)).congr_deriv ?_
  simp only [line_at, ddZ_D0D1]
  unfold iz01
  ring

theorem ip00_at1 (P : Par) (q : Pt) (hR : 0 < R P q) : HasDerivAt (line (ip00 P) 1 q) 0 (q 1) := hasDerivAt_const (q 1) (ip00 P q)

theorem iz00_at1 (P : Par) (q : Pt) (hR : 0 < R P q) : HasDerivAt (line (iz00 P) 1 q) 0 (q 1) := hasDerivAt_const (q 1) (iz00 P q)

theorem ip01_at1 (P : Par) (q : Pt) (hR : 0 < R P q) : HasDerivAt (line (ip01 P) 1 q) 0 (q 1) := hasDerivAt_const (q 1) (ip01 P q)

theorem iz01_at1 (P : Par) (q : Pt) (hR : 0 < R P q) : HasDerivAt (line (iz01 P) 1 q) 0 (q 1) := hasDerivAt_const (q 1) (iz01 P q)

theorem ip02_at1 (P : Par) (q : Pt) (hR : 0 < R P q) : HasDerivAt (line (ip02 P) 1 q) 0 (q 1) := hasDerivAt_const (q 1) (ip02 P q)

theorem iz02_at1 (P : Par) (q : Pt) (hR : 0 < R P q) : HasDerivAt (line (iz02 P) 1 q) 0 (q 1) := hasDerivAt_const (q 1) (iz02 P q)

theorem iu1_at1 (P : Par) (q : Pt) (hR : 0 < R P q) : HasDerivAt (line (iu1 P) 1 q) (ip11 P q) (q 1) := by
  refine ((((X_at1 P q).mul (dX_D1_at1 P q)).add ((Y_at1 P q).mul (dY_D1_at1 P q))).add ((Z_at1 P q).mul (dZ_D1_at1 P q))).congr_deriv ?_
  simp only [line_at, ddX_D1D1, ddY_D1D1, ddZ_D1D1]
  unfold ip11
  ring

theorem ig1_at1 (P : Par) (q : Pt) (hR : 0 < R P q) : HasDerivAt (line (ig1 P) 1 q) (iz11 P q) (q 1) := by
  refine ((Z_at1 P q).mul (dZ_D1_at1 P q)).congr_deriv ?_
  simp only [line_at, ddZ_D1D1]
  unfold iz11
  ring

theorem ip11_at1 (P : Par) (q : Pt) (hR : 0 < R P q) : HasDerivAt (line (ip11 P) 1 q) 0 (q 1) := hasDerivAt_const (q 1) (ip11 P q)

theorem iz11_at1 (P : Par) (q : Pt) (hR : 0 < R P q) : HasDerivAt (line (iz11 P) 1 q) 0 (q 1) := hasDerivAt_const (q 1) (iz11 P q)

theorem ip12_at1 (P : Par) (q : Pt) (hR : 0 < R P q) : HasDerivAt (line (ip12 P) 1 q) 0 (q 1) := hasDerivAt_const (q 1) (ip12 P q)

theorem iz12_at1 (P : Par) (q : Pt) (hR : 0 < R P q) : HasDerivAt (line (iz12 P) 1 q) 0 (q 1) := hasDerivAt_const (q 1) (iz12 P q)

theorem iu2_at1 (P : Par) (q : Pt) (hR : 0 < R P q) : HasDerivAt (line (iu2 P) 1 q) (ip12 P q) (q 1) := by
  refine ((((X_at1 P q).mul (dX_D2_at1 P q)).add ((Y_at1 P q).mul (dY_D2_at1 P q))).add ((Z_at1 P q).mul (dZ_D2_at1 P q))).congr_deriv ?_
  simp only [line_at, ddX_D1D2, ddY_D1D2, ddZ_D1D2]
  unfold ip12
  ring

theorem ig2_at1 (P : Par) (q : Pt) (hR : 0 < R P q) : HasDerivAt (line (ig2 P) 1 q) (iz12 P q) (q 1) := by
  refine ((Z_at1 P q).mul (dZ_D2_at1 P q)).congr_deriv ?_
  simp only [line_at, ddZ_D1D2]
  unfold iz12
  ring

theorem ip22_at1 (P : Par) (q : Pt) (hR : 0 < R P q) : HasDerivAt (line (ip22 P) 1 q) 0 (q 1) := hasDerivAt_const (q 1) (ip22 P q)

theorem iz22_at1 (P : Par) (q : Pt) (hR : 0 < R P q) : HasDerivAt (line (iz22 P) 1 q) 0 (q 1) := hasDerivAt_const (q 1) (iz22 P q)

theorem Tq_iat1 (P : Par) (q : Pt) (hR : 0 < R P q) : HasDerivAt (line (Tq P) 1 q) ((4 * P.a ^ 2 * ig1 P q + 2 * iw P q * iu1 P q) / Tq P q) (q 1) := by
  refine (Tq_at1 P q hR).congr_deriv ?_
  unfold ig1 iw iu1
  ring

theorem Sq_iat1 (P : Par) (q : Pt) (hR : 0 < R P q) : HasDerivAt (line (Sq P) 1 q)
    ((iu1 P q + (2 * P.a ^ 2 * ig1 P q + iw P q * iu1 P q) / Tq P q) / Sq P q) (q 1) := by
  refine (Sq_at1 P q hR).congr_deriv ?_
  unfold ig1 iw iu1
  ring

theorem iw_at2 (P : Par) (q : Pt) (hR : 0 < R P q) : HasDerivAt (line (iw P) 2 q) (2 * iu2 P q) (q 2) := by
  refine (((((X_at2 P q).pow 2).add ((Y_at2 P q).pow 2)).add ((Z_at2 P q).pow 2)).sub (hasDerivAt_const _ (P.a ^ 2))).congr_deriv ?_
  simp only [line_at, Nat.cast_ofNat, Nat.reduceSub, pow_one]
  unfold iu2
  ring

theorem iu0_at2 (P : Par) (q : Pt) (hR : 0 < R P q) : HasDerivAt (line (iu0 P) 2 q) (ip02 P q) (q 2) := by
  refine ((((X_at2 P q).mul (dX_D0_at2 P q)).add ((Y_at2 P q).mul (dY_D0_at2 P q))).add ((Z_at2 P q).mul (dZ_D0_at2 P q))).congr_deriv ?_
  simp only [line_at, ddX_D0D2, ddY_D0D2, ddZ_D0D2]
  unfold ip02
  ring

theorem ig0_at2 (P : Par) (q : Pt) (hR : 0 < R P q) : HasDerivAt (line (ig0 P) 2 q) (iz02 P q) (q 2) := by
  refine ((Z_at2 P q).mul (dZ_D0_at2 P q)).congr_deriv ?_
  simp only [line_at, ddZ_D0D2]
  unfold iz02
  ring

theorem ip00_at2 (P : Par) (q : Pt) (hR : 0 < R P q) : HasDerivAt (line (ip00 P) 2 q) 0 (q 2) := hasDerivAt_const (q 2) (ip00 P q)

theorem iz00_at2 (P : Par) (q : Pt) (hR : 0 < R P q) : HasDerivAt (line (iz00 P) 2 q) 0 (q 2) := hasDerivAt_const (q 2) (iz00 P q)

theorem ip01_at2 (P : Par) (q : Pt) (hR : 0 < R P q) : HasDerivAt (line (ip01 P) 2 q) 0 (q 2) := hasDerivAt_const (q 2) (ip01 P q)

theorem iz01_at2 (P : Par) (q : Pt) (hR : 0 < R P q) : HasDerivAt (line (iz01 P) 2 q) 0 (q 2) := hasDerivAt_const (q 2) (iz01 P q)

theorem ip02_at2 (P : Par) (q : Pt) (hR : 0 < R P q) : HasDerivAt (line (ip02 P) 2 q) 0 (q 2) := hasDerivAt_const (q 2) (ip02 P q)

theorem iz02_at2 (P : Par) (q : Pt) (hR : 0 < R P q) : HasDerivAt (line (iz02 P) 2 q) 0 (q 2) := hasDerivAt_const (q 2) (iz02 P q)

theorem iu1_at2 (P : Par) (q : Pt) (hR : 0 < R P q) : HasDerivAt (line (iu1 P) 2 q) (ip12 P q) (q 2) := by
  refine ((((X_at2 P q).mul (dX_D1_at2 P q)).add ((Y_at2 P q).mul (dY_D1_at2 P q))).add ((Z_at2 P q).mul (dZ_D1_at2 P q))).congr_deriv ?_
  simp only [line_at, ddX_D1D2, ddY_D1D2, ddZ_D1D2]
  unfold ip12
  ring

theorem ig1_at2 (P : Par) (q : Pt) (hR : 0 < R P q) : HasDerivAt (line (ig1 P) 2 q) (iz12 P q) (q 2) := by
  refine ((Z_at2 P q).mul (dZ_D1_at2 P q)).congr_deriv ?_
  simp only [line_at, ddZ_D1D2]
  unfold iz12
  ring

theorem ip11_at2 (P : Par) (q : Pt) (hR : 0 < R P q) : HasDerivAt (line (ip11 P) 2 q) 0 (q 2) := hasDerivAt_const (q 2) (ip11 P q)

theorem iz11_at2 (P : Par) (q : Pt) (hR : 0 < R P q) : HasDerivAt (line (iz11 P) 2 q) 0 (q 2) := hasDerivAt_const (q 2) (iz11 P q)

theorem ip12_at2 (P : Par) (q : Pt) (hR : 0 < R P q) : HasDerivAt (line (ip12 P) 2 q) 0 (q 2) := hasDerivAt_const (q 2) (ip12 P q)

theorem iz12_at2 (P : Par) (q : Pt) (hR : 0 < R P q) : HasDerivAt (line (iz12 P) 2 q) 0 (q 2) := hasDerivAt_const (q 2) (iz12 P q)

theorem iu2_at2 (P : Par) (q : Pt) (hR : 0 < R P q) : HasDerivAt (line (iu2 P) 2 q) (ip22 P q) (q 2) := by
  refine ((((X_at2 P q).mul (dX_D2_at2 P q)).add ((Y_at2 P q).mul (dY_D2_at2 P q))).add ((Z_at2 P q).mul (dZ_D2_at2 P q))).congr_deriv ?_
  simp only [line_at, ddX_D2D2, ddY_D2D2, ddZ_D2D2]
  unfold ip22
  ring

theorem ig2_at2 (P : Par) (q : Pt) (hR : 0 < R P q) : HasDerivAt (line (ig2 P) 2 q) (iz22 P q) (q 2) := by
  refine ((Z_at2 P q).mul (dZ_D2_at2 P q)).congr_deriv ?_
  simp only [line_at, ddZ_D2D2]
  unfold iz22
  ring

theorem ip22_at2 (P : Par) (q : Pt) (hR : 0 < R P q) : HasDerivAt (line (ip22 P) 2 q) 0 (q 2) := hasDerivAt_const (q 2) (ip22 P q)

theorem iz22_at2 (P : Par) (q : Pt) (hR : 0 < R P q) : HasDerivAt (line (iz22 P) 2 q) 0 (q 2) := hasDerivAt_const (q 2) (iz22 P q)

theorem Tq_iat2 (P : Par) (q : Pt) (hR : 0 < R P q) : HasDerivAt (line (Tq P) 2 q) ((4 * P.a ^ 2 * ig2 P q + 2 * iw P q * iu2 P q) / Tq P q) (q 2) := by
  refine (Tq_at2 P q hR).congr_deriv ?_
  unfold ig2 iw iu2
  ring

theorem Sq_iat2 (P : Par) (q : Pt) (hR : 0 < R P q) : HasDerivAt (line (Sq P) 2 q)
    ((iu2 P q + (2 * P.a ^ 2 * ig2 P q + iw P q * iu2 P q) / Tq P q) / Sq P q) (q 2) := by
  refine (Sq_at2 P q hR).congr_deriv ?_
  unfold ig2 iw iu2
  ring

end Elliptica.Ks
