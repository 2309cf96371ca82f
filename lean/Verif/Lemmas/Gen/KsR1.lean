import Verif.Lemmas.Gen.KsI
/-!
Generated by tools/gen_ks.py: each listed derivative is the derivative of the function it belongs to.
-/
namespace Elliptica.Ks
open Elliptica.Fields

set_option linter.unusedVariables false
set_option linter.unusedSimpArgs false
set_option linter.unusedTactic false
set_option linter.unreachableTactic false

noncomputable def R_i (P : Par) (q : Pt) : ℝ :=
  P.lit * Sq P q

theorem R_eq (P : Par) (q : Pt) : R P q = R_i P q := by
  unfold R
  rfl

noncomputable def dR_D0_i (P : Par) (q : Pt) : ℝ :=
  P.lit * (iu0 P q + (2 * P.a ^ 2 * ig0 P q + iu0 P q * iw P q) / Tq P q) / Sq P q

theorem dR_D0_eq (P : Par) (q : Pt) : dR_D0 P q = dR_D0_i P q := by
  have e0 : (1 / 2) * (4 * dZ_D0 P q * P.a ^ 2 * Z P q + 2 * (dX_D0 P q * X P q + dY_D0 P q * Y P q + dZ_D0 P q * Z P q) * ((-1) * P.a ^ 2 + (X P q) ^ 2 + (Y P q) ^ 2 + (Z P q) ^ 2)) = 2 * P.a ^ 2 * ig0 P q + iu0 P q * iw P q := by
    simp only [ig0, iu0, iw]
    ring
  have e1 : 1 * dX_D0 P q * X P q + 1 * dY_D0 P q * Y P q + 1 * dZ_D0 P q * Z P q = iu0 P q := by
    simp only [iu0]
    ring
  unfold dR_D0
  rw [e0, e1]
  rfl

noncomputable def dR_D1_i (P : Par) (q : Pt) : ℝ :=
  P.lit * (iu1 P q + (2 * P.a ^ 2 * ig1 P q + iu1 P q * iw P q) / Tq P q) / Sq P q

theorem dR_D1_eq (P : Par) (q : Pt) : dR_D1 P q = dR_D1_i P q := by
  have e0 : (1 / 2) * (4 * dZ_D1 P q * P.a ^ 2 * Z P q + 2 * (dX_D1 P q * X P q + dY_D1 P q * Y P q + dZ_D1 P q * Z P q) * ((-1) * P.a ^ 2 + (X P q) ^ 2 + (Y P q) ^ 2 + (Z P q) ^ 2)) = 2 * P.a ^ 2 * ig1 P q + iu1 P q * iw P q := by
    simp only [ig1, iu1, iw]
    ring
  have e1 : 1 * dX_D1 P q * X P q + 1 * dY_D1 P q * Y P q + 1 * dZ_D1 P q * Z P q = iu1 P q := by
    simp only [iu1]
    ring
  unfold dR_D1
  rw [e0, e1]
  rfl

noncomputable def dR_D2_i (P : Par) (q : Pt) : ℝ :=
  P.lit * (iu2 P q + (2 * P.a ^ 2 * ig2 P q + iu2 P q * iw P q) / Tq P q) / Sq P q

theorem dR_D2_eq (P : Par) (q : Pt) : dR_D2 P q = dR_D2_i P q := by
  have e0 : (1 / 2) * (4 * dZ_D2 P q * P.a ^ 2 * Z P q + 2 * (dX_D2 P q * X P q + dY_D2 P q * Y P q + dZ_D2 P q * Z P q) * ((-1) * P.a ^ 2 + (X P q) ^ 2 + (Y P q) ^ 2 + (Z P q) ^ 2)) = 2 * P.a ^ 2 * ig2 P q + iu2 P q * iw P q := by
    simp only [ig2, iu2, iw]
    ring
  have e1 : 1 * dX_D2 P q * X P q + 1 * dY_D2 P q * Y P q + 1 * dZ_D2 P q * Z P q = iu2 P q := by
    simp only [iu2]
    ring
  unfold dR_D2
  rw [e0, e1]
  rfl

noncomputable def ddR_D0D0_i (P : Par) (q : Pt) : ℝ :=
  P.lit * (ip00 P q - (8 * P.a ^ 2 * ig0 P q * iu0 P q * iw P q + 8 * P.a ^ 4 * (ig0 P q) ^ 2 + 2 * (iu0 P q) ^ 2 * (iw P q) ^ 2) / (Tq P q) ^ 3 + (2 * P.a ^ 2 * iz00 P q
    + ip00 P q * iw P q + 2 * (iu0 P q) ^ 2) / Tq P q) / Sq P q + P.lit * (0 - iu0 P q - (2 * P.a ^ 2 * ig0 P q + iu0 P q * iw P q) / Tq P q) * (iu0 P q + (2 * P.a ^ 2 *
    ig0 P q + iu0 P q * iw P q) / Tq P q) / (Sq P q) ^ 3

theorem ddR_D0D0_eq (P : Par) (q : Pt) : ddR_D0D0 P q = ddR_D0D0_i P q := by
  have e0 : (1 / 2) * (4 * (dZ_D0 P q) ^ 2 * P.a ^ 2 + 4 * ddZ_D0D0 P q * P.a ^ 2 * Z P q + 4 * (1 * dX_D0 P q * X P q + 1 * dY_D0 P q * Y P q + 1 * dZ_D0 P q * Z P q) ^ 2 + (2 * (dX_D0 P q) ^ 2 + 2 * (dY_D0 P q) ^ 2 + 2 * (dZ_D0 P q) ^ 2 + 2 * ddX_D0D0 P q * X P q + 2 * ddY_D0D0 P q * Y P q + 2 * ddZ_D0D0 P q * Z P q) * (-P.a ^ 2 + (X P q) ^ 2 + (Y P q) ^ 2 + (Z P q) ^ 2)) = 2 * P.a ^ 2 * iz00 P q + ip00 P q * iw P q + 2 * (iu0 P q) ^ 2 := by
    simp only [ip00, iu0, iw, iz00, ddX_D0D0, ddY_D0D0, ddZ_D0D0]
    ring
  have e1 : 2 * (dZ_D0 P q * Z P q * ((-1) * P.a ^ 2 - 1 * (X P q) ^ 2 - 1 * (Y P q) ^ 2 - 1 * (Z P q) ^ 2) + dX_D0 P q * X P q * (1 * P.a ^ 2 - 1 * (X P q) ^ 2 - 1 * (Y P q) ^ 2 - 1 * (Z P q) ^ 2) + dY_D0 P q * Y P q * (1 * P.a ^ 2 - 1 * (X P q) ^ 2 - 1 * (Y P q) ^ 2 - 1 * (Z P q) ^ 2)) ^ 2 = 8 * P.a ^ 2 * ig0 P q * iu0 P q * iw P q + 8 * P.a ^ 4 * (ig0 P q) ^ 2 + 2 * (iu0 P q) ^ 2 * (iw P q) ^ 2 := by
    simp only [ig0, iu0, iw]
    ring
  have e2 : (1 / 2) * (4 * dZ_D0 P q * P.a ^ 2 * Z P q + 2 * (dX_D0 P q * X P q + dY_D0 P q * Y P q + dZ_D0 P q * Z P q) * ((-1) * P.a ^ 2 + (X P q) ^ 2 + (Y P q) ^ 2 + (Z P q) ^ 2)) = 2 * P.a ^ 2 * ig0 P q + iu0 P q * iw P q := by
    simp only [ig0, iu0, iw]
    ring
  have e3 : 1 * (dX_D0 P q) ^ 2 + 1 * (dY_D0 P q) ^ 2 + 1 * (dZ_D0 P q) ^ 2 + 1 * ddX_D0D0 P q * X P q + 1 * ddY_D0D0 P q * Y P q + 1 * ddZ_D0D0 P q * Z P q = ip00 P q := by
    simp only [ip00, ddX_D0D0, ddY_D0D0, ddZ_D0D0]
    ring
  have e4 : (-1) * dX_D0 P q * X P q - 1 * dY_D0 P q * Y P q - 1 * dZ_D0 P q * Z P q = 0 - iu0 P q := by
    simp only [iu0]
    ring
  have e5 : 1 * dX_D0 P q * X P q + 1 * dY_D0 P q * Y P q + 1 * dZ_D0 P q * Z P q = iu0 P q := by
    simp only [iu0]
    ring
  unfold ddR_D0D0
  rw [e0, e1, e2, e3, e4, e5]
  rfl

noncomputable def ddR_D0D1_i (P : Par) (q : Pt) : ℝ :=
  P.lit * (ip01 P q + (2 * P.a ^ 2 * iz01 P q + ip01 P q * iw P q + 2 * iu0 P q * iu1 P q) / Tq P q + (0 - 4 * P.a ^ 2 * ig0 P q * iu1 P q * iw P q - 4 * P.a ^ 2 * ig1 P
    q * iu0 P q * iw P q - 8 * P.a ^ 4 * ig0 P q * ig1 P q - 2 * iu0 P q * iu1 P q * (iw P q) ^ 2) / (Tq P q) ^ 3) / Sq P q + P.lit * (iu0 P q + (2 * P.a ^ 2 * ig0 P q +
    iu0 P q * iw P q) / Tq P q) * (0 - iu1 P q - (2 * P.a ^ 2 * ig1 P q + iu1 P q * iw P q) / Tq P q) / (Sq P q) ^ 3

theorem ddR_D0D1_eq (P : Par) (q : Pt) : ddR_D0D1 P q = ddR_D0D1_i P q := by
  have e0 : (1 / 2) * (4 * dZ_D0 P q * dZ_D1 P q * P.a ^ 2 + 4 * ddZ_D0D1 P q * P.a ^ 2 * Z P q + 4 * (1 * dX_D0 P q * X P q + 1 * dY_D0 P q * Y P q + 1 * dZ_D0 P q * Z P q) * (dX_D1 P q * X P q + dY_D1 P q * Y P q + dZ_D1 P q * Z P q) + (2 * dX_D0 P q * dX_D1 P q + 2 * dY_D0 P q * dY_D1 P q + 2 * dZ_D0 P q * dZ_D1 P q + 2 * ddX_D0D1 P q * X P q + 2 * ddY_D0D1 P q * Y P q + 2 * ddZ_D0D1 P q * Z P q) * (-P.a ^ 2 + (X P q) ^ 2 + (Y P q) ^ 2 + (Z P q) ^ 2)) = 2 * P.a ^ 2 * iz01 P q + ip01 P q * iw P q + 2 * iu0 P q * iu1 P q := by
    simp only [ip01, iu0, iu1, iw, iz01, ddX_D0D1, ddY_D0D1, ddZ_D0D1]
    ring
  have e1 : (1 / 2) * (4 * dZ_D0 P q * P.a ^ 2 * Z P q + 2 * (dX_D0 P q * X P q + dY_D0 P q * Y P q + dZ_D0 P q * Z P q) * ((-1) * P.a ^ 2 + (X P q) ^ 2 + (Y P q) ^ 2 + (Z P q) ^ 2)) * ((-4) * dZ_D1 P q * P.a ^ 2 * Z P q - 2 * (dX_D1 P q * X P q + dY_D1 P q * Y P q + dZ_D1 P q * Z P q) * ((-1) * P.a ^ 2 + (X P q) ^ 2 + (Y P q) ^ 2 + (Z P q) ^ 2)) = 0 - 4 * P.a ^ 2 * ig0 P q * iu1 P q * iw P q - 4 * P.a ^ 2 * ig1 P q * iu0 P q * iw P q - 8 * P.a ^ 4 * ig0 P q * ig1 P q - 2 * iu0 P q * iu1 P q * (iw P q) ^ 2 := by
    simp only [ig0, ig1, iu0, iu1, iw]
    ring
  have e2 : (1 / 2) * (4 * dZ_D0 P q * P.a ^ 2 * Z P q + 2 * (dX_D0 P q * X P q + dY_D0 P q * Y P q + dZ_D0 P q * Z P q) * ((-1) * P.a ^ 2 + (X P q) ^ 2 + (Y P q) ^ 2 + (Z P q) ^ 2)) = 2 * P.a ^ 2 * ig0 P q + iu0 P q * iw P q := by
    simp only [ig0, iu0, iw]
    ring
  have e3 : (1 / 2) * (4 * dZ_D1 P q * P.a ^ 2 * Z P q + 2 * (dX_D1 P q * X P q + dY_D1 P q * Y P q + dZ_D1 P q * Z P q) * ((-1) * P.a ^ 2 + (X P q) ^ 2 + (Y P q) ^ 2 + (Z P q) ^ 2)) = 2 * P.a ^ 2 * ig1 P q + iu1 P q * iw P q := by
    simp only [ig1, iu1, iw]
    ring
  have e4 : 1 * dX_D0 P q * dX_D1 P q + 1 * dY_D0 P q * dY_D1 P q + 1 * dZ_D0 P q * dZ_D1 P q + 1 * ddX_D0D1 P q * X P q + 1 * ddY_D0D1 P q * Y P q + 1 * ddZ_D0D1 P q * Z P q = ip01 P q := by
    simp only [ip01, ddX_D0D1, ddY_D0D1, ddZ_D0D1]
    ring
  have e5 : (-1) * dX_D1 P q * X P q - 1 * dY_D1 P q * Y P q - 1 * dZ_D1 P q * Z P q = 0 - iu1 P q := by
    simp only [iu1]
    ring
  have e6 : 1 * dX_D0 P q * X P q + 1 * dY_D0 P q * Y P q + 1 * dZ_D0 P q * Z P q = iu0 P q := by
    simp only [iu0]
    ring
  unfold ddR_D0D1
  rw [e0, e1, e2, e3, e4, e5, e6]
  rfl

noncomputable def ddR_D0D2_i (P : Par) (q : Pt) : ℝ :=
  P.lit * (ip02 P q + (2 * P.a ^ 2 * iz02 P q + ip02 P q * iw P q + 2 * iu0 P q * iu2 P q) / Tq P q + (0 - 4 * P.a ^ 2 * ig0 P q * iu2 P q * iw P q - 4 * P.a ^ 2 * ig2 P
    q * iu0 P q * iw P q - 8 * P.a ^ 4 * ig0 P q * ig2 P q - 2 * iu0 P q * iu2 P q * (iw P q) ^ 2) / (Tq P q) ^ 3) / Sq P q + P.lit * (iu0 P q + (2 * P.a ^ 2 * ig0 P q +
    iu0 P q * iw P q) / Tq P q) * (0 - iu2 P q - (2 * P.a ^ 2 * ig2 P q + iu2 P q * iw P q) / Tq P q) / (Sq P q) ^ 3

theorem ddR_D0D2_eq (P : Par) (q : Pt) : ddR_D0D2 P q = ddR_D0D2_i P q := by
  have e0 : (1 / 2) * (4 * dZ_D0 P q * dZ_D2 P q * P.a ^ 2 + 4 * ddZ_D0D2 P q * P.a ^ 2 * Z P q + 4 * (1 * dX_D0 P q * X P q + 1 * dY_D0 P q * Y P q + 1 * dZ_D0 P q * Z P q) * (dX_D2 P q * X P q + dY_D2 P q * Y P q + dZ_D2 P q * Z P q) + (2 * dX_D0 P q * dX_D2 P q + 2 * dY_D0 P q * dY_D2 P q + 2 * dZ_D0 P q * dZ_D2 P q + 2 * ddX_D0D2 P q * X P q + 2 * ddY_D0D2 P q * Y P q + 2 * ddZ_D0D2 P q * Z P q) * (-P.a ^ 2 + (X P q) ^ 2 + (Y P q) ^ 2 + (Z P q) ^ 2)) = 2 * P.a ^ 2 * iz02 P q + ip02 P q * iw P q + 2 * iu0 P q * iu2 P q := by
    simp only [ip02, iu0, iu2, iw, iz02, ddX_D0D2, ddY_D0D2, ddZ_D0D2]
    ring
  have e1 : (1 / 2) * (4 * dZ_D0 P q * P.a ^ 2 * Z P q + 2 * (dX_D0 P q * X P q + dY_D0 P q * Y P q + dZ_D0 P q * Z P q) * ((-1) * P.a ^ 2 + (X P q) ^ 2 + (Y P q) ^ 2 + (Z P q) ^ 2)) * ((-4) * dZ_D2 P q * P.a ^ 2 * Z P q - 2 * (dX_D2 P q * X P q + dY_D2 P q * Y P q + dZ_D2 P q * Z P q) * ((-1) * P.a ^ 2 + (X P q) ^ 2 + (Y P q) ^ 2 + (Z P q) ^ 2)) = 0 - 4 * P.a ^ 2 * ig0 P q * iu2 P q * iw P q - 4 * P.a ^ 2 * ig2 P q * iu0 P q * iw P q - 8 * P.a ^ 4 * ig0 P q * ig2 P q - 2 * iu0 P q * iu2 P q * (iw P q) ^ 2 := by
    simp only [ig0, ig2, iu0, iu2, iw]
    ring
  have e2 : (1 / 2) * (4 * dZ_D0 P q * P.a ^ 2 * Z P q + 2 * (dX_D0 P q * X P q + dY_D0 P q * Y P q + dZ_D0 P q * Z P q) * ((-1) * P.a ^ 2 + (X P q) ^ 2 + (Y P q) ^ 2 + (Z P q) ^ 2)) = 2 * P.a ^ 2 * ig0 P q + iu0 P q * iw P q := by
    simp only [ig0, iu0, iw]
    ring
  have e3 : (1 / 2) * (4 * dZ_D2 P q * P.a ^ 2 * Z P q + 2 * (dX_D2 P q * X P q + dY_D2 P q * Y P q + dZ_D2 P q * Z P q) * ((-1) * P.a ^ 2 + (X P q) ^ 2 + (Y P q) ^ 2 + (Z P q) ^ 2)) = 2 * P.a ^ 2 * ig2 P q + iu2 P q * iw P q := by
    simp only [ig2, iu2, iw]
    ring
  have e4 : 1 * dX_D0 P q * dX_D2 P q + 1 * dY_D0 P q * dY_D2 P q + 1 * dZ_D0 P q * dZ_D2 P q + 1 * ddX_D0D2 P q * X P q + 1 * ddY_D0D2 P q * Y P q + 1 * ddZ_D0D2 P q * Z P q = ip02 P q := by
    simp only [ip02, ddX_D0D2, ddY_D0D2, ddZ_D0D2]
    ring
  have e5 : (-1) * dX_D2 P q * X P q - 1 * dY_D2 P q * Y P q - 1 * dZ_D2 P q * Z P q = 0 - iu2 P q := by
    simp only [iu2]
    ring
  have e6 : 1 * dX_D0 P q * X P q + 1 * dY_D0 P q * Y P q + 1 * dZ_D0 P q * Z P q = iu0 P q := by
    simp only [iu0]
    ring
  unfold ddR_D0D2
  rw [e0, e1, e2, e3, e4, e5, e6]
  rfl

noncomputable def ddR_D1D1_i (P : Par) (q : Pt) : ℝ :=
  P.lit * (ip11 P q - (8 * P.a ^ 2 * ig1 P q * iu1 P q * iw P q + 8 * P.a ^ 4 * (ig1 P q) ^ 2 + 2 * (iu1 P q) ^ 2 * (iw P q) ^ 2) / (Tq P q) ^ 3 + (2 * P.a ^ 2 * iz11 P q
    + ip11 P q * iw P q + 2 * (iu1 P q) ^ 2) / Tq P q) / Sq P q + P.lit * (0 - iu1 P q - (2 * P.a ^ 2 * ig1 P q + iu1 P q * iw P q) / Tq P q) * (iu1 P q + (2 * P.a ^ 2 *
    ig1 P q + iu1 P q * iw P q) / Tq P q) / (Sq P q) ^ 3

theorem ddR_D1D1_eq (P : Par) (q : Pt) : ddR_D1D1 P q = ddR_D1D1_i P q := by
  have e0 : (1 / 2) * (4 * (dZ_D1 P q) ^ 2 * P.a ^ 2 + 4 * ddZ_D1D1 P q * P.a ^ 2 * Z P q + 4 * (1 * dX_D1 P q * X P q + 1 * dY_D1 P q * Y P q + 1 * dZ_D1 P q * Z P q) ^ 2 + (2 * (dX_D1 P q) ^ 2 + 2 * (dY_D1 P q) ^ 2 + 2 * (dZ_D1 P q) ^ 2 + 2 * ddX_D1D1 P q * X P q + 2 * ddY_D1D1 P q * Y P q + 2 * ddZ_D1D1 P q * Z P q) * (-P.a ^ 2 + (X P q) ^ 2 + (Y P q) ^ 2 + (Z P q) ^ 2)) = 2 * P.a ^ 2 * iz11 P q + ip11 P q * iw P q + 2 * (iu1 P q) ^ 2 := by
    simp only [ip11, iu1, iw, iz11, ddX_D1D1, ddY_D1D1, ddZ_D1D1]
    ring
  have e1 : 2 * (dZ_D1 P q * Z P q * ((-1) * P.a ^ 2 - 1 * (X P q) ^ 2 - 1 * (Y P q) ^ 2 - 1 * (Z P q) ^ 2) + dX_D1 P q * X P q * (1 * P.a ^ 2 - 1 * (X P q) ^ 2 - 1 * (Y P q) ^ 2 - 1 * (Z P q) ^ 2) + dY_D1 P q * Y P q * (1 * P.a ^ 2 - 1 * (X P q) ^ 2 - 1 * (Y P q) ^ 2 - 1 * (Z P q) ^ 2)) ^ 2 = 8 * P.a ^ 2 * ig1 P q * iu1 P q * iw P q + 8 * P.a ^ 4 * (ig1 P q) ^ 2 + 2 * (iu1 P q) ^ 2 * (iw P q) ^ 2 := by
    simp only [ig1, iu1, iw]
    ring
  have e2 : (1 / 2) * (4 * dZ_D1 P q * P.a ^ 2 * Z P q + 2 * (dX_D1 P q * X P q + dY_D1 P q * Y P q + dZ_D1 P q * Z P q) * ((-1) * P.a ^ 2 + (X P q) ^ 2 + (Y P q) ^ 2 + (Z P q) ^ 2)) = 2 * P.a ^ 2 * ig1 P q + iu1 P q * iw P q := by
    simp only [ig1, iu1, iw]
    ring
  have e3 : 1 * (dX_D1 P q) ^ 2 + 1 * (dY_D1 P q) ^ 2 + 1 * (dZ_D1 P q) ^ 2 + 1 * ddX_D1D1 P q * X P q + 1 * ddY_D1D1 P q * Y P q + 1 * ddZ_D1D1 P q * Z P q = ip11 P q := by
    simp only [ip11, ddX_D1D1, ddY_D1D1, ddZ_D1D1]
    ring
  have e4 : (-1) * dX_D1 P q * X P q - 1 * dY_D1 P q * Y P q - 1 * dZ_D1 P q * Z P q = 0 - iu1 P q := by
    simp only [iu1]
    ring
  have e5 : 1 * dX_D1 P q * X P q + 1 * dY_D1 P q * Y P q + 1 * dZ_D1 P q * Z P q = iu1 P q := by
    simp only [iu1]
    ring
  unfold ddR_D1D1
  rw [e0, e1, e2, e3, e4, e5]
  rfl

noncomputable def ddR_D1D2_i (P : Par) (q : Pt) : ℝ :=
  P.lit * (ip12 P q + (2 * P.a ^ 2 * iz12 P q + ip12 P q * iw P q + 2 * iu1 P q * iu2 P q) / Tq P q + (0 - 4 * P.a ^ 2 * ig1 P q * iu2 P q * iw P q - 4 * P.a ^ 2 * ig2 P
    q * iu1 P q * iw P q - 8 * P.a ^ 4 * ig1 P q * ig2 P q - 2 * iu1 P q * iu2 P q * (iw P q) ^ 2) / (Tq P q) ^ 3) / Sq P q + P.lit * (iu1 P q + (2 * P.a ^ 2 * ig1 P q +
    iu1 P q * iw P q) / Tq P q) * (0 - iu2 P q - (2 * P.a ^ 2 * ig2 P q + iu2 P q * iw P q) / Tq P q) / (Sq P q) ^ 3

theorem ddR_D1D2_eq (P : Par) (q : Pt) : ddR_D1D2 P q = ddR_D1D2_i P q := by
  have e0 : (1 / 2) * (4 * dZ_D1 P q * dZ_D2 P q * P.a ^ 2 + 4 * ddZ_D1D2 P q * P.a ^ 2 * Z P q + 4 * (1 * dX_D1 P q * X P q + 1 * dY_D1 P q * Y P q + 1 * dZ_D1 P q * Z P q) * (dX_D2 P q * X P q + dY_D2 P q * Y P q + dZ_D2 P q * Z P q) + (2 * dX_D1 P q * dX_D2 P q + 2 * dY_D1 P q * dY_D2 P q + 2 * dZ_D1 P q * dZ_D2 P q + 2 * ddX_D1D2 P q * X P q + 2 * ddY_D1D2 P q * Y P q + 2 * ddZ_D1D2 P q * Z P q) * (-P.a ^ 2 + (X P q) ^ 2 + (Y P q) ^ 2 + (Z P q) ^ 2)) = 2 * P.a ^ 2 * iz12 P q + ip12 P q * iw P q + 2 * iu1 P q * iu2 P q := by
    simp only [ip12, iu1, iu2, iw, iz12, ddX_D1D2, ddY_D1D2, ddZ_D1D2]
    ring
  have e1 : (1 / 2) * (4 * dZ_D1 P q * P.a ^ 2 * Z P q + 2 * (dX_D1 P q * X P q + dY_D1 P q * Y P q + dZ_D1 P q * Z P q) * ((-1) * P.a ^ 2 + (X P q) ^ 2 + (Y P q) ^ 2 + (Z P q) ^ 2)) * ((-4) * dZ_D2 P q * P.a ^ 2 * Z P q - 2 * (dX_D2 P q * X P q + dY_D2 P q * Y P q + dZ_D2 P q * Z P q) * ((-1) * P.a ^ 2 + (X P q) ^ 2 + (Y P q) ^ 2 + (Z P q) ^ 2)) = 0 - 4 * P.a ^ 2 * ig1 P q * iu2 P q * iw P q - 4 * P.a ^ 2 * ig2 P q * iu1 P q * iw P q - 8 * P.a ^ 4 * ig1 P q * ig2 P q - 2 * iu1 P q * iu2 P q * (iw P q) ^ 2 := by
    simp only [ig1, ig2, iu1, iu2, iw]
    ring
  have e2 : (1 / 2) * (4 * dZ_D1 P q * P.a ^ 2 * Z P q + 2 * (dX_D1 P q * X P q + dY_D1 P q * Y P q + dZ_D1 P q * Z P q) * ((-1) * P.a ^ 2 + (X P q) ^ 2 + (Y P q) ^ 2 + (Z P q) ^ 2)) = 2 * P.a ^ 2 * ig1 P q + iu1 P q * iw P q := by
    simp only [ig1, iu1, iw]
    ring
  have e3 : (1 / 2) * (4 * dZ_D2 P q * P.a ^ 2 * Z P q + 2 * (dX_D2 P q * X P q + dY_D2 P q * Y P q + dZ_D2 P q * Z P q) * ((-1) * P.a ^ 2 + (X P q) ^ 2 + (Y P q) ^ 2 + (Z P q) ^ 2)) = 2 * P.a ^ 2 * ig2 P q + iu2 P q * iw P q := by
    simp only [ig2, iu2, iw]
    ring
  have e4 : 1 * dX_D1 P q * dX_D2 P q + 1 * dY_D1 P q * dY_D2 P q + 1 * dZ_D1 P q * dZ_D2 P q + 1 * ddX_D1D2 P q * X P q + 1 * ddY_D1D2 P q * Y P q + 1 * ddZ_D1D2 P q * Z P q = ip12 P q := by
    simp only [ip12, ddX_D1D2, ddY_D1D2, ddZ_D1D2]
    ring
  have e5 : (-1) * dX_D2 P q * X P q - 1 * dY_D2 P q * Y P q - 1 * dZ_D2 P q * Z P q = 0 - iu2 P q := by
    simp only [iu2]
    ring
  have e6 : 1 * dX_D1 P q * X P q + 1 * dY_D1 P q * Y P q + 1 * dZ_D1 P q * Z P q = iu1 P q := by
    simp only [iu1]
    ring
  unfold ddR_D1D2
  rw [e0, e1, e2, e3, e4, e5, e6]
  rfl

noncomputable def ddR_D2D2_i (P : Par) (q : Pt) : ℝ :=
  P.lit * (ip22 P q - (8 * P.a ^ 2 * ig2 P q * iu2 P q * iw P q + 8 * P.a ^ 4 * (ig2 P q) ^ 2 + 2 * (iu2 P q) ^ 2 * (iw P q) ^ 2) / (Tq P q) ^ 3 + (2 * P.a ^ 2 * iz22 P q
    + ip22 P q * iw P q + 2 * (iu2 P q) ^ 2) / Tq P q) / Sq P q + P.lit * (0 - iu2 P q - (2 * P.a ^ 2 * ig2 P q + iu2 P q * iw P q) / Tq P q) * (iu2 P q + (2 * P.a ^ 2 *
    ig2 P q + iu2 P q * iw P q) / Tq P q) / (Sq P q) ^ 3

theorem ddR_D2D2_eq (P : Par) (q : Pt) : ddR_D2D2 P q = ddR_D2D2_i P q := by
  have e0 : (1 / 2) * (4 * (dZ_D2 P q) ^ 2 * P.a ^ 2 + 4 * ddZ_D2D2 P q * P.a ^ 2 * Z P q + 4 * (1 * dX_D2 P q * X P q + 1 * dY_D2 P q * Y P q + 1 * dZ_D2 P q * Z P q) ^ 2 + (2 * (dX_D2 P q) ^ 2 + 2 * (dY_D2 P q) ^ 2 + 2 * (dZ_D2 P q) ^ 2 + 2 * ddX_D2D2 P q * X P q + 2 * ddY_D2D2 P q * Y P q + 2 * ddZ_D2D2 P q * Z P q) * (-P.a ^ 2 + (X P q) ^ 2 + (Y P q) ^ 2 + (Z P q) ^ 2)) = 2 * P.a ^ 2 * iz22 P q + ip22 P q * iw P q + 2 * (iu2 P q) ^ 2 := by
    simp only [ip22, iu2, iw, iz22, ddX_D2D2, ddY_D2D2, ddZ_D2D2]
    ring
  have e1 : 2 * (dZ_D2 P q * Z P q * ((-1) * P.a ^ 2 - 1 * (X P q) ^ 2 - 1 * (Y P q) ^ 2 - 1 * (Z P q) ^ 2) + dX_D2 P q * X P q * (1 * P.a ^ 2 - 1 * (X P q) ^ 2 - 1 * (Y P q) ^ 2 - 1 * (Z P q) ^ 2) + dY_D2 P q * Y P q * (1 * P.a ^ 2 - 1 * (X P q) ^ 2 - 1 * (Y P q) ^ 2 - 1 * (Z P q) ^ 2)) ^ 2 = 8 * P.a ^ 2 * ig2 P q * iu2 P q * iw P q + 8 * P.a ^ 4 * (ig2 P q) ^ 2 + 2 * (iu2 P q) ^ 2 * (iw P q) ^ 2 := by
    simp only [ig2, iu2, iw]
    ring
  have e2 : (1 / 2) * (4 * dZ_D2 P q * P.a ^ 2 * Z P q + 2 * (dX_D2 P q * X P q + dY_D2 P q * Y P q + dZ_D2 P q * Z P q) * ((-1) * P.a ^ 2 + (X P q) ^ 2 + (Y P q) ^ 2 + (Z P q) ^ 2)) = 2 * P.a ^ 2 * ig2 P q + iu2 P q * iw P q := by
    simp only [ig2, iu2, iw]
    ring
  have e3 : 1 * (dX_D2 P q) ^ 2 + 1 * (dY_D2 P q) ^ 2 + 1 * (dZ_D2 P q) ^ 2 + 1 * ddX_D2D2 P q * X P q + 1 * ddY_D2D2 P q * Y P q + 1 * ddZ_D2D2 P q * Z P q = ip22 P q := by
    simp only [ip22, ddX_D2D2, ddY_D2D2, ddZ_D2D2]
    ring
  have e4 : (-1) * dX_D2 P q * X P q - 1 * dY_D2 P q * Y P q - 1 * dZ_D2 P q * Z P q = 0 - iu2 P q := by
    simp only [iu2]
    ring
  have e5 : 1 * dX_D2 P q * X P q + 1 * dY_D2 P q * Y P q + 1 * dZ_D2 P q * Z P q = iu2 P q := by
    simp only [iu2]
    ring
  unfold ddR_D2D2
  rw [e0, e1, e2, e3, e4, e5]
  rfl

theorem R_at0 (P : Par) (q : Pt) (hR : 0 < R P q) : HasDerivAt (line (R P) 0 q) (dR_D0 P q) (q 0) := by
  have hc : ∀ c : ℝ, HasDerivAt (fun _ => c) 0 (q 0) := fun c => hasDerivAt_const _ c
  have hT := Tq_pos P q hR
  have hS := Sq_pos P q hR
  have h_Sq := Sq_iat0 P q hR
  have key := ((hc (P.lit)).mul h_Sq)
  rw [show R P = R_i P from funext (R_eq P), dR_D0_eq]
  refine key.congr_deriv ?_
  simp only [Pi.add_apply, Pi.sub_apply, Pi.neg_apply, Pi.mul_apply, Pi.pow_apply, Pi.div_apply, line_at]
  unfold dR_D0_i
  simp only [div_eq_mul_inv, Nat.cast_ofNat, Nat.reduceSub, Nat.reduceAdd, pow_one, mul_zero, zero_mul, add_zero, zero_add, sub_zero]
  ring

theorem R_at1 (P : Par) (q : Pt) (hR : 0 < R P q) : HasDerivAt (line (R P) 1 q) (dR_D1 P q) (q 1) := by
  have hc : ∀ c : ℝ, HasDerivAt (fun _ => c) 0 (q 1) := fun c => hasDerivAt_const _ c
  have hT := Tq_pos P q hR
  have hS := Sq_pos P q hR
  have h_Sq := Sq_iat1 P q hR
  have key := ((hc (P.lit)).mul h_Sq)
  rw [show R P = R_i P from funext (R_eq P), dR_D1_eq]
  refine key.congr_deriv ?_
  simp only [Pi.add_apply, Pi.sub_apply, Pi.neg_apply, Pi.mul_apply, Pi.pow_apply, Pi.div_apply, line_at]
  unfold dR_D1_i
  simp only [div_eq_mul_inv, Nat.cast_ofNat, Nat.reduceSub, Nat.reduceAdd, pow_one, mul_zero, zero_mul, add_zero, zero_add, sub_zero]
  ring

theorem R_at2 (P : Par) (q : Pt) (hR : 0 < R P q) : HasDerivAt (line (R P) 2 q) (dR_D2 P q) (q 2) := by
  have hc : ∀ c : ℝ, HasDerivAt (fun _ => c) 0 (q 2) := fun c => hasDerivAt_const _ c
  have hT := Tq_pos P q hR
  have hS := Sq_pos P q hR
  have h_Sq := Sq_iat2 P q hR
  have key := ((hc (P.lit)).mul h_Sq)
  rw [show R P = R_i P from funext (R_eq P), dR_D2_eq]
  refine key.congr_deriv ?_
  simp only [Pi.add_apply, Pi.sub_apply, Pi.neg_apply, Pi.mul_apply, Pi.pow_apply, Pi.div_apply, line_at]
  unfold dR_D2_i
  simp only [div_eq_mul_inv, Nat.cast_ofNat, Nat.reduceSub, Nat.reduceAdd, pow_one, mul_zero, zero_mul, add_zero, zero_add, sub_zero]
  ring

theorem dR_D0_at0 (P : Par) (q : Pt) (hR : 0 < R P q) : HasDerivAt (line (dR_D0 P) 0 q) (ddR_D0D0 P q) (q 0) := by
  have hc : ∀ c : ℝ, HasDerivAt (fun _ => c) 0 (q 0) := fun c => hasDerivAt_const _ c
  have hT := Tq_pos P q hR
  have hS := Sq_pos P q hR
  have h_Sq := Sq_iat0 P q hR
  have h_Tq := Tq_iat0 P q hR
  have h_ig0 := ig0_at0 P q hR
  have h_iu0 := iu0_at0 P q hR
  have h_iw := iw_at0 P q hR
  have key := (div_one_at ((hc (P.lit)).mul (h_iu0.add (div_one_at (((hc (2 * P.a ^ 2)).mul h_ig0).add (h_iu0.mul h_iw)) h_Tq (by ks_ne)))) h_Sq (by ks_ne))
  rw [show dR_D0 P = dR_D0_i P from funext (dR_D0_eq P), ddR_D0D0_eq]
  refine key.congr_deriv ?_
  simp only [Pi.add_apply, Pi.sub_apply, Pi.neg_apply, Pi.mul_apply, Pi.pow_apply, Pi.div_apply, line_at]
  unfold ddR_D0D0_i
  simp only [div_eq_mul_inv, Nat.cast_ofNat, Nat.reduceSub, Nat.reduceAdd, pow_one, mul_zero, zero_mul, add_zero, zero_add, sub_zero]
  ring

theorem dR_D0_at1 (P : Par) (q : Pt) (hR : 0 < R P q) : HasDerivAt (line (dR_D0 P) 1 q) (ddR_D0D1 P q) (q 1) := by
  have hc : ∀ c : ℝ, HasDerivAt (fun _ => c) 0 (q 1) := fun c => hasDerivAt_const _ c
  have hT := Tq_pos P q hR
  have hS := Sq_pos P q hR
  have h_Sq := Sq_iat1 P q hR
  have h_Tq := Tq_iat1 P q hR
  have h_ig0 := ig0_at1 P q hR
  have h_iu0 := iu0_at1 P q hR
  have h_iw := iw_at1 P q hR
  have key := (div_one_at ((hc (P.lit)).mul (h_iu0.add (div_one_at (((hc (2 * P.a ^ 2)).mul h_ig0).add (h_iu0.mul h_iw)) h_Tq (by ks_ne)))) h_Sq (by ks_ne))
  rw [show dR_D0 P = dR_D0_i P from funext (dR_D0_eq P), ddR_D0D1_eq]
  refine key.congr_deriv ?_
  simp only [Pi.add_apply, Pi.sub_apply, Pi.neg_apply, Pi.mul_apply, Pi.pow_apply, Pi.div_apply, line_at]
  unfold ddR_D0D1_i
  simp only [div_eq_mul_inv, Nat.cast_ofNat, Nat.reduceSub, Nat.reduceAdd, pow_one, mul_zero, zero_mul, add_zero, zero_add, sub_zero]
  ring

theorem dR_D0_at2 (P : Par) (q : Pt) (hR : 0 < R P q) : HasDerivAt (line (dR_D0 P) 2 q) (ddR_D0D2 P q) (q 2) := by
  have hc : ∀ c : ℝ, HasDerivAt (fun _ => c) 0 (q 2) := fun c => hasDerivAt_const _ c
  have hT := Tq_pos P q hR
  have hS := Sq_pos P q hR
  have h_Sq := Sq_iat2 P q hR
  have h_Tq := Tq_iat2 P q hR
  have h_ig0 := ig0_at2 P q hR
  have h_iu0 := iu0_at2 P q hR
  have h_iw := iw_at2 P q hR
  have key := (div_one_at ((hc (P.lit)).mul (h_iu0.add (div_one_at (((hc (2 * P.a ^ 2)).mul h_ig0).add (h_iu0.mul h_iw)) h_Tq (by ks_ne)))) h_Sq (by ks_ne))
  rw [show dR_D0 P = dR_D0_i P from funext (dR_D0_eq P), ddR_D0D2_eq]
  refine key.congr_deriv ?_
  simp only [Pi.add_apply, Pi.sub_apply, Pi.neg_apply, Pi.mul_apply, Pi.pow_apply, Pi.div_apply, line_at]
  unfold ddR_D0D2_i
  simp only [div_eq_mul_inv, Nat.cast_ofNat, Nat.reduceSub, Nat.reduceAdd, pow_one, mul_zero, zero_mul, add_zero, zero_add, sub_zero]
  ring

theorem dR_D1_at0 (P : Par) (q : Pt) (hR : 0 < R P q) : HasDerivAt (line (dR_D1 P) 0 q) (ddR_D0D1 P q) (q 0) := by
  have hc : ∀ c : ℝ, HasDerivAt (fun _ => c) 0 (q 0) := fun c => hasDerivAt_const _ c
  have hT := Tq_pos P q hR
  have hS := Sq_pos P q hR
  have h_Sq := Sq_iat0 P q hR
  have h_Tq := Tq_iat0 P q hR
  have h_ig1 := ig1_at0 P q hR
  have h_iu1 := iu1_at0 P q hR
  have h_iw := iw_at0 P q hR
  have key := (div_one_at ((hc (P.lit)).mul (h_iu1.add (div_one_at (((hc (2 * P.a ^ 2)).mul h_ig1).add (h_iu1.mul h_iw)) h_Tq (by ks_ne)))) h_Sq (by ks_ne))
  rw [show dR_D1 P = dR_D1_i P from funext (dR_D1_eq P), ddR_D0D1_eq]
  refine key.congr_deriv ?_
  simp only [Pi.add_apply, Pi.sub_apply, Pi.neg_apply, Pi.mul_apply, Pi.pow_apply, Pi.div_apply, line_at]
  unfold ddR_D0D1_i
  simp only [div_eq_mul_inv, Nat.cast_ofNat, Nat.reduceSub, Nat.reduceAdd, pow_one, mul_zero, zero_mul, add_zero, zero_add, sub_zero]
  ring

theorem dR_D1_at1 (P : Par) (q : Pt) (hR : 0 < R P q) : HasDerivAt (line (dR_D1 P) 1 q) (ddR_D1D1 P q) (q 1) := by
  have hc : ∀ c : ℝ, HasDerivAt (fun _ => c) 0 (q 1) := fun c => hasDerivAt_const _ c
  have hT := Tq_pos P q hR
  have hS := Sq_pos P q hR
  have h_Sq := Sq_iat1 P q hR
  have h_Tq := Tq_iat1 P q hR
  have h_ig1 := ig1_at1 P q hR
  have h_iu1 := iu1_at1 P q hR
  have h_iw := iw_at1 P q hR
  have key := (div_one_at ((hc (P.lit)).mul (h_iu1.add (div_one_at (((hc (2 * P.a ^ 2)).mul h_ig1).add (h_iu1.mul h_iw)) h_Tq (by ks_ne)))) h_Sq (by ks_ne))
  rw [show dR_D1 P = dR_D1_i P from funext (dR_D1_eq P), ddR_D1D1_eq]
  refine key.congr_deriv ?_
  simp only [Pi.add_apply, Pi.sub_apply, Pi.neg_apply, Pi.mul_apply, Pi.pow_apply, Pi.div_apply, line_at]
  unfold ddR_D1D1_i
  simp only [div_eq_mul_inv, Nat.cast_ofNat, Nat.reduceSub, Nat.reduceAdd, pow_one, mul_zero, zero_mul, add_zero, zero_add, sub_zero]
  ring

theorem dR_D1_at2 (P : Par) (q : Pt) (hR : 0 < R P q) : HasDerivAt (line (dR_D1 P) 2 q) (ddR_D1D2 P q) (q 2) := by
  have hc : ∀ c : ℝ, HasDerivAt (fun _ => c) 0 (q 2) := fun c => hasDerivAt_const _ c
  have hT := Tq_pos P q hR
  have hS := Sq_pos P q hR
  have h_Sq := Sq_iat2 P q hR
  have h_Tq := Tq_iat2 P q hR
  have h_ig1 := ig1_at2 P q hR
  have h_iu1 := iu1_at2 P q hR
  have h_iw := iw_at2 P q hR
  have key := (div_one_at ((hc (P.lit)).mul (h_iu1.add (div_one_at (((hc (2 * P.a ^ 2)).mul h_ig1).add (h_iu1.mul h_iw)) h_Tq (by ks_ne)))) h_Sq (by ks_ne))
  rw [show dR_D1 P = dR_D1_i P from funext (dR_D1_eq P), ddR_D1D2_eq]
  refine key.congr_deriv ?_
  simp only [Pi.add_apply, Pi.sub_apply, Pi.neg_apply, Pi.mul_apply, Pi.pow_apply, Pi.div_apply, line_at]
  unfold ddR_D1D2_i
  simp only [div_eq_mul_inv, Nat.cast_ofNat, Nat.reduceSub, Nat.reduceAdd, pow_one, mul_zero, zero_mul, add_zero, zero_add, sub_zero]
  ring

theorem dR_D2_at0 (P : Par) (q : Pt) (hR : 0 < R P q) : HasDerivAt (line (dR_D2 P) 0 q) (ddR_D0D2 P q) (q 0) := by
  have hc : ∀ c : ℝ, HasDerivAt (fun _ => c) 0 (q 0) := fun c => hasDerivAt_const _ c
  have hT := Tq_pos P q hR
  have hS := Sq_pos P q hR
  have h_Sq := Sq_iat0 P q hR
  have h_Tq := Tq_iat0 P q hR
  have h_ig2 := ig2_at0 P q hR
  have h_iu2 := iu2_at0 P q hR
  have h_iw := iw_at0 P q hR
  have key := (div_one_at ((hc (P.lit)).mul (h_iu2.add (div_one_at (((hc (2 * P.a ^ 2)).mul h_ig2).add (h_iu2.mul h_iw)) h_Tq (by ks_ne)))) h_Sq (by ks_ne))
  rw [show dR_D2 P = dR_D2_i P from funext (dR_D2_eq P), ddR_D0D2_eq]
  refine key.congr_deriv ?_
  simp only [Pi.add_apply, Pi.sub_apply, Pi.neg_apply, Pi.mul_apply, Pi.pow_apply, Pi.div_apply, line_at]
  unfold ddR_D0D2_i
  simp only [div_eq_mul_inv, Nat.cast_ofNat, Nat.reduceSub, Nat.reduceAdd, pow_one, mul_zero, zero_mul, add_zero, zero_add, sub_zero]
  ring

theorem dR_D2_at1 (P : Par) (q : Pt) (hR : 0 < R P q) : HasDerivAt (line (dR_D2 P) 1 q) (ddR_D1D2 P q) (q 1) := by
  have hc : ∀ c : ℝ, HasDerivAt (fun _ => c) 0 (q 1) := fun c => hasDerivAt_const _ c
  have hT := Tq_pos P q hR
  have hS := Sq_pos P q hR
  have h_Sq := Sq_iat1 P q hR
  have h_Tq := Tq_iat1 P q hR
  have h_ig2 := ig2_at1 P q hR
  have h_iu2 := iu2_at1 P q hR
  have h_iw := iw_at1 P q hR
  have key := (div_one_at ((hc (P.lit)).mul (h_iu2.add (div_one_at (((hc (2 * P.a ^ 2)).mul h_ig2).add (h_iu2.mul h_iw)) h_Tq (by ks_ne)))) h_Sq (by ks_ne))
  rw [show dR_D2 P = dR_D2_i P from funext (dR_D2_eq P), ddR_D1D2_eq]
  refine key.congr_deriv ?_
  simp only [Pi.add_apply, Pi.sub_apply, Pi.neg_apply, Pi.mul_apply, Pi.pow_apply, Pi.div_apply, line_at]
  unfold ddR_D1D2_i
  simp only [div_eq_mul_inv, Nat.cast_ofNat, Nat.reduceSub, Nat.reduceAdd, pow_one, mul_zero, zero_mul, add_zero, zero_add, sub_zero]
  ring

theorem dR_D2_at2 (P : Par) (q : Pt) (hR : 0 < R P q) : HasDerivAt (line (dR_D2 P) 2 q) (ddR_D2D2 P q) (q 2) := by
  have hc : ∀ c : ℝ, HasDerivAt (fun _ => c) 0 (q 2) := fun c => hasDerivAt_const _ c
  have hT := Tq_pos P q hR
  have hS := Sq_pos P q hR
  have h_Sq := Sq_iat2 P q hR
  have h_Tq := Tq_iat2 P q hR
  have h_ig2 := ig2_at2 P q hR
  have h_iu2 := iu2_at2 P q hR
  have h_iw := iw_at2 P q hR
  have key := (div_one_at ((hc (P.lit)).mul (h_iu2.add (div_one_at (((hc (2 * P.a ^ 2)).mul h_ig2).add (h_iu2.mul h_iw)) h_Tq (by ks_ne)))) h_Sq (by ks_ne))
  rw [show dR_D2 P = dR_D2_i P from funext (dR_D2_eq P), ddR_D2D2_eq]
  refine key.congr_deriv ?_
  simp only [Pi.add_apply, Pi.sub_apply, Pi.neg_apply, Pi.mul_apply, Pi.pow_apply, Pi.div_apply, line_at]
  unfold ddR_D2D2_i
  simp only [div_eq_mul_inv, Nat.cast_ofNat, Nat.reduceSub, Nat.reduceAdd, pow_one, mul_zero, zero_mul, add_zero, zero_add, sub_zero]
  ring

end Elliptica.Ks
