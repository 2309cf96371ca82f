import Verif.Lemmas.Gen.KsR1
/-!
Generated by tools/gen_ks.py: each listed derivative is the derivative of the function it belongs to.
-/
namespace Elliptica.Ks
open Elliptica.Fields

set_option linter.unusedVariables false
set_option linter.unusedSimpArgs false
set_option linter.unusedTactic false
set_option linter.unreachableTactic false

noncomputable def dddR_D0D0D0_i (P : Par) (q : Pt) : ℝ :=
  (3 * P.lit) * (2 * P.a ^ 2 * ig0 P q + iu0 P q * iw P q + ie0 P q * Tq P q + (0 - ie0 P q - ig0 P q + iu0 P q) * Tq P q + ig0 P q * Tq P q) ^ 3 / ((Tq P q) ^ 3 * (Sq P
    q) ^ 5) + P.lit * (0 - (0 - 72 * P.a ^ 2 * ig0 P q * (iu0 P q) ^ 2 * (iw P q) ^ 2 - 144 * P.a ^ 4 * (ig0 P q) ^ 2 * iu0 P q * iw P q - 96 * P.a ^ 6 * (ig0 P q) ^ 3 -
    12 * (iu0 P q) ^ 3 * (iw P q) ^ 3) / (Tq P q) ^ 5 + 6 * ip00 P q * iu0 P q / Tq P q + (0 - 8 * P.a ^ 2 * ig0 P q * ip00 P q * iw P q - 16 * P.a ^ 2 * ig0 P q * (iu0 P
    q) ^ 2 - 8 * P.a ^ 2 * iu0 P q * iw P q * iz00 P q - 16 * P.a ^ 4 * ig0 P q * iz00 P q - 4 * ip00 P q * iu0 P q * (iw P q) ^ 2 - 8 * (iu0 P q) ^ 3 * iw P q) / (Tq P
    q) ^ 3 + (0 - 4 * P.a ^ 2 * ig0 P q * ip00 P q * iw P q - 8 * P.a ^ 2 * ig0 P q * (iu0 P q) ^ 2 - 4 * P.a ^ 2 * iu0 P q * iw P q * iz00 P q - 8 * P.a ^ 4 * ig0 P q *
    iz00 P q - 2 * ip00 P q * iu0 P q * (iw P q) ^ 2 - 4 * (iu0 P q) ^ 3 * iw P q) / (Tq P q) ^ 3) / Sq P q + (2 * P.lit) * (ip00 P q - (8 * P.a ^ 2 * ig0 P q * iu0 P q *
    iw P q + 8 * P.a ^ 4 * (ig0 P q) ^ 2 + 2 * (iu0 P q) ^ 2 * (iw P q) ^ 2) / (Tq P q) ^ 3 + (2 * P.a ^ 2 * iz00 P q + ip00 P q * iw P q + 2 * (iu0 P q) ^ 2) / Tq P q) *
    (0 - iu0 P q - (2 * P.a ^ 2 * ig0 P q + iu0 P q * iw P q) / Tq P q) / (Sq P q) ^ 3 + P.lit * (0 - ip00 P q + (8 * P.a ^ 2 * ig0 P q * iu0 P q * iw P q + 8 * P.a ^ 4 *
    (ig0 P q) ^ 2 + 2 * (iu0 P q) ^ 2 * (iw P q) ^ 2) / (Tq P q) ^ 3 - (2 * P.a ^ 2 * iz00 P q + ip00 P q * iw P q + 2 * (iu0 P q) ^ 2) / Tq P q) * (iu0 P q + (2 * P.a ^
    2 * ig0 P q + iu0 P q * iw P q) / Tq P q) / (Sq P q) ^ 3

theorem dddR_D0D0D0_eq (P : Par) (q : Pt) : dddR_D0D0D0 P q = dddR_D0D0D0_i P q := by
  have e0 : (1 / 2) * (12 * dZ_D0 P q * ddZ_D0D0 P q * P.a ^ 2 + 4 * dddZ_D0D0D0 P q * P.a ^ 2 * Z P q + 4 * (1 * dX_D0 P q * X P q + 1 * dY_D0 P q * Y P q + 1 * dZ_D0 P q * Z P q) * ((dX_D0 P q) ^ 2 + (dY_D0 P q) ^ 2 + (dZ_D0 P q) ^ 2 + ddX_D0D0 P q * X P q + ddY_D0D0 P q * Y P q + ddZ_D0D0 P q * Z P q) + 8 * (dX_D0 P q * X P q + dY_D0 P q * Y P q + dZ_D0 P q * Z P q) * (1 * (dX_D0 P q) ^ 2 + 1 * (dY_D0 P q) ^ 2 + 1 * (dZ_D0 P q) ^ 2 + 1 * ddX_D0D0 P q * X P q + 1 * ddY_D0D0 P q * Y P q + 1 * ddZ_D0D0 P q * Z P q) + (6 * dX_D0 P q * ddX_D0D0 P q + 6 * dY_D0 P q * ddY_D0D0 P q + 6 * dZ_D0 P q * ddZ_D0D0 P q + 2 * dddX_D0D0D0 P q * X P q + 2 * dddY_D0D0D0 P q * Y P q + 2 * dddZ_D0D0D0 P q * Z P q) * (-P.a ^ 2 + (X P q) ^ 2 + (Y P q) ^ 2 + (Z P q) ^ 2)) = 6 * ip00 P q * iu0 P q := by
    simp only [ip00, iu0, ddX_D0D0, ddY_D0D0, ddZ_D0D0, dddX_D0D0D0, dddY_D0D0D0, dddZ_D0D0D0]
    ring
  have e1 : 1 * (4 * (dZ_D0 P q) ^ 2 * P.a ^ 2 + 4 * ddZ_D0D0 P q * P.a ^ 2 * Z P q + 4 * (1 * dX_D0 P q * X P q + 1 * dY_D0 P q * Y P q + 1 * dZ_D0 P q * Z P q) ^ 2 + (2 * (dX_D0 P q) ^ 2 + 2 * (dY_D0 P q) ^ 2 + 2 * (dZ_D0 P q) ^ 2 + 2 * ddX_D0D0 P q * X P q + 2 * ddY_D0D0 P q * Y P q + 2 * ddZ_D0D0 P q * Z P q) * (-P.a ^ 2 + (X P q) ^ 2 + (Y P q) ^ 2 + (Z P q) ^ 2)) * ((-4) * dZ_D0 P q * P.a ^ 2 * Z P q - 2 * (dX_D0 P q * X P q + dY_D0 P q * Y P q + dZ_D0 P q * Z P q) * ((-1) * P.a ^ 2 + (X P q) ^ 2 + (Y P q) ^ 2 + (Z P q) ^ 2)) = 0 - 8 * P.a ^ 2 * ig0 P q * ip00 P q * iw P q - 16 * P.a ^ 2 * ig0 P q * (iu0 P q) ^ 2 - 8 * P.a ^ 2 * iu0 P q * iw P q * iz00 P q - 16 * P.a ^ 4 * ig0 P q * iz00 P q - 4 * ip00 P q * iu0 P q * (iw P q) ^ 2 - 8 * (iu0 P q) ^ 3 * iw P q := by
    simp only [ig0, ip00, iu0, iw, iz00, ddX_D0D0, ddY_D0D0, ddZ_D0D0]
    ring
  have e2 : (1 / 2) * ((-4) * (dZ_D0 P q) ^ 2 * P.a ^ 2 - 4 * ddZ_D0D0 P q * P.a ^ 2 * Z P q - 4 * (dX_D0 P q * X P q + dY_D0 P q * Y P q + dZ_D0 P q * Z P q) ^ 2 + ((-2) * (dX_D0 P q) ^ 2 - 2 * (dY_D0 P q) ^ 2 - 2 * (dZ_D0 P q) ^ 2 - 2 * ddX_D0D0 P q * X P q - 2 * ddY_D0D0 P q * Y P q - 2 * ddZ_D0D0 P q * Z P q) * (-P.a ^ 2 + (X P q) ^ 2 + (Y P q) ^ 2 + (Z P q) ^ 2)) * (4 * dZ_D0 P q * P.a ^ 2 * Z P q + 2 * (dX_D0 P q * X P q + dY_D0 P q * Y P q + dZ_D0 P q * Z P q) * ((-1) * P.a ^ 2 + (X P q) ^ 2 + (Y P q) ^ 2 + (Z P q) ^ 2)) = 0 - 4 * P.a ^ 2 * ig0 P q * ip00 P q * iw P q - 8 * P.a ^ 2 * ig0 P q * (iu0 P q) ^ 2 - 4 * P.a ^ 2 * iu0 P q * iw P q * iz00 P q - 8 * P.a ^ 4 * ig0 P q * iz00 P q - 2 * ip00 P q * iu0 P q * (iw P q) ^ 2 - 4 * (iu0 P q) ^ 3 * iw P q := by
    simp only [ig0, ip00, iu0, iw, iz00, ddX_D0D0, ddY_D0D0, ddZ_D0D0]
    ring
  have e3 : (-1) * dX_D0 P q * P.a ^ 2 * X P q + 1 * dX_D0 P q * (X P q) ^ 3 - 1 * dY_D0 P q * P.a ^ 2 * Y P q + 1 * dY_D0 P q * (X P q) ^ 2 * Y P q + 1 * dX_D0 P q * X P q * (Y P q) ^ 2 + 1 * dY_D0 P q * (Y P q) ^ 3 + 1 * dZ_D0 P q * P.a ^ 2 * Z P q + 1 * dZ_D0 P q * (X P q) ^ 2 * Z P q + 1 * dZ_D0 P q * (Y P q) ^ 2 * Z P q + 1 * dX_D0 P q * X P q * (Z P q) ^ 2 + 1 * dY_D0 P q * Y P q * (Z P q) ^ 2 + 1 * dZ_D0 P q * (Z P q) ^ 3 = 2 * P.a ^ 2 * ig0 P q + iu0 P q * iw P q := by
    simp only [ig0, iu0, iw]
    ring
  have e4 : (1 / 2) * (4 * (dZ_D0 P q) ^ 2 * P.a ^ 2 + 4 * ddZ_D0D0 P q * P.a ^ 2 * Z P q + 4 * (1 * dX_D0 P q * X P q + 1 * dY_D0 P q * Y P q + 1 * dZ_D0 P q * Z P q) ^ 2 + (2 * (dX_D0 P q) ^ 2 + 2 * (dY_D0 P q) ^ 2 + 2 * (dZ_D0 P q) ^ 2 + 2 * ddX_D0D0 P q * X P q + 2 * ddY_D0D0 P q * Y P q + 2 * ddZ_D0D0 P q * Z P q) * (-P.a ^ 2 + (X P q) ^ 2 + (Y P q) ^ 2 + (Z P q) ^ 2)) = 2 * P.a ^ 2 * iz00 P q + ip00 P q * iw P q + 2 * (iu0 P q) ^ 2 := by
    simp only [ip00, iu0, iw, iz00, ddX_D0D0, ddY_D0D0, ddZ_D0D0]
    ring
  have e5 : 12 * (dZ_D0 P q * Z P q * ((-1) * P.a ^ 2 - 1 * (X P q) ^ 2 - 1 * (Y P q) ^ 2 - 1 * (Z P q) ^ 2) + dX_D0 P q * X P q * (1 * P.a ^ 2 - 1 * (X P q) ^ 2 - 1 * (Y P q) ^ 2 - 1 * (Z P q) ^ 2) + dY_D0 P q * Y P q * (1 * P.a ^ 2 - 1 * (X P q) ^ 2 - 1 * (Y P q) ^ 2 - 1 * (Z P q) ^ 2)) ^ 3 = 0 - 72 * P.a ^ 2 * ig0 P q * (iu0 P q) ^ 2 * (iw P q) ^ 2 - 144 * P.a ^ 4 * (ig0 P q) ^ 2 * iu0 P q * iw P q - 96 * P.a ^ 6 * (ig0 P q) ^ 3 - 12 * (iu0 P q) ^ 3 * (iw P q) ^ 3 := by
    simp only [ig0, iu0, iw]
    ring
  have e6 : 2 * (dZ_D0 P q * Z P q * ((-1) * P.a ^ 2 - 1 * (X P q) ^ 2 - 1 * (Y P q) ^ 2 - 1 * (Z P q) ^ 2) + dX_D0 P q * X P q * (1 * P.a ^ 2 - 1 * (X P q) ^ 2 - 1 * (Y P q) ^ 2 - 1 * (Z P q) ^ 2) + dY_D0 P q * Y P q * (1 * P.a ^ 2 - 1 * (X P q) ^ 2 - 1 * (Y P q) ^ 2 - 1 * (Z P q) ^ 2)) ^ 2 = 8 * P.a ^ 2 * ig0 P q * iu0 P q * iw P q + 8 * P.a ^ 4 * (ig0 P q) ^ 2 + 2 * (iu0 P q) ^ 2 * (iw P q) ^ 2 := by
    simp only [ig0, iu0, iw]
    ring
  have e7 : 3 * dX_D0 P q * ddX_D0D0 P q + 3 * dY_D0 P q * ddY_D0D0 P q + 3 * dZ_D0 P q * ddZ_D0D0 P q + 1 * dddX_D0D0D0 P q * X P q + 1 * dddY_D0D0D0 P q * Y P q + 1 * dddZ_D0D0D0 P q * Z P q = 0 := by
    simp only [ddX_D0D0, ddY_D0D0, ddZ_D0D0, dddX_D0D0D0, dddY_D0D0D0, dddZ_D0D0D0]
    ring
  have e8 : (1 / 2) * (4 * dZ_D0 P q * P.a ^ 2 * Z P q + 2 * (dX_D0 P q * X P q + dY_D0 P q * Y P q + dZ_D0 P q * Z P q) * ((-1) * P.a ^ 2 + (X P q) ^ 2 + (Y P q) ^ 2 + (Z P q) ^ 2)) = 2 * P.a ^ 2 * ig0 P q + iu0 P q * iw P q := by
    simp only [ig0, iu0, iw]
    ring
  have e9 : (-1) * (dX_D0 P q) ^ 2 - 1 * (dY_D0 P q) ^ 2 - 1 * (dZ_D0 P q) ^ 2 - 1 * ddX_D0D0 P q * X P q - 1 * ddY_D0D0 P q * Y P q - 1 * ddZ_D0D0 P q * Z P q = 0 - ip00 P q := by
    simp only [ip00, ddX_D0D0, ddY_D0D0, ddZ_D0D0]
    ring
  have e10 : 1 * (dX_D0 P q) ^ 2 + 1 * (dY_D0 P q) ^ 2 + 1 * (dZ_D0 P q) ^ 2 + 1 * ddX_D0D0 P q * X P q + 1 * ddY_D0D0 P q * Y P q + 1 * ddZ_D0D0 P q * Z P q = ip00 P q := by
    simp only [ip00, ddX_D0D0, ddY_D0D0, ddZ_D0D0]
    ring
  have e11 : (-1) * dX_D0 P q * X P q - 1 * dY_D0 P q * Y P q - 1 * dZ_D0 P q * Z P q = 0 - iu0 P q := by
    simp only [iu0]
    ring
  have e12 : 1 * dX_D0 P q * X P q + 1 * dY_D0 P q * Y P q + 1 * dZ_D0 P q * Z P q = iu0 P q := by
    simp only [iu0]
    ring
  have e13 : 1 * dX_D0 P q * X P q = ie0 P q := by
    simp only [ie0]
    ring
  have e14 : 1 * dY_D0 P q * Y P q = 0 - ie0 P q - ig0 P q + iu0 P q := by
    simp only [ie0, ig0, iu0]
    ring
  have e15 : 1 * dZ_D0 P q * Z P q = ig0 P q := by
    simp only [ig0]
    ring
  unfold dddR_D0D0D0
  rw [e0, e1, e2, e3, e4, e5, e6, e7, e8, e9, e10, e11, e12, e13, e14, e15]
  rfl

noncomputable def dddR_D0D0D1_i (P : Par) (q : Pt) : ℝ :=
  P.lit * (0 + (2 * ip00 P q * iu1 P q + 4 * ip01 P q * iu0 P q) / Tq P q + (0 - 4 * P.a ^ 2 * ig0 P q * ip01 P q * iw P q - 8 * P.a ^ 2 * ig0 P q * iu0 P q * iu1 P q - 4
    * P.a ^ 2 * iu0 P q * iw P q * iz01 P q - 8 * P.a ^ 4 * ig0 P q * iz01 P q - 2 * ip01 P q * iu0 P q * (iw P q) ^ 2 - 4 * (iu0 P q) ^ 2 * iu1 P q * iw P q) / (Tq P q)
    ^ 3 + (0 - 4 * P.a ^ 2 * ig0 P q * ip01 P q * iw P q - 8 * P.a ^ 2 * ig0 P q * iu0 P q * iu1 P q - 4 * P.a ^ 2 * iu0 P q * iw P q * iz01 P q - 8 * P.a ^ 4 * ig0 P q *
    iz01 P q - 2 * ip01 P q * iu0 P q * (iw P q) ^ 2 - 4 * (iu0 P q) ^ 2 * iu1 P q * iw P q) / (Tq P q) ^ 3 + (48 * P.a ^ 2 * ig0 P q * iu0 P q * iu1 P q * (iw P q) ^ 2 +
    24 * P.a ^ 2 * ig1 P q * (iu0 P q) ^ 2 * (iw P q) ^ 2 + 96 * P.a ^ 4 * ig0 P q * ig1 P q * iu0 P q * iw P q + 48 * P.a ^ 4 * (ig0 P q) ^ 2 * iu1 P q * iw P q + 96 *
    P.a ^ 6 * (ig0 P q) ^ 2 * ig1 P q + 12 * (iu0 P q) ^ 2 * iu1 P q * (iw P q) ^ 3) / (Tq P q) ^ 5 + (0 - 4 * P.a ^ 2 * ig1 P q * ip00 P q * iw P q - 8 * P.a ^ 2 * ig1 P
    q * (iu0 P q) ^ 2 - 4 * P.a ^ 2 * iu1 P q * iw P q * iz00 P q - 8 * P.a ^ 4 * ig1 P q * iz00 P q - 2 * ip00 P q * iu1 P q * (iw P q) ^ 2 - 4 * (iu0 P q) ^ 2 * iu1 P q
    * iw P q) / (Tq P q) ^ 3) / Sq P q + P.lit * (iu0 P q + (2 * P.a ^ 2 * ig0 P q + iu0 P q * iw P q) / Tq P q) * (0 - ip01 P q - (2 * P.a ^ 2 * iz01 P q + ip01 P q * iw
    P q + 2 * iu0 P q * iu1 P q) / Tq P q - (0 - 4 * P.a ^ 2 * ig0 P q * iu1 P q * iw P q - 4 * P.a ^ 2 * ig1 P q * iu0 P q * iw P q - 8 * P.a ^ 4 * ig0 P q * ig1 P q - 2
    * iu0 P q * iu1 P q * (iw P q) ^ 2) / (Tq P q) ^ 3) / (Sq P q) ^ 3 + P.lit * (0 - iu0 P q - (2 * P.a ^ 2 * ig0 P q + iu0 P q * iw P q) / Tq P q) * (ip01 P q + (2 *
    P.a ^ 2 * iz01 P q + ip01 P q * iw P q + 2 * iu0 P q * iu1 P q) / Tq P q + (0 - 4 * P.a ^ 2 * ig0 P q * iu1 P q * iw P q - 4 * P.a ^ 2 * ig1 P q * iu0 P q * iw P q -
    8 * P.a ^ 4 * ig0 P q * ig1 P q - 2 * iu0 P q * iu1 P q * (iw P q) ^ 2) / (Tq P q) ^ 3) / (Sq P q) ^ 3 + P.lit * (0 - iu0 P q - (2 * P.a ^ 2 * ig0 P q + iu0 P q * iw
    P q) / Tq P q) * (iu0 P q + (2 * P.a ^ 2 * ig0 P q + iu0 P q * iw P q) / Tq P q) * (0 - 3 * iu1 P q - (6 * P.a ^ 2 * ig1 P q + 3 * iu1 P q * iw P q) / Tq P q) / (Sq P
    q) ^ 5 + P.lit * (ip00 P q - (8 * P.a ^ 2 * ig0 P q * iu0 P q * iw P q + 8 * P.a ^ 4 * (ig0 P q) ^ 2 + 2 * (iu0 P q) ^ 2 * (iw P q) ^ 2) / (Tq P q) ^ 3 + (2 * P.a ^ 2
    * iz00 P q + ip00 P q * iw P q + 2 * (iu0 P q) ^ 2) / Tq P q) * (0 - iu1 P q - (2 * P.a ^ 2 * ig1 P q + iu1 P q * iw P q) / Tq P q) / (Sq P q) ^ 3

theorem dddR_D0D0D1_eq (P : Par) (q : Pt) : dddR_D0D0D1 P q = dddR_D0D0D1_i P q := by
  have e0 : (1 / 2) * (4 * dZ_D1 P q * ddZ_D0D0 P q * P.a ^ 2 + 8 * dZ_D0 P q * ddZ_D0D1 P q * P.a ^ 2 + 4 * dddZ_D0D0D1 P q * P.a ^ 2 * Z P q + 4 * (dX_D1 P q * X P q + dY_D1 P q * Y P q + dZ_D1 P q * Z P q) * (1 * (dX_D0 P q) ^ 2 + 1 * (dY_D0 P q) ^ 2 + 1 * (dZ_D0 P q) ^ 2 + 1 * ddX_D0D0 P q * X P q + 1 * ddY_D0D0 P q * Y P q + 1 * ddZ_D0D0 P q * Z P q) + 4 * (1 * dX_D0 P q * X P q + 1 * dY_D0 P q * Y P q + 1 * dZ_D0 P q * Z P q) * (dX_D0 P q * dX_D1 P q + dY_D0 P q * dY_D1 P q + dZ_D0 P q * dZ_D1 P q + ddX_D0D1 P q * X P q + ddY_D0D1 P q * Y P q + ddZ_D0D1 P q * Z P q) + 4 * (dX_D0 P q * X P q + dY_D0 P q * Y P q + dZ_D0 P q * Z P q) * (1 * dX_D0 P q * dX_D1 P q + 1 * dY_D0 P q * dY_D1 P q + 1 * dZ_D0 P q * dZ_D1 P q + 1 * ddX_D0D1 P q * X P q + 1 * ddY_D0D1 P q * Y P q + 1 * ddZ_D0D1 P q * Z P q) + (2 * dX_D1 P q * ddX_D0D0 P q + 2 * dY_D1 P q * ddY_D0D0 P q + 2 * dZ_D1 P q * ddZ_D0D0 P q + 4 * dX_D0 P q * ddX_D0D1 P q + 4 * dY_D0 P q * ddY_D0D1 P q + 4 * dZ_D0 P q * ddZ_D0D1 P q + 2 * dddX_D0D0D1 P q * X P q + 2 * dddY_D0D0D1 P q * Y P q + 2 * dddZ_D0D0D1 P q * Z P q) * (-P.a ^ 2 + (X P q) ^ 2 + (Y P q) ^ 2 + (Z P q) ^ 2)) = 2 * ip00 P q * iu1 P q + 4 * ip01 P q * iu0 P q := by
    simp only [ip00, ip01, iu0, iu1, ddX_D0D0, ddX_D0D1, ddY_D0D0, ddY_D0D1, ddZ_D0D0, ddZ_D0D1, dddX_D0D0D1, dddY_D0D0D1, dddZ_D0D0D1]
    ring
  have e1 : (1 / 2) * ((-4) * dZ_D0 P q * dZ_D1 P q * P.a ^ 2 - 4 * ddZ_D0D1 P q * P.a ^ 2 * Z P q - 4 * (1 * dX_D0 P q * X P q + 1 * dY_D0 P q * Y P q + 1 * dZ_D0 P q * Z P q) * (dX_D1 P q * X P q + dY_D1 P q * Y P q + dZ_D1 P q * Z P q) + ((-2) * dX_D0 P q * dX_D1 P q - 2 * dY_D0 P q * dY_D1 P q - 2 * dZ_D0 P q * dZ_D1 P q - 2 * ddX_D0D1 P q * X P q - 2 * ddY_D0D1 P q * Y P q - 2 * ddZ_D0D1 P q * Z P q) * (-P.a ^ 2 + (X P q) ^ 2 + (Y P q) ^ 2 + (Z P q) ^ 2)) * (4 * dZ_D0 P q * P.a ^ 2 * Z P q + 2 * (dX_D0 P q * X P q + dY_D0 P q * Y P q + dZ_D0 P q * Z P q) * ((-1) * P.a ^ 2 + (X P q) ^ 2 + (Y P q) ^ 2 + (Z P q) ^ 2)) = 0 - 4 * P.a ^ 2 * ig0 P q * ip01 P q * iw P q - 8 * P.a ^ 2 * ig0 P q * iu0 P q * iu1 P q - 4 * P.a ^ 2 * iu0 P q * iw P q * iz01 P q - 8 * P.a ^ 4 * ig0 P q * iz01 P q - 2 * ip01 P q * iu0 P q * (iw P q) ^ 2 - 4 * (iu0 P q) ^ 2 * iu1 P q * iw P q := by
    simp only [ig0, ip01, iu0, iu1, iw, iz01, ddX_D0D1, ddY_D0D1, ddZ_D0D1]
    ring
  have e2 : (1 / 2) * (4 * dZ_D0 P q * dZ_D1 P q * P.a ^ 2 + 4 * ddZ_D0D1 P q * P.a ^ 2 * Z P q + 4 * (1 * dX_D0 P q * X P q + 1 * dY_D0 P q * Y P q + 1 * dZ_D0 P q * Z P q) * (dX_D1 P q * X P q + dY_D1 P q * Y P q + dZ_D1 P q * Z P q) + (2 * dX_D0 P q * dX_D1 P q + 2 * dY_D0 P q * dY_D1 P q + 2 * dZ_D0 P q * dZ_D1 P q + 2 * ddX_D0D1 P q * X P q + 2 * ddY_D0D1 P q * Y P q + 2 * ddZ_D0D1 P q * Z P q) * (-P.a ^ 2 + (X P q) ^ 2 + (Y P q) ^ 2 + (Z P q) ^ 2)) * ((-4) * dZ_D0 P q * P.a ^ 2 * Z P q - 2 * (dX_D0 P q * X P q + dY_D0 P q * Y P q + dZ_D0 P q * Z P q) * ((-1) * P.a ^ 2 + (X P q) ^ 2 + (Y P q) ^ 2 + (Z P q) ^ 2)) = 0 - 4 * P.a ^ 2 * ig0 P q * ip01 P q * iw P q - 8 * P.a ^ 2 * ig0 P q * iu0 P q * iu1 P q - 4 * P.a ^ 2 * iu0 P q * iw P q * iz01 P q - 8 * P.a ^ 4 * ig0 P q * iz01 P q - 2 * ip01 P q * iu0 P q * (iw P q) ^ 2 - 4 * (iu0 P q) ^ 2 * iu1 P q * iw P q := by
    simp only [ig0, ip01, iu0, iu1, iw, iz01, ddX_D0D1, ddY_D0D1, ddZ_D0D1]
    ring
  have e3 : (1 / 2) * (4 * (dZ_D0 P q) ^ 2 * P.a ^ 2 + 4 * ddZ_D0D0 P q * P.a ^ 2 * Z P q + 4 * (1 * dX_D0 P q * X P q + 1 * dY_D0 P q * Y P q + 1 * dZ_D0 P q * Z P q) ^ 2 + (2 * (dX_D0 P q) ^ 2 + 2 * (dY_D0 P q) ^ 2 + 2 * (dZ_D0 P q) ^ 2 + 2 * ddX_D0D0 P q * X P q + 2 * ddY_D0D0 P q * Y P q + 2 * ddZ_D0D0 P q * Z P q) * (-P.a ^ 2 + (X P q) ^ 2 + (Y P q) ^ 2 + (Z P q) ^ 2)) * ((-4) * dZ_D1 P q * P.a ^ 2 * Z P q - 2 * (dX_D1 P q * X P q + dY_D1 P q * Y P q + dZ_D1 P q * Z P q) * ((-1) * P.a ^ 2 + (X P q) ^ 2 + (Y P q) ^ 2 + (Z P q) ^ 2)) = 0 - 4 * P.a ^ 2 * ig1 P q * ip00 P q * iw P q - 8 * P.a ^ 2 * ig1 P q * (iu0 P q) ^ 2 - 4 * P.a ^ 2 * iu1 P q * iw P q * iz00 P q - 8 * P.a ^ 4 * ig1 P q * iz00 P q - 2 * ip00 P q * iu1 P q * (iw P q) ^ 2 - 4 * (iu0 P q) ^ 2 * iu1 P q * iw P q := by
    simp only [ig1, ip00, iu0, iu1, iw, iz00, ddX_D0D0, ddY_D0D0, ddZ_D0D0]
    ring
  have e4 : (1 / 2) * ((-4) * dZ_D0 P q * P.a ^ 2 * Z P q - 2 * (dX_D0 P q * X P q + dY_D0 P q * Y P q + dZ_D0 P q * Z P q) * ((-1) * P.a ^ 2 + (X P q) ^ 2 + (Y P q) ^ 2 + (Z P q) ^ 2)) * (4 * dZ_D0 P q * P.a ^ 2 * Z P q + 2 * (dX_D0 P q * X P q + dY_D0 P q * Y P q + dZ_D0 P q * Z P q) * ((-1) * P.a ^ 2 + (X P q) ^ 2 + (Y P q) ^ 2 + (Z P q) ^ 2)) * ((-12) * dZ_D1 P q * P.a ^ 2 * Z P q - 6 * (dX_D1 P q * X P q + dY_D1 P q * Y P q + dZ_D1 P q * Z P q) * ((-1) * P.a ^ 2 + (X P q) ^ 2 + (Y P q) ^ 2 + (Z P q) ^ 2)) = 48 * P.a ^ 2 * ig0 P q * iu0 P q * iu1 P q * (iw P q) ^ 2 + 24 * P.a ^ 2 * ig1 P q * (iu0 P q) ^ 2 * (iw P q) ^ 2 + 96 * P.a ^ 4 * ig0 P q * ig1 P q * iu0 P q * iw P q + 48 * P.a ^ 4 * (ig0 P q) ^ 2 * iu1 P q * iw P q + 96 * P.a ^ 6 * (ig0 P q) ^ 2 * ig1 P q + 12 * (iu0 P q) ^ 2 * iu1 P q * (iw P q) ^ 3 := by
    simp only [ig0, ig1, iu0, iu1, iw]
    ring
  have e5 : (1 / 2) * (4 * dZ_D0 P q * dZ_D1 P q * P.a ^ 2 + 4 * ddZ_D0D1 P q * P.a ^ 2 * Z P q + 4 * (1 * dX_D0 P q * X P q + 1 * dY_D0 P q * Y P q + 1 * dZ_D0 P q * Z P q) * (dX_D1 P q * X P q + dY_D1 P q * Y P q + dZ_D1 P q * Z P q) + (2 * dX_D0 P q * dX_D1 P q + 2 * dY_D0 P q * dY_D1 P q + 2 * dZ_D0 P q * dZ_D1 P q + 2 * ddX_D0D1 P q * X P q + 2 * ddY_D0D1 P q * Y P q + 2 * ddZ_D0D1 P q * Z P q) * (-P.a ^ 2 + (X P q) ^ 2 + (Y P q) ^ 2 + (Z P q) ^ 2)) = 2 * P.a ^ 2 * iz01 P q + ip01 P q * iw P q + 2 * iu0 P q * iu1 P q := by
    simp only [ip01, iu0, iu1, iw, iz01, ddX_D0D1, ddY_D0D1, ddZ_D0D1]
    ring
  have e6 : (1 / 2) * (4 * (dZ_D0 P q) ^ 2 * P.a ^ 2 + 4 * ddZ_D0D0 P q * P.a ^ 2 * Z P q + 4 * (1 * dX_D0 P q * X P q + 1 * dY_D0 P q * Y P q + 1 * dZ_D0 P q * Z P q) ^ 2 + (2 * (dX_D0 P q) ^ 2 + 2 * (dY_D0 P q) ^ 2 + 2 * (dZ_D0 P q) ^ 2 + 2 * ddX_D0D0 P q * X P q + 2 * ddY_D0D0 P q * Y P q + 2 * ddZ_D0D0 P q * Z P q) * (-P.a ^ 2 + (X P q) ^ 2 + (Y P q) ^ 2 + (Z P q) ^ 2)) = 2 * P.a ^ 2 * iz00 P q + ip00 P q * iw P q + 2 * (iu0 P q) ^ 2 := by
    simp only [ip00, iu0, iw, iz00, ddX_D0D0, ddY_D0D0, ddZ_D0D0]
    ring
  have e7 : (1 / 2) * (4 * dZ_D0 P q * P.a ^ 2 * Z P q + 2 * (dX_D0 P q * X P q + dY_D0 P q * Y P q + dZ_D0 P q * Z P q) * ((-1) * P.a ^ 2 + (X P q) ^ 2 + (Y P q) ^ 2 + (Z P q) ^ 2)) * ((-4) * dZ_D1 P q * P.a ^ 2 * Z P q - 2 * (dX_D1 P q * X P q + dY_D1 P q * Y P q + dZ_D1 P q * Z P q) * ((-1) * P.a ^ 2 + (X P q) ^ 2 + (Y P q) ^ 2 + (Z P q) ^ 2)) = 0 - 4 * P.a ^ 2 * ig0 P q * iu1 P q * iw P q - 4 * P.a ^ 2 * ig1 P q * iu0 P q * iw P q - 8 * P.a ^ 4 * ig0 P q * ig1 P q - 2 * iu0 P q * iu1 P q * (iw P q) ^ 2 := by
    simp only [ig0, ig1, iu0, iu1, iw]
    ring
  have e8 : 2 * (dZ_D0 P q * Z P q * ((-1) * P.a ^ 2 - 1 * (X P q) ^ 2 - 1 * (Y P q) ^ 2 - 1 * (Z P q) ^ 2) + dX_D0 P q * X P q * (1 * P.a ^ 2 - 1 * (X P q) ^ 2 - 1 * (Y P q) ^ 2 - 1 * (Z P q) ^ 2) + dY_D0 P q * Y P q * (1 * P.a ^ 2 - 1 * (X P q) ^ 2 - 1 * (Y P q) ^ 2 - 1 * (Z P q) ^ 2)) ^ 2 = 8 * P.a ^ 2 * ig0 P q * iu0 P q * iw P q + 8 * P.a ^ 4 * (ig0 P q) ^ 2 + 2 * (iu0 P q) ^ 2 * (iw P q) ^ 2 := by
    simp only [ig0, iu0, iw]
    ring
  have e9 : 1 * dX_D1 P q * ddX_D0D0 P q + 1 * dY_D1 P q * ddY_D0D0 P q + 1 * dZ_D1 P q * ddZ_D0D0 P q + 2 * dX_D0 P q * ddX_D0D1 P q + 2 * dY_D0 P q * ddY_D0D1 P q + 2 * dZ_D0 P q * ddZ_D0D1 P q + 1 * dddX_D0D0D1 P q * X P q + 1 * dddY_D0D0D1 P q * Y P q + 1 * dddZ_D0D0D1 P q * Z P q = 0 := by
    simp only [ddX_D0D0, ddX_D0D1, ddY_D0D0, ddY_D0D1, ddZ_D0D0, ddZ_D0D1, dddX_D0D0D1, dddY_D0D0D1, dddZ_D0D0D1]
    ring
  have e10 : (1 / 2) * (4 * dZ_D0 P q * P.a ^ 2 * Z P q + 2 * (dX_D0 P q * X P q + dY_D0 P q * Y P q + dZ_D0 P q * Z P q) * ((-1) * P.a ^ 2 + (X P q) ^ 2 + (Y P q) ^ 2 + (Z P q) ^ 2)) = 2 * P.a ^ 2 * ig0 P q + iu0 P q * iw P q := by
    simp only [ig0, iu0, iw]
    ring
  have e11 : (3 / 2) * (4 * dZ_D1 P q * P.a ^ 2 * Z P q + 2 * (dX_D1 P q * X P q + dY_D1 P q * Y P q + dZ_D1 P q * Z P q) * ((-1) * P.a ^ 2 + (X P q) ^ 2 + (Y P q) ^ 2 + (Z P q) ^ 2)) = 6 * P.a ^ 2 * ig1 P q + 3 * iu1 P q * iw P q := by
    simp only [ig1, iu1, iw]
    ring
  have e12 : (1 / 2) * (4 * dZ_D1 P q * P.a ^ 2 * Z P q + 2 * (dX_D1 P q * X P q + dY_D1 P q * Y P q + dZ_D1 P q * Z P q) * ((-1) * P.a ^ 2 + (X P q) ^ 2 + (Y P q) ^ 2 + (Z P q) ^ 2)) = 2 * P.a ^ 2 * ig1 P q + iu1 P q * iw P q := by
    simp only [ig1, iu1, iw]
    ring
  have e13 : (-1) * dX_D0 P q * dX_D1 P q - 1 * dY_D0 P q * dY_D1 P q - 1 * dZ_D0 P q * dZ_D1 P q - 1 * ddX_D0D1 P q * X P q - 1 * ddY_D0D1 P q * Y P q - 1 * ddZ_D0D1 P q * Z P q = 0 - ip01 P q := by
    simp only [ip01, ddX_D0D1, ddY_D0D1, ddZ_D0D1]
    ring
  have e14 : 1 * dX_D0 P q * dX_D1 P q + 1 * dY_D0 P q * dY_D1 P q + 1 * dZ_D0 P q * dZ_D1 P q + 1 * ddX_D0D1 P q * X P q + 1 * ddY_D0D1 P q * Y P q + 1 * ddZ_D0D1 P q * Z P q = ip01 P q := by
    simp only [ip01, ddX_D0D1, ddY_D0D1, ddZ_D0D1]
    ring
  have e15 : 1 * (dX_D0 P q) ^ 2 + 1 * (dY_D0 P q) ^ 2 + 1 * (dZ_D0 P q) ^ 2 + 1 * ddX_D0D0 P q * X P q + 1 * ddY_D0D0 P q * Y P q + 1 * ddZ_D0D0 P q * Z P q = ip00 P q := by
    simp only [ip00, ddX_D0D0, ddY_D0D0, ddZ_D0D0]
    ring
  have e16 : (-1) * dX_D0 P q * X P q - 1 * dY_D0 P q * Y P q - 1 * dZ_D0 P q * Z P q = 0 - iu0 P q := by
    simp only [iu0]
    ring
  have e17 : (-3) * dX_D1 P q * X P q - 3 * dY_D1 P q * Y P q - 3 * dZ_D1 P q * Z P q = 0 - 3 * iu1 P q := by
    simp only [iu1]
    ring
  have e18 : (-1) * dX_D1 P q * X P q - 1 * dY_D1 P q * Y P q - 1 * dZ_D1 P q * Z P q = 0 - iu1 P q := by
    simp only [iu1]
    ring
  have e19 : 1 * dX_D0 P q * X P q + 1 * dY_D0 P q * Y P q + 1 * dZ_D0 P q * Z P q = iu0 P q := by
    simp only [iu0]
    ring
  unfold dddR_D0D0D1
  rw [e0, e1, e2, e3, e4, e5, e6, e7, e8, e9, e10, e11, e12, e13, e14, e15, e16, e17, e18, e19]
  rfl

noncomputable def dddR_D0D0D2_i (P : Par) (q : Pt) : ℝ :=
  P.lit * (0 + (2 * ip00 P q * iu2 P q + 4 * ip02 P q * iu0 P q) / Tq P q + (0 - 4 * P.a ^ 2 * ig0 P q * ip02 P q * iw P q - 8 * P.a ^ 2 * ig0 P q * iu0 P q * iu2 P q - 4
    * P.a ^ 2 * iu0 P q * iw P q * iz02 P q - 8 * P.a ^ 4 * ig0 P q * iz02 P q - 2 * ip02 P q * iu0 P q * (iw P q) ^ 2 - 4 * (iu0 P q) ^ 2 * iu2 P q * iw P q) / (Tq P q)
    ^ 3 + (0 - 4 * P.a ^ 2 * ig0 P q * ip02 P q * iw P q - 8 * P.a ^ 2 * ig0 P q * iu0 P q * iu2 P q - 4 * P.a ^ 2 * iu0 P q * iw P q * iz02 P q - 8 * P.a ^ 4 * ig0 P q *
    iz02 P q - 2 * ip02 P q * iu0 P q * (iw P q) ^ 2 - 4 * (iu0 P q) ^ 2 * iu2 P q * iw P q) / (Tq P q) ^ 3 + (48 * P.a ^ 2 * ig0 P q * iu0 P q * iu2 P q * (iw P q) ^ 2 +
    24 * P.a ^ 2 * ig2 P q * (iu0 P q) ^ 2 * (iw P q) ^ 2 + 96 * P.a ^ 4 * ig0 P q * ig2 P q * iu0 P q * iw P q + 48 * P.a ^ 4 * (ig0 P q) ^ 2 * iu2 P q * iw P q + 96 *
    P.a ^ 6 * (ig0 P q) ^ 2 * ig2 P q + 12 * (iu0 P q) ^ 2 * iu2 P q * (iw P q) ^ 3) / (Tq P q) ^ 5 + (0 - 4 * P.a ^ 2 * ig2 P q * ip00 P q * iw P q - 8 * P.a ^ 2 * ig2 P
    q * (iu0 P q) ^ 2 - 4 * P.a ^ 2 * iu2 P q * iw P q * iz00 P q - 8 * P.a ^ 4 * ig2 P q * iz00 P q - 2 * ip00 P q * iu2 P q * (iw P q) ^ 2 - 4 * (iu0 P q) ^ 2 * iu2 P q
    * iw P q) / (Tq P q) ^ 3) / Sq P q + P.lit * (iu0 P q + (2 * P.a ^ 2 * ig0 P q + iu0 P q * iw P q) / Tq P q) * (0 - ip02 P q - (2 * P.a ^ 2 * iz02 P q + ip02 P q * iw
    P q + 2 * iu0 P q * iu2 P q) / Tq P q - (0 - 4 * P.a ^ 2 * ig0 P q * iu2 P q * iw P q - 4 * P.a ^ 2 * ig2 P q * iu0 P q * iw P q - 8 * P.a ^ 4 * ig0 P q * ig2 P q - 2
    * iu0 P q * iu2 P q * (iw P q) ^ 2) / (Tq P q) ^ 3) / (Sq P q) ^ 3 + P.lit * (0 - iu0 P q - (2 * P.a ^ 2 * ig0 P q + iu0 P q * iw P q) / Tq P q) * (ip02 P q + (2 *
    P.a ^ 2 * iz02 P q + ip02 P q * iw P q + 2 * iu0 P q * iu2 P q) / Tq P q + (0 - 4 * P.a ^ 2 * ig0 P q * iu2 P q * iw P q - 4 * P.a ^ 2 * ig2 P q * iu0 P q * iw P q -
    8 * P.a ^ 4 * ig0 P q * ig2 P q - 2 * iu0 P q * iu2 P q * (iw P q) ^ 2) / (Tq P q) ^ 3) / (Sq P q) ^ 3 + P.lit * (0 - iu0 P q - (2 * P.a ^ 2 * ig0 P q + iu0 P q * iw
    P q) / Tq P q) * (iu0 P q + (2 * P.a ^ 2 * ig0 P q + iu0 P q * iw P q) / Tq P q) * (0 - 3 * iu2 P q - (6 * P.a ^ 2 * ig2 P q + 3 * iu2 P q * iw P q) / Tq P q) / (Sq P
    q) ^ 5 + P.lit * (ip00 P q - (8 * P.a ^ 2 * ig0 P q * iu0 P q * iw P q + 8 * P.a ^ 4 * (ig0 P q) ^ 2 + 2 * (iu0 P q) ^ 2 * (iw P q) ^ 2) / (Tq P q) ^ 3 + (2 * P.a ^ 2
    * iz00 P q + ip00 P q * iw P q + 2 * (iu0 P q) ^ 2) / Tq P q) * (0 - iu2 P q - (2 * P.a ^ 2 * ig2 P q + iu2 P q * iw P q) / Tq P q) / (Sq P q) ^ 3

theorem dddR_D0D0D2_eq (P : Par) (q : Pt) : dddR_D0D0D2 P q = dddR_D0D0D2_i P q := by
  have e0 : (1 / 2) * (4 * dZ_D2 P q * ddZ_D0D0 P q * P.a ^ 2 + 8 * dZ_D0 P q * ddZ_D0D2 P q * P.a ^ 2 + 4 * dddZ_D0D0D2 P q * P.a ^ 2 * Z P q + 4 * (dX_D2 P q * X P q + dY_D2 P q * Y P q + dZ_D2 P q * Z P q) * (1 * (dX_D0 P q) ^ 2 + 1 * (dY_D0 P q) ^ 2 + 1 * (dZ_D0 P q) ^ 2 + 1 * ddX_D0D0 P q * X P q + 1 * ddY_D0D0 P q * Y P q + 1 * ddZ_D0D0 P q * Z P q) + 4 * (1 * dX_D0 P q * X P q + 1 * dY_D0 P q * Y P q + 1 * dZ_D0 P q * Z P q) * (dX_D0 P q * dX_D2 P q + dY_D0 P q * dY_D2 P q + dZ_D0 P q * dZ_D2 P q + ddX_D0D2 P q * X P q + ddY_D0D2 P q * Y P q + ddZ_D0D2 P q * Z P q) + 4 * (dX_D0 P q * X P q + dY_D0 P q * Y P q + dZ_D0 P q * Z P q) * (1 * dX_D0 P q * dX_D2 P q + 1 * dY_D0 P q * dY_D2 P q + 1 * dZ_D0 P q * dZ_D2 P q + 1 * ddX_D0D2 P q * X P q + 1 * ddY_D0D2 P q * Y P q + 1 * ddZ_D0D2 P q * Z P q) + (2 * dX_D2 P q * ddX_D0D0 P q + 2 * dY_D2 P q * ddY_D0D0 P q + 2 * dZ_D2 P q * ddZ_D0D0 P q + 4 * dX_D0 P q * ddX_D0D2 P q + 4 * dY_D0 P q * ddY_D0D2 P q + 4 * dZ_D0 P q * ddZ_D0D2 P q + 2 * dddX_D0D0D2 P q * X P q + 2 * dddY_D0D0D2 P q * Y P q + 2 * dddZ_D0D0D2 P q * Z P q) * (-P.a ^ 2 + (X P q) ^ 2 + (Y P q) ^ 2 + (Z P q) ^ 2)) = 2 * ip00 P q * iu2 P q + 4 * ip02 P q * iu0 P q := by
    simp only [ip00, ip02, iu0, iu2, ddX_D0D0, ddX_D0D2, ddY_D0D0, ddY_D0D2, ddZ_D0D0, ddZ_D0D2, dddX_D0D0D2, dddY_D0D0D2, dddZ_D0D0D2]
    ring
  have e1 : (1 / 2) * ((-4) * dZ_D0 P q * dZ_D2 P q * P.a ^ 2 - 4 * ddZ_D0D2 P q * P.a ^ 2 * Z P q - 4 * (1 * dX_D0 P q * X P q + 1 * dY_D0 P q * Y P q + 1 * dZ_D0 P q * Z P q) * (dX_D2 P q * X P q + dY_D2 P q * Y P q + dZ_D2 P q * Z P q) + ((-2) * dX_D0 P q * dX_D2 P q - 2 * dY_D0 P q * dY_D2 P q - 2 * dZ_D0 P q * dZ_D2 P q - 2 * ddX_D0D2 P q * X P q - 2 * ddY_D0D2 P q * Y P q - 2 * ddZ_D0D2 P q * Z P q) * (-P.a ^ 2 + (X P q) ^ 2 + (Y P q) ^ 2 + (Z P q) ^ 2)) * (4 * dZ_D0 P q * P.a ^ 2 * Z P q + 2 * (dX_D0 P q * X P q + dY_D0 P q * Y P q + dZ_D0 P q * Z P q) * ((-1) * P.a ^ 2 + (X P q) ^ 2 + (Y P q) ^ 2 + (Z P q) ^ 2)) = 0 - 4 * P.a ^ 2 * ig0 P q * ip02 P q * iw P q - 8 * P.a ^ 2 * ig0 P q * iu0 P q * iu2 P q - 4 * P.a ^ 2 * iu0 P q * iw P q * iz02 P q - 8 * P.a ^ 4 * ig0 P q * iz02 P q - 2 * ip02 P q * iu0 P q * (iw P q) ^ 2 - 4 * (iu0 P q) ^ 2 * iu2 P q * iw P q := by
    simp only [ig0, ip02, iu0, iu2, iw, iz02, ddX_D0D2, ddY_D0D2, ddZ_D0D2]
    ring
  have e2 : (1 / 2) * (4 * dZ_D0 P q * dZ_D2 P q * P.a ^ 2 + 4 * ddZ_D0D2 P q * P.a ^ 2 * Z P q + 4 * (1 * dX_D0 P q * X P q + 1 * dY_D0 P q * Y P q + 1 * dZ_D0 P q * Z P q) * (dX_D2 P q * X P q + dY_D2 P q * Y P q + dZ_D2 P q * Z P q) + (2 * dX_D0 P q * dX_D2 P q + 2 * dY_D0 P q * dY_D2 P q + 2 * dZ_D0 P q * dZ_D2 P q + 2 * ddX_D0D2 P q * X P q + 2 * ddY_D0D2 P q * Y P q + 2 * ddZ_D0D2 P q * Z P q) * (-P.a ^ 2 + (X P q) ^ 2 + (Y P q) ^ 2 + (Z P q) ^ 2)) * ((-4) * dZ_D0 P q * P.a ^ 2 * Z P q - 2 * (dX_D0 P q * X P q + dY_D0 P q * Y P q + dZ_D0 P q * Z P q) * ((-1) * P.a ^ 2 + (X P q) ^ 2 + (Y P q) ^ 2 + (Z P q) ^ 2)) = 0 - 4 * P.a ^ 2 * ig0 P q * ip02 P q * iw P q - 8 * P.a ^ 2 * ig0 P q * iu0 P q * iu2 P q - 4 * P.a ^ 2 * iu0 P q * iw P q * iz02 P q - 8 * P.a ^ 4 * ig0 P q * iz02 P q - 2 * ip02 P q * iu0 P q * (iw P q) ^ 2 - 4 * (iu0 P q) ^ 2 * iu2 P q * iw P q := by
    simp only [ig0, ip02, iu0, iu2, iw, iz02, ddX_D0D2, ddY_D0D2, ddZ_D0D2]
    ring
  have e3 : (1 / 2) * (4 * (dZ_D0 P q) ^ 2 * P.a ^ 2 + 4 * ddZ_D0D0 P q * P.a ^ 2 * Z P q + 4 * (1 * dX_D0 P q * X P q + 1 * dY_D0 P q * Y P q + 1 * dZ_D0 P q * Z P q) ^ 2 + (2 * (dX_D0 P q) ^ 2 + 2 * (dY_D0 P q) ^ 2 + 2 * (dZ_D0 P q) ^ 2 + 2 * ddX_D0D0 P q * X P q + 2 * ddY_D0D0 P q * Y P q + 2 * ddZ_D0D0 P q * Z P q) * (-P.a ^ 2 + (X P q) ^ 2 + (Y P q) ^ 2 + (Z P q) ^ 2)) * ((-4) * dZ_D2 P q * P.a ^ 2 * Z P q - 2 * (dX_D2 P q * X P q + dY_D2 P q * Y P q + dZ_D2 P q * Z P q) * ((-1) * P.a ^ 2 + (X P q) ^ 2 + (Y P q) ^ 2 + (Z P q) ^ 2)) = 0 - 4 * P.a ^ 2 * ig2 P q * ip00 P q * iw P q - 8 * P.a ^ 2 * ig2 P q * (iu0 P q) ^ 2 - 4 * P.a ^ 2 * iu2 P q * iw P q * iz00 P q - 8 * P.a ^ 4 * ig2 P q * iz00 P q - 2 * ip00 P q * iu2 P q * (iw P q) ^ 2 - 4 * (iu0 P q) ^ 2 * iu2 P q * iw P q := by
    simp only [ig2, ip00, iu0, iu2, iw, iz00, ddX_D0D0, ddY_D0D0, ddZ_D0D0]
    ring
  have e4 : (1 / 2) * ((-4) * dZ_D0 P q * P.a ^ 2 * Z P q - 2 * (dX_D0 P q * X P q + dY_D0 P q * Y P q + dZ_D0 P q * Z P q) * ((-1) * P.a ^ 2 + (X P q) ^ 2 + (Y P q) ^ 2 + (Z P q) ^ 2)) * (4 * dZ_D0 P q * P.a ^ 2 * Z P q + 2 * (dX_D0 P q * X P q + dY_D0 P q * Y P q + dZ_D0 P q * Z P q) * ((-1) * P.a ^ 2 + (X P q) ^ 2 + (Y P q) ^ 2 + (Z P q) ^ 2)) * ((-12) * dZ_D2 P q * P.a ^ 2 * Z P q - 6 * (dX_D2 P q * X P q + dY_D2 P q * Y P q + dZ_D2 P q * Z P q) * ((-1) * P.a ^ 2 + (X P q) ^ 2 + (Y P q) ^ 2 + (Z P q) ^ 2)) = 48 * P.a ^ 2 * ig0 P q * iu0 P q * iu2 P q * (iw P q) ^ 2 + 24 * P.a ^ 2 * ig2 P q * (iu0 P q) ^ 2 * (iw P q) ^ 2 + 96 * P.a ^ 4 * ig0 P q * ig2 P q * iu0 P q * iw P q + 48 * P.a ^ 4 * (ig0 P q) ^ 2 * iu2 P q * iw P q + 96 * P.a ^ 6 * (ig0 P q) ^ 2 * ig2 P q + 12 * (iu0 P q) ^ 2 * iu2 P q * (iw P q) ^ 3 := by
    simp only [ig0, ig2, iu0, iu2, iw]
    ring
  have e5 : (1 / 2) * (4 * dZ_D0 P q * dZ_D2 P q * P.a ^ 2 + 4 * ddZ_D0D2 P q * P.a ^ 2 * Z P q + 4 * (1 * dX_D0 P q * X P q + 1 * dY_D0 P q * Y P q + 1 * dZ_D0 P q * Z P q) * (dX_D2 P q * X P q + dY_D2 P q * Y P q + dZ_D2 P q * Z P q) + (2 * dX_D0 P q * dX_D2 P q + 2 * dY_D0 P q * dY_D2 P q + 2 * dZ_D0 P q * dZ_D2 P q + 2 * ddX_D0D2 P q * X P q + 2 * ddY_D0D2 P q * Y P q + 2 * ddZ_D0D2 P q * Z P q) * (-P.a ^ 2 + (X P q) ^ 2 + (Y P q) ^ 2 + (Z P q) ^ 2)) = 2 * P.a ^ 2 * iz02 P q + ip02 P q * iw P q + 2 * iu0 P q * iu2 P q := by
    simp only [ip02, iu0, iu2, iw, iz02, ddX_D0D2, ddY_D0D2, ddZ_D0D2]
    ring
  have e6 : (1 / 2) * (4 * (dZ_D0 P q) ^ 2 * P.a ^ 2 + 4 * ddZ_D0D0 P q * P.a ^ 2 * Z P q + 4 * (1 * dX_D0 P q * X P q + 1 * dY_D0 P q * Y P q + 1 * dZ_D0 P q * Z P q) ^ 2 + (2 * (dX_D0 P q) ^ 2 + 2 * (dY_D0 P q) ^ 2 + 2 * (dZ_D0 P q) ^ 2 + 2 * ddX_D0D0 P q * X P q + 2 * ddY_D0D0 P q * Y P q + 2 * ddZ_D0D0 P q * Z P q) * (-P.a ^ 2 + (X P q) ^ 2 + (Y P q) ^ 2 + (Z P q) ^ 2)) = 2 * P.a ^ 2 * iz00 P q + ip00 P q * iw P q + 2 * (iu0 P q) ^ 2 := by
    simp only [ip00, iu0, iw, iz00, ddX_D0D0, ddY_D0D0, ddZ_D0D0]
    ring
  have e7 : (1 / 2) * (4 * dZ_D0 P q * P.a ^ 2 * Z P q + 2 * (dX_D0 P q * X P q + dY_D0 P q * Y P q + dZ_D0 P q * Z P q) * ((-1) * P.a ^ 2 + (X P q) ^ 2 + (Y P q) ^ 2 + (Z P q) ^ 2)) * ((-4) * dZ_D2 P q * P.a ^ 2 * Z P q - 2 * (dX_D2 P q * X P q + dY_D2 P q * Y P q + dZ_D2 P q * Z P q) * ((-1) * P.a ^ 2 + (X P q) ^ 2 + (Y P q) ^ 2 + (Z P q) ^ 2)) = 0 - 4 * P.a ^ 2 * ig0 P q * iu2 P q * iw P q - 4 * P.a ^ 2 * ig2 P q * iu0 P q * iw P q - 8 * P.a ^ 4 * ig0 P q * ig2 P q - 2 * iu0 P q * iu2 P q * (iw P q) ^ 2 := by
    simp only [ig0, ig2, iu0, iu2, iw]
    ring
  have e8 : 2 * (dZ_D0 P q * Z P q * ((-1) * P.a ^ 2 - 1 * (X P q) ^ 2 - 1 * (Y P q) ^ 2 - 1 * (Z P q) ^ 2) + dX_D0 P q * X P q * (1 * P.a ^ 2 - 1 * (X P q) ^ 2 - 1 * (Y P q) ^ 2 - 1 * (Z P q) ^ 2) + dY_D0 P q * Y P q * (1 * P.a ^ 2 - 1 * (X P q) ^ 2 - 1 * (Y P q) ^ 2 - 1 * (Z P q) ^ 2)) ^ 2 = 8 * P.a ^ 2 * ig0 P q * iu0 P q * iw P q + 8 * P.a ^ 4 * (ig0 P q) ^ 2 + 2 * (iu0 P q) ^ 2 * (iw P q) ^ 2 := by
    simp only [ig0, iu0, iw]
    ring
  have e9 : 1 * dX_D2 P q * ddX_D0D0 P q + 1 * dY_D2 P q * ddY_D0D0 P q + 1 * dZ_D2 P q * ddZ_D0D0 P q + 2 * dX_D0 P q * ddX_D0D2 P q + 2 * dY_D0 P q * ddY_D0D2 P q + 2 * dZ_D0 P q * ddZ_D0D2 P q + 1 * dddX_D0D0D2 P q * X P q + 1 * dddY_D0D0D2 P q * Y P q + 1 * dddZ_D0D0D2 P q * Z P q = 0 := by
    simp only [ddX_D0D0, ddX_D0D2, ddY_D0D0, ddY_D0D2, ddZ_D0D0, ddZ_D0D2, dddX_D0D0D2, dddY_D0D0D2, dddZ_D0D0D2]
    ring
  have e10 : (1 / 2) * (4 * dZ_D0 P q * P.a ^ 2 * Z P q + 2 * (dX_D0 P q * X P q + dY_D0 P q * Y P q + dZ_D0 P q * Z P q) * ((-1) * P.a ^ 2 + (X P q) ^ 2 + (Y P q) ^ 2 + (Z P q) ^ 2)) = 2 * P.a ^ 2 * ig0 P q + iu0 P q * iw P q := by
    simp only [ig0, iu0, iw]
    ring
  have e11 : (3 / 2) * (4 * dZ_D2 P q * P.a ^ 2 * Z P q + 2 * (dX_D2 P q * X P q + dY_D2 P q * Y P q + dZ_D2 P q * Z P q) * ((-1) * P.a ^ 2 + (X P q) ^ 2 + (Y P q) ^ 2 + (Z P q) ^ 2)) = 6 * P.a ^ 2 * ig2 P q + 3 * iu2 P q * iw P q := by
    simp only [ig2, iu2, iw]
    ring
  have e12 : (1 / 2) * (4 * dZ_D2 P q * P.a ^ 2 * Z P q + 2 * (dX_D2 P q * X P q + dY_D2 P q * Y P q + dZ_D2 P q * Z P q) * ((-1) * P.a ^ 2 + (X P q) ^ 2 + (Y P q) ^ 2 + (Z P q) ^ 2)) = 2 * P.a ^ 2 * ig2 P q + iu2 P q * iw P q := by
    simp only [ig2, iu2, iw]
    ring
  have e13 : (-1) * dX_D0 P q * dX_D2 P q - 1 * dY_D0 P q * dY_D2 P q - 1 * dZ_D0 P q * dZ_D2 P q - 1 * ddX_D0D2 P q * X P q - 1 * ddY_D0D2 P q * Y P q - 1 * ddZ_D0D2 P q * Z P q = 0 - ip02 P q := by
    simp only [ip02, ddX_D0D2, ddY_D0D2, ddZ_D0D2]
    ring
  have e14 : 1 * dX_D0 P q * dX_D2 P q + 1 * dY_D0 P q * dY_D2 P q + 1 * dZ_D0 P q * dZ_D2 P q + 1 * ddX_D0D2 P q * X P q + 1 * ddY_D0D2 P q * Y P q + 1 * ddZ_D0D2 P q * Z P q = ip02 P q := by
    simp only [ip02, ddX_D0D2, ddY_D0D2, ddZ_D0D2]
    ring
  have e15 : 1 * (dX_D0 P q) ^ 2 + 1 * (dY_D0 P q) ^ 2 + 1 * (dZ_D0 P q) ^ 2 + 1 * ddX_D0D0 P q * X P q + 1 * ddY_D0D0 P q * Y P q + 1 * ddZ_D0D0 P q * Z P q = ip00 P q := by
    simp only [ip00, ddX_D0D0, ddY_D0D0, ddZ_D0D0]
    ring
  have e16 : (-1) * dX_D0 P q * X P q - 1 * dY_D0 P q * Y P q - 1 * dZ_D0 P q * Z P q = 0 - iu0 P q := by
    simp only [iu0]
    ring
  have e17 : (-3) * dX_D2 P q * X P q - 3 * dY_D2 P q * Y P q - 3 * dZ_D2 P q * Z P q = 0 - 3 * iu2 P q := by
    simp only [iu2]
    ring
  have e18 : (-1) * dX_D2 P q * X P q - 1 * dY_D2 P q * Y P q - 1 * dZ_D2 P q * Z P q = 0 - iu2 P q := by
    simp only [iu2]
    ring
  have e19 : 1 * dX_D0 P q * X P q + 1 * dY_D0 P q * Y P q + 1 * dZ_D0 P q * Z P q = iu0 P q := by
    simp only [iu0]
    ring
  unfold dddR_D0D0D2
  rw [e0, e1, e2, e3, e4, e5, e6, e7, e8, e9, e10, e11, e12, e13, e14, e15, e16, e17, e18, e19]
  rfl

noncomputable def dddR_D0D1D0_i (P : Par) (q : Pt) : ℝ :=
  P.lit * (0 - iu0 P q - (2 * P.a ^ 2 * ig0 P q + iu0 P q * iw P q) / Tq P q) * (ip01 P q + (2 * P.a ^ 2 * iz01 P q + ip01 P q * iw P q + 2 * iu0 P q * iu1 P q) / Tq P q
    + (0 - 4 * P.a ^ 2 * ig0 P q * iu1 P q * iw P q - 4 * P.a ^ 2 * ig1 P q * iu0 P q * iw P q - 8 * P.a ^ 4 * ig0 P q * ig1 P q - 2 * iu0 P q * iu1 P q * (iw P q) ^ 2) /
    (Tq P q) ^ 3) / (Sq P q) ^ 3 + P.lit * (0 + (2 * ip00 P q * iu1 P q + 4 * ip01 P q * iu0 P q) / Tq P q + (0 - 4 * P.a ^ 2 * ig0 P q * ip01 P q * iw P q - 8 * P.a ^ 2
    * ig0 P q * iu0 P q * iu1 P q - 4 * P.a ^ 2 * iu0 P q * iw P q * iz01 P q - 8 * P.a ^ 4 * ig0 P q * iz01 P q - 2 * ip01 P q * iu0 P q * (iw P q) ^ 2 - 4 * (iu0 P q) ^
    2 * iu1 P q * iw P q) / (Tq P q) ^ 3 + (0 - 4 * P.a ^ 2 * ig0 P q * ip01 P q * iw P q - 8 * P.a ^ 2 * ig0 P q * iu0 P q * iu1 P q - 4 * P.a ^ 2 * iu0 P q * iw P q *
    iz01 P q - 8 * P.a ^ 4 * ig0 P q * iz01 P q - 2 * ip01 P q * iu0 P q * (iw P q) ^ 2 - 4 * (iu0 P q) ^ 2 * iu1 P q * iw P q) / (Tq P q) ^ 3 + (0 - 4 * P.a ^ 2 * ig1 P
    q * ip00 P q * iw P q - 8 * P.a ^ 2 * ig1 P q * (iu0 P q) ^ 2 - 4 * P.a ^ 2 * iu1 P q * iw P q * iz00 P q - 8 * P.a ^ 4 * ig1 P q * iz00 P q - 2 * ip00 P q * iu1 P q
    * (iw P q) ^ 2 - 4 * (iu0 P q) ^ 2 * iu1 P q * iw P q) / (Tq P q) ^ 3 + (48 * P.a ^ 2 * ig0 P q * iu0 P q * iu1 P q * (iw P q) ^ 2 + 24 * P.a ^ 2 * ig1 P q * (iu0 P
    q) ^ 2 * (iw P q) ^ 2 + 96 * P.a ^ 4 * ig0 P q * ig1 P q * iu0 P q * iw P q + 48 * P.a ^ 4 * (ig0 P q) ^ 2 * iu1 P q * iw P q + 96 * P.a ^ 6 * (ig0 P q) ^ 2 * ig1 P q
    + 12 * (iu0 P q) ^ 2 * iu1 P q * (iw P q) ^ 3) / (Tq P q) ^ 5) / Sq P q + P.lit * (ip00 P q - (8 * P.a ^ 2 * ig0 P q * iu0 P q * iw P q + 8 * P.a ^ 4 * (ig0 P q) ^ 2
    + 2 * (iu0 P q) ^ 2 * (iw P q) ^ 2) / (Tq P q) ^ 3 + (2 * P.a ^ 2 * iz00 P q + ip00 P q * iw P q + 2 * (iu0 P q) ^ 2) / Tq P q) * (0 - iu1 P q - (2 * P.a ^ 2 * ig1 P
    q + iu1 P q * iw P q) / Tq P q) / (Sq P q) ^ 3 + P.lit * (0 - 3 * iu0 P q - (6 * P.a ^ 2 * ig0 P q + 3 * iu0 P q * iw P q) / Tq P q) * (iu0 P q + (2 * P.a ^ 2 * ig0 P
    q + iu0 P q * iw P q) / Tq P q) * (0 - iu1 P q - (2 * P.a ^ 2 * ig1 P q + iu1 P q * iw P q) / Tq P q) / (Sq P q) ^ 5 + P.lit * (iu0 P q + (2 * P.a ^ 2 * ig0 P q + iu0
    P q * iw P q) / Tq P q) * (0 - ip01 P q - (2 * P.a ^ 2 * iz01 P q + ip01 P q * iw P q + 2 * iu0 P q * iu1 P q) / Tq P q - (0 - 4 * P.a ^ 2 * ig0 P q * iu1 P q * iw P
    q - 4 * P.a ^ 2 * ig1 P q * iu0 P q * iw P q - 8 * P.a ^ 4 * ig0 P q * ig1 P q - 2 * iu0 P q * iu1 P q * (iw P q) ^ 2) / (Tq P q) ^ 3) / (Sq P q) ^ 3

theorem dddR_D0D1D0_eq (P : Par) (q : Pt) : dddR_D0D1D0 P q = dddR_D0D1D0_i P q := by
  have e0 : (1 / 2) * (4 * dZ_D1 P q * ddZ_D0D0 P q * P.a ^ 2 + 8 * dZ_D0 P q * ddZ_D0D1 P q * P.a ^ 2 + 4 * dddZ_D0D0D1 P q * P.a ^ 2 * Z P q + 4 * (dX_D1 P q * X P q + dY_D1 P q * Y P q + dZ_D1 P q * Z P q) * (1 * (dX_D0 P q) ^ 2 + 1 * (dY_D0 P q) ^ 2 + 1 * (dZ_D0 P q) ^ 2 + 1 * ddX_D0D0 P q * X P q + 1 * ddY_D0D0 P q * Y P q + 1 * ddZ_D0D0 P q * Z P q) + 4 * (1 * dX_D0 P q * X P q + 1 * dY_D0 P q * Y P q + 1 * dZ_D0 P q * Z P q) * (dX_D0 P q * dX_D1 P q + dY_D0 P q * dY_D1 P q + dZ_D0 P q * dZ_D1 P q + ddX_D0D1 P q * X P q + ddY_D0D1 P q * Y P q + ddZ_D0D1 P q * Z P q) + 4 * (dX_D0 P q * X P q + dY_D0 P q * Y P q + dZ_D0 P q * Z P q) * (1 * dX_D0 P q * dX_D1 P q + 1 * dY_D0 P q * dY_D1 P q + 1 * dZ_D0 P q * dZ_D1 P q + 1 * ddX_D0D1 P q * X P q + 1 * ddY_D0D1 P q * Y P q + 1 * ddZ_D0D1 P q * Z P q) + (2 * dX_D1 P q * ddX_D0D0 P q + 2 * dY_D1 P q * ddY_D0D0 P q + 2 * dZ_D1 P q * ddZ_D0D0 P q + 4 * dX_D0 P q * ddX_D0D1 P q + 4 * dY_D0 P q * ddY_D0D1 P q + 4 * dZ_D0 P q * ddZ_D0D1 P q + 2 * dddX_D0D0D1 P q * X P q + 2 * dddY_D0D0D1 P q * Y P q + 2 * dddZ_D0D0D1 P q * Z P q) * (-P.a ^ 2 + (X P q) ^ 2 + (Y P q) ^ 2 + (Z P q) ^ 2)) = 2 * ip00 P q * iu1 P q + 4 * ip01 P q * iu0 P q := by
    simp only [ip00, ip01, iu0, iu1, ddX_D0D0, ddX_D0D1, ddY_D0D0, ddY_D0D1, ddZ_D0D0, ddZ_D0D1, dddX_D0D0D1, dddY_D0D0D1, dddZ_D0D0D1]
    ring
  have e1 : (1 / 2) * ((-4) * dZ_D0 P q * dZ_D1 P q * P.a ^ 2 - 4 * ddZ_D0D1 P q * P.a ^ 2 * Z P q - 4 * (dX_D0 P q * X P q + dY_D0 P q * Y P q + dZ_D0 P q * Z P q) * (1 * dX_D1 P q * X P q + 1 * dY_D1 P q * Y P q + 1 * dZ_D1 P q * Z P q) + ((-2) * dX_D0 P q * dX_D1 P q - 2 * dY_D0 P q * dY_D1 P q - 2 * dZ_D0 P q * dZ_D1 P q - 2 * ddX_D0D1 P q * X P q - 2 * ddY_D0D1 P q * Y P q - 2 * ddZ_D0D1 P q * Z P q) * (-P.a ^ 2 + (X P q) ^ 2 + (Y P q) ^ 2 + (Z P q) ^ 2)) * (4 * dZ_D0 P q * P.a ^ 2 * Z P q + 2 * (dX_D0 P q * X P q + dY_D0 P q * Y P q + dZ_D0 P q * Z P q) * ((-1) * P.a ^ 2 + (X P q) ^ 2 + (Y P q) ^ 2 + (Z P q) ^ 2)) = 0 - 4 * P.a ^ 2 * ig0 P q * ip01 P q * iw P q - 8 * P.a ^ 2 * ig0 P q * iu0 P q * iu1 P q - 4 * P.a ^ 2 * iu0 P q * iw P q * iz01 P q - 8 * P.a ^ 4 * ig0 P q * iz01 P q - 2 * ip01 P q * iu0 P q * (iw P q) ^ 2 - 4 * (iu0 P q) ^ 2 * iu1 P q * iw P q := by
    simp only [ig0, ip01, iu0, iu1, iw, iz01, ddX_D0D1, ddY_D0D1, ddZ_D0D1]
    ring
  have e2 : (1 / 2) * (4 * dZ_D0 P q * dZ_D1 P q * P.a ^ 2 + 4 * ddZ_D0D1 P q * P.a ^ 2 * Z P q + 4 * (1 * dX_D0 P q * X P q + 1 * dY_D0 P q * Y P q + 1 * dZ_D0 P q * Z P q) * (dX_D1 P q * X P q + dY_D1 P q * Y P q + dZ_D1 P q * Z P q) + (2 * dX_D0 P q * dX_D1 P q + 2 * dY_D0 P q * dY_D1 P q + 2 * dZ_D0 P q * dZ_D1 P q + 2 * ddX_D0D1 P q * X P q + 2 * ddY_D0D1 P q * Y P q + 2 * ddZ_D0D1 P q * Z P q) * (-P.a ^ 2 + (X P q) ^ 2 + (Y P q) ^ 2 + (Z P q) ^ 2)) * ((-4) * dZ_D0 P q * P.a ^ 2 * Z P q - 2 * (dX_D0 P q * X P q + dY_D0 P q * Y P q + dZ_D0 P q * Z P q) * ((-1) * P.a ^ 2 + (X P q) ^ 2 + (Y P q) ^ 2 + (Z P q) ^ 2)) = 0 - 4 * P.a ^ 2 * ig0 P q * ip01 P q * iw P q - 8 * P.a ^ 2 * ig0 P q * iu0 P q * iu1 P q - 4 * P.a ^ 2 * iu0 P q * iw P q * iz01 P q - 8 * P.a ^ 4 * ig0 P q * iz01 P q - 2 * ip01 P q * iu0 P q * (iw P q) ^ 2 - 4 * (iu0 P q) ^ 2 * iu1 P q * iw P q := by
    simp only [ig0, ip01, iu0, iu1, iw, iz01, ddX_D0D1, ddY_D0D1, ddZ_D0D1]
    ring
  have e3 : (1 / 2) * (4 * (dZ_D0 P q) ^ 2 * P.a ^ 2 + 4 * ddZ_D0D0 P q * P.a ^ 2 * Z P q + 4 * (1 * dX_D0 P q * X P q + 1 * dY_D0 P q * Y P q + 1 * dZ_D0 P q * Z P q) ^ 2 + (2 * (dX_D0 P q) ^ 2 + 2 * (dY_D0 P q) ^ 2 + 2 * (dZ_D0 P q) ^ 2 + 2 * ddX_D0D0 P q * X P q + 2 * ddY_D0D0 P q * Y P q + 2 * ddZ_D0D0 P q * Z P q) * (-P.a ^ 2 + (X P q) ^ 2 + (Y P q) ^ 2 + (Z P q) ^ 2)) * ((-4) * dZ_D1 P q * P.a ^ 2 * Z P q - 2 * (dX_D1 P q * X P q + dY_D1 P q * Y P q + dZ_D1 P q * Z P q) * ((-1) * P.a ^ 2 + (X P q) ^ 2 + (Y P q) ^ 2 + (Z P q) ^ 2)) = 0 - 4 * P.a ^ 2 * ig1 P q * ip00 P q * iw P q - 8 * P.a ^ 2 * ig1 P q * (iu0 P q) ^ 2 - 4 * P.a ^ 2 * iu1 P q * iw P q * iz00 P q - 8 * P.a ^ 4 * ig1 P q * iz00 P q - 2 * ip00 P q * iu1 P q * (iw P q) ^ 2 - 4 * (iu0 P q) ^ 2 * iu1 P q * iw P q := by
    simp only [ig1, ip00, iu0, iu1, iw, iz00, ddX_D0D0, ddY_D0D0, ddZ_D0D0]
    ring
  have e4 : (1 / 2) * ((-12) * dZ_D0 P q * P.a ^ 2 * Z P q - 6 * (dX_D0 P q * X P q + dY_D0 P q * Y P q + dZ_D0 P q * Z P q) * ((-1) * P.a ^ 2 + (X P q) ^ 2 + (Y P q) ^ 2 + (Z P q) ^ 2)) * (4 * dZ_D0 P q * P.a ^ 2 * Z P q + 2 * (dX_D0 P q * X P q + dY_D0 P q * Y P q + dZ_D0 P q * Z P q) * ((-1) * P.a ^ 2 + (X P q) ^ 2 + (Y P q) ^ 2 + (Z P q) ^ 2)) * ((-4) * dZ_D1 P q * P.a ^ 2 * Z P q - 2 * (dX_D1 P q * X P q + dY_D1 P q * Y P q + dZ_D1 P q * Z P q) * ((-1) * P.a ^ 2 + (X P q) ^ 2 + (Y P q) ^ 2 + (Z P q) ^ 2)) = 48 * P.a ^ 2 * ig0 P q * iu0 P q * iu1 P q * (iw P q) ^ 2 + 24 * P.a ^ 2 * ig1 P q * (iu0 P q) ^ 2 * (iw P q) ^ 2 + 96 * P.a ^ 4 * ig0 P q * ig1 P q * iu0 P q * iw P q + 48 * P.a ^ 4 * (ig0 P q) ^ 2 * iu1 P q * iw P q + 96 * P.a ^ 6 * (ig0 P q) ^ 2 * ig1 P q + 12 * (iu0 P q) ^ 2 * iu1 P q * (iw P q) ^ 3 := by
    simp only [ig0, ig1, iu0, iu1, iw]
    ring
  have e5 : (1 / 2) * (4 * dZ_D0 P q * dZ_D1 P q * P.a ^ 2 + 4 * ddZ_D0D1 P q * P.a ^ 2 * Z P q + 4 * (1 * dX_D0 P q * X P q + 1 * dY_D0 P q * Y P q + 1 * dZ_D0 P q * Z P q) * (dX_D1 P q * X P q + dY_D1 P q * Y P q + dZ_D1 P q * Z P q) + (2 * dX_D0 P q * dX_D1 P q + 2 * dY_D0 P q * dY_D1 P q + 2 * dZ_D0 P q * dZ_D1 P q + 2 * ddX_D0D1 P q * X P q + 2 * ddY_D0D1 P q * Y P q + 2 * ddZ_D0D1 P q * Z P q) * (-P.a ^ 2 + (X P q) ^ 2 + (Y P q) ^ 2 + (Z P q) ^ 2)) = 2 * P.a ^ 2 * iz01 P q + ip01 P q * iw P q + 2 * iu0 P q * iu1 P q := by
    simp only [ip01, iu0, iu1, iw, iz01, ddX_D0D1, ddY_D0D1, ddZ_D0D1]
    ring
  have e6 : (1 / 2) * (4 * dZ_D0 P q * dZ_D1 P q * P.a ^ 2 + 4 * ddZ_D0D1 P q * P.a ^ 2 * Z P q + 4 * (dX_D0 P q * X P q + dY_D0 P q * Y P q + dZ_D0 P q * Z P q) * (1 * dX_D1 P q * X P q + 1 * dY_D1 P q * Y P q + 1 * dZ_D1 P q * Z P q) + (2 * dX_D0 P q * dX_D1 P q + 2 * dY_D0 P q * dY_D1 P q + 2 * dZ_D0 P q * dZ_D1 P q + 2 * ddX_D0D1 P q * X P q + 2 * ddY_D0D1 P q * Y P q + 2 * ddZ_D0D1 P q * Z P q) * (-P.a ^ 2 + (X P q) ^ 2 + (Y P q) ^ 2 + (Z P q) ^ 2)) = 2 * P.a ^ 2 * iz01 P q + ip01 P q * iw P q + 2 * iu0 P q * iu1 P q := by
    simp only [ip01, iu0, iu1, iw, iz01, ddX_D0D1, ddY_D0D1, ddZ_D0D1]
    ring
  have e7 : (1 / 2) * (4 * (dZ_D0 P q) ^ 2 * P.a ^ 2 + 4 * ddZ_D0D0 P q * P.a ^ 2 * Z P q + 4 * (1 * dX_D0 P q * X P q + 1 * dY_D0 P q * Y P q + 1 * dZ_D0 P q * Z P q) ^ 2 + (2 * (dX_D0 P q) ^ 2 + 2 * (dY_D0 P q) ^ 2 + 2 * (dZ_D0 P q) ^ 2 + 2 * ddX_D0D0 P q * X P q + 2 * ddY_D0D0 P q * Y P q + 2 * ddZ_D0D0 P q * Z P q) * (-P.a ^ 2 + (X P q) ^ 2 + (Y P q) ^ 2 + (Z P q) ^ 2)) = 2 * P.a ^ 2 * iz00 P q + ip00 P q * iw P q + 2 * (iu0 P q) ^ 2 := by
    simp only [ip00, iu0, iw, iz00, ddX_D0D0, ddY_D0D0, ddZ_D0D0]
    ring
  have e8 : (1 / 2) * (4 * dZ_D0 P q * P.a ^ 2 * Z P q + 2 * (dX_D0 P q * X P q + dY_D0 P q * Y P q + dZ_D0 P q * Z P q) * ((-1) * P.a ^ 2 + (X P q) ^ 2 + (Y P q) ^ 2 + (Z P q) ^ 2)) * ((-4) * dZ_D1 P q * P.a ^ 2 * Z P q - 2 * (dX_D1 P q * X P q + dY_D1 P q * Y P q + dZ_D1 P q * Z P q) * ((-1) * P.a ^ 2 + (X P q) ^ 2 + (Y P q) ^ 2 + (Z P q) ^ 2)) = 0 - 4 * P.a ^ 2 * ig0 P q * iu1 P q * iw P q - 4 * P.a ^ 2 * ig1 P q * iu0 P q * iw P q - 8 * P.a ^ 4 * ig0 P q * ig1 P q - 2 * iu0 P q * iu1 P q * (iw P q) ^ 2 := by
    simp only [ig0, ig1, iu0, iu1, iw]
    ring
  have e9 : (1 / 2) * ((-4) * dZ_D0 P q * P.a ^ 2 * Z P q - 2 * (dX_D0 P q * X P q + dY_D0 P q * Y P q + dZ_D0 P q * Z P q) * ((-1) * P.a ^ 2 + (X P q) ^ 2 + (Y P q) ^ 2 + (Z P q) ^ 2)) * (4 * dZ_D1 P q * P.a ^ 2 * Z P q + 2 * (dX_D1 P q * X P q + dY_D1 P q * Y P q + dZ_D1 P q * Z P q) * ((-1) * P.a ^ 2 + (X P q) ^ 2 + (Y P q) ^ 2 + (Z P q) ^ 2)) = 0 - 4 * P.a ^ 2 * ig0 P q * iu1 P q * iw P q - 4 * P.a ^ 2 * ig1 P q * iu0 P q * iw P q - 8 * P.a ^ 4 * ig0 P q * ig1 P q - 2 * iu0 P q * iu1 P q * (iw P q) ^ 2 := by
    simp only [ig0, ig1, iu0, iu1, iw]
    ring
  have e10 : 2 * (dZ_D0 P q * Z P q * ((-1) * P.a ^ 2 - 1 * (X P q) ^ 2 - 1 * (Y P q) ^ 2 - 1 * (Z P q) ^ 2) + dX_D0 P q * X P q * (1 * P.a ^ 2 - 1 * (X P q) ^ 2 - 1 * (Y P q) ^ 2 - 1 * (Z P q) ^ 2) + dY_D0 P q * Y P q * (1 * P.a ^ 2 - 1 * (X P q) ^ 2 - 1 * (Y P q) ^ 2 - 1 * (Z P q) ^ 2)) ^ 2 = 8 * P.a ^ 2 * ig0 P q * iu0 P q * iw P q + 8 * P.a ^ 4 * (ig0 P q) ^ 2 + 2 * (iu0 P q) ^ 2 * (iw P q) ^ 2 := by
    simp only [ig0, iu0, iw]
    ring
  have e11 : 1 * dX_D1 P q * ddX_D0D0 P q + 1 * dY_D1 P q * ddY_D0D0 P q + 1 * dZ_D1 P q * ddZ_D0D0 P q + 2 * dX_D0 P q * ddX_D0D1 P q + 2 * dY_D0 P q * ddY_D0D1 P q + 2 * dZ_D0 P q * ddZ_D0D1 P q + 1 * dddX_D0D0D1 P q * X P q + 1 * dddY_D0D0D1 P q * Y P q + 1 * dddZ_D0D0D1 P q * Z P q = 0 := by
    simp only [ddX_D0D0, ddX_D0D1, ddY_D0D0, ddY_D0D1, ddZ_D0D0, ddZ_D0D1, dddX_D0D0D1, dddY_D0D0D1, dddZ_D0D0D1]
    ring
  have e12 : (1 / 2) * (4 * dZ_D0 P q * P.a ^ 2 * Z P q + 2 * (dX_D0 P q * X P q + dY_D0 P q * Y P q + dZ_D0 P q * Z P q) * ((-1) * P.a ^ 2 + (X P q) ^ 2 + (Y P q) ^ 2 + (Z P q) ^ 2)) = 2 * P.a ^ 2 * ig0 P q + iu0 P q * iw P q := by
    simp only [ig0, iu0, iw]
    ring
  have e13 : (1 / 2) * (4 * dZ_D1 P q * P.a ^ 2 * Z P q + 2 * (dX_D1 P q * X P q + dY_D1 P q * Y P q + dZ_D1 P q * Z P q) * ((-1) * P.a ^ 2 + (X P q) ^ 2 + (Y P q) ^ 2 + (Z P q) ^ 2)) = 2 * P.a ^ 2 * ig1 P q + iu1 P q * iw P q := by
    simp only [ig1, iu1, iw]
    ring
  have e14 : (3 / 2) * (4 * dZ_D0 P q * P.a ^ 2 * Z P q + 2 * (dX_D0 P q * X P q + dY_D0 P q * Y P q + dZ_D0 P q * Z P q) * ((-1) * P.a ^ 2 + (X P q) ^ 2 + (Y P q) ^ 2 + (Z P q) ^ 2)) = 6 * P.a ^ 2 * ig0 P q + 3 * iu0 P q * iw P q := by
    simp only [ig0, iu0, iw]
    ring
  have e15 : (-1) * dX_D0 P q * dX_D1 P q - 1 * dY_D0 P q * dY_D1 P q - 1 * dZ_D0 P q * dZ_D1 P q - 1 * ddX_D0D1 P q * X P q - 1 * ddY_D0D1 P q * Y P q - 1 * ddZ_D0D1 P q * Z P q = 0 - ip01 P q := by
    simp only [ip01, ddX_D0D1, ddY_D0D1, ddZ_D0D1]
    ring
  have e16 : 1 * dX_D0 P q * dX_D1 P q + 1 * dY_D0 P q * dY_D1 P q + 1 * dZ_D0 P q * dZ_D1 P q + 1 * ddX_D0D1 P q * X P q + 1 * ddY_D0D1 P q * Y P q + 1 * ddZ_D0D1 P q * Z P q = ip01 P q := by
    simp only [ip01, ddX_D0D1, ddY_D0D1, ddZ_D0D1]
    ring
  have e17 : 1 * (dX_D0 P q) ^ 2 + 1 * (dY_D0 P q) ^ 2 + 1 * (dZ_D0 P q) ^ 2 + 1 * ddX_D0D0 P q * X P q + 1 * ddY_D0D0 P q * Y P q + 1 * ddZ_D0D0 P q * Z P q = ip00 P q := by
    simp only [ip00, ddX_D0D0, ddY_D0D0, ddZ_D0D0]
    ring
  have e18 : (-1) * dX_D0 P q * X P q - 1 * dY_D0 P q * Y P q - 1 * dZ_D0 P q * Z P q = 0 - iu0 P q := by
    simp only [iu0]
    ring
  have e19 : (-1) * dX_D1 P q * X P q - 1 * dY_D1 P q * Y P q - 1 * dZ_D1 P q * Z P q = 0 - iu1 P q := by
    simp only [iu1]
    ring
  have e20 : (-3) * dX_D0 P q * X P q - 3 * dY_D0 P q * Y P q - 3 * dZ_D0 P q * Z P q = 0 - 3 * iu0 P q := by
    simp only [iu0]
    ring
  have e21 : 1 * dX_D0 P q * X P q + 1 * dY_D0 P q * Y P q + 1 * dZ_D0 P q * Z P q = iu0 P q := by
    simp only [iu0]
    ring
  unfold dddR_D0D1D0
  rw [e0, e1, e2, e3, e4, e5, e6, e7, e8, e9, e10, e11, e12, e13, e14, e15, e16, e17, e18, e19, e20, e21]
  rfl

noncomputable def dddR_D0D1D1_i (P : Par) (q : Pt) : ℝ :=
  P.lit * (0 - ip11 P q + (8 * P.a ^ 2 * ig1 P q * iu1 P q * iw P q + 8 * P.a ^ 4 * (ig1 P q) ^ 2 + 2 * (iu1 P q) ^ 2 * (iw P q) ^ 2) / (Tq P q) ^ 3 - (2 * P.a ^ 2 * iz11
    P q + ip11 P q * iw P q + 2 * (iu1 P q) ^ 2) / Tq P q) * (iu0 P q + (2 * P.a ^ 2 * ig0 P q + iu0 P q * iw P q) / Tq P q) / (Sq P q) ^ 3 + P.lit * (0 + (4 * ip01 P q *
    iu1 P q + 2 * ip11 P q * iu0 P q) / Tq P q + (0 - 4 * P.a ^ 2 * ig0 P q * ip11 P q * iw P q - 8 * P.a ^ 2 * ig0 P q * (iu1 P q) ^ 2 - 4 * P.a ^ 2 * iu0 P q * iw P q *
    iz11 P q - 8 * P.a ^ 4 * ig0 P q * iz11 P q - 2 * ip11 P q * iu0 P q * (iw P q) ^ 2 - 4 * iu0 P q * (iu1 P q) ^ 2 * iw P q) / (Tq P q) ^ 3 + (0 - 8 * P.a ^ 2 * ig1 P
    q * ip01 P q * iw P q - 16 * P.a ^ 2 * ig1 P q * iu0 P q * iu1 P q - 8 * P.a ^ 2 * iu1 P q * iw P q * iz01 P q - 16 * P.a ^ 4 * ig1 P q * iz01 P q - 4 * ip01 P q *
    iu1 P q * (iw P q) ^ 2 - 8 * iu0 P q * (iu1 P q) ^ 2 * iw P q) / (Tq P q) ^ 3 + (24 * P.a ^ 2 * ig0 P q * (iu1 P q) ^ 2 * (iw P q) ^ 2 + 48 * P.a ^ 2 * ig1 P q * iu0
    P q * iu1 P q * (iw P q) ^ 2 + 96 * P.a ^ 4 * ig0 P q * ig1 P q * iu1 P q * iw P q + 48 * P.a ^ 4 * (ig1 P q) ^ 2 * iu0 P q * iw P q + 96 * P.a ^ 6 * ig0 P q * (ig1 P
    q) ^ 2 + 12 * iu0 P q * (iu1 P q) ^ 2 * (iw P q) ^ 3) / (Tq P q) ^ 5) / Sq P q + (2 * P.lit) * (ip01 P q + (2 * P.a ^ 2 * iz01 P q + ip01 P q * iw P q + 2 * iu0 P q *
    iu1 P q) / Tq P q + (0 - 4 * P.a ^ 2 * ig0 P q * iu1 P q * iw P q - 4 * P.a ^ 2 * ig1 P q * iu0 P q * iw P q - 8 * P.a ^ 4 * ig0 P q * ig1 P q - 2 * iu0 P q * iu1 P q
    * (iw P q) ^ 2) / (Tq P q) ^ 3) * (0 - iu1 P q - (2 * P.a ^ 2 * ig1 P q + iu1 P q * iw P q) / Tq P q) / (Sq P q) ^ 3 + P.lit * (iu0 P q + (2 * P.a ^ 2 * ig0 P q + iu0
    P q * iw P q) / Tq P q) * (0 - 3 * iu1 P q - (6 * P.a ^ 2 * ig1 P q + 3 * iu1 P q * iw P q) / Tq P q) * (0 - iu1 P q - (2 * P.a ^ 2 * ig1 P q + iu1 P q * iw P q) / Tq
    P q) / (Sq P q) ^ 5

theorem dddR_D0D1D1_eq (P : Par) (q : Pt) : dddR_D0D1D1 P q = dddR_D0D1D1_i P q := by
  have e0 : (1 / 2) * (4 * dZ_D0 P q * ddZ_D1D1 P q * P.a ^ 2 + 8 * dZ_D1 P q * ddZ_D0D1 P q * P.a ^ 2 + 4 * dddZ_D0D1D1 P q * P.a ^ 2 * Z P q + 4 * (1 * dX_D0 P q * X P q + 1 * dY_D0 P q * Y P q + 1 * dZ_D0 P q * Z P q) * ((dX_D1 P q) ^ 2 + (dY_D1 P q) ^ 2 + (dZ_D1 P q) ^ 2 + ddX_D1D1 P q * X P q + ddY_D1D1 P q * Y P q + ddZ_D1D1 P q * Z P q) + 8 * (dX_D1 P q * X P q + dY_D1 P q * Y P q + dZ_D1 P q * Z P q) * (1 * dX_D0 P q * dX_D1 P q + 1 * dY_D0 P q * dY_D1 P q + 1 * dZ_D0 P q * dZ_D1 P q + 1 * ddX_D0D1 P q * X P q + 1 * ddY_D0D1 P q * Y P q + 1 * ddZ_D0D1 P q * Z P q) + (2 * dX_D0 P q * ddX_D1D1 P q + 2 * dY_D0 P q * ddY_D1D1 P q + 2 * dZ_D0 P q * ddZ_D1D1 P q + 4 * dX_D1 P q * ddX_D0D1 P q + 4 * dY_D1 P q * ddY_D0D1 P q + 4 * dZ_D1 P q * ddZ_D0D1 P q + 2 * dddX_D0D1D1 P q * X P q + 2 * dddY_D0D1D1 P q * Y P q + 2 * dddZ_D0D1D1 P q * Z P q) * (-P.a ^ 2 + (X P q) ^ 2 + (Y P q) ^ 2 + (Z P q) ^ 2)) = 4 * ip01 P q * iu1 P q + 2 * ip11 P q * iu0 P q := by
    simp only [ip01, ip11, iu0, iu1, ddX_D0D1, ddX_D1D1, ddY_D0D1, ddY_D1D1, ddZ_D0D1, ddZ_D1D1, dddX_D0D1D1, dddY_D0D1D1, dddZ_D0D1D1]
    ring
  have e1 : 1 * (4 * dZ_D0 P q * dZ_D1 P q * P.a ^ 2 + 4 * ddZ_D0D1 P q * P.a ^ 2 * Z P q + 4 * (1 * dX_D0 P q * X P q + 1 * dY_D0 P q * Y P q + 1 * dZ_D0 P q * Z P q) * (dX_D1 P q * X P q + dY_D1 P q * Y P q + dZ_D1 P q * Z P q) + (2 * dX_D0 P q * dX_D1 P q + 2 * dY_D0 P q * dY_D1 P q + 2 * dZ_D0 P q * dZ_D1 P q + 2 * ddX_D0D1 P q * X P q + 2 * ddY_D0D1 P q * Y P q + 2 * ddZ_D0D1 P q * Z P q) * (-P.a ^ 2 + (X P q) ^ 2 + (Y P q) ^ 2 + (Z P q) ^ 2)) * ((-4) * dZ_D1 P q * P.a ^ 2 * Z P q - 2 * (dX_D1 P q * X P q + dY_D1 P q * Y P q + dZ_D1 P q * Z P q) * ((-1) * P.a ^ 2 + (X P q) ^ 2 + (Y P q) ^ 2 + (Z P q) ^ 2)) = 0 - 8 * P.a ^ 2 * ig1 P q * ip01 P q * iw P q - 16 * P.a ^ 2 * ig1 P q * iu0 P q * iu1 P q - 8 * P.a ^ 2 * iu1 P q * iw P q * iz01 P q - 16 * P.a ^ 4 * ig1 P q * iz01 P q - 4 * ip01 P q * iu1 P q * (iw P q) ^ 2 - 8 * iu0 P q * (iu1 P q) ^ 2 * iw P q := by
    simp only [ig1, ip01, iu0, iu1, iw, iz01, ddX_D0D1, ddY_D0D1, ddZ_D0D1]
    ring
  have e2 : (1 / 2) * ((-4) * (dZ_D1 P q) ^ 2 * P.a ^ 2 - 4 * ddZ_D1D1 P q * P.a ^ 2 * Z P q - 4 * (dX_D1 P q * X P q + dY_D1 P q * Y P q + dZ_D1 P q * Z P q) ^ 2 + ((-2) * (dX_D1 P q) ^ 2 - 2 * (dY_D1 P q) ^ 2 - 2 * (dZ_D1 P q) ^ 2 - 2 * ddX_D1D1 P q * X P q - 2 * ddY_D1D1 P q * Y P q - 2 * ddZ_D1D1 P q * Z P q) * (-P.a ^ 2 + (X P q) ^ 2 + (Y P q) ^ 2 + (Z P q) ^ 2)) * (4 * dZ_D0 P q * P.a ^ 2 * Z P q + 2 * (dX_D0 P q * X P q + dY_D0 P q * Y P q + dZ_D0 P q * Z P q) * ((-1) * P.a ^ 2 + (X P q) ^ 2 + (Y P q) ^ 2 + (Z P q) ^ 2)) = 0 - 4 * P.a ^ 2 * ig0 P q * ip11 P q * iw P q - 8 * P.a ^ 2 * ig0 P q * (iu1 P q) ^ 2 - 4 * P.a ^ 2 * iu0 P q * iw P q * iz11 P q - 8 * P.a ^ 4 * ig0 P q * iz11 P q - 2 * ip11 P q * iu0 P q * (iw P q) ^ 2 - 4 * iu0 P q * (iu1 P q) ^ 2 * iw P q := by
    simp only [ig0, ip11, iu0, iu1, iw, iz11, ddX_D1D1, ddY_D1D1, ddZ_D1D1]
    ring
  have e3 : (1 / 2) * (4 * dZ_D0 P q * P.a ^ 2 * Z P q + 2 * (dX_D0 P q * X P q + dY_D0 P q * Y P q + dZ_D0 P q * Z P q) * ((-1) * P.a ^ 2 + (X P q) ^ 2 + (Y P q) ^ 2 + (Z P q) ^ 2)) * ((-12) * dZ_D1 P q * P.a ^ 2 * Z P q - 6 * (dX_D1 P q * X P q + dY_D1 P q * Y P q + dZ_D1 P q * Z P q) * ((-1) * P.a ^ 2 + (X P q) ^ 2 + (Y P q) ^ 2 + (Z P q) ^ 2)) * ((-4) * dZ_D1 P q * P.a ^ 2 * Z P q - 2 * (dX_D1 P q * X P q + dY_D1 P q * Y P q + dZ_D1 P q * Z P q) * ((-1) * P.a ^ 2 + (X P q) ^ 2 + (Y P q) ^ 2 + (Z P q) ^ 2)) = 24 * P.a ^ 2 * ig0 P q * (iu1 P q) ^ 2 * (iw P q) ^ 2 + 48 * P.a ^ 2 * ig1 P q * iu0 P q * iu1 P q * (iw P q) ^ 2 + 96 * P.a ^ 4 * ig0 P q * ig1 P q * iu1 P q * iw P q + 48 * P.a ^ 4 * (ig1 P q) ^ 2 * iu0 P q * iw P q + 96 * P.a ^ 6 * ig0 P q * (ig1 P q) ^ 2 + 12 * iu0 P q * (iu1 P q) ^ 2 * (iw P q) ^ 3 := by
    simp only [ig0, ig1, iu0, iu1, iw]
    ring
  have e4 : (1 / 2) * (4 * dZ_D0 P q * dZ_D1 P q * P.a ^ 2 + 4 * ddZ_D0D1 P q * P.a ^ 2 * Z P q + 4 * (1 * dX_D0 P q * X P q + 1 * dY_D0 P q * Y P q + 1 * dZ_D0 P q * Z P q) * (dX_D1 P q * X P q + dY_D1 P q * Y P q + dZ_D1 P q * Z P q) + (2 * dX_D0 P q * dX_D1 P q + 2 * dY_D0 P q * dY_D1 P q + 2 * dZ_D0 P q * dZ_D1 P q + 2 * ddX_D0D1 P q * X P q + 2 * ddY_D0D1 P q * Y P q + 2 * ddZ_D0D1 P q * Z P q) * (-P.a ^ 2 + (X P q) ^ 2 + (Y P q) ^ 2 + (Z P q) ^ 2)) = 2 * P.a ^ 2 * iz01 P q + ip01 P q * iw P q + 2 * iu0 P q * iu1 P q := by
    simp only [ip01, iu0, iu1, iw, iz01, ddX_D0D1, ddY_D0D1, ddZ_D0D1]
    ring
  have e5 : (1 / 2) * (4 * (dZ_D1 P q) ^ 2 * P.a ^ 2 + 4 * ddZ_D1D1 P q * P.a ^ 2 * Z P q + 4 * (1 * dX_D1 P q * X P q + 1 * dY_D1 P q * Y P q + 1 * dZ_D1 P q * Z P q) ^ 2 + (2 * (dX_D1 P q) ^ 2 + 2 * (dY_D1 P q) ^ 2 + 2 * (dZ_D1 P q) ^ 2 + 2 * ddX_D1D1 P q * X P q + 2 * ddY_D1D1 P q * Y P q + 2 * ddZ_D1D1 P q * Z P q) * (-P.a ^ 2 + (X P q) ^ 2 + (Y P q) ^ 2 + (Z P q) ^ 2)) = 2 * P.a ^ 2 * iz11 P q + ip11 P q * iw P q + 2 * (iu1 P q) ^ 2 := by
    simp only [ip11, iu1, iw, iz11, ddX_D1D1, ddY_D1D1, ddZ_D1D1]
    ring
  have e6 : (1 / 2) * (4 * dZ_D0 P q * P.a ^ 2 * Z P q + 2 * (dX_D0 P q * X P q + dY_D0 P q * Y P q + dZ_D0 P q * Z P q) * ((-1) * P.a ^ 2 + (X P q) ^ 2 + (Y P q) ^ 2 + (Z P q) ^ 2)) * ((-4) * dZ_D1 P q * P.a ^ 2 * Z P q - 2 * (dX_D1 P q * X P q + dY_D1 P q * Y P q + dZ_D1 P q * Z P q) * ((-1) * P.a ^ 2 + (X P q) ^ 2 + (Y P q) ^ 2 + (Z P q) ^ 2)) = 0 - 4 * P.a ^ 2 * ig0 P q * iu1 P q * iw P q - 4 * P.a ^ 2 * ig1 P q * iu0 P q * iw P q - 8 * P.a ^ 4 * ig0 P q * ig1 P q - 2 * iu0 P q * iu1 P q * (iw P q) ^ 2 := by
    simp only [ig0, ig1, iu0, iu1, iw]
    ring
  have e7 : 2 * (dZ_D1 P q * Z P q * ((-1) * P.a ^ 2 - 1 * (X P q) ^ 2 - 1 * (Y P q) ^ 2 - 1 * (Z P q) ^ 2) + dX_D1 P q * X P q * (1 * P.a ^ 2 - 1 * (X P q) ^ 2 - 1 * (Y P q) ^ 2 - 1 * (Z P q) ^ 2) + dY_D1 P q * Y P q * (1 * P.a ^ 2 - 1 * (X P q) ^ 2 - 1 * (Y P q) ^ 2 - 1 * (Z P q) ^ 2)) ^ 2 = 8 * P.a ^ 2 * ig1 P q * iu1 P q * iw P q + 8 * P.a ^ 4 * (ig1 P q) ^ 2 + 2 * (iu1 P q) ^ 2 * (iw P q) ^ 2 := by
    simp only [ig1, iu1, iw]
    ring
  have e8 : 1 * dX_D0 P q * ddX_D1D1 P q + 1 * dY_D0 P q * ddY_D1D1 P q + 1 * dZ_D0 P q * ddZ_D1D1 P q + 2 * dX_D1 P q * ddX_D0D1 P q + 2 * dY_D1 P q * ddY_D0D1 P q + 2 * dZ_D1 P q * ddZ_D0D1 P q + 1 * dddX_D0D1D1 P q * X P q + 1 * dddY_D0D1D1 P q * Y P q + 1 * dddZ_D0D1D1 P q * Z P q = 0 := by
    simp only [ddX_D0D1, ddX_D1D1, ddY_D0D1, ddY_D1D1, ddZ_D0D1, ddZ_D1D1, dddX_D0D1D1, dddY_D0D1D1, dddZ_D0D1D1]
    ring
  have e9 : (1 / 2) * (4 * dZ_D0 P q * P.a ^ 2 * Z P q + 2 * (dX_D0 P q * X P q + dY_D0 P q * Y P q + dZ_D0 P q * Z P q) * ((-1) * P.a ^ 2 + (X P q) ^ 2 + (Y P q) ^ 2 + (Z P q) ^ 2)) = 2 * P.a ^ 2 * ig0 P q + iu0 P q * iw P q := by
    simp only [ig0, iu0, iw]
    ring
  have e10 : (1 / 2) * (4 * dZ_D1 P q * P.a ^ 2 * Z P q + 2 * (dX_D1 P q * X P q + dY_D1 P q * Y P q + dZ_D1 P q * Z P q) * ((-1) * P.a ^ 2 + (X P q) ^ 2 + (Y P q) ^ 2 + (Z P q) ^ 2)) = 2 * P.a ^ 2 * ig1 P q + iu1 P q * iw P q := by
    simp only [ig1, iu1, iw]
    ring
  have e11 : (3 / 2) * (4 * dZ_D1 P q * P.a ^ 2 * Z P q + 2 * (dX_D1 P q * X P q + dY_D1 P q * Y P q + dZ_D1 P q * Z P q) * ((-1) * P.a ^ 2 + (X P q) ^ 2 + (Y P q) ^ 2 + (Z P q) ^ 2)) = 6 * P.a ^ 2 * ig1 P q + 3 * iu1 P q * iw P q := by
    simp only [ig1, iu1, iw]
    ring
  have e12 : 1 * dX_D0 P q * dX_D1 P q + 1 * dY_D0 P q * dY_D1 P q + 1 * dZ_D0 P q * dZ_D1 P q + 1 * ddX_D0D1 P q * X P q + 1 * ddY_D0D1 P q * Y P q + 1 * ddZ_D0D1 P q * Z P q = ip01 P q := by
    simp only [ip01, ddX_D0D1, ddY_D0D1, ddZ_D0D1]
    ring
  have e13 : (-1) * (dX_D1 P q) ^ 2 - 1 * (dY_D1 P q) ^ 2 - 1 * (dZ_D1 P q) ^ 2 - 1 * ddX_D1D1 P q * X P q - 1 * ddY_D1D1 P q * Y P q - 1 * ddZ_D1D1 P q * Z P q = 0 - ip11 P q := by
    simp only [ip11, ddX_D1D1, ddY_D1D1, ddZ_D1D1]
    ring
  have e14 : (-1) * dX_D1 P q * X P q - 1 * dY_D1 P q * Y P q - 1 * dZ_D1 P q * Z P q = 0 - iu1 P q := by
    simp only [iu1]
    ring
  have e15 : (-3) * dX_D1 P q * X P q - 3 * dY_D1 P q * Y P q - 3 * dZ_D1 P q * Z P q = 0 - 3 * iu1 P q := by
    simp only [iu1]
    ring
  have e16 : 1 * dX_D0 P q * X P q + 1 * dY_D0 P q * Y P q + 1 * dZ_D0 P q * Z P q = iu0 P q := by
    simp only [iu0]
    ring
  unfold dddR_D0D1D1
  rw [e0, e1, e2, e3, e4, e5, e6, e7, e8, e9, e10, e11, e12, e13, e14, e15, e16]
  rfl

noncomputable def dddR_D0D1D2_i (P : Par) (q : Pt) : ℝ :=
  P.lit * (0 + (2 * ip01 P q * iu2 P q + 2 * ip02 P q * iu1 P q + 2 * ip12 P q * iu0 P q) / Tq P q + (0 - 4 * P.a ^ 2 * ig0 P q * ip12 P q * iw P q - 8 * P.a ^ 2 * ig0 P
    q * iu1 P q * iu2 P q - 4 * P.a ^ 2 * iu0 P q * iw P q * iz12 P q - 8 * P.a ^ 4 * ig0 P q * iz12 P q - 2 * ip12 P q * iu0 P q * (iw P q) ^ 2 - 4 * iu0 P q * iu1 P q *
    iu2 P q * iw P q) / (Tq P q) ^ 3 + (0 - 4 * P.a ^ 2 * ig1 P q * ip02 P q * iw P q - 8 * P.a ^ 2 * ig1 P q * iu0 P q * iu2 P q - 4 * P.a ^ 2 * iu1 P q * iw P q * iz02
    P q - 8 * P.a ^ 4 * ig1 P q * iz02 P q - 2 * ip02 P q * iu1 P q * (iw P q) ^ 2 - 4 * iu0 P q * iu1 P q * iu2 P q * iw P q) / (Tq P q) ^ 3 + (24 * P.a ^ 2 * ig0 P q *
    iu1 P q * iu2 P q * (iw P q) ^ 2 + 24 * P.a ^ 2 * ig1 P q * iu0 P q * iu2 P q * (iw P q) ^ 2 + 24 * P.a ^ 2 * ig2 P q * iu0 P q * iu1 P q * (iw P q) ^ 2 + 48 * P.a ^
    4 * ig0 P q * ig1 P q * iu2 P q * iw P q + 48 * P.a ^ 4 * ig0 P q * ig2 P q * iu1 P q * iw P q + 48 * P.a ^ 4 * ig1 P q * ig2 P q * iu0 P q * iw P q + 96 * P.a ^ 6 *
    ig0 P q * ig1 P q * ig2 P q + 12 * iu0 P q * iu1 P q * iu2 P q * (iw P q) ^ 3) / (Tq P q) ^ 5 + (0 - 4 * P.a ^ 2 * ig2 P q * ip01 P q * iw P q - 8 * P.a ^ 2 * ig2 P q
    * iu0 P q * iu1 P q - 4 * P.a ^ 2 * iu2 P q * iw P q * iz01 P q - 8 * P.a ^ 4 * ig2 P q * iz01 P q - 2 * ip01 P q * iu2 P q * (iw P q) ^ 2 - 4 * iu0 P q * iu1 P q *
    iu2 P q * iw P q) / (Tq P q) ^ 3) / Sq P q + P.lit * (0 - iu1 P q - (2 * P.a ^ 2 * ig1 P q + iu1 P q * iw P q) / Tq P q) * (ip02 P q + (2 * P.a ^ 2 * iz02 P q + ip02
    P q * iw P q + 2 * iu0 P q * iu2 P q) / Tq P q + (0 - 4 * P.a ^ 2 * ig0 P q * iu2 P q * iw P q - 4 * P.a ^ 2 * ig2 P q * iu0 P q * iw P q - 8 * P.a ^ 4 * ig0 P q *
    ig2 P q - 2 * iu0 P q * iu2 P q * (iw P q) ^ 2) / (Tq P q) ^ 3) / (Sq P q) ^ 3 + P.lit * (iu0 P q + (2 * P.a ^ 2 * ig0 P q + iu0 P q * iw P q) / Tq P q) * (0 - ip12 P
    q - (2 * P.a ^ 2 * iz12 P q + ip12 P q * iw P q + 2 * iu1 P q * iu2 P q) / Tq P q - (0 - 4 * P.a ^ 2 * ig1 P q * iu2 P q * iw P q - 4 * P.a ^ 2 * ig2 P q * iu1 P q *
    iw P q - 8 * P.a ^ 4 * ig1 P q * ig2 P q - 2 * iu1 P q * iu2 P q * (iw P q) ^ 2) / (Tq P q) ^ 3) / (Sq P q) ^ 3 + P.lit * (iu0 P q + (2 * P.a ^ 2 * ig0 P q + iu0 P q
    * iw P q) / Tq P q) * (0 - iu1 P q - (2 * P.a ^ 2 * ig1 P q + iu1 P q * iw P q) / Tq P q) * (0 - 3 * iu2 P q - (6 * P.a ^ 2 * ig2 P q + 3 * iu2 P q * iw P q) / Tq P
    q) / (Sq P q) ^ 5 + P.lit * (ip01 P q + (2 * P.a ^ 2 * iz01 P q + ip01 P q * iw P q + 2 * iu0 P q * iu1 P q) / Tq P q + (0 - 4 * P.a ^ 2 * ig0 P q * iu1 P q * iw P q
    - 4 * P.a ^ 2 * ig1 P q * iu0 P q * iw P q - 8 * P.a ^ 4 * ig0 P q * ig1 P q - 2 * iu0 P q * iu1 P q * (iw P q) ^ 2) / (Tq P q) ^ 3) * (0 - iu2 P q - (2 * P.a ^ 2 *
    ig2 P q + iu2 P q * iw P q) / Tq P q) / (Sq P q) ^ 3

theorem dddR_D0D1D2_eq (P : Par) (q : Pt) : dddR_D0D1D2 P q = dddR_D0D1D2_i P q := by
  have e0 : (1 / 2) * (4 * dZ_D2 P q * ddZ_D0D1 P q * P.a ^ 2 + 4 * dZ_D1 P q * ddZ_D0D2 P q * P.a ^ 2 + 4 * dZ_D0 P q * ddZ_D1D2 P q * P.a ^ 2 + 4 * dddZ_D0D1D2 P q * P.a ^ 2 * Z P q + 4 * (dX_D2 P q * X P q + dY_D2 P q * Y P q + dZ_D2 P q * Z P q) * (1 * dX_D0 P q * dX_D1 P q + 1 * dY_D0 P q * dY_D1 P q + 1 * dZ_D0 P q * dZ_D1 P q + 1 * ddX_D0D1 P q * X P q + 1 * ddY_D0D1 P q * Y P q + 1 * ddZ_D0D1 P q * Z P q) + 4 * (dX_D1 P q * X P q + dY_D1 P q * Y P q + dZ_D1 P q * Z P q) * (1 * dX_D0 P q * dX_D2 P q + 1 * dY_D0 P q * dY_D2 P q + 1 * dZ_D0 P q * dZ_D2 P q + 1 * ddX_D0D2 P q * X P q + 1 * ddY_D0D2 P q * Y P q + 1 * ddZ_D0D2 P q * Z P q) + 4 * (1 * dX_D0 P q * X P q + 1 * dY_D0 P q * Y P q + 1 * dZ_D0 P q * Z P q) * (dX_D1 P q * dX_D2 P q + dY_D1 P q * dY_D2 P q + dZ_D1 P q * dZ_D2 P q + ddX_D1D2 P q * X P q + ddY_D1D2 P q * Y P q + ddZ_D1D2 P q * Z P q) + (2 * dX_D2 P q * ddX_D0D1 P q + 2 * dX_D1 P q * ddX_D0D2 P q + 2 * dX_D0 P q * ddX_D1D2 P q + 2 * dY_D2 P q * ddY_D0D1 P q + 2 * dY_D1 P q * ddY_D0D2 P q + 2 * dY_D0 P q * ddY_D1D2 P q + 2 * dZ_D2 P q * ddZ_D0D1 P q + 2 * dZ_D1 P q * ddZ_D0D2 P q + 2 * dZ_D0 P q * ddZ_D1D2 P q + 2 * dddX_D0D1D2 P q * X P q + 2 * dddY_D0D1D2 P q * Y P q + 2 * dddZ_D0D1D2 P q * Z P q) * (-P.a ^ 2 + (X P q) ^ 2 + (Y P q) ^ 2 + (Z P q) ^ 2)) = 2 * ip01 P q * iu2 P q + 2 * ip02 P q * iu1 P q + 2 * ip12 P q * iu0 P q := by
    simp only [ip01, ip02, ip12, iu0, iu1, iu2, ddX_D0D1, ddX_D0D2, ddX_D1D2, ddY_D0D1, ddY_D0D2, ddY_D1D2, ddZ_D0D1, ddZ_D0D2, ddZ_D1D2, dddX_D0D1D2, dddY_D0D1D2, dddZ_D0D1D2]
    ring
  have e1 : (1 / 2) * ((-4) * dZ_D1 P q * dZ_D2 P q * P.a ^ 2 - 4 * ddZ_D1D2 P q * P.a ^ 2 * Z P q - 4 * (1 * dX_D1 P q * X P q + 1 * dY_D1 P q * Y P q + 1 * dZ_D1 P q * Z P q) * (dX_D2 P q * X P q + dY_D2 P q * Y P q + dZ_D2 P q * Z P q) + ((-2) * dX_D1 P q * dX_D2 P q - 2 * dY_D1 P q * dY_D2 P q - 2 * dZ_D1 P q * dZ_D2 P q - 2 * ddX_D1D2 P q * X P q - 2 * ddY_D1D2 P q * Y P q - 2 * ddZ_D1D2 P q * Z P q) * (-P.a ^ 2 + (X P q) ^ 2 + (Y P q) ^ 2 + (Z P q) ^ 2)) * (4 * dZ_D0 P q * P.a ^ 2 * Z P q + 2 * (dX_D0 P q * X P q + dY_D0 P q * Y P q + dZ_D0 P q * Z P q) * ((-1) * P.a ^ 2 + (X P q) ^ 2 + (Y P q) ^ 2 + (Z P q) ^ 2)) = 0 - 4 * P.a ^ 2 * ig0 P q * ip12 P q * iw P q - 8 * P.a ^ 2 * ig0 P q * iu1 P q * iu2 P q - 4 * P.a ^ 2 * iu0 P q * iw P q * iz12 P q - 8 * P.a ^ 4 * ig0 P q * iz12 P q - 2 * ip12 P q * iu0 P q * (iw P q) ^ 2 - 4 * iu0 P q * iu1 P q * iu2 P q * iw P q := by
    simp only [ig0, ip12, iu0, iu1, iu2, iw, iz12, ddX_D1D2, ddY_D1D2, ddZ_D1D2]
    ring
  have e2 : (1 / 2) * (4 * dZ_D0 P q * dZ_D2 P q * P.a ^ 2 + 4 * ddZ_D0D2 P q * P.a ^ 2 * Z P q + 4 * (1 * dX_D0 P q * X P q + 1 * dY_D0 P q * Y P q + 1 * dZ_D0 P q * Z P q) * (dX_D2 P q * X P q + dY_D2 P q * Y P q + dZ_D2 P q * Z P q) + (2 * dX_D0 P q * dX_D2 P q + 2 * dY_D0 P q * dY_D2 P q + 2 * dZ_D0 P q * dZ_D2 P q + 2 * ddX_D0D2 P q * X P q + 2 * ddY_D0D2 P q * Y P q + 2 * ddZ_D0D2 P q * Z P q) * (-P.a ^ 2 + (X P q) ^ 2 + (Y P q) ^ 2 + (Z P q) ^ 2)) * ((-4) * dZ_D1 P q * P.a ^ 2 * Z P q - 2 * (dX_D1 P q * X P q + dY_D1 P q * Y P q + dZ_D1 P q * Z P q) * ((-1) * P.a ^ 2 + (X P q) ^ 2 + (Y P q) ^ 2 + (Z P q) ^ 2)) = 0 - 4 * P.a ^ 2 * ig1 P q * ip02 P q * iw P q - 8 * P.a ^ 2 * ig1 P q * iu0 P q * iu2 P q - 4 * P.a ^ 2 * iu1 P q * iw P q * iz02 P q - 8 * P.a ^ 4 * ig1 P q * iz02 P q - 2 * ip02 P q * iu1 P q * (iw P q) ^ 2 - 4 * iu0 P q * iu1 P q * iu2 P q * iw P q := by
    simp only [ig1, ip02, iu0, iu1, iu2, iw, iz02, ddX_D0D2, ddY_D0D2, ddZ_D0D2]
    ring
  have e3 : (1 / 2) * (4 * dZ_D0 P q * dZ_D1 P q * P.a ^ 2 + 4 * ddZ_D0D1 P q * P.a ^ 2 * Z P q + 4 * (1 * dX_D0 P q * X P q + 1 * dY_D0 P q * Y P q + 1 * dZ_D0 P q * Z P q) * (dX_D1 P q * X P q + dY_D1 P q * Y P q + dZ_D1 P q * Z P q) + (2 * dX_D0 P q * dX_D1 P q + 2 * dY_D0 P q * dY_D1 P q + 2 * dZ_D0 P q * dZ_D1 P q + 2 * ddX_D0D1 P q * X P q + 2 * ddY_D0D1 P q * Y P q + 2 * ddZ_D0D1 P q * Z P q) * (-P.a ^ 2 + (X P q) ^ 2 + (Y P q) ^ 2 + (Z P q) ^ 2)) * ((-4) * dZ_D2 P q * P.a ^ 2 * Z P q - 2 * (dX_D2 P q * X P q + dY_D2 P q * Y P q + dZ_D2 P q * Z P q) * ((-1) * P.a ^ 2 + (X P q) ^ 2 + (Y P q) ^ 2 + (Z P q) ^ 2)) = 0 - 4 * P.a ^ 2 * ig2 P q * ip01 P q * iw P q - 8 * P.a ^ 2 * ig2 P q * iu0 P q * iu1 P q - 4 * P.a ^ 2 * iu2 P q * iw P q * iz01 P q - 8 * P.a ^ 4 * ig2 P q * iz01 P q - 2 * ip01 P q * iu2 P q * (iw P q) ^ 2 - 4 * iu0 P q * iu1 P q * iu2 P q * iw P q := by
    simp only [ig2, ip01, iu0, iu1, iu2, iw, iz01, ddX_D0D1, ddY_D0D1, ddZ_D0D1]
    ring
  have e4 : (1 / 2) * (4 * dZ_D0 P q * P.a ^ 2 * Z P q + 2 * (dX_D0 P q * X P q + dY_D0 P q * Y P q + dZ_D0 P q * Z P q) * ((-1) * P.a ^ 2 + (X P q) ^ 2 + (Y P q) ^ 2 + (Z P q) ^ 2)) * ((-4) * dZ_D1 P q * P.a ^ 2 * Z P q - 2 * (dX_D1 P q * X P q + dY_D1 P q * Y P q + dZ_D1 P q * Z P q) * ((-1) * P.a ^ 2 + (X P q) ^ 2 + (Y P q) ^ 2 + (Z P q) ^ 2)) * ((-12) * dZ_D2 P q * P.a ^ 2 * Z P q - 6 * (dX_D2 P q * X P q + dY_D2 P q * Y P q + dZ_D2 P q * Z P q) * ((-1) * P.a ^ 2 + (X P q) ^ 2 + (Y P q) ^ 2 + (Z P q) ^ 2)) = 24 * P.a ^ 2 * ig0 P q * iu1 P q * iu2 P q * (iw P q) ^ 2 + 24 * P.a ^ 2 * ig1 P q * iu0 P q * iu2 P q * (iw P q) ^ 2 + 24 * P.a ^ 2 * ig2 P q * iu0 P q * iu1 P q * (iw P q) ^ 2 + 48 * P.a ^ 4 * ig0 P q * ig1 P q * iu2 P q * iw P q + 48 * P.a ^ 4 * ig0 P q * ig2 P q * iu1 P q * iw P q + 48 * P.a ^ 4 * ig1 P q * ig2 P q * iu0 P q * iw P q + 96 * P.a ^ 6 * ig0 P q * ig1 P q * ig2 P q + 12 * iu0 P q * iu1 P q * iu2 P q * (iw P q) ^ 3 := by
    simp only [ig0, ig1, ig2, iu0, iu1, iu2, iw]
    ring
  have e5 : (1 / 2) * (4 * dZ_D0 P q * dZ_D2 P q * P.a ^ 2 + 4 * ddZ_D0D2 P q * P.a ^ 2 * Z P q + 4 * (1 * dX_D0 P q * X P q + 1 * dY_D0 P q * Y P q + 1 * dZ_D0 P q * Z P q) * (dX_D2 P q * X P q + dY_D2 P q * Y P q + dZ_D2 P q * Z P q) + (2 * dX_D0 P q * dX_D2 P q + 2 * dY_D0 P q * dY_D2 P q + 2 * dZ_D0 P q * dZ_D2 P q + 2 * ddX_D0D2 P q * X P q + 2 * ddY_D0D2 P q * Y P q + 2 * ddZ_D0D2 P q * Z P q) * (-P.a ^ 2 + (X P q) ^ 2 + (Y P q) ^ 2 + (Z P q) ^ 2)) = 2 * P.a ^ 2 * iz02 P q + ip02 P q * iw P q + 2 * iu0 P q * iu2 P q := by
    simp only [ip02, iu0, iu2, iw, iz02, ddX_D0D2, ddY_D0D2, ddZ_D0D2]
    ring
  have e6 : (1 / 2) * (4 * dZ_D1 P q * dZ_D2 P q * P.a ^ 2 + 4 * ddZ_D1D2 P q * P.a ^ 2 * Z P q + 4 * (1 * dX_D1 P q * X P q + 1 * dY_D1 P q * Y P q + 1 * dZ_D1 P q * Z P q) * (dX_D2 P q * X P q + dY_D2 P q * Y P q + dZ_D2 P q * Z P q) + (2 * dX_D1 P q * dX_D2 P q + 2 * dY_D1 P q * dY_D2 P q + 2 * dZ_D1 P q * dZ_D2 P q + 2 * ddX_D1D2 P q * X P q + 2 * ddY_D1D2 P q * Y P q + 2 * ddZ_D1D2 P q * Z P q) * (-P.a ^ 2 + (X P q) ^ 2 + (Y P q) ^ 2 + (Z P q) ^ 2)) = 2 * P.a ^ 2 * iz12 P q + ip12 P q * iw P q + 2 * iu1 P q * iu2 P q := by
    simp only [ip12, iu1, iu2, iw, iz12, ddX_D1D2, ddY_D1D2, ddZ_D1D2]
    ring
  have e7 : (1 / 2) * (4 * dZ_D0 P q * dZ_D1 P q * P.a ^ 2 + 4 * ddZ_D0D1 P q * P.a ^ 2 * Z P q + 4 * (1 * dX_D0 P q * X P q + 1 * dY_D0 P q * Y P q + 1 * dZ_D0 P q * Z P q) * (dX_D1 P q * X P q + dY_D1 P q * Y P q + dZ_D1 P q * Z P q) + (2 * dX_D0 P q * dX_D1 P q + 2 * dY_D0 P q * dY_D1 P q + 2 * dZ_D0 P q * dZ_D1 P q + 2 * ddX_D0D1 P q * X P q + 2 * ddY_D0D1 P q * Y P q + 2 * ddZ_D0D1 P q * Z P q) * (-P.a ^ 2 + (X P q) ^ 2 + (Y P q) ^ 2 + (Z P q) ^ 2)) = 2 * P.a ^ 2 * iz01 P q + ip01 P q * iw P q + 2 * iu0 P q * iu1 P q := by
    simp only [ip01, iu0, iu1, iw, iz01, ddX_D0D1, ddY_D0D1, ddZ_D0D1]
    ring
  have e8 : 1 * dX_D2 P q * ddX_D0D1 P q + 1 * dX_D1 P q * ddX_D0D2 P q + 1 * dX_D0 P q * ddX_D1D2 P q + 1 * dY_D2 P q * ddY_D0D1 P q + 1 * dY_D1 P q * ddY_D0D2 P q + 1 * dY_D0 P q * ddY_D1D2 P q + 1 * dZ_D2 P q * ddZ_D0D1 P q + 1 * dZ_D1 P q * ddZ_D0D2 P q + 1 * dZ_D0 P q * ddZ_D1D2 P q + 1 * dddX_D0D1D2 P q * X P q + 1 * dddY_D0D1D2 P q * Y P q + 1 * dddZ_D0D1D2 P q * Z P q = 0 := by
    simp only [ddX_D0D1, ddX_D0D2, ddX_D1D2, ddY_D0D1, ddY_D0D2, ddY_D1D2, ddZ_D0D1, ddZ_D0D2, ddZ_D1D2, dddX_D0D1D2, dddY_D0D1D2, dddZ_D0D1D2]
    ring
  have e9 : (1 / 2) * (4 * dZ_D0 P q * P.a ^ 2 * Z P q + 2 * (dX_D0 P q * X P q + dY_D0 P q * Y P q + dZ_D0 P q * Z P q) * ((-1) * P.a ^ 2 + (X P q) ^ 2 + (Y P q) ^ 2 + (Z P q) ^ 2)) * ((-4) * dZ_D2 P q * P.a ^ 2 * Z P q - 2 * (dX_D2 P q * X P q + dY_D2 P q * Y P q + dZ_D2 P q * Z P q) * ((-1) * P.a ^ 2 + (X P q) ^ 2 + (Y P q) ^ 2 + (Z P q) ^ 2)) = 0 - 4 * P.a ^ 2 * ig0 P q * iu2 P q * iw P q - 4 * P.a ^ 2 * ig2 P q * iu0 P q * iw P q - 8 * P.a ^ 4 * ig0 P q * ig2 P q - 2 * iu0 P q * iu2 P q * (iw P q) ^ 2 := by
    simp only [ig0, ig2, iu0, iu2, iw]
    ring
  have e10 : (1 / 2) * (4 * dZ_D1 P q * P.a ^ 2 * Z P q + 2 * (dX_D1 P q * X P q + dY_D1 P q * Y P q + dZ_D1 P q * Z P q) * ((-1) * P.a ^ 2 + (X P q) ^ 2 + (Y P q) ^ 2 + (Z P q) ^ 2)) * ((-4) * dZ_D2 P q * P.a ^ 2 * Z P q - 2 * (dX_D2 P q * X P q + dY_D2 P q * Y P q + dZ_D2 P q * Z P q) * ((-1) * P.a ^ 2 + (X P q) ^ 2 + (Y P q) ^ 2 + (Z P q) ^ 2)) = 0 - 4 * P.a ^ 2 * ig1 P q * iu2 P q * iw P q - 4 * P.a ^ 2 * ig2 P q * iu1 P q * iw P q - 8 * P.a ^ 4 * ig1 P q * ig2 P q - 2 * iu1 P q * iu2 P q * (iw P q) ^ 2 := by
    simp only [ig1, ig2, iu1, iu2, iw]
    ring
  have e11 : (1 / 2) * (4 * dZ_D0 P q * P.a ^ 2 * Z P q + 2 * (dX_D0 P q * X P q + dY_D0 P q * Y P q + dZ_D0 P q * Z P q) * ((-1) * P.a ^ 2 + (X P q) ^ 2 + (Y P q) ^ 2 + (Z P q) ^ 2)) * ((-4) * dZ_D1 P q * P.a ^ 2 * Z P q - 2 * (dX_D1 P q * X P q + dY_D1 P q * Y P q + dZ_D1 P q * Z P q) * ((-1) * P.a ^ 2 + (X P q) ^ 2 + (Y P q) ^ 2 + (Z P q) ^ 2)) = 0 - 4 * P.a ^ 2 * ig0 P q * iu1 P q * iw P q - 4 * P.a ^ 2 * ig1 P q * iu0 P q * iw P q - 8 * P.a ^ 4 * ig0 P q * ig1 P q - 2 * iu0 P q * iu1 P q * (iw P q) ^ 2 := by
    simp only [ig0, ig1, iu0, iu1, iw]
    ring
  have e12 : (1 / 2) * (4 * dZ_D1 P q * P.a ^ 2 * Z P q + 2 * (dX_D1 P q * X P q + dY_D1 P q * Y P q + dZ_D1 P q * Z P q) * ((-1) * P.a ^ 2 + (X P q) ^ 2 + (Y P q) ^ 2 + (Z P q) ^ 2)) = 2 * P.a ^ 2 * ig1 P q + iu1 P q * iw P q := by
    simp only [ig1, iu1, iw]
    ring
  have e13 : (1 / 2) * (4 * dZ_D0 P q * P.a ^ 2 * Z P q + 2 * (dX_D0 P q * X P q + dY_D0 P q * Y P q + dZ_D0 P q * Z P q) * ((-1) * P.a ^ 2 + (X P q) ^ 2 + (Y P q) ^ 2 + (Z P q) ^ 2)) = 2 * P.a ^ 2 * ig0 P q + iu0 P q * iw P q := by
    simp only [ig0, iu0, iw]
    ring
  have e14 : (3 / 2) * (4 * dZ_D2 P q * P.a ^ 2 * Z P q + 2 * (dX_D2 P q * X P q + dY_D2 P q * Y P q + dZ_D2 P q * Z P q) * ((-1) * P.a ^ 2 + (X P q) ^ 2 + (Y P q) ^ 2 + (Z P q) ^ 2)) = 6 * P.a ^ 2 * ig2 P q + 3 * iu2 P q * iw P q := by
    simp only [ig2, iu2, iw]
    ring
  have e15 : (1 / 2) * (4 * dZ_D2 P q * P.a ^ 2 * Z P q + 2 * (dX_D2 P q * X P q + dY_D2 P q * Y P q + dZ_D2 P q * Z P q) * ((-1) * P.a ^ 2 + (X P q) ^ 2 + (Y P q) ^ 2 + (Z P q) ^ 2)) = 2 * P.a ^ 2 * ig2 P q + iu2 P q * iw P q := by
    simp only [ig2, iu2, iw]
    ring
  have e16 : (-1) * dX_D1 P q * dX_D2 P q - 1 * dY_D1 P q * dY_D2 P q - 1 * dZ_D1 P q * dZ_D2 P q - 1 * ddX_D1D2 P q * X P q - 1 * ddY_D1D2 P q * Y P q - 1 * ddZ_D1D2 P q * Z P q = 0 - ip12 P q := by
    simp only [ip12, ddX_D1D2, ddY_D1D2, ddZ_D1D2]
    ring
  have e17 : 1 * dX_D0 P q * dX_D2 P q + 1 * dY_D0 P q * dY_D2 P q + 1 * dZ_D0 P q * dZ_D2 P q + 1 * ddX_D0D2 P q * X P q + 1 * ddY_D0D2 P q * Y P q + 1 * ddZ_D0D2 P q * Z P q = ip02 P q := by
    simp only [ip02, ddX_D0D2, ddY_D0D2, ddZ_D0D2]
    ring
  have e18 : 1 * dX_D0 P q * dX_D1 P q + 1 * dY_D0 P q * dY_D1 P q + 1 * dZ_D0 P q * dZ_D1 P q + 1 * ddX_D0D1 P q * X P q + 1 * ddY_D0D1 P q * Y P q + 1 * ddZ_D0D1 P q * Z P q = ip01 P q := by
    simp only [ip01, ddX_D0D1, ddY_D0D1, ddZ_D0D1]
    ring
  have e19 : (-1) * dX_D1 P q * X P q - 1 * dY_D1 P q * Y P q - 1 * dZ_D1 P q * Z P q = 0 - iu1 P q := by
    simp only [iu1]
    ring
  have e20 : (-3) * dX_D2 P q * X P q - 3 * dY_D2 P q * Y P q - 3 * dZ_D2 P q * Z P q = 0 - 3 * iu2 P q := by
    simp only [iu2]
    ring
  have e21 : (-1) * dX_D2 P q * X P q - 1 * dY_D2 P q * Y P q - 1 * dZ_D2 P q * Z P q = 0 - iu2 P q := by
    simp only [iu2]
    ring
  have e22 : 1 * dX_D0 P q * X P q + 1 * dY_D0 P q * Y P q + 1 * dZ_D0 P q * Z P q = iu0 P q := by
    simp only [iu0]
    ring
  unfold dddR_D0D1D2
  rw [e0, e1, e2, e3, e4, e5, e6, e7, e8, e9, e10, e11, e12, e13, e14, e15, e16, e17, e18, e19, e20, e21, e22]
  rfl

noncomputable def dddR_D0D2D0_i (P : Par) (q : Pt) : ℝ :=
  P.lit * (0 - iu0 P q - (2 * P.a ^ 2 * ig0 P q + iu0 P q * iw P q) / Tq P q) * (ip02 P q + (2 * P.a ^ 2 * iz02 P q + ip02 P q * iw P q + 2 * iu0 P q * iu2 P q) / Tq P q
    + (0 - 4 * P.a ^ 2 * ig0 P q * iu2 P q * iw P q - 4 * P.a ^ 2 * ig2 P q * iu0 P q * iw P q - 8 * P.a ^ 4 * ig0 P q * ig2 P q - 2 * iu0 P q * iu2 P q * (iw P q) ^ 2) /
    (Tq P q) ^ 3) / (Sq P q) ^ 3 + P.lit * (0 + (2 * ip00 P q * iu2 P q + 4 * ip02 P q * iu0 P q) / Tq P q + (0 - 4 * P.a ^ 2 * ig0 P q * ip02 P q * iw P q - 8 * P.a ^ 2
    * ig0 P q * iu0 P q * iu2 P q - 4 * P.a ^ 2 * iu0 P q * iw P q * iz02 P q - 8 * P.a ^ 4 * ig0 P q * iz02 P q - 2 * ip02 P q * iu0 P q * (iw P q) ^ 2 - 4 * (iu0 P q) ^
    2 * iu2 P q * iw P q) / (Tq P q) ^ 3 + (0 - 4 * P.a ^ 2 * ig0 P q * ip02 P q * iw P q - 8 * P.a ^ 2 * ig0 P q * iu0 P q * iu2 P q - 4 * P.a ^ 2 * iu0 P q * iw P q *
    iz02 P q - 8 * P.a ^ 4 * ig0 P q * iz02 P q - 2 * ip02 P q * iu0 P q * (iw P q) ^ 2 - 4 * (iu0 P q) ^ 2 * iu2 P q * iw P q) / (Tq P q) ^ 3 + (0 - 4 * P.a ^ 2 * ig2 P
    q * ip00 P q * iw P q - 8 * P.a ^ 2 * ig2 P q * (iu0 P q) ^ 2 - 4 * P.a ^ 2 * iu2 P q * iw P q * iz00 P q - 8 * P.a ^ 4 * ig2 P q * iz00 P q - 2 * ip00 P q * iu2 P q
    * (iw P q) ^ 2 - 4 * (iu0 P q) ^ 2 * iu2 P q * iw P q) / (Tq P q) ^ 3 + (48 * P.a ^ 2 * ig0 P q * iu0 P q * iu2 P q * (iw P q) ^ 2 + 24 * P.a ^ 2 * ig2 P q * (iu0 P
    q) ^ 2 * (iw P q) ^ 2 + 96 * P.a ^ 4 * ig0 P q * ig2 P q * iu0 P q * iw P q + 48 * P.a ^ 4 * (ig0 P q) ^ 2 * iu2 P q * iw P q + 96 * P.a ^ 6 * (ig0 P q) ^ 2 * ig2 P q
    + 12 * (iu0 P q) ^ 2 * iu2 P q * (iw P q) ^ 3) / (Tq P q) ^ 5) / Sq P q + P.lit * (ip00 P q - (8 * P.a ^ 2 * ig0 P q * iu0 P q * iw P q + 8 * P.a ^ 4 * (ig0 P q) ^ 2
    + 2 * (iu0 P q) ^ 2 * (iw P q) ^ 2) / (Tq P q) ^ 3 + (2 * P.a ^ 2 * iz00 P q + ip00 P q * iw P q + 2 * (iu0 P q) ^ 2) / Tq P q) * (0 - iu2 P q - (2 * P.a ^ 2 * ig2 P
    q + iu2 P q * iw P q) / Tq P q) / (Sq P q) ^ 3 + P.lit * (0 - 3 * iu0 P q - (6 * P.a ^ 2 * ig0 P q + 3 * iu0 P q * iw P q) / Tq P q) * (iu0 P q + (2 * P.a ^ 2 * ig0 P
    q + iu0 P q * iw P q) / Tq P q) * (0 - iu2 P q - (2 * P.a ^ 2 * ig2 P q + iu2 P q * iw P q) / Tq P q) / (Sq P q) ^ 5 + P.lit * (iu0 P q + (2 * P.a ^ 2 * ig0 P q + iu0
    P q * iw P q) / Tq P q) * (0 - ip02 P q - (2 * P.a ^ 2 * iz02 P q + ip02 P q * iw P q + 2 * iu0 P q * iu2 P q) / Tq P q - (0 - 4 * P.a ^ 2 * ig0 P q * iu2 P q * iw P
    q - 4 * P.a ^ 2 * ig2 P q * iu0 P q * iw P q - 8 * P.a ^ 4 * ig0 P q * ig2 P q - 2 * iu0 P q * iu2 P q * (iw P q) ^ 2) / (Tq P q) ^ 3) / (Sq P q) ^ 3

theorem dddR_D0D2D0_eq (P : Par) (q : Pt) : dddR_D0D2D0 P q = dddR_D0D2D0_i P q := by
  have e0 : (1 / 2) * (4 * dZ_D2 P q * ddZ_D0D0 P q * P.a ^ 2 + 8 * dZ_D0 P q * ddZ_D0D2 P q * P.a ^ 2 + 4 * dddZ_D0D0D2 P q * P.a ^ 2 * Z P q + 4 * (dX_D2 P q * X P q + dY_D2 P q * Y P q + dZ_D2 P q * Z P q) * (1 * (dX_D0 P q) ^ 2 + 1 * (dY_D0 P q) ^ 2 + 1 * (dZ_D0 P q) ^ 2 + 1 * ddX_D0D0 P q * X P q + 1 * ddY_D0D0 P q * Y P q + 1 * ddZ_D0D0 P q * Z P q) + 4 * (1 * dX_D0 P q * X P q + 1 * dY_D0 P q * Y P q + 1 * dZ_D0 P q * Z P q) * (dX_D0 P q * dX_D2 P q + dY_D0 P q * dY_D2 P q + dZ_D0 P q * dZ_D2 P q + ddX_D0D2 P q * X P q + ddY_D0D2 P q * Y P q + ddZ_D0D2 P q * Z P q) + 4 * (dX_D0 P q * X P q + dY_D0 P q * Y P q + dZ_D0 P q * Z P q) * (1 * dX_D0 P q * dX_D2 P q + 1 * dY_D0 P q * dY_D2 P q + 1 * dZ_D0 P q * dZ_D2 P q + 1 * ddX_D0D2 P q * X P q + 1 * ddY_D0D2 P q * Y P q + 1 * ddZ_D0D2 P q * Z P q) + (2 * dX_D2 P q * ddX_D0D0 P q + 2 * dY_D2 P q * ddY_D0D0 P q + 2 * dZ_D2 P q * ddZ_D0D0 P q + 4 * dX_D0 P q * ddX_D0D2 P q + 4 * dY_D0 P q * ddY_D0D2 P q + 4 * dZ_D0 P q * ddZ_D0D2 P q + 2 * dddX_D0D0D2 P q * X P q + 2 * dddY_D0D0D2 P q * Y P q + 2 * dddZ_D0D0D2 P q * Z P q) * (-P.a ^ 2 + (X P q) ^ 2 + (Y P q) ^ 2 + (Z P q) ^ 2)) = 2 * ip00 P q * iu2 P q + 4 * ip02 P q * iu0 P q := by
    simp only [ip00, ip02, iu0, iu2, ddX_D0D0, ddX_D0D2, ddY_D0D0, ddY_D0D2, ddZ_D0D0, ddZ_D0D2, dddX_D0D0D2, dddY_D0D0D2, dddZ_D0D0D2]
    ring
  have e1 : (1 / 2) * ((-4) * dZ_D0 P q * dZ_D2 P q * P.a ^ 2 - 4 * ddZ_D0D2 P q * P.a ^ 2 * Z P q - 4 * (dX_D0 P q * X P q + dY_D0 P q * Y P q + dZ_D0 P q * Z P q) * (1 * dX_D2 P q * X P q + 1 * dY_D2 P q * Y P q + 1 * dZ_D2 P q * Z P q) + ((-2) * dX_D0 P q * dX_D2 P q - 2 * dY_D0 P q * dY_D2 P q - 2 * dZ_D0 P q * dZ_D2 P q - 2 * ddX_D0D2 P q * X P q - 2 * ddY_D0D2 P q * Y P q - 2 * ddZ_D0D2 P q * Z P q) * (-P.a ^ 2 + (X P q) ^ 2 + (Y P q) ^ 2 + (Z P q) ^ 2)) * (4 * dZ_D0 P q * P.a ^ 2 * Z P q + 2 * (dX_D0 P q * X P q + dY_D0 P q * Y P q + dZ_D0 P q * Z P q) * ((-1) * P.a ^ 2 + (X P q) ^ 2 + (Y P q) ^ 2 + (Z P q) ^ 2)) = 0 - 4 * P.a ^ 2 * ig0 P q * ip02 P q * iw P q - 8 * P.a ^ 2 * ig0 P q * iu0 P q * iu2 P q - 4 * P.a ^ 2 * iu0 P q * iw P q * iz02 P q - 8 * P.a ^ 4 * ig0 P q * iz02 P q - 2 * ip02 P q * iu0 P q * (iw P q) ^ 2 - 4 * (iu0 P q) ^ 2 * iu2 P q * iw P q := by
    simp only [ig0, ip02, iu0, iu2, iw, iz02, ddX_D0D2, ddY_D0D2, ddZ_D0D2]
    ring
  have e2 : (1 / 2) * (4 * dZ_D0 P q * dZ_D2 P q * P.a ^ 2 + 4 * ddZ_D0D2 P q * P.a ^ 2 * Z P q + 4 * (1 * dX_D0 P q * X P q + 1 * dY_D0 P q * Y P q + 1 * dZ_D0 P q * Z P q) * (dX_D2 P q * X P q + dY_D2 P q * Y P q + dZ_D2 P q * Z P q) + (2 * dX_D0 P q * dX_D2 P q + 2 * dY_D0 P q * dY_D2 P q + 2 * dZ_D0 P q * dZ_D2 P q + 2 * ddX_D0D2 P q * X P q + 2 * ddY_D0D2 P q * Y P q + 2 * ddZ_D0D2 P q * Z P q) * (-P.a ^ 2 + (X P q) ^ 2 + (Y P q) ^ 2 + (Z P q) ^ 2)) * ((-4) * dZ_D0 P q * P.a ^ 2 * Z P q - 2 * (dX_D0 P q * X P q + dY_D0 P q * Y P q + dZ_D0 P q * Z P q) * ((-1) * P.a ^ 2 + (X P q) ^ 2 + (Y P q) ^ 2 + (Z P q) ^ 2)) = 0 - 4 * P.a ^ 2 * ig0 P q * ip02 P q * iw P q - 8 * P.a ^ 2 * ig0 P q * iu0 P q * iu2 P q - 4 * P.a ^ 2 * iu0 P q * iw P q * iz02 P q - 8 * P.a ^ 4 * ig0 P q * iz02 P q - 2 * ip02 P q * iu0 P q * (iw P q) ^ 2 - 4 * (iu0 P q) ^ 2 * iu2 P q * iw P q := by
    simp only [ig0, ip02, iu0, iu2, iw, iz02, ddX_D0D2, ddY_D0D2, ddZ_D0D2]
    ring
  have e3 : (1 / 2) * (4 * (dZ_D0 P q) ^ 2 * P.a ^ 2 + 4 * ddZ_D0D0 P q * P.a ^ 2 * Z P q + 4 * (1 * dX_D0 P q * X P q + 1 * dY_D0 P q * Y P q + 1 * dZ_D0 P q * Z P q) ^ 2 + (2 * (dX_D0 P q) ^ 2 + 2 * (dY_D0 P q) ^ 2 + 2 * (dZ_D0 P q) ^ 2 + 2 * ddX_D0D0 P q * X P q + 2 * ddY_D0D0 P q * Y P q + 2 * ddZ_D0D0 P q * Z P q) * (-P.a ^ 2 + (X P q) ^ 2 + (Y P q) ^ 2 + (Z P q) ^ 2)) * ((-4) * dZ_D2 P q * P.a ^ 2 * Z P q - 2 * (dX_D2 P q * X P q + dY_D2 P q * Y P q + dZ_D2 P q * Z P q) * ((-1) * P.a ^ 2 + (X P q) ^ 2 + (Y P q) ^ 2 + (Z P q) ^ 2)) = 0 - 4 * P.a ^ 2 * ig2 P q * ip00 P q * iw P q - 8 * P.a ^ 2 * ig2 P q * (iu0 P q) ^ 2 - 4 * P.a ^ 2 * iu2 P q * iw P q * iz00 P q - 8 * P.a ^ 4 * ig2 P q * iz00 P q - 2 * ip00 P q * iu2 P q * (iw P q) ^ 2 - 4 * (iu0 P q) ^ 2 * iu2 P q * iw P q := by
    simp only [ig2, ip00, iu0, iu2, iw, iz00, ddX_D0D0, ddY_D0D0, ddZ_D0D0]
    ring
  have e4 : (1 / 2) * ((-12) * dZ_D0 P q * P.a ^ 2 * Z P q - 6 * (dX_D0 P q * X P q + dY_D0 P q * Y P q + dZ_D0 P q * Z P q) * ((-1) * P.a ^ 2 + (X P q) ^ 2 + (Y P q) ^ 2 + (Z P q) ^ 2)) * (4 * dZ_D0 P q * P.a ^ 2 * Z P q + 2 * (dX_D0 P q * X P q + dY_D0 P q * Y P q + dZ_D0 P q * Z P q) * ((-1) * P.a ^ 2 + (X P q) ^ 2 + (Y P q) ^ 2 + (Z P q) ^ 2)) * ((-4) * dZ_D2 P q * P.a ^ 2 * Z P q - 2 * (dX_D2 P q * X P q + dY_D2 P q * Y P q + dZ_D2 P q * Z P q) * ((-1) * P.a ^ 2 + (X P q) ^ 2 + (Y P q) ^ 2 + (Z P q) ^ 2)) = 48 * P.a ^ 2 * ig0 P q * iu0 P q * iu2 P q * (iw P q) ^ 2 + 24 * P.a ^ 2 * ig2 P q * (iu0 P q) ^ 2 * (iw P q) ^ 2 + 96 * P.a ^ 4 * ig0 P q * ig2 P q * iu0 P q * iw P q + 48 * P.a ^ 4 * (ig0 P q) ^ 2 * iu2 P q * iw P q + 96 * P.a ^ 6 * (ig0 P q) ^ 2 * ig2 P q + 12 * (iu0 P q) ^ 2 * iu2 P q * (iw P q) ^ 3 := by
    simp only [ig0, ig2, iu0, iu2, iw]
    ring
  have e5 : (1 / 2) * (4 * dZ_D0 P q * dZ_D2 P q * P.a ^ 2 + 4 * ddZ_D0D2 P q * P.a ^ 2 * Z P q + 4 * (1 * dX_D0 P q * X P q + 1 * dY_D0 P q * Y P q + 1 * dZ_D0 P q * Z P q) * (dX_D2 P q * X P q + dY_D2 P q * Y P q + dZ_D2 P q * Z P q) + (2 * dX_D0 P q * dX_D2 P q + 2 * dY_D0 P q * dY_D2 P q + 2 * dZ_D0 P q * dZ_D2 P q + 2 * ddX_D0D2 P q * X P q + 2 * ddY_D0D2 P q * Y P q + 2 * ddZ_D0D2 P q * Z P q) * (-P.a ^ 2 + (X P q) ^ 2 + (Y P q) ^ 2 + (Z P q) ^ 2)) = 2 * P.a ^ 2 * iz02 P q + ip02 P q * iw P q + 2 * iu0 P q * iu2 P q := by
    simp only [ip02, iu0, iu2, iw, iz02, ddX_D0D2, ddY_D0D2, ddZ_D0D2]
    ring
  have e6 : (1 / 2) * (4 * dZ_D0 P q * dZ_D2 P q * P.a ^ 2 + 4 * ddZ_D0D2 P q * P.a ^ 2 * Z P q + 4 * (dX_D0 P q * X P q + dY_D0 P q * Y P q + dZ_D0 P q * Z P q) * (1 * dX_D2 P q * X P q + 1 * dY_D2 P q * Y P q + 1 * dZ_D2 P q * Z P q) + (2 * dX_D0 P q * dX_D2 P q + 2 * dY_D0 P q * dY_D2 P q + 2 * dZ_D0 P q * dZ_D2 P q + 2 * ddX_D0D2 P q * X P q + 2 * ddY_D0D2 P q * Y P q + 2 * ddZ_D0D2 P q * Z P q) * (-P.a ^ 2 + (X P q) ^ 2 + (Y P q) ^ 2 + (Z P q) ^ 2)) = 2 * P.a ^ 2 * iz02 P q + ip02 P q * iw P q + 2 * iu0 P q * iu2 P q := by
    simp only [ip02, iu0, iu2, iw, iz02, ddX_D0D2, ddY_D0D2, ddZ_D0D2]
    ring
  have e7 : (1 / 2) * (4 * (dZ_D0 P q) ^ 2 * P.a ^ 2 + 4 * ddZ_D0D0 P q * P.a ^ 2 * Z P q + 4 * (1 * dX_D0 P q * X P q + 1 * dY_D0 P q * Y P q + 1 * dZ_D0 P q * Z P q) ^ 2 + (2 * (dX_D0 P q) ^ 2 + 2 * (dY_D0 P q) ^ 2 + 2 * (dZ_D0 P q) ^ 2 + 2 * ddX_D0D0 P q * X P q + 2 * ddY_D0D0 P q * Y P q + 2 * ddZ_D0D0 P q * Z P q) * (-P.a ^ 2 + (X P q) ^ 2 + (Y P q) ^ 2 + (Z P q) ^ 2)) = 2 * P.a ^ 2 * iz00 P q + ip00 P q * iw P q + 2 * (iu0 P q) ^ 2 := by
    simp only [ip00, iu0, iw, iz00, ddX_D0D0, ddY_D0D0, ddZ_D0D0]
    ring
  have e8 : (1 / 2) * (4 * dZ_D0 P q * P.a ^ 2 * Z P q + 2 * (dX_D0 P q * X P q + dY_D0 P q * Y P q + dZ_D0 P q * Z P q) * ((-1) * P.a ^ 2 + (X P q) ^ 2 + (Y P q) ^ 2 + (Z P q) ^ 2)) * ((-4) * dZ_D2 P q * P.a ^ 2 * Z P q - 2 * (dX_D2 P q * X P q + dY_D2 P q * Y P q + dZ_D2 P q * Z P q) * ((-1) * P.a ^ 2 + (X P q) ^ 2 + (Y P q) ^ 2 + (Z P q) ^ 2)) = 0 - 4 * P.a ^ 2 * ig0 P q * iu2 P q * iw P q - 4 * P.a ^ 2 * ig2 P q * iu0 P q * iw P q - 8 * P.a ^ 4 * ig0 P q * ig2 P q - 2 * iu0 P q * iu2 P q * (iw P q) ^ 2 := by
    simp only [ig0, ig2, iu0, iu2, iw]
    ring
  have e9 : (1 / 2) * ((-4) * dZ_D0 P q * P.a ^ 2 * Z P q - 2 * (dX_D0 P q * X P q + dY_D0 P q * Y P q + dZ_D0 P q * Z P q) * ((-1) * P.a ^ 2 + (X P q) ^ 2 + (Y P q) ^ 2 + (Z P q) ^ 2)) * (4 * dZ_D2 P q * P.a ^ 2 * Z P q + 2 * (dX_D2 P q * X P q + dY_D2 P q * Y P q + dZ_D2 P q * Z P q) * ((-1) * P.a ^ 2 + (X P q) ^ 2 + (Y P q) ^ 2 + (Z P q) ^ 2)) = 0 - 4 * P.a ^ 2 * ig0 P q * iu2 P q * iw P q - 4 * P.a ^ 2 * ig2 P q * iu0 P q * iw P q - 8 * P.a ^ 4 * ig0 P q * ig2 P q - 2 * iu0 P q * iu2 P q * (iw P q) ^ 2 := by
    simp only [ig0, ig2, iu0, iu2, iw]
    ring
  have e10 : 2 * (dZ_D0 P q * Z P q * ((-1) * P.a ^ 2 - 1 * (X P q) ^ 2 - 1 * (Y P q) ^ 2 - 1 * (Z P q) ^ 2) + dX_D0 P q * X P q * (1 * P.a ^ 2 - 1 * (X P q) ^ 2 - 1 * (Y P q) ^ 2 - 1 * (Z P q) ^ 2) + dY_D0 P q * Y P q * (1 * P.a ^ 2 - 1 * (X P q) ^ 2 - 1 * (Y P q) ^ 2 - 1 * (Z P q) ^ 2)) ^ 2 = 8 * P.a ^ 2 * ig0 P q * iu0 P q * iw P q + 8 * P.a ^ 4 * (ig0 P q) ^ 2 + 2 * (iu0 P q) ^ 2 * (iw P q) ^ 2 := by
    simp only [ig0, iu0, iw]
    ring
  have e11 : 1 * dX_D2 P q * ddX_D0D0 P q + 1 * dY_D2 P q * ddY_D0D0 P q + 1 * dZ_D2 P q * ddZ_D0D0 P q + 2 * dX_D0 P q * ddX_D0D2 P q + 2 * dY_D0 P q * ddY_D0D2 P q + 2 * dZ_D0 P q * ddZ_D0D2 P q + 1 * dddX_D0D0D2 P q * X P q + 1 * dddY_D0D0D2 P q * Y P q + 1 * dddZ_D0D0D2 P q * Z P q = 0 := by
    simp only [ddX_D0D0, ddX_D0D2, ddY_D0D0, ddY_D0D2, ddZ_D0D0, ddZ_D0D2, dddX_D0D0D2, dddY_D0D0D2, dddZ_D0D0D2]
    ring
  have e12 : (1 / 2) * (4 * dZ_D0 P q * P.a ^ 2 * Z P q + 2 * (dX_D0 P q * X P q + dY_D0 P q * Y P q + dZ_D0 P q * Z P q) * ((-1) * P.a ^ 2 + (X P q) ^ 2 + (Y P q) ^ 2 + (Z P q) ^ 2)) = 2 * P.a ^ 2 * ig0 P q + iu0 P q * iw P q := by
    simp only [ig0, iu0, iw]
    ring
  have e13 : (1 / 2) * (4 * dZ_D2 P q * P.a ^ 2 * Z P q + 2 * (dX_D2 P q * X P q + dY_D2 P q * Y P q + dZ_D2 P q * Z P q) * ((-1) * P.a ^ 2 + (X P q) ^ 2 + (Y P q) ^ 2 + (Z P q) ^ 2)) = 2 * P.a ^ 2 * ig2 P q + iu2 P q * iw P q := by
    simp only [ig2, iu2, iw]
    ring
  have e14 : (3 / 2) * (4 * dZ_D0 P q * P.a ^ 2 * Z P q + 2 * (dX_D0 P q * X P q + dY_D0 P q * Y P q + dZ_D0 P q * Z P q) * ((-1) * P.a ^ 2 + (X P q) ^ 2 + (Y P q) ^ 2 + (Z P q) ^ 2)) = 6 * P.a ^ 2 * ig0 P q + 3 * iu0 P q * iw P q := by
    simp only [ig0, iu0, iw]
    ring
  have e15 : (-1) * dX_D0 P q * dX_D2 P q - 1 * dY_D0 P q * dY_D2 P q - 1 * dZ_D0 P q * dZ_D2 P q - 1 * ddX_D0D2 P q * X P q - 1 * ddY_D0D2 P q * Y P q - 1 * ddZ_D0D2 P q * Z P q = 0 - ip02 P q := by
    simp only [ip02, ddX_D0D2, ddY_D0D2, ddZ_D0D2]
    ring
  have e16 : 1 * dX_D0 P q * dX_D2 P q + 1 * dY_D0 P q * dY_D2 P q + 1 * dZ_D0 P q * dZ_D2 P q + 1 * ddX_D0D2 P q * X P q + 1 * ddY_D0D2 P q * Y P q + 1 * ddZ_D0D2 P q * Z P q = ip02 P q := by
    simp only [ip02, ddX_D0D2, ddY_D0D2, ddZ_D0D2]
    ring
  have e17 : 1 * (dX_D0 P q) ^ 2 + 1 * (dY_D0 P q) ^ 2 + 1 * (dZ_D0 P q) ^ 2 + 1 * ddX_D0D0 P q * X P q + 1 * ddY_D0D0 P q * Y P q + 1 * ddZ_D0D0 P q * Z P q = ip00 P q := by
    simp only [ip00, ddX_D0D0, ddY_D0D0, ddZ_D0D0]
    ring
  have e18 : (-1) * dX_D0 P q * X P q - 1 * dY_D0 P q * Y P q - 1 * dZ_D0 P q * Z P q = 0 - iu0 P q := by
    simp only [iu0]
    ring
  have e19 : (-1) * dX_D2 P q * X P q - 1 * dY_D2 P q * Y P q - 1 * dZ_D2 P q * Z P q = 0 - iu2 P q := by
    simp only [iu2]
    ring
  have e20 : (-3) * dX_D0 P q * X P q - 3 * dY_D0 P q * Y P q - 3 * dZ_D0 P q * Z P q = 0 - 3 * iu0 P q := by
    simp only [iu0]
    ring
  have e21 : 1 * dX_D0 P q * X P q + 1 * dY_D0 P q * Y P q + 1 * dZ_D0 P q * Z P q = iu0 P q := by
    simp only [iu0]
    ring
  unfold dddR_D0D2D0
  rw [e0, e1, e2, e3, e4, e5, e6, e7, e8, e9, e10, e11, e12, e13, e14, e15, e16, e17, e18, e19, e20, e21]
  rfl

noncomputable def dddR_D0D2D1_i (P : Par) (q : Pt) : ℝ :=
  P.lit * (0 - iu1 P q - (2 * P.a ^ 2 * ig1 P q + iu1 P q * iw P q) / Tq P q) * (ip02 P q + (2 * P.a ^ 2 * iz02 P q + ip02 P q * iw P q + 2 * iu0 P q * iu2 P q) / Tq P q
    + (0 - 4 * P.a ^ 2 * ig0 P q * iu2 P q * iw P q - 4 * P.a ^ 2 * ig2 P q * iu0 P q * iw P q - 8 * P.a ^ 4 * ig0 P q * ig2 P q - 2 * iu0 P q * iu2 P q * (iw P q) ^ 2) /
    (Tq P q) ^ 3) / (Sq P q) ^ 3 + P.lit * (0 + (2 * ip01 P q * iu2 P q + 2 * ip02 P q * iu1 P q + 2 * ip12 P q * iu0 P q) / Tq P q + (0 - 4 * P.a ^ 2 * ig0 P q * ip12 P
    q * iw P q - 8 * P.a ^ 2 * ig0 P q * iu1 P q * iu2 P q - 4 * P.a ^ 2 * iu0 P q * iw P q * iz12 P q - 8 * P.a ^ 4 * ig0 P q * iz12 P q - 2 * ip12 P q * iu0 P q * (iw P
    q) ^ 2 - 4 * iu0 P q * iu1 P q * iu2 P q * iw P q) / (Tq P q) ^ 3 + (0 - 4 * P.a ^ 2 * ig1 P q * ip02 P q * iw P q - 8 * P.a ^ 2 * ig1 P q * iu0 P q * iu2 P q - 4 *
    P.a ^ 2 * iu1 P q * iw P q * iz02 P q - 8 * P.a ^ 4 * ig1 P q * iz02 P q - 2 * ip02 P q * iu1 P q * (iw P q) ^ 2 - 4 * iu0 P q * iu1 P q * iu2 P q * iw P q) / (Tq P
    q) ^ 3 + (0 - 4 * P.a ^ 2 * ig2 P q * ip01 P q * iw P q - 8 * P.a ^ 2 * ig2 P q * iu0 P q * iu1 P q - 4 * P.a ^ 2 * iu2 P q * iw P q * iz01 P q - 8 * P.a ^ 4 * ig2 P
    q * iz01 P q - 2 * ip01 P q * iu2 P q * (iw P q) ^ 2 - 4 * iu0 P q * iu1 P q * iu2 P q * iw P q) / (Tq P q) ^ 3 + (24 * P.a ^ 2 * ig0 P q * iu1 P q * iu2 P q * (iw P
    q) ^ 2 + 24 * P.a ^ 2 * ig1 P q * iu0 P q * iu2 P q * (iw P q) ^ 2 + 24 * P.a ^ 2 * ig2 P q * iu0 P q * iu1 P q * (iw P q) ^ 2 + 48 * P.a ^ 4 * ig0 P q * ig1 P q *
    iu2 P q * iw P q + 48 * P.a ^ 4 * ig0 P q * ig2 P q * iu1 P q * iw P q + 48 * P.a ^ 4 * ig1 P q * ig2 P q * iu0 P q * iw P q + 96 * P.a ^ 6 * ig0 P q * ig1 P q * ig2
    P q + 12 * iu0 P q * iu1 P q * iu2 P q * (iw P q) ^ 3) / (Tq P q) ^ 5) / Sq P q + P.lit * (ip01 P q + (2 * P.a ^ 2 * iz01 P q + ip01 P q * iw P q + 2 * iu0 P q * iu1
    P q) / Tq P q + (0 - 4 * P.a ^ 2 * ig0 P q * iu1 P q * iw P q - 4 * P.a ^ 2 * ig1 P q * iu0 P q * iw P q - 8 * P.a ^ 4 * ig0 P q * ig1 P q - 2 * iu0 P q * iu1 P q *
    (iw P q) ^ 2) / (Tq P q) ^ 3) * (0 - iu2 P q - (2 * P.a ^ 2 * ig2 P q + iu2 P q * iw P q) / Tq P q) / (Sq P q) ^ 3 + P.lit * (iu0 P q + (2 * P.a ^ 2 * ig0 P q + iu0 P
    q * iw P q) / Tq P q) * (0 - 3 * iu1 P q - (6 * P.a ^ 2 * ig1 P q + 3 * iu1 P q * iw P q) / Tq P q) * (0 - iu2 P q - (2 * P.a ^ 2 * ig2 P q + iu2 P q * iw P q) / Tq P
    q) / (Sq P q) ^ 5 + P.lit * (iu0 P q + (2 * P.a ^ 2 * ig0 P q + iu0 P q * iw P q) / Tq P q) * (0 - ip12 P q - (2 * P.a ^ 2 * iz12 P q + ip12 P q * iw P q + 2 * iu1 P
    q * iu2 P q) / Tq P q - (0 - 4 * P.a ^ 2 * ig1 P q * iu2 P q * iw P q - 4 * P.a ^ 2 * ig2 P q * iu1 P q * iw P q - 8 * P.a ^ 4 * ig1 P q * ig2 P q - 2 * iu1 P q * iu2
    P q * (iw P q) ^ 2) / (Tq P q) ^ 3) / (Sq P q) ^ 3

theorem dddR_D0D2D1_eq (P : Par) (q : Pt) : dddR_D0D2D1 P q = dddR_D0D2D1_i P q := by
  have e0 : (1 / 2) * (4 * dZ_D2 P q * ddZ_D0D1 P q * P.a ^ 2 + 4 * dZ_D1 P q * ddZ_D0D2 P q * P.a ^ 2 + 4 * dZ_D0 P q * ddZ_D1D2 P q * P.a ^ 2 + 4 * dddZ_D0D1D2 P q * P.a ^ 2 * Z P q + 4 * (dX_D2 P q * X P q + dY_D2 P q * Y P q + dZ_D2 P q * Z P q) * (1 * dX_D0 P q * dX_D1 P q + 1 * dY_D0 P q * dY_D1 P q + 1 * dZ_D0 P q * dZ_D1 P q + 1 * ddX_D0D1 P q * X P q + 1 * ddY_D0D1 P q * Y P q + 1 * ddZ_D0D1 P q * Z P q) + 4 * (dX_D1 P q * X P q + dY_D1 P q * Y P q + dZ_D1 P q * Z P q) * (1 * dX_D0 P q * dX_D2 P q + 1 * dY_D0 P q * dY_D2 P q + 1 * dZ_D0 P q * dZ_D2 P q + 1 * ddX_D0D2 P q * X P q + 1 * ddY_D0D2 P q * Y P q + 1 * ddZ_D0D2 P q * Z P q) + 4 * (1 * dX_D0 P q * X P q + 1 * dY_D0 P q * Y P q + 1 * dZ_D0 P q * Z P q) * (dX_D1 P q * dX_D2 P q + dY_D1 P q * dY_D2 P q + dZ_D1 P q * dZ_D2 P q + ddX_D1D2 P q * X P q + ddY_D1D2 P q * Y P q + ddZ_D1D2 P q * Z P q) + (2 * dX_D2 P q * ddX_D0D1 P q + 2 * dX_D1 P q * ddX_D0D2 P q + 2 * dX_D0 P q * ddX_D1D2 P q + 2 * dY_D2 P q * ddY_D0D1 P q + 2 * dY_D1 P q * ddY_D0D2 P q + 2 * dY_D0 P q * ddY_D1D2 P q + 2 * dZ_D2 P q * ddZ_D0D1 P q + 2 * dZ_D1 P q * ddZ_D0D2 P q + 2 * dZ_D0 P q * ddZ_D1D2 P q + 2 * dddX_D0D1D2 P q * X P q + 2 * dddY_D0D1D2 P q * Y P q + 2 * dddZ_D0D1D2 P q * Z P q) * (-P.a ^ 2 + (X P q) ^ 2 + (Y P q) ^ 2 + (Z P q) ^ 2)) = 2 * ip01 P q * iu2 P q + 2 * ip02 P q * iu1 P q + 2 * ip12 P q * iu0 P q := by
    simp only [ip01, ip02, ip12, iu0, iu1, iu2, ddX_D0D1, ddX_D0D2, ddX_D1D2, ddY_D0D1, ddY_D0D2, ddY_D1D2, ddZ_D0D1, ddZ_D0D2, ddZ_D1D2, dddX_D0D1D2, dddY_D0D1D2, dddZ_D0D1D2]
    ring
  have e1 : (1 / 2) * ((-4) * dZ_D1 P q * dZ_D2 P q * P.a ^ 2 - 4 * ddZ_D1D2 P q * P.a ^ 2 * Z P q - 4 * (dX_D1 P q * X P q + dY_D1 P q * Y P q + dZ_D1 P q * Z P q) * (1 * dX_D2 P q * X P q + 1 * dY_D2 P q * Y P q + 1 * dZ_D2 P q * Z P q) + ((-2) * dX_D1 P q * dX_D2 P q - 2 * dY_D1 P q * dY_D2 P q - 2 * dZ_D1 P q * dZ_D2 P q - 2 * ddX_D1D2 P q * X P q - 2 * ddY_D1D2 P q * Y P q - 2 * ddZ_D1D2 P q * Z P q) * (-P.a ^ 2 + (X P q) ^ 2 + (Y P q) ^ 2 + (Z P q) ^ 2)) * (4 * dZ_D0 P q * P.a ^ 2 * Z P q + 2 * (dX_D0 P q * X P q + dY_D0 P q * Y P q + dZ_D0 P q * Z P q) * ((-1) * P.a ^ 2 + (X P q) ^ 2 + (Y P q) ^ 2 + (Z P q) ^ 2)) = 0 - 4 * P.a ^ 2 * ig0 P q * ip12 P q * iw P q - 8 * P.a ^ 2 * ig0 P q * iu1 P q * iu2 P q - 4 * P.a ^ 2 * iu0 P q * iw P q * iz12 P q - 8 * P.a ^ 4 * ig0 P q * iz12 P q - 2 * ip12 P q * iu0 P q * (iw P q) ^ 2 - 4 * iu0 P q * iu1 P q * iu2 P q * iw P q := by
    simp only [ig0, ip12, iu0, iu1, iu2, iw, iz12, ddX_D1D2, ddY_D1D2, ddZ_D1D2]
    ring
  have e2 : (1 / 2) * (4 * dZ_D0 P q * dZ_D2 P q * P.a ^ 2 + 4 * ddZ_D0D2 P q * P.a ^ 2 * Z P q + 4 * (1 * dX_D0 P q * X P q + 1 * dY_D0 P q * Y P q + 1 * dZ_D0 P q * Z P q) * (dX_D2 P q * X P q + dY_D2 P q * Y P q + dZ_D2 P q * Z P q) + (2 * dX_D0 P q * dX_D2 P q + 2 * dY_D0 P q * dY_D2 P q + 2 * dZ_D0 P q * dZ_D2 P q + 2 * ddX_D0D2 P q * X P q + 2 * ddY_D0D2 P q * Y P q + 2 * ddZ_D0D2 P q * Z P q) * (-P.a ^ 2 + (X P q) ^ 2 + (Y P q) ^ 2 + (Z P q) ^ 2)) * ((-4) * dZ_D1 P q * P.a ^ 2 * Z P q - 2 * (dX_D1 P q * X P q + dY_D1 P q * Y P q + dZ_D1 P q * Z P q) * ((-1) * P.a ^ 2 + (X P q) ^ 2 + (Y P q) ^ 2 + (Z P q) ^ 2)) = 0 - 4 * P.a ^ 2 * ig1 P q * ip02 P q * iw P q - 8 * P.a ^ 2 * ig1 P q * iu0 P q * iu2 P q - 4 * P.a ^ 2 * iu1 P q * iw P q * iz02 P q - 8 * P.a ^ 4 * ig1 P q * iz02 P q - 2 * ip02 P q * iu1 P q * (iw P q) ^ 2 - 4 * iu0 P q * iu1 P q * iu2 P q * iw P q := by
    simp only [ig1, ip02, iu0, iu1, iu2, iw, iz02, ddX_D0D2, ddY_D0D2, ddZ_D0D2]
    ring
  have e3 : (1 / 2) * (4 * dZ_D0 P q * dZ_D1 P q * P.a ^ 2 + 4 * ddZ_D0D1 P q * P.a ^ 2 * Z P q + 4 * (1 * dX_D0 P q * X P q + 1 * dY_D0 P q * Y P q + 1 * dZ_D0 P q * Z P q) * (dX_D1 P q * X P q + dY_D1 P q * Y P q + dZ_D1 P q * Z P q) + (2 * dX_D0 P q * dX_D1 P q + 2 * dY_D0 P q * dY_D1 P q + 2 * dZ_D0 P q * dZ_D1 P q + 2 * ddX_D0D1 P q * X P q + 2 * ddY_D0D1 P q * Y P q + 2 * ddZ_D0D1 P q * Z P q) * (-P.a ^ 2 + (X P q) ^ 2 + (Y P q) ^ 2 + (Z P q) ^ 2)) * ((-4) * dZ_D2 P q * P.a ^ 2 * Z P q - 2 * (dX_D2 P q * X P q + dY_D2 P q * Y P q + dZ_D2 P q * Z P q) * ((-1) * P.a ^ 2 + (X P q) ^ 2 + (Y P q) ^ 2 + (Z P q) ^ 2)) = 0 - 4 * P.a ^ 2 * ig2 P q * ip01 P q * iw P q - 8 * P.a ^ 2 * ig2 P q * iu0 P q * iu1 P q - 4 * P.a ^ 2 * iu2 P q * iw P q * iz01 P q - 8 * P.a ^ 4 * ig2 P q * iz01 P q - 2 * ip01 P q * iu2 P q * (iw P q) ^ 2 - 4 * iu0 P q * iu1 P q * iu2 P q * iw P q := by
    simp only [ig2, ip01, iu0, iu1, iu2, iw, iz01, ddX_D0D1, ddY_D0D1, ddZ_D0D1]
    ring
  have e4 : (1 / 2) * (4 * dZ_D0 P q * P.a ^ 2 * Z P q + 2 * (dX_D0 P q * X P q + dY_D0 P q * Y P q + dZ_D0 P q * Z P q) * ((-1) * P.a ^ 2 + (X P q) ^ 2 + (Y P q) ^ 2 + (Z P q) ^ 2)) * ((-12) * dZ_D1 P q * P.a ^ 2 * Z P q - 6 * (dX_D1 P q * X P q + dY_D1 P q * Y P q + dZ_D1 P q * Z P q) * ((-1) * P.a ^ 2 + (X P q) ^ 2 + (Y P q) ^ 2 + (Z P q) ^ 2)) * ((-4) * dZ_D2 P q * P.a ^ 2 * Z P q - 2 * (dX_D2 P q * X P q + dY_D2 P q * Y P q + dZ_D2 P q * Z P q) * ((-1) * P.a ^ 2 + (X P q) ^ 2 + (Y P q) ^ 2 + (Z P q) ^ 2)) = 24 * P.a ^ 2 * ig0 P q * iu1 P q * iu2 P q * (iw P q) ^ 2 + 24 * P.a ^ 2 * ig1 P q * iu0 P q * iu2 P q * (iw P q) ^ 2 + 24 * P.a ^ 2 * ig2 P q * iu0 P q * iu1 P q * (iw P q) ^ 2 + 48 * P.a ^ 4 * ig0 P q * ig1 P q * iu2 P q * iw P q + 48 * P.a ^ 4 * ig0 P q * ig2 P q * iu1 P q * iw P q + 48 * P.a ^ 4 * ig1 P q * ig2 P q * iu0 P q * iw P q + 96 * P.a ^ 6 * ig0 P q * ig1 P q * ig2 P q + 12 * iu0 P q * iu1 P q * iu2 P q * (iw P q) ^ 3 := by
    simp only [ig0, ig1, ig2, iu0, iu1, iu2, iw]
    ring
  have e5 : (1 / 2) * (4 * dZ_D0 P q * dZ_D2 P q * P.a ^ 2 + 4 * ddZ_D0D2 P q * P.a ^ 2 * Z P q + 4 * (1 * dX_D0 P q * X P q + 1 * dY_D0 P q * Y P q + 1 * dZ_D0 P q * Z P q) * (dX_D2 P q * X P q + dY_D2 P q * Y P q + dZ_D2 P q * Z P q) + (2 * dX_D0 P q * dX_D2 P q + 2 * dY_D0 P q * dY_D2 P q + 2 * dZ_D0 P q * dZ_D2 P q + 2 * ddX_D0D2 P q * X P q + 2 * ddY_D0D2 P q * Y P q + 2 * ddZ_D0D2 P q * Z P q) * (-P.a ^ 2 + (X P q) ^ 2 + (Y P q) ^ 2 + (Z P q) ^ 2)) = 2 * P.a ^ 2 * iz02 P q + ip02 P q * iw P q + 2 * iu0 P q * iu2 P q := by
    simp only [ip02, iu0, iu2, iw, iz02, ddX_D0D2, ddY_D0D2, ddZ_D0D2]
    ring
  have e6 : (1 / 2) * (4 * dZ_D0 P q * dZ_D1 P q * P.a ^ 2 + 4 * ddZ_D0D1 P q * P.a ^ 2 * Z P q + 4 * (1 * dX_D0 P q * X P q + 1 * dY_D0 P q * Y P q + 1 * dZ_D0 P q * Z P q) * (dX_D1 P q * X P q + dY_D1 P q * Y P q + dZ_D1 P q * Z P q) + (2 * dX_D0 P q * dX_D1 P q + 2 * dY_D0 P q * dY_D1 P q + 2 * dZ_D0 P q * dZ_D1 P q + 2 * ddX_D0D1 P q * X P q + 2 * ddY_D0D1 P q * Y P q + 2 * ddZ_D0D1 P q * Z P q) * (-P.a ^ 2 + (X P q) ^ 2 + (Y P q) ^ 2 + (Z P q) ^ 2)) = 2 * P.a ^ 2 * iz01 P q + ip01 P q * iw P q + 2 * iu0 P q * iu1 P q := by
    simp only [ip01, iu0, iu1, iw, iz01, ddX_D0D1, ddY_D0D1, ddZ_D0D1]
    ring
  have e7 : (1 / 2) * (4 * dZ_D1 P q * dZ_D2 P q * P.a ^ 2 + 4 * ddZ_D1D2 P q * P.a ^ 2 * Z P q + 4 * (dX_D1 P q * X P q + dY_D1 P q * Y P q + dZ_D1 P q * Z P q) * (1 * dX_D2 P q * X P q + 1 * dY_D2 P q * Y P q + 1 * dZ_D2 P q * Z P q) + (2 * dX_D1 P q * dX_D2 P q + 2 * dY_D1 P q * dY_D2 P q + 2 * dZ_D1 P q * dZ_D2 P q + 2 * ddX_D1D2 P q * X P q + 2 * ddY_D1D2 P q * Y P q + 2 * ddZ_D1D2 P q * Z P q) * (-P.a ^ 2 + (X P q) ^ 2 + (Y P q) ^ 2 + (Z P q) ^ 2)) = 2 * P.a ^ 2 * iz12 P q + ip12 P q * iw P q + 2 * iu1 P q * iu2 P q := by
    simp only [ip12, iu1, iu2, iw, iz12, ddX_D1D2, ddY_D1D2, ddZ_D1D2]
    ring
  have e8 : 1 * dX_D2 P q * ddX_D0D1 P q + 1 * dX_D1 P q * ddX_D0D2 P q + 1 * dX_D0 P q * ddX_D1D2 P q + 1 * dY_D2 P q * ddY_D0D1 P q + 1 * dY_D1 P q * ddY_D0D2 P q + 1 * dY_D0 P q * ddY_D1D2 P q + 1 * dZ_D2 P q * ddZ_D0D1 P q + 1 * dZ_D1 P q * ddZ_D0D2 P q + 1 * dZ_D0 P q * ddZ_D1D2 P q + 1 * dddX_D0D1D2 P q * X P q + 1 * dddY_D0D1D2 P q * Y P q + 1 * dddZ_D0D1D2 P q * Z P q = 0 := by
    simp only [ddX_D0D1, ddX_D0D2, ddX_D1D2, ddY_D0D1, ddY_D0D2, ddY_D1D2, ddZ_D0D1, ddZ_D0D2, ddZ_D1D2, dddX_D0D1D2, dddY_D0D1D2, dddZ_D0D1D2]
    ring
  have e9 : (1 / 2) * (4 * dZ_D0 P q * P.a ^ 2 * Z P q + 2 * (dX_D0 P q * X P q + dY_D0 P q * Y P q + dZ_D0 P q * Z P q) * ((-1) * P.a ^ 2 + (X P q) ^ 2 + (Y P q) ^ 2 + (Z P q) ^ 2)) * ((-4) * dZ_D2 P q * P.a ^ 2 * Z P q - 2 * (dX_D2 P q * X P q + dY_D2 P q * Y P q + dZ_D2 P q * Z P q) * ((-1) * P.a ^ 2 + (X P q) ^ 2 + (Y P q) ^ 2 + (Z P q) ^ 2)) = 0 - 4 * P.a ^ 2 * ig0 P q * iu2 P q * iw P q - 4 * P.a ^ 2 * ig2 P q * iu0 P q * iw P q - 8 * P.a ^ 4 * ig0 P q * ig2 P q - 2 * iu0 P q * iu2 P q * (iw P q) ^ 2 := by
    simp only [ig0, ig2, iu0, iu2, iw]
    ring
  have e10 : (1 / 2) * (4 * dZ_D0 P q * P.a ^ 2 * Z P q + 2 * (dX_D0 P q * X P q + dY_D0 P q * Y P q + dZ_D0 P q * Z P q) * ((-1) * P.a ^ 2 + (X P q) ^ 2 + (Y P q) ^ 2 + (Z P q) ^ 2)) * ((-4) * dZ_D1 P q * P.a ^ 2 * Z P q - 2 * (dX_D1 P q * X P q + dY_D1 P q * Y P q + dZ_D1 P q * Z P q) * ((-1) * P.a ^ 2 + (X P q) ^ 2 + (Y P q) ^ 2 + (Z P q) ^ 2)) = 0 - 4 * P.a ^ 2 * ig0 P q * iu1 P q * iw P q - 4 * P.a ^ 2 * ig1 P q * iu0 P q * iw P q - 8 * P.a ^ 4 * ig0 P q * ig1 P q - 2 * iu0 P q * iu1 P q * (iw P q) ^ 2 := by
    simp only [ig0, ig1, iu0, iu1, iw]
    ring
  have e11 : (1 / 2) * ((-4) * dZ_D1 P q * P.a ^ 2 * Z P q - 2 * (dX_D1 P q * X P q + dY_D1 P q * Y P q + dZ_D1 P q * Z P q) * ((-1) * P.a ^ 2 + (X P q) ^ 2 + (Y P q) ^ 2 + (Z P q) ^ 2)) * (4 * dZ_D2 P q * P.a ^ 2 * Z P q + 2 * (dX_D2 P q * X P q + dY_D2 P q * Y P q + dZ_D2 P q * Z P q) * ((-1) * P.a ^ 2 + (X P q) ^ 2 + (Y P q) ^ 2 + (Z P q) ^ 2)) = 0 - 4 * P.a ^ 2 * ig1 P q * iu2 P q * iw P q - 4 * P.a ^ 2 * ig2 P q * iu1 P q * iw P q - 8 * P.a ^ 4 * ig1 P q * ig2 P q - 2 * iu1 P q * iu2 P q * (iw P q) ^ 2 := by
    simp only [ig1, ig2, iu1, iu2, iw]
    ring
  have e12 : (1 / 2) * (4 * dZ_D1 P q * P.a ^ 2 * Z P q + 2 * (dX_D1 P q * X P q + dY_D1 P q * Y P q + dZ_D1 P q * Z P q) * ((-1) * P.a ^ 2 + (X P q) ^ 2 + (Y P q) ^ 2 + (Z P q) ^ 2)) = 2 * P.a ^ 2 * ig1 P q + iu1 P q * iw P q := by
    simp only [ig1, iu1, iw]
    ring
  have e13 : (1 / 2) * (4 * dZ_D2 P q * P.a ^ 2 * Z P q + 2 * (dX_D2 P q * X P q + dY_D2 P q * Y P q + dZ_D2 P q * Z P q) * ((-1) * P.a ^ 2 + (X P q) ^ 2 + (Y P q) ^ 2 + (Z P q) ^ 2)) = 2 * P.a ^ 2 * ig2 P q + iu2 P q * iw P q := by
    simp only [ig2, iu2, iw]
    ring
  have e14 : (1 / 2) * (4 * dZ_D0 P q * P.a ^ 2 * Z P q + 2 * (dX_D0 P q * X P q + dY_D0 P q * Y P q + dZ_D0 P q * Z P q) * ((-1) * P.a ^ 2 + (X P q) ^ 2 + (Y P q) ^ 2 + (Z P q) ^ 2)) = 2 * P.a ^ 2 * ig0 P q + iu0 P q * iw P q := by
    simp only [ig0, iu0, iw]
    ring
  have e15 : (3 / 2) * (4 * dZ_D1 P q * P.a ^ 2 * Z P q + 2 * (dX_D1 P q * X P q + dY_D1 P q * Y P q + dZ_D1 P q * Z P q) * ((-1) * P.a ^ 2 + (X P q) ^ 2 + (Y P q) ^ 2 + (Z P q) ^ 2)) = 6 * P.a ^ 2 * ig1 P q + 3 * iu1 P q * iw P q := by
    simp only [ig1, iu1, iw]
    ring
  have e16 : (-1) * dX_D1 P q * dX_D2 P q - 1 * dY_D1 P q * dY_D2 P q - 1 * dZ_D1 P q * dZ_D2 P q - 1 * ddX_D1D2 P q * X P q - 1 * ddY_D1D2 P q * Y P q - 1 * ddZ_D1D2 P q * Z P q = 0 - ip12 P q := by
    simp only [ip12, ddX_D1D2, ddY_D1D2, ddZ_D1D2]
    ring
  have e17 : 1 * dX_D0 P q * dX_D2 P q + 1 * dY_D0 P q * dY_D2 P q + 1 * dZ_D0 P q * dZ_D2 P q + 1 * ddX_D0D2 P q * X P q + 1 * ddY_D0D2 P q * Y P q + 1 * ddZ_D0D2 P q * Z P q = ip02 P q := by
    simp only [ip02, ddX_D0D2, ddY_D0D2, ddZ_D0D2]
    ring
  have e18 : 1 * dX_D0 P q * dX_D1 P q + 1 * dY_D0 P q * dY_D1 P q + 1 * dZ_D0 P q * dZ_D1 P q + 1 * ddX_D0D1 P q * X P q + 1 * ddY_D0D1 P q * Y P q + 1 * ddZ_D0D1 P q * Z P q = ip01 P q := by
    simp only [ip01, ddX_D0D1, ddY_D0D1, ddZ_D0D1]
    ring
  have e19 : (-1) * dX_D1 P q * X P q - 1 * dY_D1 P q * Y P q - 1 * dZ_D1 P q * Z P q = 0 - iu1 P q := by
    simp only [iu1]
    ring
  have e20 : (-1) * dX_D2 P q * X P q - 1 * dY_D2 P q * Y P q - 1 * dZ_D2 P q * Z P q = 0 - iu2 P q := by
    simp only [iu2]
    ring
  have e21 : (-3) * dX_D1 P q * X P q - 3 * dY_D1 P q * Y P q - 3 * dZ_D1 P q * Z P q = 0 - 3 * iu1 P q := by
    simp only [iu1]
    ring
  have e22 : 1 * dX_D0 P q * X P q + 1 * dY_D0 P q * Y P q + 1 * dZ_D0 P q * Z P q = iu0 P q := by
    simp only [iu0]
    ring
  unfold dddR_D0D2D1
  rw [e0, e1, e2, e3, e4, e5, e6, e7, e8, e9, e10, e11, e12, e13, e14, e15, e16, e17, e18, e19, e20, e21, e22]
  rfl

noncomputable def dddR_D0D2D2_i (P : Par) (q : Pt) : ℝ :=
  P.lit * (0 - ip22 P q + (8 * P.a ^ 2 * ig2 P q * iu2 P q * iw P q + 8 * P.a ^ 4 * (ig2 P q) ^ 2 + 2 * (iu2 P q) ^ 2 * (iw P q) ^ 2) / (Tq P q) ^ 3 - (2 * P.a ^ 2 * iz22
    P q + ip22 P q * iw P q + 2 * (iu2 P q) ^ 2) / Tq P q) * (iu0 P q + (2 * P.a ^ 2 * ig0 P q + iu0 P q * iw P q) / Tq P q) / (Sq P q) ^ 3 + P.lit * (0 + (4 * ip02 P q *
    iu2 P q + 2 * ip22 P q * iu0 P q) / Tq P q + (0 - 4 * P.a ^ 2 * ig0 P q * ip22 P q * iw P q - 8 * P.a ^ 2 * ig0 P q * (iu2 P q) ^ 2 - 4 * P.a ^ 2 * iu0 P q * iw P q *
    iz22 P q - 8 * P.a ^ 4 * ig0 P q * iz22 P q - 2 * ip22 P q * iu0 P q * (iw P q) ^ 2 - 4 * iu0 P q * (iu2 P q) ^ 2 * iw P q) / (Tq P q) ^ 3 + (0 - 8 * P.a ^ 2 * ig2 P
    q * ip02 P q * iw P q - 16 * P.a ^ 2 * ig2 P q * iu0 P q * iu2 P q - 8 * P.a ^ 2 * iu2 P q * iw P q * iz02 P q - 16 * P.a ^ 4 * ig2 P q * iz02 P q - 4 * ip02 P q *
    iu2 P q * (iw P q) ^ 2 - 8 * iu0 P q * (iu2 P q) ^ 2 * iw P q) / (Tq P q) ^ 3 + (24 * P.a ^ 2 * ig0 P q * (iu2 P q) ^ 2 * (iw P q) ^ 2 + 48 * P.a ^ 2 * ig2 P q * iu0
    P q * iu2 P q * (iw P q) ^ 2 + 96 * P.a ^ 4 * ig0 P q * ig2 P q * iu2 P q * iw P q + 48 * P.a ^ 4 * (ig2 P q) ^ 2 * iu0 P q * iw P q + 96 * P.a ^ 6 * ig0 P q * (ig2 P
    q) ^ 2 + 12 * iu0 P q * (iu2 P q) ^ 2 * (iw P q) ^ 3) / (Tq P q) ^ 5) / Sq P q + (2 * P.lit) * (ip02 P q + (2 * P.a ^ 2 * iz02 P q + ip02 P q * iw P q + 2 * iu0 P q *
    iu2 P q) / Tq P q + (0 - 4 * P.a ^ 2 * ig0 P q * iu2 P q * iw P q - 4 * P.a ^ 2 * ig2 P q * iu0 P q * iw P q - 8 * P.a ^ 4 * ig0 P q * ig2 P q - 2 * iu0 P q * iu2 P q
    * (iw P q) ^ 2) / (Tq P q) ^ 3) * (0 - iu2 P q - (2 * P.a ^ 2 * ig2 P q + iu2 P q * iw P q) / Tq P q) / (Sq P q) ^ 3 + P.lit * (iu0 P q + (2 * P.a ^ 2 * ig0 P q + iu0
    P q * iw P q) / Tq P q) * (0 - 3 * iu2 P q - (6 * P.a ^ 2 * ig2 P q + 3 * iu2 P q * iw P q) / Tq P q) * (0 - iu2 P q - (2 * P.a ^ 2 * ig2 P q + iu2 P q * iw P q) / Tq
    P q) / (Sq P q) ^ 5

theorem dddR_D0D2D2_eq (P : Par) (q : Pt) : dddR_D0D2D2 P q = dddR_D0D2D2_i P q := by
  have e0 : (1 / 2) * (4 * dZ_D0 P q * ddZ_D2D2 P q * P.a ^ 2 + 8 * dZ_D2 P q * ddZ_D0D2 P q * P.a ^ 2 + 4 * dddZ_D0D2D2 P q * P.a ^ 2 * Z P q + 4 * (1 * dX_D0 P q * X P q + 1 * dY_D0 P q * Y P q + 1 * dZ_D0 P q * Z P q) * ((dX_D2 P q) ^ 2 + (dY_D2 P q) ^ 2 + (dZ_D2 P q) ^ 2 + ddX_D2D2 P q * X P q + ddY_D2D2 P q * Y P q + ddZ_D2D2 P q * Z P q) + 8 * (dX_D2 P q * X P q + dY_D2 P q * Y P q + dZ_D2 P q * Z P q) * (1 * dX_D0 P q * dX_D2 P q + 1 * dY_D0 P q * dY_D2 P q + 1 * dZ_D0 P q * dZ_D2 P q + 1 * ddX_D0D2 P q * X P q + 1 * ddY_D0D2 P q * Y P q + 1 * ddZ_D0D2 P q * Z P q) + (2 * dX_D0 P q * ddX_D2D2 P q + 2 * dY_D0 P q * ddY_D2D2 P q + 2 * dZ_D0 P q * ddZ_D2D2 P q + 4 * dX_D2 P q * ddX_D0D2 P q + 4 * dY_D2 P q * ddY_D0D2 P q + 4 * dZ_D2 P q * ddZ_D0D2 P q + 2 * dddX_D0D2D2 P q * X P q + 2 * dddY_D0D2D2 P q * Y P q + 2 * dddZ_D0D2D2 P q * Z P q) * (-P.a ^ 2 + (X P q) ^ 2 + (Y P q) ^ 2 + (Z P q) ^ 2)) = 4 * ip02 P q * iu2 P q + 2 * ip22 P q * iu0 P q := by
    simp only [ip02, ip22, iu0, iu2, ddX_D0D2, ddX_D2D2, ddY_D0D2, ddY_D2D2, ddZ_D0D2, ddZ_D2D2, dddX_D0D2D2, dddY_D0D2D2, dddZ_D0D2D2]
    ring
  have e1 : 1 * (4 * dZ_D0 P q * dZ_D2 P q * P.a ^ 2 + 4 * ddZ_D0D2 P q * P.a ^ 2 * Z P q + 4 * (1 * dX_D0 P q * X P q + 1 * dY_D0 P q * Y P q + 1 * dZ_D0 P q * Z P q) * (dX_D2 P q * X P q + dY_D2 P q * Y P q + dZ_D2 P q * Z P q) + (2 * dX_D0 P q * dX_D2 P q + 2 * dY_D0 P q * dY_D2 P q + 2 * dZ_D0 P q * dZ_D2 P q + 2 * ddX_D0D2 P q * X P q + 2 * ddY_D0D2 P q * Y P q + 2 * ddZ_D0D2 P q * Z P q) * (-P.a ^ 2 + (X P q) ^ 2 + (Y P q) ^ 2 + (Z P q) ^ 2)) * ((-4) * dZ_D2 P q * P.a ^ 2 * Z P q - 2 * (dX_D2 P q * X P q + dY_D2 P q * Y P q + dZ_D2 P q * Z P q) * ((-1) * P.a ^ 2 + (X P q) ^ 2 + (Y P q) ^ 2 + (Z P q) ^ 2)) = 0 - 8 * P.a ^ 2 * ig2 P q * ip02 P q * iw P q - 16 * P.a ^ 2 * ig2 P q * iu0 P q * iu2 P q - 8 * P.a ^ 2 * iu2 P q * iw P q * iz02 P q - 16 * P.a ^ 4 * ig2 P q * iz02 P q - 4 * ip02 P q * iu2 P q * (iw P q) ^ 2 - 8 * iu0 P q * (iu2 P q) ^ 2 * iw P q := by
    simp only [ig2, ip02, iu0, iu2, iw, iz02, ddX_D0D2, ddY_D0D2, ddZ_D0D2]
    ring
  have e2 : (1 / 2) * ((-4) * (dZ_D2 P q) ^ 2 * P.a ^ 2 - 4 * ddZ_D2D2 P q * P.a ^ 2 * Z P q - 4 * (dX_D2 P q * X P q + dY_D2 P q * Y P q + dZ_D2 P q * Z P q) ^ 2 + ((-2) * (dX_D2 P q) ^ 2 - 2 * (dY_D2 P q) ^ 2 - 2 * (dZ_D2 P q) ^ 2 - 2 * ddX_D2D2 P q * X P q - 2 * ddY_D2D2 P q * Y P q - 2 * ddZ_D2D2 P q * Z P q) * (-P.a ^ 2 + (X P q) ^ 2 + (Y P q) ^ 2 + (Z P q) ^ 2)) * (4 * dZ_D0 P q * P.a ^ 2 * Z P q + 2 * (dX_D0 P q * X P q + dY_D0 P q * Y P q + dZ_D0 P q * Z P q) * ((-1) * P.a ^ 2 + (X P q) ^ 2 + (Y P q) ^ 2 + (Z P q) ^ 2)) = 0 - 4 * P.a ^ 2 * ig0 P q * ip22 P q * iw P q - 8 * P.a ^ 2 * ig0 P q * (iu2 P q) ^ 2 - 4 * P.a ^ 2 * iu0 P q * iw P q * iz22 P q - 8 * P.a ^ 4 * ig0 P q * iz22 P q - 2 * ip22 P q * iu0 P q * (iw P q) ^ 2 - 4 * iu0 P q * (iu2 P q) ^ 2 * iw P q := by
    simp only [ig0, ip22, iu0, iu2, iw, iz22, ddX_D2D2, ddY_D2D2, ddZ_D2D2]
    ring
  have e3 : (1 / 2) * (4 * dZ_D0 P q * P.a ^ 2 * Z P q + 2 * (dX_D0 P q * X P q + dY_D0 P q * Y P q + dZ_D0 P q * Z P q) * ((-1) * P.a ^ 2 + (X P q) ^ 2 + (Y P q) ^ 2 + (Z P q) ^ 2)) * ((-12) * dZ_D2 P q * P.a ^ 2 * Z P q - 6 * (dX_D2 P q * X P q + dY_D2 P q * Y P q + dZ_D2 P q * Z P q) * ((-1) * P.a ^ 2 + (X P q) ^ 2 + (Y P q) ^ 2 + (Z P q) ^ 2)) * ((-4) * dZ_D2 P q * P.a ^ 2 * Z P q - 2 * (dX_D2 P q * X P q + dY_D2 P q * Y P q + dZ_D2 P q * Z P q) * ((-1) * P.a ^ 2 + (X P q) ^ 2 + (Y P q) ^ 2 + (Z P q) ^ 2)) = 24 * P.a ^ 2 * ig0 P q * (iu2 P q) ^ 2 * (iw P q) ^ 2 + 48 * P.a ^ 2 * ig2 P q * iu0 P q * iu2 P q * (iw P q) ^ 2 + 96 * P.a ^ 4 * ig0 P q * ig2 P q * iu2 P q * iw P q + 48 * P.a ^ 4 * (ig2 P q) ^ 2 * iu0 P q * iw P q + 96 * P.a ^ 6 * ig0 P q * (ig2 P q) ^ 2 + 12 * iu0 P q * (iu2 P q) ^ 2 * (iw P q) ^ 3 := by
    simp only [ig0, ig2, iu0, iu2, iw]
    ring
  have e4 : (1 / 2) * (4 * dZ_D0 P q * dZ_D2 P q * P.a ^ 2 + 4 * ddZ_D0D2 P q * P.a ^ 2 * Z P q + 4 * (1 * dX_D0 P q * X P q + 1 * dY_D0 P q * Y P q + 1 * dZ_D0 P q * Z P q) * (dX_D2 P q * X P q + dY_D2 P q * Y P q + dZ_D2 P q * Z P q) + (2 * dX_D0 P q * dX_D2 P q + 2 * dY_D0 P q * dY_D2 P q + 2 * dZ_D0 P q * dZ_D2 P q + 2 * ddX_D0D2 P q * X P q + 2 * ddY_D0D2 P q * Y P q + 2 * ddZ_D0D2 P q * Z P q) * (-P.a ^ 2 + (X P q) ^ 2 + (Y P q) ^ 2 + (Z P q) ^ 2)) = 2 * P.a ^ 2 * iz02 P q + ip02 P q * iw P q + 2 * iu0 P q * iu2 P q := by
    simp only [ip02, iu0, iu2, iw, iz02, ddX_D0D2, ddY_D0D2, ddZ_D0D2]
    ring
  have e5 : (1 / 2) * (4 * (dZ_D2 P q) ^ 2 * P.a ^ 2 + 4 * ddZ_D2D2 P q * P.a ^ 2 * Z P q + 4 * (1 * dX_D2 P q * X P q + 1 * dY_D2 P q * Y P q + 1 * dZ_D2 P q * Z P q) ^ 2 + (2 * (dX_D2 P q) ^ 2 + 2 * (dY_D2 P q) ^ 2 + 2 * (dZ_D2 P q) ^ 2 + 2 * ddX_D2D2 P q * X P q + 2 * ddY_D2D2 P q * Y P q + 2 * ddZ_D2D2 P q * Z P q) * (-P.a ^ 2 + (X P q) ^ 2 + (Y P q) ^ 2 + (Z P q) ^ 2)) = 2 * P.a ^ 2 * iz22 P q + ip22 P q * iw P q + 2 * (iu2 P q) ^ 2 := by
    simp only [ip22, iu2, iw, iz22, ddX_D2D2, ddY_D2D2, ddZ_D2D2]
    ring
  have e6 : (1 / 2) * (4 * dZ_D0 P q * P.a ^ 2 * Z P q + 2 * (dX_D0 P q * X P q + dY_D0 P q * Y P q + dZ_D0 P q * Z P q) * ((-1) * P.a ^ 2 + (X P q) ^ 2 + (Y P q) ^ 2 + (Z P q) ^ 2)) * ((-4) * dZ_D2 P q * P.a ^ 2 * Z P q - 2 * (dX_D2 P q * X P q + dY_D2 P q * Y P q + dZ_D2 P q * Z P q) * ((-1) * P.a ^ 2 + (X P q) ^ 2 + (Y P q) ^ 2 + (Z P q) ^ 2)) = 0 - 4 * P.a ^ 2 * ig0 P q * iu2 P q * iw P q - 4 * P.a ^ 2 * ig2 P q * iu0 P q * iw P q - 8 * P.a ^ 4 * ig0 P q * ig2 P q - 2 * iu0 P q * iu2 P q * (iw P q) ^ 2 := by
    simp only [ig0, ig2, iu0, iu2, iw]
    ring
  have e7 : 2 * (dZ_D2 P q * Z P q * ((-1) * P.a ^ 2 - 1 * (X P q) ^ 2 - 1 * (Y P q) ^ 2 - 1 * (Z P q) ^ 2) + dX_D2 P q * X P q * (1 * P.a ^ 2 - 1 * (X P q) ^ 2 - 1 * (Y P q) ^ 2 - 1 * (Z P q) ^ 2) + dY_D2 P q * Y P q * (1 * P.a ^ 2 - 1 * (X P q) ^ 2 - 1 * (Y P q) ^ 2 - 1 * (Z P q) ^ 2)) ^ 2 = 8 * P.a ^ 2 * ig2 P q * iu2 P q * iw P q + 8 * P.a ^ 4 * (ig2 P q) ^ 2 + 2 * (iu2 P q) ^ 2 * (iw P q) ^ 2 := by
    simp only [ig2, iu2, iw]
    ring
  have e8 : 1 * dX_D0 P q * ddX_D2D2 P q + 1 * dY_D0 P q * ddY_D2D2 P q + 1 * dZ_D0 P q * ddZ_D2D2 P q + 2 * dX_D2 P q * ddX_D0D2 P q + 2 * dY_D2 P q * ddY_D0D2 P q + 2 * dZ_D2 P q * ddZ_D0D2 P q + 1 * dddX_D0D2D2 P q * X P q + 1 * dddY_D0D2D2 P q * Y P q + 1 * dddZ_D0D2D2 P q * Z P q = 0 := by
    simp only [ddX_D0D2, ddX_D2D2, ddY_D0D2, ddY_D2D2, ddZ_D0D2, ddZ_D2D2, dddX_D0D2D2, dddY_D0D2D2, dddZ_D0D2D2]
    ring
  have e9 : (1 / 2) * (4 * dZ_D0 P q * P.a ^ 2 * Z P q + 2 * (dX_D0 P q * X P q + dY_D0 P q * Y P q + dZ_D0 P q * Z P q) * ((-1) * P.a ^ 2 + (X P q) ^ 2 + (Y P q) ^ 2 + (Z P q) ^ 2)) = 2 * P.a ^ 2 * ig0 P q + iu0 P q * iw P q := by
    simp only [ig0, iu0, iw]
    ring
  have e10 : (1 / 2) * (4 * dZ_D2 P q * P.a ^ 2 * Z P q + 2 * (dX_D2 P q * X P q + dY_D2 P q * Y P q + dZ_D2 P q * Z P q) * ((-1) * P.a ^ 2 + (X P q) ^ 2 + (Y P q) ^ 2 + (Z P q) ^ 2)) = 2 * P.a ^ 2 * ig2 P q + iu2 P q * iw P q := by
    simp only [ig2, iu2, iw]
    ring
  have e11 : (3 / 2) * (4 * dZ_D2 P q * P.a ^ 2 * Z P q + 2 * (dX_D2 P q * X P q + dY_D2 P q * Y P q + dZ_D2 P q * Z P q) * ((-1) * P.a ^ 2 + (X P q) ^ 2 + (Y P q) ^ 2 + (Z P q) ^ 2)) = 6 * P.a ^ 2 * ig2 P q + 3 * iu2 P q * iw P q := by
    simp only [ig2, iu2, iw]
    ring
  have e12 : 1 * dX_D0 P q * dX_D2 P q + 1 * dY_D0 P q * dY_D2 P q + 1 * dZ_D0 P q * dZ_D2 P q + 1 * ddX_D0D2 P q * X P q + 1 * ddY_D0D2 P q * Y P q + 1 * ddZ_D0D2 P q * Z P q = ip02 P q := by
    simp only [ip02, ddX_D0D2, ddY_D0D2, ddZ_D0D2]
    ring
  have e13 : (-1) * (dX_D2 P q) ^ 2 - 1 * (dY_D2 P q) ^ 2 - 1 * (dZ_D2 P q) ^ 2 - 1 * ddX_D2D2 P q * X P q - 1 * ddY_D2D2 P q * Y P q - 1 * ddZ_D2D2 P q * Z P q = 0 - ip22 P q := by
    simp only [ip22, ddX_D2D2, ddY_D2D2, ddZ_D2D2]
    ring
  have e14 : (-1) * dX_D2 P q * X P q - 1 * dY_D2 P q * Y P q - 1 * dZ_D2 P q * Z P q = 0 - iu2 P q := by
    simp only [iu2]
    ring
  have e15 : (-3) * dX_D2 P q * X P q - 3 * dY_D2 P q * Y P q - 3 * dZ_D2 P q * Z P q = 0 - 3 * iu2 P q := by
    simp only [iu2]
    ring
  have e16 : 1 * dX_D0 P q * X P q + 1 * dY_D0 P q * Y P q + 1 * dZ_D0 P q * Z P q = iu0 P q := by
    simp only [iu0]
    ring
  unfold dddR_D0D2D2
  rw [e0, e1, e2, e3, e4, e5, e6, e7, e8, e9, e10, e11, e12, e13, e14, e15, e16]
  rfl

noncomputable def dddR_D1D1D0_i (P : Par) (q : Pt) : ℝ :=
  P.lit * (ip11 P q - (8 * P.a ^ 2 * ig1 P q * iu1 P q * iw P q + 8 * P.a ^ 4 * (ig1 P q) ^ 2 + 2 * (iu1 P q) ^ 2 * (iw P q) ^ 2) / (Tq P q) ^ 3 + (2 * P.a ^ 2 * iz11 P q
    + ip11 P q * iw P q + 2 * (iu1 P q) ^ 2) / Tq P q) * (0 - iu0 P q - (2 * P.a ^ 2 * ig0 P q + iu0 P q * iw P q) / Tq P q) / (Sq P q) ^ 3 + P.lit * (0 - 3 * iu0 P q -
    (6 * P.a ^ 2 * ig0 P q + 3 * iu0 P q * iw P q) / Tq P q) * (0 - iu1 P q - (2 * P.a ^ 2 * ig1 P q + iu1 P q * iw P q) / Tq P q) * (iu1 P q + (2 * P.a ^ 2 * ig1 P q +
    iu1 P q * iw P q) / Tq P q) / (Sq P q) ^ 5 + P.lit * (iu1 P q + (2 * P.a ^ 2 * ig1 P q + iu1 P q * iw P q) / Tq P q) * (0 - ip01 P q - (2 * P.a ^ 2 * iz01 P q + ip01
    P q * iw P q + 2 * iu0 P q * iu1 P q) / Tq P q - (0 - 4 * P.a ^ 2 * ig0 P q * iu1 P q * iw P q - 4 * P.a ^ 2 * ig1 P q * iu0 P q * iw P q - 8 * P.a ^ 4 * ig0 P q *
    ig1 P q - 2 * iu0 P q * iu1 P q * (iw P q) ^ 2) / (Tq P q) ^ 3) / (Sq P q) ^ 3 + P.lit * (0 - iu1 P q - (2 * P.a ^ 2 * ig1 P q + iu1 P q * iw P q) / Tq P q) * (ip01 P
    q + (2 * P.a ^ 2 * iz01 P q + ip01 P q * iw P q + 2 * iu0 P q * iu1 P q) / Tq P q + (0 - 4 * P.a ^ 2 * ig0 P q * iu1 P q * iw P q - 4 * P.a ^ 2 * ig1 P q * iu0 P q *
    iw P q - 8 * P.a ^ 4 * ig0 P q * ig1 P q - 2 * iu0 P q * iu1 P q * (iw P q) ^ 2) / (Tq P q) ^ 3) / (Sq P q) ^ 3 + P.lit * (0 + (4 * ip01 P q * iu1 P q + 2 * ip11 P q
    * iu0 P q) / Tq P q + (0 - 4 * P.a ^ 2 * ig0 P q * ip11 P q * iw P q - 8 * P.a ^ 2 * ig0 P q * (iu1 P q) ^ 2 - 4 * P.a ^ 2 * iu0 P q * iw P q * iz11 P q - 8 * P.a ^ 4
    * ig0 P q * iz11 P q - 2 * ip11 P q * iu0 P q * (iw P q) ^ 2 - 4 * iu0 P q * (iu1 P q) ^ 2 * iw P q) / (Tq P q) ^ 3 + (0 - 4 * P.a ^ 2 * ig1 P q * ip01 P q * iw P q -
    8 * P.a ^ 2 * ig1 P q * iu0 P q * iu1 P q - 4 * P.a ^ 2 * iu1 P q * iw P q * iz01 P q - 8 * P.a ^ 4 * ig1 P q * iz01 P q - 2 * ip01 P q * iu1 P q * (iw P q) ^ 2 - 4 *
    iu0 P q * (iu1 P q) ^ 2 * iw P q) / (Tq P q) ^ 3 + (0 - 4 * P.a ^ 2 * ig1 P q * ip01 P q * iw P q - 8 * P.a ^ 2 * ig1 P q * iu0 P q * iu1 P q - 4 * P.a ^ 2 * iu1 P q
    * iw P q * iz01 P q - 8 * P.a ^ 4 * ig1 P q * iz01 P q - 2 * ip01 P q * iu1 P q * (iw P q) ^ 2 - 4 * iu0 P q * (iu1 P q) ^ 2 * iw P q) / (Tq P q) ^ 3 + (24 * P.a ^ 2
    * ig0 P q * (iu1 P q) ^ 2 * (iw P q) ^ 2 + 48 * P.a ^ 2 * ig1 P q * iu0 P q * iu1 P q * (iw P q) ^ 2 + 96 * P.a ^ 4 * ig0 P q * ig1 P q * iu1 P q * iw P q + 48 * P.a
    ^ 4 * (ig1 P q) ^ 2 * iu0 P q * iw P q + 96 * P.a ^ 6 * ig0 P q * (ig1 P q) ^ 2 + 12 * iu0 P q * (iu1 P q) ^ 2 * (iw P q) ^ 3) / (Tq P q) ^ 5) / Sq P q

theorem dddR_D1D1D0_eq (P : Par) (q : Pt) : dddR_D1D1D0 P q = dddR_D1D1D0_i P q := by
  have e0 : (1 / 2) * (4 * dZ_D0 P q * ddZ_D1D1 P q * P.a ^ 2 + 8 * dZ_D1 P q * ddZ_D0D1 P q * P.a ^ 2 + 4 * dddZ_D0D1D1 P q * P.a ^ 2 * Z P q + 4 * (dX_D0 P q * X P q + dY_D0 P q * Y P q + dZ_D0 P q * Z P q) * (1 * (dX_D1 P q) ^ 2 + 1 * (dY_D1 P q) ^ 2 + 1 * (dZ_D1 P q) ^ 2 + 1 * ddX_D1D1 P q * X P q + 1 * ddY_D1D1 P q * Y P q + 1 * ddZ_D1D1 P q * Z P q) + 4 * (1 * dX_D1 P q * X P q + 1 * dY_D1 P q * Y P q + 1 * dZ_D1 P q * Z P q) * (dX_D0 P q * dX_D1 P q + dY_D0 P q * dY_D1 P q + dZ_D0 P q * dZ_D1 P q + ddX_D0D1 P q * X P q + ddY_D0D1 P q * Y P q + ddZ_D0D1 P q * Z P q) + 4 * (dX_D1 P q * X P q + dY_D1 P q * Y P q + dZ_D1 P q * Z P q) * (1 * dX_D0 P q * dX_D1 P q + 1 * dY_D0 P q * dY_D1 P q + 1 * dZ_D0 P q * dZ_D1 P q + 1 * ddX_D0D1 P q * X P q + 1 * ddY_D0D1 P q * Y P q + 1 * ddZ_D0D1 P q * Z P q) + (2 * dX_D0 P q * ddX_D1D1 P q + 2 * dY_D0 P q * ddY_D1D1 P q + 2 * dZ_D0 P q * ddZ_D1D1 P q + 4 * dX_D1 P q * ddX_D0D1 P q + 4 * dY_D1 P q * ddY_D0D1 P q + 4 * dZ_D1 P q * ddZ_D0D1 P q + 2 * dddX_D0D1D1 P q * X P q + 2 * dddY_D0D1D1 P q * Y P q + 2 * dddZ_D0D1D1 P q * Z P q) * (-P.a ^ 2 + (X P q) ^ 2 + (Y P q) ^ 2 + (Z P q) ^ 2)) = 4 * ip01 P q * iu1 P q + 2 * ip11 P q * iu0 P q := by
    simp only [ip01, ip11, iu0, iu1, ddX_D0D1, ddX_D1D1, ddY_D0D1, ddY_D1D1, ddZ_D0D1, ddZ_D1D1, dddX_D0D1D1, dddY_D0D1D1, dddZ_D0D1D1]
    ring
  have e1 : (1 / 2) * ((-4) * dZ_D0 P q * dZ_D1 P q * P.a ^ 2 - 4 * ddZ_D0D1 P q * P.a ^ 2 * Z P q - 4 * (dX_D0 P q * X P q + dY_D0 P q * Y P q + dZ_D0 P q * Z P q) * (1 * dX_D1 P q * X P q + 1 * dY_D1 P q * Y P q + 1 * dZ_D1 P q * Z P q) + ((-2) * dX_D0 P q * dX_D1 P q - 2 * dY_D0 P q * dY_D1 P q - 2 * dZ_D0 P q * dZ_D1 P q - 2 * ddX_D0D1 P q * X P q - 2 * ddY_D0D1 P q * Y P q - 2 * ddZ_D0D1 P q * Z P q) * (-P.a ^ 2 + (X P q) ^ 2 + (Y P q) ^ 2 + (Z P q) ^ 2)) * (4 * dZ_D1 P q * P.a ^ 2 * Z P q + 2 * (dX_D1 P q * X P q + dY_D1 P q * Y P q + dZ_D1 P q * Z P q) * ((-1) * P.a ^ 2 + (X P q) ^ 2 + (Y P q) ^ 2 + (Z P q) ^ 2)) = 0 - 4 * P.a ^ 2 * ig1 P q * ip01 P q * iw P q - 8 * P.a ^ 2 * ig1 P q * iu0 P q * iu1 P q - 4 * P.a ^ 2 * iu1 P q * iw P q * iz01 P q - 8 * P.a ^ 4 * ig1 P q * iz01 P q - 2 * ip01 P q * iu1 P q * (iw P q) ^ 2 - 4 * iu0 P q * (iu1 P q) ^ 2 * iw P q := by
    simp only [ig1, ip01, iu0, iu1, iw, iz01, ddX_D0D1, ddY_D0D1, ddZ_D0D1]
    ring
  have e2 : (1 / 2) * (4 * dZ_D0 P q * dZ_D1 P q * P.a ^ 2 + 4 * ddZ_D0D1 P q * P.a ^ 2 * Z P q + 4 * (dX_D0 P q * X P q + dY_D0 P q * Y P q + dZ_D0 P q * Z P q) * (1 * dX_D1 P q * X P q + 1 * dY_D1 P q * Y P q + 1 * dZ_D1 P q * Z P q) + (2 * dX_D0 P q * dX_D1 P q + 2 * dY_D0 P q * dY_D1 P q + 2 * dZ_D0 P q * dZ_D1 P q + 2 * ddX_D0D1 P q * X P q + 2 * ddY_D0D1 P q * Y P q + 2 * ddZ_D0D1 P q * Z P q) * (-P.a ^ 2 + (X P q) ^ 2 + (Y P q) ^ 2 + (Z P q) ^ 2)) * ((-4) * dZ_D1 P q * P.a ^ 2 * Z P q - 2 * (dX_D1 P q * X P q + dY_D1 P q * Y P q + dZ_D1 P q * Z P q) * ((-1) * P.a ^ 2 + (X P q) ^ 2 + (Y P q) ^ 2 + (Z P q) ^ 2)) = 0 - 4 * P.a ^ 2 * ig1 P q * ip01 P q * iw P q - 8 * P.a ^ 2 * ig1 P q * iu0 P q * iu1 P q - 4 * P.a ^ 2 * iu1 P q * iw P q * iz01 P q - 8 * P.a ^ 4 * ig1 P q * iz01 P q - 2 * ip01 P q * iu1 P q * (iw P q) ^ 2 - 4 * iu0 P q * (iu1 P q) ^ 2 * iw P q := by
    simp only [ig1, ip01, iu0, iu1, iw, iz01, ddX_D0D1, ddY_D0D1, ddZ_D0D1]
    ring
  have e3 : (1 / 2) * (4 * (dZ_D1 P q) ^ 2 * P.a ^ 2 + 4 * ddZ_D1D1 P q * P.a ^ 2 * Z P q + 4 * (1 * dX_D1 P q * X P q + 1 * dY_D1 P q * Y P q + 1 * dZ_D1 P q * Z P q) ^ 2 + (2 * (dX_D1 P q) ^ 2 + 2 * (dY_D1 P q) ^ 2 + 2 * (dZ_D1 P q) ^ 2 + 2 * ddX_D1D1 P q * X P q + 2 * ddY_D1D1 P q * Y P q + 2 * ddZ_D1D1 P q * Z P q) * (-P.a ^ 2 + (X P q) ^ 2 + (Y P q) ^ 2 + (Z P q) ^ 2)) * ((-4) * dZ_D0 P q * P.a ^ 2 * Z P q - 2 * (dX_D0 P q * X P q + dY_D0 P q * Y P q + dZ_D0 P q * Z P q) * ((-1) * P.a ^ 2 + (X P q) ^ 2 + (Y P q) ^ 2 + (Z P q) ^ 2)) = 0 - 4 * P.a ^ 2 * ig0 P q * ip11 P q * iw P q - 8 * P.a ^ 2 * ig0 P q * (iu1 P q) ^ 2 - 4 * P.a ^ 2 * iu0 P q * iw P q * iz11 P q - 8 * P.a ^ 4 * ig0 P q * iz11 P q - 2 * ip11 P q * iu0 P q * (iw P q) ^ 2 - 4 * iu0 P q * (iu1 P q) ^ 2 * iw P q := by
    simp only [ig0, ip11, iu0, iu1, iw, iz11, ddX_D1D1, ddY_D1D1, ddZ_D1D1]
    ring
  have e4 : (1 / 2) * ((-12) * dZ_D0 P q * P.a ^ 2 * Z P q - 6 * (dX_D0 P q * X P q + dY_D0 P q * Y P q + dZ_D0 P q * Z P q) * ((-1) * P.a ^ 2 + (X P q) ^ 2 + (Y P q) ^ 2 + (Z P q) ^ 2)) * ((-4) * dZ_D1 P q * P.a ^ 2 * Z P q - 2 * (dX_D1 P q * X P q + dY_D1 P q * Y P q + dZ_D1 P q * Z P q) * ((-1) * P.a ^ 2 + (X P q) ^ 2 + (Y P q) ^ 2 + (Z P q) ^ 2)) * (4 * dZ_D1 P q * P.a ^ 2 * Z P q + 2 * (dX_D1 P q * X P q + dY_D1 P q * Y P q + dZ_D1 P q * Z P q) * ((-1) * P.a ^ 2 + (X P q) ^ 2 + (Y P q) ^ 2 + (Z P q) ^ 2)) = 24 * P.a ^ 2 * ig0 P q * (iu1 P q) ^ 2 * (iw P q) ^ 2 + 48 * P.a ^ 2 * ig1 P q * iu0 P q * iu1 P q * (iw P q) ^ 2 + 96 * P.a ^ 4 * ig0 P q * ig1 P q * iu1 P q * iw P q + 48 * P.a ^ 4 * (ig1 P q) ^ 2 * iu0 P q * iw P q + 96 * P.a ^ 6 * ig0 P q * (ig1 P q) ^ 2 + 12 * iu0 P q * (iu1 P q) ^ 2 * (iw P q) ^ 3 := by
    simp only [ig0, ig1, iu0, iu1, iw]
    ring
  have e5 : (1 / 2) * (4 * dZ_D0 P q * dZ_D1 P q * P.a ^ 2 + 4 * ddZ_D0D1 P q * P.a ^ 2 * Z P q + 4 * (dX_D0 P q * X P q + dY_D0 P q * Y P q + dZ_D0 P q * Z P q) * (1 * dX_D1 P q * X P q + 1 * dY_D1 P q * Y P q + 1 * dZ_D1 P q * Z P q) + (2 * dX_D0 P q * dX_D1 P q + 2 * dY_D0 P q * dY_D1 P q + 2 * dZ_D0 P q * dZ_D1 P q + 2 * ddX_D0D1 P q * X P q + 2 * ddY_D0D1 P q * Y P q + 2 * ddZ_D0D1 P q * Z P q) * (-P.a ^ 2 + (X P q) ^ 2 + (Y P q) ^ 2 + (Z P q) ^ 2)) = 2 * P.a ^ 2 * iz01 P q + ip01 P q * iw P q + 2 * iu0 P q * iu1 P q := by
    simp only [ip01, iu0, iu1, iw, iz01, ddX_D0D1, ddY_D0D1, ddZ_D0D1]
    ring
  have e6 : (1 / 2) * (4 * (dZ_D1 P q) ^ 2 * P.a ^ 2 + 4 * ddZ_D1D1 P q * P.a ^ 2 * Z P q + 4 * (1 * dX_D1 P q * X P q + 1 * dY_D1 P q * Y P q + 1 * dZ_D1 P q * Z P q) ^ 2 + (2 * (dX_D1 P q) ^ 2 + 2 * (dY_D1 P q) ^ 2 + 2 * (dZ_D1 P q) ^ 2 + 2 * ddX_D1D1 P q * X P q + 2 * ddY_D1D1 P q * Y P q + 2 * ddZ_D1D1 P q * Z P q) * (-P.a ^ 2 + (X P q) ^ 2 + (Y P q) ^ 2 + (Z P q) ^ 2)) = 2 * P.a ^ 2 * iz11 P q + ip11 P q * iw P q + 2 * (iu1 P q) ^ 2 := by
    simp only [ip11, iu1, iw, iz11, ddX_D1D1, ddY_D1D1, ddZ_D1D1]
    ring
  have e7 : (1 / 2) * ((-4) * dZ_D0 P q * P.a ^ 2 * Z P q - 2 * (dX_D0 P q * X P q + dY_D0 P q * Y P q + dZ_D0 P q * Z P q) * ((-1) * P.a ^ 2 + (X P q) ^ 2 + (Y P q) ^ 2 + (Z P q) ^ 2)) * (4 * dZ_D1 P q * P.a ^ 2 * Z P q + 2 * (dX_D1 P q * X P q + dY_D1 P q * Y P q + dZ_D1 P q * Z P q) * ((-1) * P.a ^ 2 + (X P q) ^ 2 + (Y P q) ^ 2 + (Z P q) ^ 2)) = 0 - 4 * P.a ^ 2 * ig0 P q * iu1 P q * iw P q - 4 * P.a ^ 2 * ig1 P q * iu0 P q * iw P q - 8 * P.a ^ 4 * ig0 P q * ig1 P q - 2 * iu0 P q * iu1 P q * (iw P q) ^ 2 := by
    simp only [ig0, ig1, iu0, iu1, iw]
    ring
  have e8 : 2 * (dZ_D1 P q * Z P q * ((-1) * P.a ^ 2 - 1 * (X P q) ^ 2 - 1 * (Y P q) ^ 2 - 1 * (Z P q) ^ 2) + dX_D1 P q * X P q * (1 * P.a ^ 2 - 1 * (X P q) ^ 2 - 1 * (Y P q) ^ 2 - 1 * (Z P q) ^ 2) + dY_D1 P q * Y P q * (1 * P.a ^ 2 - 1 * (X P q) ^ 2 - 1 * (Y P q) ^ 2 - 1 * (Z P q) ^ 2)) ^ 2 = 8 * P.a ^ 2 * ig1 P q * iu1 P q * iw P q + 8 * P.a ^ 4 * (ig1 P q) ^ 2 + 2 * (iu1 P q) ^ 2 * (iw P q) ^ 2 := by
    simp only [ig1, iu1, iw]
    ring
  have e9 : 1 * dX_D0 P q * ddX_D1D1 P q + 1 * dY_D0 P q * ddY_D1D1 P q + 1 * dZ_D0 P q * ddZ_D1D1 P q + 2 * dX_D1 P q * ddX_D0D1 P q + 2 * dY_D1 P q * ddY_D0D1 P q + 2 * dZ_D1 P q * ddZ_D0D1 P q + 1 * dddX_D0D1D1 P q * X P q + 1 * dddY_D0D1D1 P q * Y P q + 1 * dddZ_D0D1D1 P q * Z P q = 0 := by
    simp only [ddX_D0D1, ddX_D1D1, ddY_D0D1, ddY_D1D1, ddZ_D0D1, ddZ_D1D1, dddX_D0D1D1, dddY_D0D1D1, dddZ_D0D1D1]
    ring
  have e10 : (1 / 2) * (4 * dZ_D0 P q * P.a ^ 2 * Z P q + 2 * (dX_D0 P q * X P q + dY_D0 P q * Y P q + dZ_D0 P q * Z P q) * ((-1) * P.a ^ 2 + (X P q) ^ 2 + (Y P q) ^ 2 + (Z P q) ^ 2)) = 2 * P.a ^ 2 * ig0 P q + iu0 P q * iw P q := by
    simp only [ig0, iu0, iw]
    ring
  have e11 : (3 / 2) * (4 * dZ_D0 P q * P.a ^ 2 * Z P q + 2 * (dX_D0 P q * X P q + dY_D0 P q * Y P q + dZ_D0 P q * Z P q) * ((-1) * P.a ^ 2 + (X P q) ^ 2 + (Y P q) ^ 2 + (Z P q) ^ 2)) = 6 * P.a ^ 2 * ig0 P q + 3 * iu0 P q * iw P q := by
    simp only [ig0, iu0, iw]
    ring
  have e12 : (1 / 2) * (4 * dZ_D1 P q * P.a ^ 2 * Z P q + 2 * (dX_D1 P q * X P q + dY_D1 P q * Y P q + dZ_D1 P q * Z P q) * ((-1) * P.a ^ 2 + (X P q) ^ 2 + (Y P q) ^ 2 + (Z P q) ^ 2)) = 2 * P.a ^ 2 * ig1 P q + iu1 P q * iw P q := by
    simp only [ig1, iu1, iw]
    ring
  have e13 : (-1) * dX_D0 P q * dX_D1 P q - 1 * dY_D0 P q * dY_D1 P q - 1 * dZ_D0 P q * dZ_D1 P q - 1 * ddX_D0D1 P q * X P q - 1 * ddY_D0D1 P q * Y P q - 1 * ddZ_D0D1 P q * Z P q = 0 - ip01 P q := by
    simp only [ip01, ddX_D0D1, ddY_D0D1, ddZ_D0D1]
    ring
  have e14 : 1 * dX_D0 P q * dX_D1 P q + 1 * dY_D0 P q * dY_D1 P q + 1 * dZ_D0 P q * dZ_D1 P q + 1 * ddX_D0D1 P q * X P q + 1 * ddY_D0D1 P q * Y P q + 1 * ddZ_D0D1 P q * Z P q = ip01 P q := by
    simp only [ip01, ddX_D0D1, ddY_D0D1, ddZ_D0D1]
    ring
  have e15 : 1 * (dX_D1 P q) ^ 2 + 1 * (dY_D1 P q) ^ 2 + 1 * (dZ_D1 P q) ^ 2 + 1 * ddX_D1D1 P q * X P q + 1 * ddY_D1D1 P q * Y P q + 1 * ddZ_D1D1 P q * Z P q = ip11 P q := by
    simp only [ip11, ddX_D1D1, ddY_D1D1, ddZ_D1D1]
    ring
  have e16 : (-1) * dX_D0 P q * X P q - 1 * dY_D0 P q * Y P q - 1 * dZ_D0 P q * Z P q = 0 - iu0 P q := by
    simp only [iu0]
    ring
  have e17 : (-3) * dX_D0 P q * X P q - 3 * dY_D0 P q * Y P q - 3 * dZ_D0 P q * Z P q = 0 - 3 * iu0 P q := by
    simp only [iu0]
    ring
  have e18 : (-1) * dX_D1 P q * X P q - 1 * dY_D1 P q * Y P q - 1 * dZ_D1 P q * Z P q = 0 - iu1 P q := by
    simp only [iu1]
    ring
  have e19 : 1 * dX_D1 P q * X P q + 1 * dY_D1 P q * Y P q + 1 * dZ_D1 P q * Z P q = iu1 P q := by
    simp only [iu1]
    ring
  unfold dddR_D1D1D0
  rw [e0, e1, e2, e3, e4, e5, e6, e7, e8, e9, e10, e11, e12, e13, e14, e15, e16, e17, e18, e19]
  rfl

noncomputable def dddR_D1D1D1_i (P : Par) (q : Pt) : ℝ :=
  (3 * P.lit) * (2 * P.a ^ 2 * ig1 P q + iu1 P q * iw P q + ie1 P q * Tq P q + (0 - ie1 P q - ig1 P q + iu1 P q) * Tq P q + ig1 P q * Tq P q) ^ 3 / ((Tq P q) ^ 3 * (Sq P
    q) ^ 5) + P.lit * (0 - (0 - 72 * P.a ^ 2 * ig1 P q * (iu1 P q) ^ 2 * (iw P q) ^ 2 - 144 * P.a ^ 4 * (ig1 P q) ^ 2 * iu1 P q * iw P q - 96 * P.a ^ 6 * (ig1 P q) ^ 3 -
    12 * (iu1 P q) ^ 3 * (iw P q) ^ 3) / (Tq P q) ^ 5 + 6 * ip11 P q * iu1 P q / Tq P q + (0 - 8 * P.a ^ 2 * ig1 P q * ip11 P q * iw P q - 16 * P.a ^ 2 * ig1 P q * (iu1 P
    q) ^ 2 - 8 * P.a ^ 2 * iu1 P q * iw P q * iz11 P q - 16 * P.a ^ 4 * ig1 P q * iz11 P q - 4 * ip11 P q * iu1 P q * (iw P q) ^ 2 - 8 * (iu1 P q) ^ 3 * iw P q) / (Tq P
    q) ^ 3 + (0 - 4 * P.a ^ 2 * ig1 P q * ip11 P q * iw P q - 8 * P.a ^ 2 * ig1 P q * (iu1 P q) ^ 2 - 4 * P.a ^ 2 * iu1 P q * iw P q * iz11 P q - 8 * P.a ^ 4 * ig1 P q *
    iz11 P q - 2 * ip11 P q * iu1 P q * (iw P q) ^ 2 - 4 * (iu1 P q) ^ 3 * iw P q) / (Tq P q) ^ 3) / Sq P q + (2 * P.lit) * (ip11 P q - (8 * P.a ^ 2 * ig1 P q * iu1 P q *
    iw P q + 8 * P.a ^ 4 * (ig1 P q) ^ 2 + 2 * (iu1 P q) ^ 2 * (iw P q) ^ 2) / (Tq P q) ^ 3 + (2 * P.a ^ 2 * iz11 P q + ip11 P q * iw P q + 2 * (iu1 P q) ^ 2) / Tq P q) *
    (0 - iu1 P q - (2 * P.a ^ 2 * ig1 P q + iu1 P q * iw P q) / Tq P q) / (Sq P q) ^ 3 + P.lit * (0 - ip11 P q + (8 * P.a ^ 2 * ig1 P q * iu1 P q * iw P q + 8 * P.a ^ 4 *
    (ig1 P q) ^ 2 + 2 * (iu1 P q) ^ 2 * (iw P q) ^ 2) / (Tq P q) ^ 3 - (2 * P.a ^ 2 * iz11 P q + ip11 P q * iw P q + 2 * (iu1 P q) ^ 2) / Tq P q) * (iu1 P q + (2 * P.a ^
    2 * ig1 P q + iu1 P q * iw P q) / Tq P q) / (Sq P q) ^ 3

theorem dddR_D1D1D1_eq (P : Par) (q : Pt) : dddR_D1D1D1 P q = dddR_D1D1D1_i P q := by
  have e0 : (1 / 2) * (12 * dZ_D1 P q * ddZ_D1D1 P q * P.a ^ 2 + 4 * dddZ_D1D1D1 P q * P.a ^ 2 * Z P q + 4 * (1 * dX_D1 P q * X P q + 1 * dY_D1 P q * Y P q + 1 * dZ_D1 P q * Z P q) * ((dX_D1 P q) ^ 2 + (dY_D1 P q) ^ 2 + (dZ_D1 P q) ^ 2 + ddX_D1D1 P q * X P q + ddY_D1D1 P q * Y P q + ddZ_D1D1 P q * Z P q) + 8 * (dX_D1 P q * X P q + dY_D1 P q * Y P q + dZ_D1 P q * Z P q) * (1 * (dX_D1 P q) ^ 2 + 1 * (dY_D1 P q) ^ 2 + 1 * (dZ_D1 P q) ^ 2 + 1 * ddX_D1D1 P q * X P q + 1 * ddY_D1D1 P q * Y P q + 1 * ddZ_D1D1 P q * Z P q) + (6 * dX_D1 P q * ddX_D1D1 P q + 6 * dY_D1 P q * ddY_D1D1 P q + 6 * dZ_D1 P q * ddZ_D1D1 P q + 2 * dddX_D1D1D1 P q * X P q + 2 * dddY_D1D1D1 P q * Y P q + 2 * dddZ_D1D1D1 P q * Z P q) * (-P.a ^ 2 + (X P q) ^ 2 + (Y P q) ^ 2 + (Z P q) ^ 2)) = 6 * ip11 P q * iu1 P q := by
    simp only [ip11, iu1, ddX_D1D1, ddY_D1D1, ddZ_D1D1, dddX_D1D1D1, dddY_D1D1D1, dddZ_D1D1D1]
    ring
  have e1 : 1 * (4 * (dZ_D1 P q) ^ 2 * P.a ^ 2 + 4 * ddZ_D1D1 P q * P.a ^ 2 * Z P q + 4 * (1 * dX_D1 P q * X P q + 1 * dY_D1 P q * Y P q + 1 * dZ_D1 P q * Z P q) ^ 2 + (2 * (dX_D1 P q) ^ 2 + 2 * (dY_D1 P q) ^ 2 + 2 * (dZ_D1 P q) ^ 2 + 2 * ddX_D1D1 P q * X P q + 2 * ddY_D1D1 P q * Y P q + 2 * ddZ_D1D1 P q * Z P q) * (-P.a ^ 2 + (X P q) ^ 2 + (Y P q) ^ 2 + (Z P q) ^ 2)) * ((-4) * dZ_D1 P q * P.a ^ 2 * Z P q - 2 * (dX_D1 P q * X P q + dY_D1 P q * Y P q + dZ_D1 P q * Z P q) * ((-1) * P.a ^ 2 + (X P q) ^ 2 + (Y P q) ^ 2 + (Z P q) ^ 2)) = 0 - 8 * P.a ^ 2 * ig1 P q * ip11 P q * iw P q - 16 * P.a ^ 2 * ig1 P q * (iu1 P q) ^ 2 - 8 * P.a ^ 2 * iu1 P q * iw P q * iz11 P q - 16 * P.a ^ 4 * ig1 P q * iz11 P q - 4 * ip11 P q * iu1 P q * (iw P q) ^ 2 - 8 * (iu1 P q) ^ 3 * iw P q := by
    simp only [ig1, ip11, iu1, iw, iz11, ddX_D1D1, ddY_D1D1, ddZ_D1D1]
    ring
  have e2 : (1 / 2) * ((-4) * (dZ_D1 P q) ^ 2 * P.a ^ 2 - 4 * ddZ_D1D1 P q * P.a ^ 2 * Z P q - 4 * (dX_D1 P q * X P q + dY_D1 P q * Y P q + dZ_D1 P q * Z P q) ^ 2 + ((-2) * (dX_D1 P q) ^ 2 - 2 * (dY_D1 P q) ^ 2 - 2 * (dZ_D1 P q) ^ 2 - 2 * ddX_D1D1 P q * X P q - 2 * ddY_D1D1 P q * Y P q - 2 * ddZ_D1D1 P q * Z P q) * (-P.a ^ 2 + (X P q) ^ 2 + (Y P q) ^ 2 + (Z P q) ^ 2)) * (4 * dZ_D1 P q * P.a ^ 2 * Z P q + 2 * (dX_D1 P q * X P q + dY_D1 P q * Y P q + dZ_D1 P q * Z P q) * ((-1) * P.a ^ 2 + (X P q) ^ 2 + (Y P q) ^ 2 + (Z P q) ^ 2)) = 0 - 4 * P.a ^ 2 * ig1 P q * ip11 P q * iw P q - 8 * P.a ^ 2 * ig1 P q * (iu1 P q) ^ 2 - 4 * P.a ^ 2 * iu1 P q * iw P q * iz11 P q - 8 * P.a ^ 4 * ig1 P q * iz11 P q - 2 * ip11 P q * iu1 P q * (iw P q) ^ 2 - 4 * (iu1 P q) ^ 3 * iw P q := by
    simp only [ig1, ip11, iu1, iw, iz11, ddX_D1D1, ddY_D1D1, ddZ_D1D1]
    ring
  have e3 : (-1) * dX_D1 P q * P.a ^ 2 * X P q + 1 * dX_D1 P q * (X P q) ^ 3 - 1 * dY_D1 P q * P.a ^ 2 * Y P q + 1 * dY_D1 P q * (X P q) ^ 2 * Y P q + 1 * dX_D1 P q * X P q * (Y P q) ^ 2 + 1 * dY_D1 P q * (Y P q) ^ 3 + 1 * dZ_D1 P q * P.a ^ 2 * Z P q + 1 * dZ_D1 P q * (X P q) ^ 2 * Z P q + 1 * dZ_D1 P q * (Y P q) ^ 2 * Z P q + 1 * dX_D1 P q * X P q * (Z P q) ^ 2 + 1 * dY_D1 P q * Y P q * (Z P q) ^ 2 + 1 * dZ_D1 P q * (Z P q) ^ 3 = 2 * P.a ^ 2 * ig1 P q + iu1 P q * iw P q := by
    simp only [ig1, iu1, iw]
    ring
  have e4 : (1 / 2) * (4 * (dZ_D1 P q) ^ 2 * P.a ^ 2 + 4 * ddZ_D1D1 P q * P.a ^ 2 * Z P q + 4 * (1 * dX_D1 P q * X P q + 1 * dY_D1 P q * Y P q + 1 * dZ_D1 P q * Z P q) ^ 2 + (2 * (dX_D1 P q) ^ 2 + 2 * (dY_D1 P q) ^ 2 + 2 * (dZ_D1 P q) ^ 2 + 2 * ddX_D1D1 P q * X P q + 2 * ddY_D1D1 P q * Y P q + 2 * ddZ_D1D1 P q * Z P q) * (-P.a ^ 2 + (X P q) ^ 2 + (Y P q) ^ 2 + (Z P q) ^ 2)) = 2 * P.a ^ 2 * iz11 P q + ip11 P q * iw P q + 2 * (iu1 P q) ^ 2 := by
    simp only [ip11, iu1, iw, iz11, ddX_D1D1, ddY_D1D1, ddZ_D1D1]
    ring
  have e5 : 12 * (dZ_D1 P q * Z P q * ((-1) * P.a ^ 2 - 1 * (X P q) ^ 2 - 1 * (Y P q) ^ 2 - 1 * (Z P q) ^ 2) + dX_D1 P q * X P q * (1 * P.a ^ 2 - 1 * (X P q) ^ 2 - 1 * (Y P q) ^ 2 - 1 * (Z P q) ^ 2) + dY_D1 P q * Y P q * (1 * P.a ^ 2 - 1 * (X P q) ^ 2 - 1 * (Y P q) ^ 2 - 1 * (Z P q) ^ 2)) ^ 3 = 0 - 72 * P.a ^ 2 * ig1 P q * (iu1 P q) ^ 2 * (iw P q) ^ 2 - 144 * P.a ^ 4 * (ig1 P q) ^ 2 * iu1 P q * iw P q - 96 * P.a ^ 6 * (ig1 P q) ^ 3 - 12 * (iu1 P q) ^ 3 * (iw P q) ^ 3 := by
    simp only [ig1, iu1, iw]
    ring
  have e6 : 2 * (dZ_D1 P q * Z P q * ((-1) * P.a ^ 2 - 1 * (X P q) ^ 2 - 1 * (Y P q) ^ 2 - 1 * (Z P q) ^ 2) + dX_D1 P q * X P q * (1 * P.a ^ 2 - 1 * (X P q) ^ 2 - 1 * (Y P q) ^ 2 - 1 * (Z P q) ^ 2) + dY_D1 P q * Y P q * (1 * P.a ^ 2 - 1 * (X P q) ^ 2 - 1 * (Y P q) ^ 2 - 1 * (Z P q) ^ 2)) ^ 2 = 8 * P.a ^ 2 * ig1 P q * iu1 P q * iw P q + 8 * P.a ^ 4 * (ig1 P q) ^ 2 + 2 * (iu1 P q) ^ 2 * (iw P q) ^ 2 := by
    simp only [ig1, iu1, iw]
    ring
  have e7 : 3 * dX_D1 P q * ddX_D1D1 P q + 3 * dY_D1 P q * ddY_D1D1 P q + 3 * dZ_D1 P q * ddZ_D1D1 P q + 1 * dddX_D1D1D1 P q * X P q + 1 * dddY_D1D1D1 P q * Y P q + 1 * dddZ_D1D1D1 P q * Z P q = 0 := by
    simp only [ddX_D1D1, ddY_D1D1, ddZ_D1D1, dddX_D1D1D1, dddY_D1D1D1, dddZ_D1D1D1]
    ring
  have e8 : (1 / 2) * (4 * dZ_D1 P q * P.a ^ 2 * Z P q + 2 * (dX_D1 P q * X P q + dY_D1 P q * Y P q + dZ_D1 P q * Z P q) * ((-1) * P.a ^ 2 + (X P q) ^ 2 + (Y P q) ^ 2 + (Z P q) ^ 2)) = 2 * P.a ^ 2 * ig1 P q + iu1 P q * iw P q := by
    simp only [ig1, iu1, iw]
    ring
  have e9 : (-1) * (dX_D1 P q) ^ 2 - 1 * (dY_D1 P q) ^ 2 - 1 * (dZ_D1 P q) ^ 2 - 1 * ddX_D1D1 P q * X P q - 1 * ddY_D1D1 P q * Y P q - 1 * ddZ_D1D1 P q * Z P q = 0 - ip11 P q := by
    simp only [ip11, ddX_D1D1, ddY_D1D1, ddZ_D1D1]
    ring
  have e10 : 1 * (dX_D1 P q) ^ 2 + 1 * (dY_D1 P q) ^ 2 + 1 * (dZ_D1 P q) ^ 2 + 1 * ddX_D1D1 P q * X P q + 1 * ddY_D1D1 P q * Y P q + 1 * ddZ_D1D1 P q * Z P q = ip11 P q := by
    simp only [ip11, ddX_D1D1, ddY_D1D1, ddZ_D1D1]
    ring
  have e11 : (-1) * dX_D1 P q * X P q - 1 * dY_D1 P q * Y P q - 1 * dZ_D1 P q * Z P q = 0 - iu1 P q := by
    simp only [iu1]
    ring
  have e12 : 1 * dX_D1 P q * X P q + 1 * dY_D1 P q * Y P q + 1 * dZ_D1 P q * Z P q = iu1 P q := by
    simp only [iu1]
    ring
  have e13 : 1 * dX_D1 P q * X P q = ie1 P q := by
    simp only [ie1]
    ring
  have e14 : 1 * dY_D1 P q * Y P q = 0 - ie1 P q - ig1 P q + iu1 P q := by
    simp only [ie1, ig1, iu1]
    ring
  have e15 : 1 * dZ_D1 P q * Z P q = ig1 P q := by
    simp only [ig1]
    ring
  unfold dddR_D1D1D1
  rw [e0, e1, e2, e3, e4, e5, e6, e7, e8, e9, e10, e11, e12, e13, e14, e15]
  rfl

noncomputable def dddR_D1D1D2_i (P : Par) (q : Pt) : ℝ :=
  P.lit * (0 + (2 * ip11 P q * iu2 P q + 4 * ip12 P q * iu1 P q) / Tq P q + (0 - 4 * P.a ^ 2 * ig1 P q * ip12 P q * iw P q - 8 * P.a ^ 2 * ig1 P q * iu1 P q * iu2 P q - 4
    * P.a ^ 2 * iu1 P q * iw P q * iz12 P q - 8 * P.a ^ 4 * ig1 P q * iz12 P q - 2 * ip12 P q * iu1 P q * (iw P q) ^ 2 - 4 * (iu1 P q) ^ 2 * iu2 P q * iw P q) / (Tq P q)
    ^ 3 + (0 - 4 * P.a ^ 2 * ig1 P q * ip12 P q * iw P q - 8 * P.a ^ 2 * ig1 P q * iu1 P q * iu2 P q - 4 * P.a ^ 2 * iu1 P q * iw P q * iz12 P q - 8 * P.a ^ 4 * ig1 P q *
    iz12 P q - 2 * ip12 P q * iu1 P q * (iw P q) ^ 2 - 4 * (iu1 P q) ^ 2 * iu2 P q * iw P q) / (Tq P q) ^ 3 + (48 * P.a ^ 2 * ig1 P q * iu1 P q * iu2 P q * (iw P q) ^ 2 +
    24 * P.a ^ 2 * ig2 P q * (iu1 P q) ^ 2 * (iw P q) ^ 2 + 96 * P.a ^ 4 * ig1 P q * ig2 P q * iu1 P q * iw P q + 48 * P.a ^ 4 * (ig1 P q) ^ 2 * iu2 P q * iw P q + 96 *
    P.a ^ 6 * (ig1 P q) ^ 2 * ig2 P q + 12 * (iu1 P q) ^ 2 * iu2 P q * (iw P q) ^ 3) / (Tq P q) ^ 5 + (0 - 4 * P.a ^ 2 * ig2 P q * ip11 P q * iw P q - 8 * P.a ^ 2 * ig2 P
    q * (iu1 P q) ^ 2 - 4 * P.a ^ 2 * iu2 P q * iw P q * iz11 P q - 8 * P.a ^ 4 * ig2 P q * iz11 P q - 2 * ip11 P q * iu2 P q * (iw P q) ^ 2 - 4 * (iu1 P q) ^ 2 * iu2 P q
    * iw P q) / (Tq P q) ^ 3) / Sq P q + P.lit * (iu1 P q + (2 * P.a ^ 2 * ig1 P q + iu1 P q * iw P q) / Tq P q) * (0 - ip12 P q - (2 * P.a ^ 2 * iz12 P q + ip12 P q * iw
    P q + 2 * iu1 P q * iu2 P q) / Tq P q - (0 - 4 * P.a ^ 2 * ig1 P q * iu2 P q * iw P q - 4 * P.a ^ 2 * ig2 P q * iu1 P q * iw P q - 8 * P.a ^ 4 * ig1 P q * ig2 P q - 2
    * iu1 P q * iu2 P q * (iw P q) ^ 2) / (Tq P q) ^ 3) / (Sq P q) ^ 3 + P.lit * (0 - iu1 P q - (2 * P.a ^ 2 * ig1 P q + iu1 P q * iw P q) / Tq P q) * (ip12 P q + (2 *
    P.a ^ 2 * iz12 P q + ip12 P q * iw P q + 2 * iu1 P q * iu2 P q) / Tq P q + (0 - 4 * P.a ^ 2 * ig1 P q * iu2 P q * iw P q - 4 * P.a ^ 2 * ig2 P q * iu1 P q * iw P q -
    8 * P.a ^ 4 * ig1 P q * ig2 P q - 2 * iu1 P q * iu2 P q * (iw P q) ^ 2) / (Tq P q) ^ 3) / (Sq P q) ^ 3 + P.lit * (0 - iu1 P q - (2 * P.a ^ 2 * ig1 P q + iu1 P q * iw
    P q) / Tq P q) * (iu1 P q + (2 * P.a ^ 2 * ig1 P q + iu1 P q * iw P q) / Tq P q) * (0 - 3 * iu2 P q - (6 * P.a ^ 2 * ig2 P q + 3 * iu2 P q * iw P q) / Tq P q) / (Sq P
    q) ^ 5 + P.lit * (ip11 P q - (8 * P.a ^ 2 * ig1 P q * iu1 P q * iw P q + 8 * P.a ^ 4 * (ig1 P q) ^ 2 + 2 * (iu1 P q) ^ 2 * (iw P q) ^ 2) / (Tq P q) ^ 3 + (2 * P.a ^ 2
    * iz11 P q + ip11 P q * iw P q + 2 * (iu1 P q) ^ 2) / Tq P q) * (0 - iu2 P q - (2 * P.a ^ 2 * ig2 P q + iu2 P q * iw P q) / Tq P q) / (Sq P q) ^ 3

theorem dddR_D1D1D2_eq (P : Par) (q : Pt) : dddR_D1D1D2 P q = dddR_D1D1D2_i P q := by
  have e0 : (1 / 2) * (4 * dZ_D2 P q * ddZ_D1D1 P q * P.a ^ 2 + 8 * dZ_D1 P q * ddZ_D1D2 P q * P.a ^ 2 + 4 * dddZ_D1D1D2 P q * P.a ^ 2 * Z P q + 4 * (dX_D2 P q * X P q + dY_D2 P q * Y P q + dZ_D2 P q * Z P q) * (1 * (dX_D1 P q) ^ 2 + 1 * (dY_D1 P q) ^ 2 + 1 * (dZ_D1 P q) ^ 2 + 1 * ddX_D1D1 P q * X P q + 1 * ddY_D1D1 P q * Y P q + 1 * ddZ_D1D1 P q * Z P q) + 4 * (1 * dX_D1 P q * X P q + 1 * dY_D1 P q * Y P q + 1 * dZ_D1 P q * Z P q) * (dX_D1 P q * dX_D2 P q + dY_D1 P q * dY_D2 P q + dZ_D1 P q * dZ_D2 P q + ddX_D1D2 P q * X P q + ddY_D1D2 P q * Y P q + ddZ_D1D2 P q * Z P q) + 4 * (dX_D1 P q * X P q + dY_D1 P q * Y P q + dZ_D1 P q * Z P q) * (1 * dX_D1 P q * dX_D2 P q + 1 * dY_D1 P q * dY_D2 P q + 1 * dZ_D1 P q * dZ_D2 P q + 1 * ddX_D1D2 P q * X P q + 1 * ddY_D1D2 P q * Y P q + 1 * ddZ_D1D2 P q * Z P q) + (2 * dX_D2 P q * ddX_D1D1 P q + 2 * dY_D2 P q * ddY_D1D1 P q + 2 * dZ_D2 P q * ddZ_D1D1 P q + 4 * dX_D1 P q * ddX_D1D2 P q + 4 * dY_D1 P q * ddY_D1D2 P q + 4 * dZ_D1 P q * ddZ_D1D2 P q + 2 * dddX_D1D1D2 P q * X P q + 2 * dddY_D1D1D2 P q * Y P q + 2 * dddZ_D1D1D2 P q * Z P q) * (-P.a ^ 2 + (X P q) ^ 2 + (Y P q) ^ 2 + (Z P q) ^ 2)) = 2 * ip11 P q * iu2 P q + 4 * ip12 P q * iu1 P q := by
    simp only [ip11, ip12, iu1, iu2, ddX_D1D1, ddX_D1D2, ddY_D1D1, ddY_D1D2, ddZ_D1D1, ddZ_D1D2, dddX_D1D1D2, dddY_D1D1D2, dddZ_D1D1D2]
    ring
  have e1 : (1 / 2) * ((-4) * dZ_D1 P q * dZ_D2 P q * P.a ^ 2 - 4 * ddZ_D1D2 P q * P.a ^ 2 * Z P q - 4 * (1 * dX_D1 P q * X P q + 1 * dY_D1 P q * Y P q + 1 * dZ_D1 P q * Z P q) * (dX_D2 P q * X P q + dY_D2 P q * Y P q + dZ_D2 P q * Z P q) + ((-2) * dX_D1 P q * dX_D2 P q - 2 * dY_D1 P q * dY_D2 P q - 2 * dZ_D1 P q * dZ_D2 P q - 2 * ddX_D1D2 P q * X P q - 2 * ddY_D1D2 P q * Y P q - 2 * ddZ_D1D2 P q * Z P q) * (-P.a ^ 2 + (X P q) ^ 2 + (Y P q) ^ 2 + (Z P q) ^ 2)) * (4 * dZ_D1 P q * P.a ^ 2 * Z P q + 2 * (dX_D1 P q * X P q + dY_D1 P q * Y P q + dZ_D1 P q * Z P q) * ((-1) * P.a ^ 2 + (X P q) ^ 2 + (Y P q) ^ 2 + (Z P q) ^ 2)) = 0 - 4 * P.a ^ 2 * ig1 P q * ip12 P q * iw P q - 8 * P.a ^ 2 * ig1 P q * iu1 P q * iu2 P q - 4 * P.a ^ 2 * iu1 P q * iw P q * iz12 P q - 8 * P.a ^ 4 * ig1 P q * iz12 P q - 2 * ip12 P q * iu1 P q * (iw P q) ^ 2 - 4 * (iu1 P q) ^ 2 * iu2 P q * iw P q := by
    simp only [ig1, ip12, iu1, iu2, iw, iz12, ddX_D1D2, ddY_D1D2, ddZ_D1D2]
    ring
  have e2 : (1 / 2) * (4 * dZ_D1 P q * dZ_D2 P q * P.a ^ 2 + 4 * ddZ_D1D2 P q * P.a ^ 2 * Z P q + 4 * (1 * dX_D1 P q * X P q + 1 * dY_D1 P q * Y P q + 1 * dZ_D1 P q * Z P q) * (dX_D2 P q * X P q + dY_D2 P q * Y P q + dZ_D2 P q * Z P q) + (2 * dX_D1 P q * dX_D2 P q + 2 * dY_D1 P q * dY_D2 P q + 2 * dZ_D1 P q * dZ_D2 P q + 2 * ddX_D1D2 P q * X P q + 2 * ddY_D1D2 P q * Y P q + 2 * ddZ_D1D2 P q * Z P q) * (-P.a ^ 2 + (X P q) ^ 2 + (Y P q) ^ 2 + (Z P q) ^ 2)) * ((-4) * dZ_D1 P q * P.a ^ 2 * Z P q - 2 * (dX_D1 P q * X P q + dY_D1 P q * Y P q + dZ_D1 P q * Z P q) * ((-1) * P.a ^ 2 + (X P q) ^ 2 + (Y P q) ^ 2 + (Z P q) ^ 2)) = 0 - 4 * P.a ^ 2 * ig1 P q * ip12 P q * iw P q - 8 * P.a ^ 2 * ig1 P q * iu1 P q * iu2 P q - 4 * P.a ^ 2 * iu1 P q * iw P q * iz12 P q - 8 * P.a ^ 4 * ig1 P q * iz12 P q - 2 * ip12 P q * iu1 P q * (iw P q) ^ 2 - 4 * (iu1 P q) ^ 2 * iu2 P q * iw P q := by
    simp only [ig1, ip12, iu1, iu2, iw, iz12, ddX_D1D2, ddY_D1D2, ddZ_D1D2]
    ring
  have e3 : (1 / 2) * (4 * (dZ_D1 P q) ^ 2 * P.a ^ 2 + 4 * ddZ_D1D1 P q * P.a ^ 2 * Z P q + 4 * (1 * dX_D1 P q * X P q + 1 * dY_D1 P q * Y P q + 1 * dZ_D1 P q * Z P q) ^ 2 + (2 * (dX_D1 P q) ^ 2 + 2 * (dY_D1 P q) ^ 2 + 2 * (dZ_D1 P q) ^ 2 + 2 * ddX_D1D1 P q * X P q + 2 * ddY_D1D1 P q * Y P q + 2 * ddZ_D1D1 P q * Z P q) * (-P.a ^ 2 + (X P q) ^ 2 + (Y P q) ^ 2 + (Z P q) ^ 2)) * ((-4) * dZ_D2 P q * P.a ^ 2 * Z P q - 2 * (dX_D2 P q * X P q + dY_D2 P q * Y P q + dZ_D2 P q * Z P q) * ((-1) * P.a ^ 2 + (X P q) ^ 2 + (Y P q) ^ 2 + (Z P q) ^ 2)) = 0 - 4 * P.a ^ 2 * ig2 P q * ip11 P q * iw P q - 8 * P.a ^ 2 * ig2 P q * (iu1 P q) ^ 2 - 4 * P.a ^ 2 * iu2 P q * iw P q * iz11 P q - 8 * P.a ^ 4 * ig2 P q * iz11 P q - 2 * ip11 P q * iu2 P q * (iw P q) ^ 2 - 4 * (iu1 P q) ^ 2 * iu2 P q * iw P q := by
    simp only [ig2, ip11, iu1, iu2, iw, iz11, ddX_D1D1, ddY_D1D1, ddZ_D1D1]
    ring
  have e4 : (1 / 2) * ((-4) * dZ_D1 P q * P.a ^ 2 * Z P q - 2 * (dX_D1 P q * X P q + dY_D1 P q * Y P q + dZ_D1 P q * Z P q) * ((-1) * P.a ^ 2 + (X P q) ^ 2 + (Y P q) ^ 2 + (Z P q) ^ 2)) * (4 * dZ_D1 P q * P.a ^ 2 * Z P q + 2 * (dX_D1 P q * X P q + dY_D1 P q * Y P q + dZ_D1 P q * Z P q) * ((-1) * P.a ^ 2 + (X P q) ^ 2 + (Y P q) ^ 2 + (Z P q) ^ 2)) * ((-12) * dZ_D2 P q * P.a ^ 2 * Z P q - 6 * (dX_D2 P q * X P q + dY_D2 P q * Y P q + dZ_D2 P q * Z P q) * ((-1) * P.a ^ 2 + (X P q) ^ 2 + (Y P q) ^ 2 + (Z P q) ^ 2)) = 48 * P.a ^ 2 * ig1 P q * iu1 P q * iu2 P q * (iw P q) ^ 2 + 24 * P.a ^ 2 * ig2 P q * (iu1 P q) ^ 2 * (iw P q) ^ 2 + 96 * P.a ^ 4 * ig1 P q * ig2 P q * iu1 P q * iw P q + 48 * P.a ^ 4 * (ig1 P q) ^ 2 * iu2 P q * iw P q + 96 * P.a ^ 6 * (ig1 P q) ^ 2 * ig2 P q + 12 * (iu1 P q) ^ 2 * iu2 P q * (iw P q) ^ 3 := by
    simp only [ig1, ig2, iu1, iu2, iw]
    ring
  have e5 : (1 / 2) * (4 * dZ_D1 P q * dZ_D2 P q * P.a ^ 2 + 4 * ddZ_D1D2 P q * P.a ^ 2 * Z P q + 4 * (1 * dX_D1 P q * X P q + 1 * dY_D1 P q * Y P q + 1 * dZ_D1 P q * Z P q) * (dX_D2 P q * X P q + dY_D2 P q * Y P q + dZ_D2 P q * Z P q) + (2 * dX_D1 P q * dX_D2 P q + 2 * dY_D1 P q * dY_D2 P q + 2 * dZ_D1 P q * dZ_D2 P q + 2 * ddX_D1D2 P q * X P q + 2 * ddY_D1D2 P q * Y P q + 2 * ddZ_D1D2 P q * Z P q) * (-P.a ^ 2 + (X P q) ^ 2 + (Y P q) ^ 2 + (Z P q) ^ 2)) = 2 * P.a ^ 2 * iz12 P q + ip12 P q * iw P q + 2 * iu1 P q * iu2 P q := by
    simp only [ip12, iu1, iu2, iw, iz12, ddX_D1D2, ddY_D1D2, ddZ_D1D2]
    ring
  have e6 : (1 / 2) * (4 * (dZ_D1 P q) ^ 2 * P.a ^ 2 + 4 * ddZ_D1D1 P q * P.a ^ 2 * Z P q + 4 * (1 * dX_D1 P q * X P q + 1 * dY_D1 P q * Y P q + 1 * dZ_D1 P q * Z P q) ^ 2 + (2 * (dX_D1 P q) ^ 2 + 2 * (dY_D1 P q) ^ 2 + 2 * (dZ_D1 P q) ^ 2 + 2 * ddX_D1D1 P q * X P q + 2 * ddY_D1D1 P q * Y P q + 2 * ddZ_D1D1 P q * Z P q) * (-P.a ^ 2 + (X P q) ^ 2 + (Y P q) ^ 2 + (Z P q) ^ 2)) = 2 * P.a ^ 2 * iz11 P q + ip11 P q * iw P q + 2 * (iu1 P q) ^ 2 := by
    simp only [ip11, iu1, iw, iz11, ddX_D1D1, ddY_D1D1, ddZ_D1D1]
    ring
  have e7 : (1 / 2) * (4 * dZ_D1 P q * P.a ^ 2 * Z P q + 2 * (dX_D1 P q * X P q + dY_D1 P q * Y P q + dZ_D1 P q * Z P q) * ((-1) * P.a ^ 2 + (X P q) ^ 2 + (Y P q) ^ 2 + (Z P q) ^ 2)) * ((-4) * dZ_D2 P q * P.a ^ 2 * Z P q - 2 * (dX_D2 P q * X P q + dY_D2 P q * Y P q + dZ_D2 P q * Z P q) * ((-1) * P.a ^ 2 + (X P q) ^ 2 + (Y P q) ^ 2 + (Z P q) ^ 2)) = 0 - 4 * P.a ^ 2 * ig1 P q * iu2 P q * iw P q - 4 * P.a ^ 2 * ig2 P q * iu1 P q * iw P q - 8 * P.a ^ 4 * ig1 P q * ig2 P q - 2 * iu1 P q * iu2 P q * (iw P q) ^ 2 := by
    simp only [ig1, ig2, iu1, iu2, iw]
    ring
  have e8 : 2 * (dZ_D1 P q * Z P q * ((-1) * P.a ^ 2 - 1 * (X P q) ^ 2 - 1 * (Y P q) ^ 2 - 1 * (Z P q) ^ 2) + dX_D1 P q * X P q * (1 * P.a ^ 2 - 1 * (X P q) ^ 2 - 1 * (Y P q) ^ 2 - 1 * (Z P q) ^ 2) + dY_D1 P q * Y P q * (1 * P.a ^ 2 - 1 * (X P q) ^ 2 - 1 * (Y P q) ^ 2 - 1 * (Z P q) ^ 2)) ^ 2 = 8 * P.a ^ 2 * ig1 P q * iu1 P q * iw P q + 8 * P.a ^ 4 * (ig1 P q) ^ 2 + 2 * (iu1 P q) ^ 2 * (iw P q) ^ 2 := by
    simp only [ig1, iu1, iw]
    ring
  have e9 : 1 * dX_D2 P q * ddX_D1D1 P q + 1 * dY_D2 P q * ddY_D1D1 P q + 1 * dZ_D2 P q * ddZ_D1D1 P q + 2 * dX_D1 P q * ddX_D1D2 P q + 2 * dY_D1 P q * ddY_D1D2 P q + 2 * dZ_D1 P q * ddZ_D1D2 P q + 1 * dddX_D1D1D2 P q * X P q + 1 * dddY_D1D1D2 P q * Y P q + 1 * dddZ_D1D1D2 P q * Z P q = 0 := by
    simp only [ddX_D1D1, ddX_D1D2, ddY_D1D1, ddY_D1D2, ddZ_D1D1, ddZ_D1D2, dddX_D1D1D2, dddY_D1D1D2, dddZ_D1D1D2]
    ring
  have e10 : (1 / 2) * (4 * dZ_D1 P q * P.a ^ 2 * Z P q + 2 * (dX_D1 P q * X P q + dY_D1 P q * Y P q + dZ_D1 P q * Z P q) * ((-1) * P.a ^ 2 + (X P q) ^ 2 + (Y P q) ^ 2 + (Z P q) ^ 2)) = 2 * P.a ^ 2 * ig1 P q + iu1 P q * iw P q := by
    simp only [ig1, iu1, iw]
    ring
  have e11 : (3 / 2) * (4 * dZ_D2 P q * P.a ^ 2 * Z P q + 2 * (dX_D2 P q * X P q + dY_D2 P q * Y P q + dZ_D2 P q * Z P q) * ((-1) * P.a ^ 2 + (X P q) ^ 2 + (Y P q) ^ 2 + (Z P q) ^ 2)) = 6 * P.a ^ 2 * ig2 P q + 3 * iu2 P q * iw P q := by
    simp only [ig2, iu2, iw]
    ring
  have e12 : (1 / 2) * (4 * dZ_D2 P q * P.a ^ 2 * Z P q + 2 * (dX_D2 P q * X P q + dY_D2 P q * Y P q + dZ_D2 P q * Z P q) * ((-1) * P.a ^ 2 + (X P q) ^ 2 + (Y P q) ^ 2 + (Z P q) ^ 2)) = 2 * P.a ^ 2 * ig2 P q + iu2 P q * iw P q := by
    simp only [ig2, iu2, iw]
    ring
  have e13 : (-1) * dX_D1 P q * dX_D2 P q - 1 * dY_D1 P q * dY_D2 P q - 1 * dZ_D1 P q * dZ_D2 P q - 1 * ddX_D1D2 P q * X P q - 1 * ddY_D1D2 P q * Y P q - 1 * ddZ_D1D2 P q * Z P q = 0 - ip12 P q := by
    simp only [ip12, ddX_D1D2, ddY_D1D2, ddZ_D1D2]
    ring
  have e14 : 1 * dX_D1 P q * dX_D2 P q + 1 * dY_D1 P q * dY_D2 P q + 1 * dZ_D1 P q * dZ_D2 P q + 1 * ddX_D1D2 P q * X P q + 1 * ddY_D1D2 P q * Y P q + 1 * ddZ_D1D2 P q * Z P q = ip12 P q := by
    simp only [ip12, ddX_D1D2, ddY_D1D2, ddZ_D1D2]
    ring
  have e15 : 1 * (dX_D1 P q) ^ 2 + 1 * (dY_D1 P q) ^ 2 + 1 * (dZ_D1 P q) ^ 2 + 1 * ddX_D1D1 P q * X P q + 1 * ddY_D1D1 P q * Y P q + 1 * ddZ_D1D1 P q * Z P q = ip11 P q := by
    simp only [ip11, ddX_D1D1, ddY_D1D1, ddZ_D1D1]
    ring
  have e16 : (-1) * dX_D1 P q * X P q - 1 * dY_D1 P q * Y P q - 1 * dZ_D1 P q * Z P q = 0 - iu1 P q := by
    simp only [iu1]
    ring
  have e17 : (-3) * dX_D2 P q * X P q - 3 * dY_D2 P q * Y P q - 3 * dZ_D2 P q * Z P q = 0 - 3 * iu2 P q := by
    simp only [iu2]
    ring
  have e18 : (-1) * dX_D2 P q * X P q - 1 * dY_D2 P q * Y P q - 1 * dZ_D2 P q * Z P q = 0 - iu2 P q := by
    simp only [iu2]
    ring
  have e19 : 1 * dX_D1 P q * X P q + 1 * dY_D1 P q * Y P q + 1 * dZ_D1 P q * Z P q = iu1 P q := by
    simp only [iu1]
    ring
  unfold dddR_D1D1D2
  rw [e0, e1, e2, e3, e4, e5, e6, e7, e8, e9, e10, e11, e12, e13, e14, e15, e16, e17, e18, e19]
  rfl

noncomputable def dddR_D1D2D0_i (P : Par) (q : Pt) : ℝ :=
  P.lit * (0 - iu0 P q - (2 * P.a ^ 2 * ig0 P q + iu0 P q * iw P q) / Tq P q) * (ip12 P q + (2 * P.a ^ 2 * iz12 P q + ip12 P q * iw P q + 2 * iu1 P q * iu2 P q) / Tq P q
    + (0 - 4 * P.a ^ 2 * ig1 P q * iu2 P q * iw P q - 4 * P.a ^ 2 * ig2 P q * iu1 P q * iw P q - 8 * P.a ^ 4 * ig1 P q * ig2 P q - 2 * iu1 P q * iu2 P q * (iw P q) ^ 2) /
    (Tq P q) ^ 3) / (Sq P q) ^ 3 + P.lit * (0 + (2 * ip01 P q * iu2 P q + 2 * ip02 P q * iu1 P q + 2 * ip12 P q * iu0 P q) / Tq P q + (0 - 4 * P.a ^ 2 * ig0 P q * ip12 P
    q * iw P q - 8 * P.a ^ 2 * ig0 P q * iu1 P q * iu2 P q - 4 * P.a ^ 2 * iu0 P q * iw P q * iz12 P q - 8 * P.a ^ 4 * ig0 P q * iz12 P q - 2 * ip12 P q * iu0 P q * (iw P
    q) ^ 2 - 4 * iu0 P q * iu1 P q * iu2 P q * iw P q) / (Tq P q) ^ 3 + (0 - 4 * P.a ^ 2 * ig1 P q * ip02 P q * iw P q - 8 * P.a ^ 2 * ig1 P q * iu0 P q * iu2 P q - 4 *
    P.a ^ 2 * iu1 P q * iw P q * iz02 P q - 8 * P.a ^ 4 * ig1 P q * iz02 P q - 2 * ip02 P q * iu1 P q * (iw P q) ^ 2 - 4 * iu0 P q * iu1 P q * iu2 P q * iw P q) / (Tq P
    q) ^ 3 + (0 - 4 * P.a ^ 2 * ig2 P q * ip01 P q * iw P q - 8 * P.a ^ 2 * ig2 P q * iu0 P q * iu1 P q - 4 * P.a ^ 2 * iu2 P q * iw P q * iz01 P q - 8 * P.a ^ 4 * ig2 P
    q * iz01 P q - 2 * ip01 P q * iu2 P q * (iw P q) ^ 2 - 4 * iu0 P q * iu1 P q * iu2 P q * iw P q) / (Tq P q) ^ 3 + (24 * P.a ^ 2 * ig0 P q * iu1 P q * iu2 P q * (iw P
    q) ^ 2 + 24 * P.a ^ 2 * ig1 P q * iu0 P q * iu2 P q * (iw P q) ^ 2 + 24 * P.a ^ 2 * ig2 P q * iu0 P q * iu1 P q * (iw P q) ^ 2 + 48 * P.a ^ 4 * ig0 P q * ig1 P q *
    iu2 P q * iw P q + 48 * P.a ^ 4 * ig0 P q * ig2 P q * iu1 P q * iw P q + 48 * P.a ^ 4 * ig1 P q * ig2 P q * iu0 P q * iw P q + 96 * P.a ^ 6 * ig0 P q * ig1 P q * ig2
    P q + 12 * iu0 P q * iu1 P q * iu2 P q * (iw P q) ^ 3) / (Tq P q) ^ 5) / Sq P q + P.lit * (0 - 3 * iu0 P q - (6 * P.a ^ 2 * ig0 P q + 3 * iu0 P q * iw P q) / Tq P q)
    * (iu1 P q + (2 * P.a ^ 2 * ig1 P q + iu1 P q * iw P q) / Tq P q) * (0 - iu2 P q - (2 * P.a ^ 2 * ig2 P q + iu2 P q * iw P q) / Tq P q) / (Sq P q) ^ 5 + P.lit * (ip01
    P q + (2 * P.a ^ 2 * iz01 P q + ip01 P q * iw P q + 2 * iu0 P q * iu1 P q) / Tq P q + (0 - 4 * P.a ^ 2 * ig0 P q * iu1 P q * iw P q - 4 * P.a ^ 2 * ig1 P q * iu0 P q
    * iw P q - 8 * P.a ^ 4 * ig0 P q * ig1 P q - 2 * iu0 P q * iu1 P q * (iw P q) ^ 2) / (Tq P q) ^ 3) * (0 - iu2 P q - (2 * P.a ^ 2 * ig2 P q + iu2 P q * iw P q) / Tq P
    q) / (Sq P q) ^ 3 + P.lit * (iu1 P q + (2 * P.a ^ 2 * ig1 P q + iu1 P q * iw P q) / Tq P q) * (0 - ip02 P q - (2 * P.a ^ 2 * iz02 P q + ip02 P q * iw P q + 2 * iu0 P
    q * iu2 P q) / Tq P q - (0 - 4 * P.a ^ 2 * ig0 P q * iu2 P q * iw P q - 4 * P.a ^ 2 * ig2 P q * iu0 P q * iw P q - 8 * P.a ^ 4 * ig0 P q * ig2 P q - 2 * iu0 P q * iu2
    P q * (iw P q) ^ 2) / (Tq P q) ^ 3) / (Sq P q) ^ 3

theorem dddR_D1D2D0_eq (P : Par) (q : Pt) : dddR_D1D2D0 P q = dddR_D1D2D0_i P q := by
  have e0 : (1 / 2) * (4 * dZ_D2 P q * ddZ_D0D1 P q * P.a ^ 2 + 4 * dZ_D1 P q * ddZ_D0D2 P q * P.a ^ 2 + 4 * dZ_D0 P q * ddZ_D1D2 P q * P.a ^ 2 + 4 * dddZ_D0D1D2 P q * P.a ^ 2 * Z P q + 4 * (dX_D2 P q * X P q + dY_D2 P q * Y P q + dZ_D2 P q * Z P q) * (1 * dX_D0 P q * dX_D1 P q + 1 * dY_D0 P q * dY_D1 P q + 1 * dZ_D0 P q * dZ_D1 P q + 1 * ddX_D0D1 P q * X P q + 1 * ddY_D0D1 P q * Y P q + 1 * ddZ_D0D1 P q * Z P q) + 4 * (1 * dX_D1 P q * X P q + 1 * dY_D1 P q * Y P q + 1 * dZ_D1 P q * Z P q) * (dX_D0 P q * dX_D2 P q + dY_D0 P q * dY_D2 P q + dZ_D0 P q * dZ_D2 P q + ddX_D0D2 P q * X P q + ddY_D0D2 P q * Y P q + ddZ_D0D2 P q * Z P q) + 4 * (dX_D0 P q * X P q + dY_D0 P q * Y P q + dZ_D0 P q * Z P q) * (1 * dX_D1 P q * dX_D2 P q + 1 * dY_D1 P q * dY_D2 P q + 1 * dZ_D1 P q * dZ_D2 P q + 1 * ddX_D1D2 P q * X P q + 1 * ddY_D1D2 P q * Y P q + 1 * ddZ_D1D2 P q * Z P q) + (2 * dX_D2 P q * ddX_D0D1 P q + 2 * dX_D1 P q * ddX_D0D2 P q + 2 * dX_D0 P q * ddX_D1D2 P q + 2 * dY_D2 P q * ddY_D0D1 P q + 2 * dY_D1 P q * ddY_D0D2 P q + 2 * dY_D0 P q * ddY_D1D2 P q + 2 * dZ_D2 P q * ddZ_D0D1 P q + 2 * dZ_D1 P q * ddZ_D0D2 P q + 2 * dZ_D0 P q * ddZ_D1D2 P q + 2 * dddX_D0D1D2 P q * X P q + 2 * dddY_D0D1D2 P q * Y P q + 2 * dddZ_D0D1D2 P q * Z P q) * (-P.a ^ 2 + (X P q) ^ 2 + (Y P q) ^ 2 + (Z P q) ^ 2)) = 2 * ip01 P q * iu2 P q + 2 * ip02 P q * iu1 P q + 2 * ip12 P q * iu0 P q := by
    simp only [ip01, ip02, ip12, iu0, iu1, iu2, ddX_D0D1, ddX_D0D2, ddX_D1D2, ddY_D0D1, ddY_D0D2, ddY_D1D2, ddZ_D0D1, ddZ_D0D2, ddZ_D1D2, dddX_D0D1D2, dddY_D0D1D2, dddZ_D0D1D2]
    ring
  have e1 : (1 / 2) * ((-4) * dZ_D0 P q * dZ_D2 P q * P.a ^ 2 - 4 * ddZ_D0D2 P q * P.a ^ 2 * Z P q - 4 * (dX_D0 P q * X P q + dY_D0 P q * Y P q + dZ_D0 P q * Z P q) * (1 * dX_D2 P q * X P q + 1 * dY_D2 P q * Y P q + 1 * dZ_D2 P q * Z P q) + ((-2) * dX_D0 P q * dX_D2 P q - 2 * dY_D0 P q * dY_D2 P q - 2 * dZ_D0 P q * dZ_D2 P q - 2 * ddX_D0D2 P q * X P q - 2 * ddY_D0D2 P q * Y P q - 2 * ddZ_D0D2 P q * Z P q) * (-P.a ^ 2 + (X P q) ^ 2 + (Y P q) ^ 2 + (Z P q) ^ 2)) * (4 * dZ_D1 P q * P.a ^ 2 * Z P q + 2 * (dX_D1 P q * X P q + dY_D1 P q * Y P q + dZ_D1 P q * Z P q) * ((-1) * P.a ^ 2 + (X P q) ^ 2 + (Y P q) ^ 2 + (Z P q) ^ 2)) = 0 - 4 * P.a ^ 2 * ig1 P q * ip02 P q * iw P q - 8 * P.a ^ 2 * ig1 P q * iu0 P q * iu2 P q - 4 * P.a ^ 2 * iu1 P q * iw P q * iz02 P q - 8 * P.a ^ 4 * ig1 P q * iz02 P q - 2 * ip02 P q * iu1 P q * (iw P q) ^ 2 - 4 * iu0 P q * iu1 P q * iu2 P q * iw P q := by
    simp only [ig1, ip02, iu0, iu1, iu2, iw, iz02, ddX_D0D2, ddY_D0D2, ddZ_D0D2]
    ring
  have e2 : (1 / 2) * (4 * dZ_D1 P q * dZ_D2 P q * P.a ^ 2 + 4 * ddZ_D1D2 P q * P.a ^ 2 * Z P q + 4 * (1 * dX_D1 P q * X P q + 1 * dY_D1 P q * Y P q + 1 * dZ_D1 P q * Z P q) * (dX_D2 P q * X P q + dY_D2 P q * Y P q + dZ_D2 P q * Z P q) + (2 * dX_D1 P q * dX_D2 P q + 2 * dY_D1 P q * dY_D2 P q + 2 * dZ_D1 P q * dZ_D2 P q + 2 * ddX_D1D2 P q * X P q + 2 * ddY_D1D2 P q * Y P q + 2 * ddZ_D1D2 P q * Z P q) * (-P.a ^ 2 + (X P q) ^ 2 + (Y P q) ^ 2 + (Z P q) ^ 2)) * ((-4) * dZ_D0 P q * P.a ^ 2 * Z P q - 2 * (dX_D0 P q * X P q + dY_D0 P q * Y P q + dZ_D0 P q * Z P q) * ((-1) * P.a ^ 2 + (X P q) ^ 2 + (Y P q) ^ 2 + (Z P q) ^ 2)) = 0 - 4 * P.a ^ 2 * ig0 P q * ip12 P q * iw P q - 8 * P.a ^ 2 * ig0 P q * iu1 P q * iu2 P q - 4 * P.a ^ 2 * iu0 P q * iw P q * iz12 P q - 8 * P.a ^ 4 * ig0 P q * iz12 P q - 2 * ip12 P q * iu0 P q * (iw P q) ^ 2 - 4 * iu0 P q * iu1 P q * iu2 P q * iw P q := by
    simp only [ig0, ip12, iu0, iu1, iu2, iw, iz12, ddX_D1D2, ddY_D1D2, ddZ_D1D2]
    ring
  have e3 : (1 / 2) * (4 * dZ_D0 P q * dZ_D1 P q * P.a ^ 2 + 4 * ddZ_D0D1 P q * P.a ^ 2 * Z P q + 4 * (dX_D0 P q * X P q + dY_D0 P q * Y P q + dZ_D0 P q * Z P q) * (1 * dX_D1 P q * X P q + 1 * dY_D1 P q * Y P q + 1 * dZ_D1 P q * Z P q) + (2 * dX_D0 P q * dX_D1 P q + 2 * dY_D0 P q * dY_D1 P q + 2 * dZ_D0 P q * dZ_D1 P q + 2 * ddX_D0D1 P q * X P q + 2 * ddY_D0D1 P q * Y P q + 2 * ddZ_D0D1 P q * Z P q) * (-P.a ^ 2 + (X P q) ^ 2 + (Y P q) ^ 2 + (Z P q) ^ 2)) * ((-4) * dZ_D2 P q * P.a ^ 2 * Z P q - 2 * (dX_D2 P q * X P q + dY_D2 P q * Y P q + dZ_D2 P q * Z P q) * ((-1) * P.a ^ 2 + (X P q) ^ 2 + (Y P q) ^ 2 + (Z P q) ^ 2)) = 0 - 4 * P.a ^ 2 * ig2 P q * ip01 P q * iw P q - 8 * P.a ^ 2 * ig2 P q * iu0 P q * iu1 P q - 4 * P.a ^ 2 * iu2 P q * iw P q * iz01 P q - 8 * P.a ^ 4 * ig2 P q * iz01 P q - 2 * ip01 P q * iu2 P q * (iw P q) ^ 2 - 4 * iu0 P q * iu1 P q * iu2 P q * iw P q := by
    simp only [ig2, ip01, iu0, iu1, iu2, iw, iz01, ddX_D0D1, ddY_D0D1, ddZ_D0D1]
    ring
  have e4 : (1 / 2) * ((-12) * dZ_D0 P q * P.a ^ 2 * Z P q - 6 * (dX_D0 P q * X P q + dY_D0 P q * Y P q + dZ_D0 P q * Z P q) * ((-1) * P.a ^ 2 + (X P q) ^ 2 + (Y P q) ^ 2 + (Z P q) ^ 2)) * (4 * dZ_D1 P q * P.a ^ 2 * Z P q + 2 * (dX_D1 P q * X P q + dY_D1 P q * Y P q + dZ_D1 P q * Z P q) * ((-1) * P.a ^ 2 + (X P q) ^ 2 + (Y P q) ^ 2 + (Z P q) ^ 2)) * ((-4) * dZ_D2 P q * P.a ^ 2 * Z P q - 2 * (dX_D2 P q * X P q + dY_D2 P q * Y P q + dZ_D2 P q * Z P q) * ((-1) * P.a ^ 2 + (X P q) ^ 2 + (Y P q) ^ 2 + (Z P q) ^ 2)) = 24 * P.a ^ 2 * ig0 P q * iu1 P q * iu2 P q * (iw P q) ^ 2 + 24 * P.a ^ 2 * ig1 P q * iu0 P q * iu2 P q * (iw P q) ^ 2 + 24 * P.a ^ 2 * ig2 P q * iu0 P q * iu1 P q * (iw P q) ^ 2 + 48 * P.a ^ 4 * ig0 P q * ig1 P q * iu2 P q * iw P q + 48 * P.a ^ 4 * ig0 P q * ig2 P q * iu1 P q * iw P q + 48 * P.a ^ 4 * ig1 P q * ig2 P q * iu0 P q * iw P q + 96 * P.a ^ 6 * ig0 P q * ig1 P q * ig2 P q + 12 * iu0 P q * iu1 P q * iu2 P q * (iw P q) ^ 3 := by
    simp only [ig0, ig1, ig2, iu0, iu1, iu2, iw]
    ring
  have e5 : (1 / 2) * (4 * dZ_D1 P q * dZ_D2 P q * P.a ^ 2 + 4 * ddZ_D1D2 P q * P.a ^ 2 * Z P q + 4 * (1 * dX_D1 P q * X P q + 1 * dY_D1 P q * Y P q + 1 * dZ_D1 P q * Z P q) * (dX_D2 P q * X P q + dY_D2 P q * Y P q + dZ_D2 P q * Z P q) + (2 * dX_D1 P q * dX_D2 P q + 2 * dY_D1 P q * dY_D2 P q + 2 * dZ_D1 P q * dZ_D2 P q + 2 * ddX_D1D2 P q * X P q + 2 * ddY_D1D2 P q * Y P q + 2 * ddZ_D1D2 P q * Z P q) * (-P.a ^ 2 + (X P q) ^ 2 + (Y P q) ^ 2 + (Z P q) ^ 2)) = 2 * P.a ^ 2 * iz12 P q + ip12 P q * iw P q + 2 * iu1 P q * iu2 P q := by
    simp only [ip12, iu1, iu2, iw, iz12, ddX_D1D2, ddY_D1D2, ddZ_D1D2]
    ring
  have e6 : (1 / 2) * (4 * dZ_D0 P q * dZ_D1 P q * P.a ^ 2 + 4 * ddZ_D0D1 P q * P.a ^ 2 * Z P q + 4 * (dX_D0 P q * X P q + dY_D0 P q * Y P q + dZ_D0 P q * Z P q) * (1 * dX_D1 P q * X P q + 1 * dY_D1 P q * Y P q + 1 * dZ_D1 P q * Z P q) + (2 * dX_D0 P q * dX_D1 P q + 2 * dY_D0 P q * dY_D1 P q + 2 * dZ_D0 P q * dZ_D1 P q + 2 * ddX_D0D1 P q * X P q + 2 * ddY_D0D1 P q * Y P q + 2 * ddZ_D0D1 P q * Z P q) * (-P.a ^ 2 + (X P q) ^ 2 + (Y P q) ^ 2 + (Z P q) ^ 2)) = 2 * P.a ^ 2 * iz01 P q + ip01 P q * iw P q + 2 * iu0 P q * iu1 P q := by
    simp only [ip01, iu0, iu1, iw, iz01, ddX_D0D1, ddY_D0D1, ddZ_D0D1]
    ring
  have e7 : (1 / 2) * (4 * dZ_D0 P q * dZ_D2 P q * P.a ^ 2 + 4 * ddZ_D0D2 P q * P.a ^ 2 * Z P q + 4 * (dX_D0 P q * X P q + dY_D0 P q * Y P q + dZ_D0 P q * Z P q) * (1 * dX_D2 P q * X P q + 1 * dY_D2 P q * Y P q + 1 * dZ_D2 P q * Z P q) + (2 * dX_D0 P q * dX_D2 P q + 2 * dY_D0 P q * dY_D2 P q + 2 * dZ_D0 P q * dZ_D2 P q + 2 * ddX_D0D2 P q * X P q + 2 * ddY_D0D2 P q * Y P q + 2 * ddZ_D0D2 P q * Z P q) * (-P.a ^ 2 + (X P q) ^ 2 + (Y P q) ^ 2 + (Z P q) ^ 2)) = 2 * P.a ^ 2 * iz02 P q + ip02 P q * iw P q + 2 * iu0 P q * iu2 P q := by
    simp only [ip02, iu0, iu2, iw, iz02, ddX_D0D2, ddY_D0D2, ddZ_D0D2]
    ring
  have e8 : 1 * dX_D2 P q * ddX_D0D1 P q + 1 * dX_D1 P q * ddX_D0D2 P q + 1 * dX_D0 P q * ddX_D1D2 P q + 1 * dY_D2 P q * ddY_D0D1 P q + 1 * dY_D1 P q * ddY_D0D2 P q + 1 * dY_D0 P q * ddY_D1D2 P q + 1 * dZ_D2 P q * ddZ_D0D1 P q + 1 * dZ_D1 P q * ddZ_D0D2 P q + 1 * dZ_D0 P q * ddZ_D1D2 P q + 1 * dddX_D0D1D2 P q * X P q + 1 * dddY_D0D1D2 P q * Y P q + 1 * dddZ_D0D1D2 P q * Z P q = 0 := by
    simp only [ddX_D0D1, ddX_D0D2, ddX_D1D2, ddY_D0D1, ddY_D0D2, ddY_D1D2, ddZ_D0D1, ddZ_D0D2, ddZ_D1D2, dddX_D0D1D2, dddY_D0D1D2, dddZ_D0D1D2]
    ring
  have e9 : (1 / 2) * (4 * dZ_D1 P q * P.a ^ 2 * Z P q + 2 * (dX_D1 P q * X P q + dY_D1 P q * Y P q + dZ_D1 P q * Z P q) * ((-1) * P.a ^ 2 + (X P q) ^ 2 + (Y P q) ^ 2 + (Z P q) ^ 2)) * ((-4) * dZ_D2 P q * P.a ^ 2 * Z P q - 2 * (dX_D2 P q * X P q + dY_D2 P q * Y P q + dZ_D2 P q * Z P q) * ((-1) * P.a ^ 2 + (X P q) ^ 2 + (Y P q) ^ 2 + (Z P q) ^ 2)) = 0 - 4 * P.a ^ 2 * ig1 P q * iu2 P q * iw P q - 4 * P.a ^ 2 * ig2 P q * iu1 P q * iw P q - 8 * P.a ^ 4 * ig1 P q * ig2 P q - 2 * iu1 P q * iu2 P q * (iw P q) ^ 2 := by
    simp only [ig1, ig2, iu1, iu2, iw]
    ring
  have e10 : (1 / 2) * ((-4) * dZ_D0 P q * P.a ^ 2 * Z P q - 2 * (dX_D0 P q * X P q + dY_D0 P q * Y P q + dZ_D0 P q * Z P q) * ((-1) * P.a ^ 2 + (X P q) ^ 2 + (Y P q) ^ 2 + (Z P q) ^ 2)) * (4 * dZ_D1 P q * P.a ^ 2 * Z P q + 2 * (dX_D1 P q * X P q + dY_D1 P q * Y P q + dZ_D1 P q * Z P q) * ((-1) * P.a ^ 2 + (X P q) ^ 2 + (Y P q) ^ 2 + (Z P q) ^ 2)) = 0 - 4 * P.a ^ 2 * ig0 P q * iu1 P q * iw P q - 4 * P.a ^ 2 * ig1 P q * iu0 P q * iw P q - 8 * P.a ^ 4 * ig0 P q * ig1 P q - 2 * iu0 P q * iu1 P q * (iw P q) ^ 2 := by
    simp only [ig0, ig1, iu0, iu1, iw]
    ring
  have e11 : (1 / 2) * ((-4) * dZ_D0 P q * P.a ^ 2 * Z P q - 2 * (dX_D0 P q * X P q + dY_D0 P q * Y P q + dZ_D0 P q * Z P q) * ((-1) * P.a ^ 2 + (X P q) ^ 2 + (Y P q) ^ 2 + (Z P q) ^ 2)) * (4 * dZ_D2 P q * P.a ^ 2 * Z P q + 2 * (dX_D2 P q * X P q + dY_D2 P q * Y P q + dZ_D2 P q * Z P q) * ((-1) * P.a ^ 2 + (X P q) ^ 2 + (Y P q) ^ 2 + (Z P q) ^ 2)) = 0 - 4 * P.a ^ 2 * ig0 P q * iu2 P q * iw P q - 4 * P.a ^ 2 * ig2 P q * iu0 P q * iw P q - 8 * P.a ^ 4 * ig0 P q * ig2 P q - 2 * iu0 P q * iu2 P q * (iw P q) ^ 2 := by
    simp only [ig0, ig2, iu0, iu2, iw]
    ring
  have e12 : (1 / 2) * (4 * dZ_D0 P q * P.a ^ 2 * Z P q + 2 * (dX_D0 P q * X P q + dY_D0 P q * Y P q + dZ_D0 P q * Z P q) * ((-1) * P.a ^ 2 + (X P q) ^ 2 + (Y P q) ^ 2 + (Z P q) ^ 2)) = 2 * P.a ^ 2 * ig0 P q + iu0 P q * iw P q := by
    simp only [ig0, iu0, iw]
    ring
  have e13 : (3 / 2) * (4 * dZ_D0 P q * P.a ^ 2 * Z P q + 2 * (dX_D0 P q * X P q + dY_D0 P q * Y P q + dZ_D0 P q * Z P q) * ((-1) * P.a ^ 2 + (X P q) ^ 2 + (Y P q) ^ 2 + (Z P q) ^ 2)) = 6 * P.a ^ 2 * ig0 P q + 3 * iu0 P q * iw P q := by
    simp only [ig0, iu0, iw]
    ring
  have e14 : (1 / 2) * (4 * dZ_D1 P q * P.a ^ 2 * Z P q + 2 * (dX_D1 P q * X P q + dY_D1 P q * Y P q + dZ_D1 P q * Z P q) * ((-1) * P.a ^ 2 + (X P q) ^ 2 + (Y P q) ^ 2 + (Z P q) ^ 2)) = 2 * P.a ^ 2 * ig1 P q + iu1 P q * iw P q := by
    simp only [ig1, iu1, iw]
    ring
  have e15 : (1 / 2) * (4 * dZ_D2 P q * P.a ^ 2 * Z P q + 2 * (dX_D2 P q * X P q + dY_D2 P q * Y P q + dZ_D2 P q * Z P q) * ((-1) * P.a ^ 2 + (X P q) ^ 2 + (Y P q) ^ 2 + (Z P q) ^ 2)) = 2 * P.a ^ 2 * ig2 P q + iu2 P q * iw P q := by
    simp only [ig2, iu2, iw]
    ring
  have e16 : (-1) * dX_D0 P q * dX_D2 P q - 1 * dY_D0 P q * dY_D2 P q - 1 * dZ_D0 P q * dZ_D2 P q - 1 * ddX_D0D2 P q * X P q - 1 * ddY_D0D2 P q * Y P q - 1 * ddZ_D0D2 P q * Z P q = 0 - ip02 P q := by
    simp only [ip02, ddX_D0D2, ddY_D0D2, ddZ_D0D2]
    ring
  have e17 : 1 * dX_D1 P q * dX_D2 P q + 1 * dY_D1 P q * dY_D2 P q + 1 * dZ_D1 P q * dZ_D2 P q + 1 * ddX_D1D2 P q * X P q + 1 * ddY_D1D2 P q * Y P q + 1 * ddZ_D1D2 P q * Z P q = ip12 P q := by
    simp only [ip12, ddX_D1D2, ddY_D1D2, ddZ_D1D2]
    ring
  have e18 : 1 * dX_D0 P q * dX_D1 P q + 1 * dY_D0 P q * dY_D1 P q + 1 * dZ_D0 P q * dZ_D1 P q + 1 * ddX_D0D1 P q * X P q + 1 * ddY_D0D1 P q * Y P q + 1 * ddZ_D0D1 P q * Z P q = ip01 P q := by
    simp only [ip01, ddX_D0D1, ddY_D0D1, ddZ_D0D1]
    ring
  have e19 : (-1) * dX_D0 P q * X P q - 1 * dY_D0 P q * Y P q - 1 * dZ_D0 P q * Z P q = 0 - iu0 P q := by
    simp only [iu0]
    ring
  have e20 : (-3) * dX_D0 P q * X P q - 3 * dY_D0 P q * Y P q - 3 * dZ_D0 P q * Z P q = 0 - 3 * iu0 P q := by
    simp only [iu0]
    ring
  have e21 : (-1) * dX_D2 P q * X P q - 1 * dY_D2 P q * Y P q - 1 * dZ_D2 P q * Z P q = 0 - iu2 P q := by
    simp only [iu2]
    ring
  have e22 : 1 * dX_D1 P q * X P q + 1 * dY_D1 P q * Y P q + 1 * dZ_D1 P q * Z P q = iu1 P q := by
    simp only [iu1]
    ring
  unfold dddR_D1D2D0
  rw [e0, e1, e2, e3, e4, e5, e6, e7, e8, e9, e10, e11, e12, e13, e14, e15, e16, e17, e18, e19, e20, e21, e22]
  rfl

noncomputable def dddR_D1D2D1_i (P : Par) (q : Pt) : ℝ :=
  P.lit * (0 - iu1 P q - (2 * P.a ^ 2 * ig1 P q + iu1 P q * iw P q) / Tq P q) * (ip12 P q + (2 * P.a ^ 2 * iz12 P q + ip12 P q * iw P q + 2 * iu1 P q * iu2 P q) / Tq P q
    + (0 - 4 * P.a ^ 2 * ig1 P q * iu2 P q * iw P q - 4 * P.a ^ 2 * ig2 P q * iu1 P q * iw P q - 8 * P.a ^ 4 * ig1 P q * ig2 P q - 2 * iu1 P q * iu2 P q * (iw P q) ^ 2) /
    (Tq P q) ^ 3) / (Sq P q) ^ 3 + P.lit * (0 + (2 * ip11 P q * iu2 P q + 4 * ip12 P q * iu1 P q) / Tq P q + (0 - 4 * P.a ^ 2 * ig1 P q * ip12 P q * iw P q - 8 * P.a ^ 2
    * ig1 P q * iu1 P q * iu2 P q - 4 * P.a ^ 2 * iu1 P q * iw P q * iz12 P q - 8 * P.a ^ 4 * ig1 P q * iz12 P q - 2 * ip12 P q * iu1 P q * (iw P q) ^ 2 - 4 * (iu1 P q) ^
    2 * iu2 P q * iw P q) / (Tq P q) ^ 3 + (0 - 4 * P.a ^ 2 * ig1 P q * ip12 P q * iw P q - 8 * P.a ^ 2 * ig1 P q * iu1 P q * iu2 P q - 4 * P.a ^ 2 * iu1 P q * iw P q *
    iz12 P q - 8 * P.a ^ 4 * ig1 P q * iz12 P q - 2 * ip12 P q * iu1 P q * (iw P q) ^ 2 - 4 * (iu1 P q) ^ 2 * iu2 P q * iw P q) / (Tq P q) ^ 3 + (0 - 4 * P.a ^ 2 * ig2 P
    q * ip11 P q * iw P q - 8 * P.a ^ 2 * ig2 P q * (iu1 P q) ^ 2 - 4 * P.a ^ 2 * iu2 P q * iw P q * iz11 P q - 8 * P.a ^ 4 * ig2 P q * iz11 P q - 2 * ip11 P q * iu2 P q
    * (iw P q) ^ 2 - 4 * (iu1 P q) ^ 2 * iu2 P q * iw P q) / (Tq P q) ^ 3 + (48 * P.a ^ 2 * ig1 P q * iu1 P q * iu2 P q * (iw P q) ^ 2 + 24 * P.a ^ 2 * ig2 P q * (iu1 P
    q) ^ 2 * (iw P q) ^ 2 + 96 * P.a ^ 4 * ig1 P q * ig2 P q * iu1 P q * iw P q + 48 * P.a ^ 4 * (ig1 P q) ^ 2 * iu2 P q * iw P q + 96 * P.a ^ 6 * (ig1 P q) ^ 2 * ig2 P q
    + 12 * (iu1 P q) ^ 2 * iu2 P q * (iw P q) ^ 3) / (Tq P q) ^ 5) / Sq P q + P.lit * (ip11 P q - (8 * P.a ^ 2 * ig1 P q * iu1 P q * iw P q + 8 * P.a ^ 4 * (ig1 P q) ^ 2
    + 2 * (iu1 P q) ^ 2 * (iw P q) ^ 2) / (Tq P q) ^ 3 + (2 * P.a ^ 2 * iz11 P q + ip11 P q * iw P q + 2 * (iu1 P q) ^ 2) / Tq P q) * (0 - iu2 P q - (2 * P.a ^ 2 * ig2 P
    q + iu2 P q * iw P q) / Tq P q) / (Sq P q) ^ 3 + P.lit * (0 - 3 * iu1 P q - (6 * P.a ^ 2 * ig1 P q + 3 * iu1 P q * iw P q) / Tq P q) * (iu1 P q + (2 * P.a ^ 2 * ig1 P
    q + iu1 P q * iw P q) / Tq P q) * (0 - iu2 P q - (2 * P.a ^ 2 * ig2 P q + iu2 P q * iw P q) / Tq P q) / (Sq P q) ^ 5 + P.lit * (iu1 P q + (2 * P.a ^ 2 * ig1 P q + iu1
    P q * iw P q) / Tq P q) * (0 - ip12 P q - (2 * P.a ^ 2 * iz12 P q + ip12 P q * iw P q + 2 * iu1 P q * iu2 P q) / Tq P q - (0 - 4 * P.a ^ 2 * ig1 P q * iu2 P q * iw P
    q - 4 * P.a ^ 2 * ig2 P q * iu1 P q * iw P q - 8 * P.a ^ 4 * ig1 P q * ig2 P q - 2 * iu1 P q * iu2 P q * (iw P q) ^ 2) / (Tq P q) ^ 3) / (Sq P q) ^ 3

theorem dddR_D1D2D1_eq (P : Par) (q : Pt) : dddR_D1D2D1 P q = dddR_D1D2D1_i P q := by
  have e0 : (1 / 2) * (4 * dZ_D2 P q * ddZ_D1D1 P q * P.a ^ 2 + 8 * dZ_D1 P q * ddZ_D1D2 P q * P.a ^ 2 + 4 * dddZ_D1D1D2 P q * P.a ^ 2 * Z P q + 4 * (dX_D2 P q * X P q + dY_D2 P q * Y P q + dZ_D2 P q * Z P q) * (1 * (dX_D1 P q) ^ 2 + 1 * (dY_D1 P q) ^ 2 + 1 * (dZ_D1 P q) ^ 2 + 1 * ddX_D1D1 P q * X P q + 1 * ddY_D1D1 P q * Y P q + 1 * ddZ_D1D1 P q * Z P q) + 4 * (1 * dX_D1 P q * X P q + 1 * dY_D1 P q * Y P q + 1 * dZ_D1 P q * Z P q) * (dX_D1 P q * dX_D2 P q + dY_D1 P q * dY_D2 P q + dZ_D1 P q * dZ_D2 P q + ddX_D1D2 P q * X P q + ddY_D1D2 P q * Y P q + ddZ_D1D2 P q * Z P q) + 4 * (dX_D1 P q * X P q + dY_D1 P q * Y P q + dZ_D1 P q * Z P q) * (1 * dX_D1 P q * dX_D2 P q + 1 * dY_D1 P q * dY_D2 P q + 1 * dZ_D1 P q * dZ_D2 P q + 1 * ddX_D1D2 P q * X P q + 1 * ddY_D1D2 P q * Y P q + 1 * ddZ_D1D2 P q * Z P q) + (2 * dX_D2 P q * ddX_D1D1 P q + 2 * dY_D2 P q * ddY_D1D1 P q + 2 * dZ_D2 P q * ddZ_D1D1 P q + 4 * dX_D1 P q * ddX_D1D2 P q + 4 * dY_D1 P q * ddY_D1D2 P q + 4 * dZ_D1 P q * ddZ_D1D2 P q + 2 * dddX_D1D1D2 P q * X P q + 2 * dddY_D1D1D2 P q * Y P q + 2 * dddZ_D1D1D2 P q * Z P q) * (-P.a ^ 2 + (X P q) ^ 2 + (Y P q) ^ 2 + (Z P q) ^ 2)) = 2 * ip11 P q * iu2 P q + 4 * ip12 P q * iu1 P q := by
    simp only [ip11, ip12, iu1, iu2, ddX_D1D1, ddX_D1D2, ddY_D1D1, ddY_D1D2, ddZ_D1D1, ddZ_D1D2, dddX_D1D1D2, dddY_D1D1D2, dddZ_D1D1D2]
    ring
  have e1 : (1 / 2) * ((-4) * dZ_D1 P q * dZ_D2 P q * P.a ^ 2 - 4 * ddZ_D1D2 P q * P.a ^ 2 * Z P q - 4 * (dX_D1 P q * X P q + dY_D1 P q * Y P q + dZ_D1 P q * Z P q) * (1 * dX_D2 P q * X P q + 1 * dY_D2 P q * Y P q + 1 * dZ_D2 P q * Z P q) + ((-2) * dX_D1 P q * dX_D2 P q - 2 * dY_D1 P q * dY_D2 P q - 2 * dZ_D1 P q * dZ_D2 P q - 2 * ddX_D1D2 P q * X P q - 2 * ddY_D1D2 P q * Y P q - 2 * ddZ_D1D2 P q * Z P q) * (-P.a ^ 2 + (X P q) ^ 2 + (Y P q) ^ 2 + (Z P q) ^ 2)) * (4 * dZ_D1 P q * P.a ^ 2 * Z P q + 2 * (dX_D1 P q * X P q + dY_D1 P q * Y P q + dZ_D1 P q * Z P q) * ((-1) * P.a ^ 2 + (X P q) ^ 2 + (Y P q) ^ 2 + (Z P q) ^ 2)) = 0 - 4 * P.a ^ 2 * ig1 P q * ip12 P q * iw P q - 8 * P.a ^ 2 * ig1 P q * iu1 P q * iu2 P q - 4 * P.a ^ 2 * iu1 P q * iw P q * iz12 P q - 8 * P.a ^ 4 * ig1 P q * iz12 P q - 2 * ip12 P q * iu1 P q * (iw P q) ^ 2 - 4 * (iu1 P q) ^ 2 * iu2 P q * iw P q := by
    simp only [ig1, ip12, iu1, iu2, iw, iz12, ddX_D1D2, ddY_D1D2, ddZ_D1D2]
    ring
  have e2 : (1 / 2) * (4 * dZ_D1 P q * dZ_D2 P q * P.a ^ 2 + 4 * ddZ_D1D2 P q * P.a ^ 2 * Z P q + 4 * (1 * dX_D1 P q * X P q + 1 * dY_D1 P q * Y P q + 1 * dZ_D1 P q * Z P q) * (dX_D2 P q * X P q + dY_D2 P q * Y P q + dZ_D2 P q * Z P q) + (2 * dX_D1 P q * dX_D2 P q + 2 * dY_D1 P q * dY_D2 P q + 2 * dZ_D1 P q * dZ_D2 P q + 2 * ddX_D1D2 P q * X P q + 2 * ddY_D1D2 P q * Y P q + 2 * ddZ_D1D2 P q * Z P q) * (-P.a ^ 2 + (X P q) ^ 2 + (Y P q) ^ 2 + (Z P q) ^ 2)) * ((-4) * dZ_D1 P q * P.a ^ 2 * Z P q - 2 * (dX_D1 P q * X P q + dY_D1 P q * Y P q + dZ_D1 P q * Z P q) * ((-1) * P.a ^ 2 + (X P q) ^ 2 + (Y P q) ^ 2 + (Z P q) ^ 2)) = 0 - 4 * P.a ^ 2 * ig1 P q * ip12 P q * iw P q - 8 * P.a ^ 2 * ig1 P q * iu1 P q * iu2 P q - 4 * P.a ^ 2 * iu1 P q * iw P q * iz12 P q - 8 * P.a ^ 4 * ig1 P q * iz12 P q - 2 * ip12 P q * iu1 P q * (iw P q) ^ 2 - 4 * (iu1 P q) ^ 2 * iu2 P q * iw P q := by
    simp only [ig1, ip12, iu1, iu2, iw, iz12, ddX_D1D2, ddY_D1D2, ddZ_D1D2]
    ring
  have e3 : (1 / 2) * (4 * (dZ_D1 P q) ^ 2 * P.a ^ 2 + 4 * ddZ_D1D1 P q * P.a ^ 2 * Z P q + 4 * (1 * dX_D1 P q * X P q + 1 * dY_D1 P q * Y P q + 1 * dZ_D1 P q * Z P q) ^ 2 + (2 * (dX_D1 P q) ^ 2 + 2 * (dY_D1 P q) ^ 2 + 2 * (dZ_D1 P q) ^ 2 + 2 * ddX_D1D1 P q * X P q + 2 * ddY_D1D1 P q * Y P q + 2 * ddZ_D1D1 P q * Z P q) * (-P.a ^ 2 + (X P q) ^ 2 + (Y P q) ^ 2 + (Z P q) ^ 2)) * ((-4) * dZ_D2 P q * P.a ^ 2 * Z P q - 2 * (dX_D2 P q * X P q + dY_D2 P q * Y P q + dZ_D2 P q * Z P q) * ((-1) * P.a ^ 2 + (X P q) ^ 2 + (Y P q) ^ 2 + (Z P q) ^ 2)) = 0 - 4 * P.a ^ 2 * ig2 P q * ip11 P q * iw P q - 8 * P.a ^ 2 * ig2 P q * (iu1 P q) ^ 2 - 4 * P.a ^ 2 * iu2 P q * iw P q * iz11 P q - 8 * P.a ^ 4 * ig2 P q * iz11 P q - 2 * ip11 P q * iu2 P q * (iw P q) ^ 2 - 4 * (iu1 P q) ^ 2 * iu2 P q * iw P q := by
    simp only [ig2, ip11, iu1, iu2, iw, iz11, ddX_D1D1, ddY_D1D1, ddZ_D1D1]
    ring
  have e4 : (1 / 2) * ((-12) * dZ_D1 P q * P.a ^ 2 * Z P q - 6 * (dX_D1 P q * X P q + dY_D1 P q * Y P q + dZ_D1 P q * Z P q) * ((-1) * P.a ^ 2 + (X P q) ^ 2 + (Y P q) ^ 2 + (Z P q) ^ 2)) * (4 * dZ_D1 P q * P.a ^ 2 * Z P q + 2 * (dX_D1 P q * X P q + dY_D1 P q * Y P q + dZ_D1 P q * Z P q) * ((-1) * P.a ^ 2 + (X P q) ^ 2 + (Y P q) ^ 2 + (Z P q) ^ 2)) * ((-4) * dZ_D2 P q * P.a ^ 2 * Z P q - 2 * (dX_D2 P q * X P q + dY_D2 P q * Y P q + dZ_D2 P q * Z P q) * ((-1) * P.a ^ 2 + (X P q) ^ 2 + (Y P q) ^ 2 + (Z P q) ^ 2)) = 48 * P.a ^ 2 * ig1 P q * iu1 P q * iu2 P q * (iw P q) ^ 2 + 24 * P.a ^ 2 * ig2 P q * (iu1 P q) ^ 2 * (iw P q) ^ 2 + 96 * P.a ^ 4 * ig1 P q * ig2 P q * iu1 P q * iw P q + 48 * P.a ^ 4 * (ig1 P q) ^ 2 * iu2 P q * iw P q + 96 * P.a ^ 6 * (ig1 P q) ^ 2 * ig2 P q + 12 * (iu1 P q) ^ 2 * iu2 P q * (iw P q) ^ 3 := by
    simp only [ig1, ig2, iu1, iu2, iw]
    ring
  have e5 : (1 / 2) * (4 * dZ_D1 P q * dZ_D2 P q * P.a ^ 2 + 4 * ddZ_D1D2 P q * P.a ^ 2 * Z P q + 4 * (1 * dX_D1 P q * X P q + 1 * dY_D1 P q * Y P q + 1 * dZ_D1 P q * Z P q) * (dX_D2 P q * X P q + dY_D2 P q * Y P q + dZ_D2 P q * Z P q) + (2 * dX_D1 P q * dX_D2 P q + 2 * dY_D1 P q * dY_D2 P q + 2 * dZ_D1 P q * dZ_D2 P q + 2 * ddX_D1D2 P q * X P q + 2 * ddY_D1D2 P q * Y P q + 2 * ddZ_D1D2 P q * Z P q) * (-P.a ^ 2 + (X P q) ^ 2 + (Y P q) ^ 2 + (Z P q) ^ 2)) = 2 * P.a ^ 2 * iz12 P q + ip12 P q * iw P q + 2 * iu1 P q * iu2 P q := by
    simp only [ip12, iu1, iu2, iw, iz12, ddX_D1D2, ddY_D1D2, ddZ_D1D2]
    ring
  have e6 : (1 / 2) * (4 * dZ_D1 P q * dZ_D2 P q * P.a ^ 2 + 4 * ddZ_D1D2 P q * P.a ^ 2 * Z P q + 4 * (dX_D1 P q * X P q + dY_D1 P q * Y P q + dZ_D1 P q * Z P q) * (1 * dX_D2 P q * X P q + 1 * dY_D2 P q * Y P q + 1 * dZ_D2 P q * Z P q) + (2 * dX_D1 P q * dX_D2 P q + 2 * dY_D1 P q * dY_D2 P q + 2 * dZ_D1 P q * dZ_D2 P q + 2 * ddX_D1D2 P q * X P q + 2 * ddY_D1D2 P q * Y P q + 2 * ddZ_D1D2 P q * Z P q) * (-P.a ^ 2 + (X P q) ^ 2 + (Y P q) ^ 2 + (Z P q) ^ 2)) = 2 * P.a ^ 2 * iz12 P q + ip12 P q * iw P q + 2 * iu1 P q * iu2 P q := by
    simp only [ip12, iu1, iu2, iw, iz12, ddX_D1D2, ddY_D1D2, ddZ_D1D2]
    ring
  have e7 : (1 / 2) * (4 * (dZ_D1 P q) ^ 2 * P.a ^ 2 + 4 * ddZ_D1D1 P q * P.a ^ 2 * Z P q + 4 * (1 * dX_D1 P q * X P q + 1 * dY_D1 P q * Y P q + 1 * dZ_D1 P q * Z P q) ^ 2 + (2 * (dX_D1 P q) ^ 2 + 2 * (dY_D1 P q) ^ 2 + 2 * (dZ_D1 P q) ^ 2 + 2 * ddX_D1D1 P q * X P q + 2 * ddY_D1D1 P q * Y P q + 2 * ddZ_D1D1 P q * Z P q) * (-P.a ^ 2 + (X P q) ^ 2 + (Y P q) ^ 2 + (Z P q) ^ 2)) = 2 * P.a ^ 2 * iz11 P q + ip11 P q * iw P q + 2 * (iu1 P q) ^ 2 := by
    simp only [ip11, iu1, iw, iz11, ddX_D1D1, ddY_D1D1, ddZ_D1D1]
    ring
  have e8 : (1 / 2) * (4 * dZ_D1 P q * P.a ^ 2 * Z P q + 2 * (dX_D1 P q * X P q + dY_D1 P q * Y P q + dZ_D1 P q * Z P q) * ((-1) * P.a ^ 2 + (X P q) ^ 2 + (Y P q) ^ 2 + (Z P q) ^ 2)) * ((-4) * dZ_D2 P q * P.a ^ 2 * Z P q - 2 * (dX_D2 P q * X P q + dY_D2 P q * Y P q + dZ_D2 P q * Z P q) * ((-1) * P.a ^ 2 + (X P q) ^ 2 + (Y P q) ^ 2 + (Z P q) ^ 2)) = 0 - 4 * P.a ^ 2 * ig1 P q * iu2 P q * iw P q - 4 * P.a ^ 2 * ig2 P q * iu1 P q * iw P q - 8 * P.a ^ 4 * ig1 P q * ig2 P q - 2 * iu1 P q * iu2 P q * (iw P q) ^ 2 := by
    simp only [ig1, ig2, iu1, iu2, iw]
    ring
  have e9 : (1 / 2) * ((-4) * dZ_D1 P q * P.a ^ 2 * Z P q - 2 * (dX_D1 P q * X P q + dY_D1 P q * Y P q + dZ_D1 P q * Z P q) * ((-1) * P.a ^ 2 + (X P q) ^ 2 + (Y P q) ^ 2 + (Z P q) ^ 2)) * (4 * dZ_D2 P q * P.a ^ 2 * Z P q + 2 * (dX_D2 P q * X P q + dY_D2 P q * Y P q + dZ_D2 P q * Z P q) * ((-1) * P.a ^ 2 + (X P q) ^ 2 + (Y P q) ^ 2 + (Z P q) ^ 2)) = 0 - 4 * P.a ^ 2 * ig1 P q * iu2 P q * iw P q - 4 * P.a ^ 2 * ig2 P q * iu1 P q * iw P q - 8 * P.a ^ 4 * ig1 P q * ig2 P q - 2 * iu1 P q * iu2 P q * (iw P q) ^ 2 := by
    simp only [ig1, ig2, iu1, iu2, iw]
    ring
  have e10 : 2 * (dZ_D1 P q * Z P q * ((-1) * P.a ^ 2 - 1 * (X P q) ^ 2 - 1 * (Y P q) ^ 2 - 1 * (Z P q) ^ 2) + dX_D1 P q * X P q * (1 * P.a ^ 2 - 1 * (X P q) ^ 2 - 1 * (Y P q) ^ 2 - 1 * (Z P q) ^ 2) + dY_D1 P q * Y P q * (1 * P.a ^ 2 - 1 * (X P q) ^ 2 - 1 * (Y P q) ^ 2 - 1 * (Z P q) ^ 2)) ^ 2 = 8 * P.a ^ 2 * ig1 P q * iu1 P q * iw P q + 8 * P.a ^ 4 * (ig1 P q) ^ 2 + 2 * (iu1 P q) ^ 2 * (iw P q) ^ 2 := by
    simp only [ig1, iu1, iw]
    ring
  have e11 : 1 * dX_D2 P q * ddX_D1D1 P q + 1 * dY_D2 P q * ddY_D1D1 P q + 1 * dZ_D2 P q * ddZ_D1D1 P q + 2 * dX_D1 P q * ddX_D1D2 P q + 2 * dY_D1 P q * ddY_D1D2 P q + 2 * dZ_D1 P q * ddZ_D1D2 P q + 1 * dddX_D1D1D2 P q * X P q + 1 * dddY_D1D1D2 P q * Y P q + 1 * dddZ_D1D1D2 P q * Z P q = 0 := by
    simp only [ddX_D1D1, ddX_D1D2, ddY_D1D1, ddY_D1D2, ddZ_D1D1, ddZ_D1D2, dddX_D1D1D2, dddY_D1D1D2, dddZ_D1D1D2]
    ring
  have e12 : (1 / 2) * (4 * dZ_D1 P q * P.a ^ 2 * Z P q + 2 * (dX_D1 P q * X P q + dY_D1 P q * Y P q + dZ_D1 P q * Z P q) * ((-1) * P.a ^ 2 + (X P q) ^ 2 + (Y P q) ^ 2 + (Z P q) ^ 2)) = 2 * P.a ^ 2 * ig1 P q + iu1 P q * iw P q := by
    simp only [ig1, iu1, iw]
    ring
  have e13 : (1 / 2) * (4 * dZ_D2 P q * P.a ^ 2 * Z P q + 2 * (dX_D2 P q * X P q + dY_D2 P q * Y P q + dZ_D2 P q * Z P q) * ((-1) * P.a ^ 2 + (X P q) ^ 2 + (Y P q) ^ 2 + (Z P q) ^ 2)) = 2 * P.a ^ 2 * ig2 P q + iu2 P q * iw P q := by
    simp only [ig2, iu2, iw]
    ring
  have e14 : (3 / 2) * (4 * dZ_D1 P q * P.a ^ 2 * Z P q + 2 * (dX_D1 P q * X P q + dY_D1 P q * Y P q + dZ_D1 P q * Z P q) * ((-1) * P.a ^ 2 + (X P q) ^ 2 + (Y P q) ^ 2 + (Z P q) ^ 2)) = 6 * P.a ^ 2 * ig1 P q + 3 * iu1 P q * iw P q := by
    simp only [ig1, iu1, iw]
    ring
  have e15 : (-1) * dX_D1 P q * dX_D2 P q - 1 * dY_D1 P q * dY_D2 P q - 1 * dZ_D1 P q * dZ_D2 P q - 1 * ddX_D1D2 P q * X P q - 1 * ddY_D1D2 P q * Y P q - 1 * ddZ_D1D2 P q * Z P q = 0 - ip12 P q := by
    simp only [ip12, ddX_D1D2, ddY_D1D2, ddZ_D1D2]
    ring
  have e16 : 1 * dX_D1 P q * dX_D2 P q + 1 * dY_D1 P q * dY_D2 P q + 1 * dZ_D1 P q * dZ_D2 P q + 1 * ddX_D1D2 P q * X P q + 1 * ddY_D1D2 P q * Y P q + 1 * ddZ_D1D2 P q * Z P q = ip12 P q := by
    simp only [ip12, ddX_D1D2, ddY_D1D2, ddZ_D1D2]
    ring
  have e17 : 1 * (dX_D1 P q) ^ 2 + 1 * (dY_D1 P q) ^ 2 + 1 * (dZ_D1 P q) ^ 2 + 1 * ddX_D1D1 P q * X P q + 1 * ddY_D1D1 P q * Y P q + 1 * ddZ_D1D1 P q * Z P q = ip11 P q := by
    simp only [ip11, ddX_D1D1, ddY_D1D1, ddZ_D1D1]
    ring
  have e18 : (-1) * dX_D1 P q * X P q - 1 * dY_D1 P q * Y P q - 1 * dZ_D1 P q * Z P q = 0 - iu1 P q := by
    simp only [iu1]
    ring
  have e19 : (-1) * dX_D2 P q * X P q - 1 * dY_D2 P q * Y P q - 1 * dZ_D2 P q * Z P q = 0 - iu2 P q := by
    simp only [iu2]
    ring
  have e20 : (-3) * dX_D1 P q * X P q - 3 * dY_D1 P q * Y P q - 3 * dZ_D1 P q * Z P q = 0 - 3 * iu1 P q := by
    simp only [iu1]
    ring
  have e21 : 1 * dX_D1 P q * X P q + 1 * dY_D1 P q * Y P q + 1 * dZ_D1 P q * Z P q = iu1 P q := by
    simp only [iu1]
    ring
  unfold dddR_D1D2D1
  rw [e0, e1, e2, e3, e4, e5, e6, e7, e8, e9, e10, e11, e12, e13, e14, e15, e16, e17, e18, e19, e20, e21]
  rfl

noncomputable def dddR_D1D2D2_i (P : Par) (q : Pt) : ℝ :=
  P.lit * (0 - ip22 P q + (8 * P.a ^ 2 * ig2 P q * iu2 P q * iw P q + 8 * P.a ^ 4 * (ig2 P q) ^ 2 + 2 * (iu2 P q) ^ 2 * (iw P q) ^ 2) / (Tq P q) ^ 3 - (2 * P.a ^ 2 * iz22
    P q + ip22 P q * iw P q + 2 * (iu2 P q) ^ 2) / Tq P q) * (iu1 P q + (2 * P.a ^ 2 * ig1 P q + iu1 P q * iw P q) / Tq P q) / (Sq P q) ^ 3 + P.lit * (0 + (4 * ip12 P q *
    iu2 P q + 2 * ip22 P q * iu1 P q) / Tq P q + (0 - 4 * P.a ^ 2 * ig1 P q * ip22 P q * iw P q - 8 * P.a ^ 2 * ig1 P q * (iu2 P q) ^ 2 - 4 * P.a ^ 2 * iu1 P q * iw P q *
    iz22 P q - 8 * P.a ^ 4 * ig1 P q * iz22 P q - 2 * ip22 P q * iu1 P q * (iw P q) ^ 2 - 4 * iu1 P q * (iu2 P q) ^ 2 * iw P q) / (Tq P q) ^ 3 + (0 - 8 * P.a ^ 2 * ig2 P
    q * ip12 P q * iw P q - 16 * P.a ^ 2 * ig2 P q * iu1 P q * iu2 P q - 8 * P.a ^ 2 * iu2 P q * iw P q * iz12 P q - 16 * P.a ^ 4 * ig2 P q * iz12 P q - 4 * ip12 P q *
    iu2 P q * (iw P q) ^ 2 - 8 * iu1 P q * (iu2 P q) ^ 2 * iw P q) / (Tq P q) ^ 3 + (24 * P.a ^ 2 * ig1 P q * (iu2 P q) ^ 2 * (iw P q) ^ 2 + 48 * P.a ^ 2 * ig2 P q * iu1
    P q * iu2 P q * (iw P q) ^ 2 + 96 * P.a ^ 4 * ig1 P q * ig2 P q * iu2 P q * iw P q + 48 * P.a ^ 4 * (ig2 P q) ^ 2 * iu1 P q * iw P q + 96 * P.a ^ 6 * ig1 P q * (ig2 P
    q) ^ 2 + 12 * iu1 P q * (iu2 P q) ^ 2 * (iw P q) ^ 3) / (Tq P q) ^ 5) / Sq P q + (2 * P.lit) * (ip12 P q + (2 * P.a ^ 2 * iz12 P q + ip12 P q * iw P q + 2 * iu1 P q *
    iu2 P q) / Tq P q + (0 - 4 * P.a ^ 2 * ig1 P q * iu2 P q * iw P q - 4 * P.a ^ 2 * ig2 P q * iu1 P q * iw P q - 8 * P.a ^ 4 * ig1 P q * ig2 P q - 2 * iu1 P q * iu2 P q
    * (iw P q) ^ 2) / (Tq P q) ^ 3) * (0 - iu2 P q - (2 * P.a ^ 2 * ig2 P q + iu2 P q * iw P q) / Tq P q) / (Sq P q) ^ 3 + P.lit * (iu1 P q + (2 * P.a ^ 2 * ig1 P q + iu1
    P q * iw P q) / Tq P q) * (0 - 3 * iu2 P q - (6 * P.a ^ 2 * ig2 P q + 3 * iu2 P q * iw P q) / Tq P q) * (0 - iu2 P q - (2 * P.a ^ 2 * ig2 P q + iu2 P q * iw P q) / Tq
    P q) / (Sq P q) ^ 5

theorem dddR_D1D2D2_eq (P : Par) (q : Pt) : dddR_D1D2D2 P q = dddR_D1D2D2_i P q := by
  have e0 : (1 / 2) * (4 * dZ_D1 P q * ddZ_D2D2 P q * P.a ^ 2 + 8 * dZ_D2 P q * ddZ_D1D2 P q * P.a ^ 2 + 4 * dddZ_D1D2D2 P q * P.a ^ 2 * Z P q + 4 * (1 * dX_D1 P q * X P q + 1 * dY_D1 P q * Y P q + 1 * dZ_D1 P q * Z P q) * ((dX_D2 P q) ^ 2 + (dY_D2 P q) ^ 2 + (dZ_D2 P q) ^ 2 + ddX_D2D2 P q * X P q + ddY_D2D2 P q * Y P q + ddZ_D2D2 P q * Z P q) + 8 * (dX_D2 P q * X P q + dY_D2 P q * Y P q + dZ_D2 P q * Z P q) * (1 * dX_D1 P q * dX_D2 P q + 1 * dY_D1 P q * dY_D2 P q + 1 * dZ_D1 P q * dZ_D2 P q + 1 * ddX_D1D2 P q * X P q + 1 * ddY_D1D2 P q * Y P q + 1 * ddZ_D1D2 P q * Z P q) + (2 * dX_D1 P q * ddX_D2D2 P q + 2 * dY_D1 P q * ddY_D2D2 P q + 2 * dZ_D1 P q * ddZ_D2D2 P q + 4 * dX_D2 P q * ddX_D1D2 P q + 4 * dY_D2 P q * ddY_D1D2 P q + 4 * dZ_D2 P q * ddZ_D1D2 P q + 2 * dddX_D1D2D2 P q * X P q + 2 * dddY_D1D2D2 P q * Y P q + 2 * dddZ_D1D2D2 P q * Z P q) * (-P.a ^ 2 + (X P q) ^ 2 + (Y P q) ^ 2 + (Z P q) ^ 2)) = 4 * ip12 P q * iu2 P q + 2 * ip22 P q * iu1 P q := by
    simp only [ip12, ip22, iu1, iu2, ddX_D1D2, ddX_D2D2, ddY_D1D2, ddY_D2D2, ddZ_D1D2, ddZ_D2D2, dddX_D1D2D2, dddY_D1D2D2, dddZ_D1D2D2]
    ring
  have e1 : 1 * (4 * dZ_D1 P q * dZ_D2 P q * P.a ^ 2 + 4 * ddZ_D1D2 P q * P.a ^ 2 * Z P q + 4 * (1 * dX_D1 P q * X P q + 1 * dY_D1 P q * Y P q + 1 * dZ_D1 P q * Z P q) * (dX_D2 P q * X P q + dY_D2 P q * Y P q + dZ_D2 P q * Z P q) + (2 * dX_D1 P q * dX_D2 P q + 2 * dY_D1 P q * dY_D2 P q + 2 * dZ_D1 P q * dZ_D2 P q + 2 * ddX_D1D2 P q * X P q + 2 * ddY_D1D2 P q * Y P q + 2 * ddZ_D1D2 P q * Z P q) * (-P.a ^ 2 + (X P q) ^ 2 + (Y P q) ^ 2 + (Z P q) ^ 2)) * ((-4) * dZ_D2 P q * P.a ^ 2 * Z P q - 2 * (dX_D2 P q * X P q + dY_D2 P q * Y P q + dZ_D2 P q * Z P q) * ((-1) * P.a ^ 2 + (X P q) ^ 2 + (Y P q) ^ 2 + (Z P q) ^ 2)) = 0 - 8 * P.a ^ 2 * ig2 P q * ip12 P q * iw P q - 16 * P.a ^ 2 * ig2 P q * iu1 P q * iu2 P q - 8 * P.a ^ 2 * iu2 P q * iw P q * iz12 P q - 16 * P.a ^ 4 * ig2 P q * iz12 P q - 4 * ip12 P q * iu2 P q * (iw P q) ^ 2 - 8 * iu1 P q * (iu2 P q) ^ 2 * iw P q := by
    simp only [ig2, ip12, iu1, iu2, iw, iz12, ddX_D1D2, ddY_D1D2, ddZ_D1D2]
    ring
  have e2 : (1 / 2) * ((-4) * (dZ_D2 P q) ^ 2 * P.a ^ 2 - 4 * ddZ_D2D2 P q * P.a ^ 2 * Z P q - 4 * (dX_D2 P q * X P q + dY_D2 P q * Y P q + dZ_D2 P q * Z P q) ^ 2 + ((-2) * (dX_D2 P q) ^ 2 - 2 * (dY_D2 P q) ^ 2 - 2 * (dZ_D2 P q) ^ 2 - 2 * ddX_D2D2 P q * X P q - 2 * ddY_D2D2 P q * Y P q - 2 * ddZ_D2D2 P q * Z P q) * (-P.a ^ 2 + (X P q) ^ 2 + (Y P q) ^ 2 + (Z P q) ^ 2)) * (4 * dZ_D1 P q * P.a ^ 2 * Z P q + 2 * (dX_D1 P q * X P q + dY_D1 P q * Y P q + dZ_D1 P q * Z P q) * ((-1) * P.a ^ 2 + (X P q) ^ 2 + (Y P q) ^ 2 + (Z P q) ^ 2)) = 0 - 4 * P.a ^ 2 * ig1 P q * ip22 P q * iw P q - 8 * P.a ^ 2 * ig1 P q * (iu2 P q) ^ 2 - 4 * P.a ^ 2 * iu1 P q * iw P q * iz22 P q - 8 * P.a ^ 4 * ig1 P q * iz22 P q - 2 * ip22 P q * iu1 P q * (iw P q) ^ 2 - 4 * iu1 P q * (iu2 P q) ^ 2 * iw P q := by
    simp only [ig1, ip22, iu1, iu2, iw, iz22, ddX_D2D2, ddY_D2D2, ddZ_D2D2]
    ring
  have e3 : (1 / 2) * (4 * dZ_D1 P q * P.a ^ 2 * Z P q + 2 * (dX_D1 P q * X P q + dY_D1 P q * Y P q + dZ_D1 P q * Z P q) * ((-1) * P.a ^ 2 + (X P q) ^ 2 + (Y P q) ^ 2 + (Z P q) ^ 2)) * ((-12) * dZ_D2 P q * P.a ^ 2 * Z P q - 6 * (dX_D2 P q * X P q + dY_D2 P q * Y P q + dZ_D2 P q * Z P q) * ((-1) * P.a ^ 2 + (X P q) ^ 2 + (Y P q) ^ 2 + (Z P q) ^ 2)) * ((-4) * dZ_D2 P q * P.a ^ 2 * Z P q - 2 * (dX_D2 P q * X P q + dY_D2 P q * Y P q + dZ_D2 P q * Z P q) * ((-1) * P.a ^ 2 + (X P q) ^ 2 + (Y P q) ^ 2 + (Z P q) ^ 2)) = 24 * P.a ^ 2 * ig1 P q * (iu2 P q) ^ 2 * (iw P q) ^ 2 + 48 * P.a ^ 2 * ig2 P q * iu1 P q * iu2 P q * (iw P q) ^ 2 + 96 * P.a ^ 4 * ig1 P q * ig2 P q * iu2 P q * iw P q + 48 * P.a ^ 4 * (ig2 P q) ^ 2 * iu1 P q * iw P q + 96 * P.a ^ 6 * ig1 P q * (ig2 P q) ^ 2 + 12 * iu1 P q * (iu2 P q) ^ 2 * (iw P q) ^ 3 := by
    simp only [ig1, ig2, iu1, iu2, iw]
    ring
  have e4 : (1 / 2) * (4 * dZ_D1 P q * dZ_D2 P q * P.a ^ 2 + 4 * ddZ_D1D2 P q * P.a ^ 2 * Z P q + 4 * (1 * dX_D1 P q * X P q + 1 * dY_D1 P q * Y P q + 1 * dZ_D1 P q * Z P q) * (dX_D2 P q * X P q + dY_D2 P q * Y P q + dZ_D2 P q * Z P q) + (2 * dX_D1 P q * dX_D2 P q + 2 * dY_D1 P q * dY_D2 P q + 2 * dZ_D1 P q * dZ_D2 P q + 2 * ddX_D1D2 P q * X P q + 2 * ddY_D1D2 P q * Y P q + 2 * ddZ_D1D2 P q * Z P q) * (-P.a ^ 2 + (X P q) ^ 2 + (Y P q) ^ 2 + (Z P q) ^ 2)) = 2 * P.a ^ 2 * iz12 P q + ip12 P q * iw P q + 2 * iu1 P q * iu2 P q := by
    simp only [ip12, iu1, iu2, iw, iz12, ddX_D1D2, ddY_D1D2, ddZ_D1D2]
    ring
  have e5 : (1 / 2) * (4 * (dZ_D2 P q) ^ 2 * P.a ^ 2 + 4 * ddZ_D2D2 P q * P.a ^ 2 * Z P q + 4 * (1 * dX_D2 P q * X P q + 1 * dY_D2 P q * Y P q + 1 * dZ_D2 P q * Z P q) ^ 2 + (2 * (dX_D2 P q) ^ 2 + 2 * (dY_D2 P q) ^ 2 + 2 * (dZ_D2 P q) ^ 2 + 2 * ddX_D2D2 P q * X P q + 2 * ddY_D2D2 P q * Y P q + 2 * ddZ_D2D2 P q * Z P q) * (-P.a ^ 2 + (X P q) ^ 2 + (Y P q) ^ 2 + (Z P q) ^ 2)) = 2 * P.a ^ 2 * iz22 P q + ip22 P q * iw P q + 2 * (iu2 P q) ^ 2 := by
    simp only [ip22, iu2, iw, iz22, ddX_D2D2, ddY_D2D2, ddZ_D2D2]
    ring
  have e6 : (1 / 2) * (4 * dZ_D1 P q * P.a ^ 2 * Z P q + 2 * (dX_D1 P q * X P q + dY_D1 P q * Y P q + dZ_D1 P q * Z P q) * ((-1) * P.a ^ 2 + (X P q) ^ 2 + (Y P q) ^ 2 + (Z P q) ^ 2)) * ((-4) * dZ_D2 P q * P.a ^ 2 * Z P q - 2 * (dX_D2 P q * X P q + dY_D2 P q * Y P q + dZ_D2 P q * Z P q) * ((-1) * P.a ^ 2 + (X P q) ^ 2 + (Y P q) ^ 2 + (Z P q) ^ 2)) = 0 - 4 * P.a ^ 2 * ig1 P q * iu2 P q * iw P q - 4 * P.a ^ 2 * ig2 P q * iu1 P q * iw P q - 8 * P.a ^ 4 * ig1 P q * ig2 P q - 2 * iu1 P q * iu2 P q * (iw P q) ^ 2 := by
    simp only [ig1, ig2, iu1, iu2, iw]
    ring
  have e7 : 2 * (dZ_D2 P q * Z P q * ((-1) * P.a ^ 2 - 1 * (X P q) ^ 2 - 1 * (Y P q) ^ 2 - 1 * (Z P q) ^ 2) + dX_D2 P q * X P q * (1 * P.a ^ 2 - 1 * (X P q) ^ 2 - 1 * (Y P q) ^ 2 - 1 * (Z P q) ^ 2) + dY_D2 P q * Y P q * (1 * P.a ^ 2 - 1 * (X P q) ^ 2 - 1 * (Y P q) ^ 2 - 1 * (Z P q) ^ 2)) ^ 2 = 8 * P.a ^ 2 * ig2 P q * iu2 P q * iw P q + 8 * P.a ^ 4 * (ig2 P q) ^ 2 + 2 * (iu2 P q) ^ 2 * (iw P q) ^ 2 := by
    simp only [ig2, iu2, iw]
    ring
  have e8 : 1 * dX_D1 P q * ddX_D2D2 P q + 1 * dY_D1 P q * ddY_D2D2 P q + 1 * dZ_D1 P q * ddZ_D2D2 P q + 2 * dX_D2 P q * ddX_D1D2 P q + 2 * dY_D2 P q * ddY_D1D2 P q + 2 * dZ_D2 P q * ddZ_D1D2 P q + 1 * dddX_D1D2D2 P q * X P q + 1 * dddY_D1D2D2 P q * Y P q + 1 * dddZ_D1D2D2 P q * Z P q = 0 := by
    simp only [ddX_D1D2, ddX_D2D2, ddY_D1D2, ddY_D2D2, ddZ_D1D2, ddZ_D2D2, dddX_D1D2D2, dddY_D1D2D2, dddZ_D1D2D2]
    ring
  have e9 : (1 / 2) * (4 * dZ_D1 P q * P.a ^ 2 * Z P q + 2 * (dX_D1 P q * X P q + dY_D1 P q * Y P q + dZ_D1 P q * Z P q) * ((-1) * P.a ^ 2 + (X P q) ^ 2 + (Y P q) ^ 2 + (Z P q) ^ 2)) = 2 * P.a ^ 2 * ig1 P q + iu1 P q * iw P q := by
    simp only [ig1, iu1, iw]
    ring
  have e10 : (1 / 2) * (4 * dZ_D2 P q * P.a ^ 2 * Z P q + 2 * (dX_D2 P q * X P q + dY_D2 P q * Y P q + dZ_D2 P q * Z P q) * ((-1) * P.a ^ 2 + (X P q) ^ 2 + (Y P q) ^ 2 + (Z P q) ^ 2)) = 2 * P.a ^ 2 * ig2 P q + iu2 P q * iw P q := by
    simp only [ig2, iu2, iw]
    ring
  have e11 : (3 / 2) * (4 * dZ_D2 P q * P.a ^ 2 * Z P q + 2 * (dX_D2 P q * X P q + dY_D2 P q * Y P q + dZ_D2 P q * Z P q) * ((-1) * P.a ^ 2 + (X P q) ^ 2 + (Y P q) ^ 2 + (Z P q) ^ 2)) = 6 * P.a ^ 2 * ig2 P q + 3 * iu2 P q * iw P q := by
    simp only [ig2, iu2, iw]
    ring
  have e12 : 1 * dX_D1 P q * dX_D2 P q + 1 * dY_D1 P q * dY_D2 P q + 1 * dZ_D1 P q * dZ_D2 P q + 1 * ddX_D1D2 P q * X P q + 1 * ddY_D1D2 P q * Y P q + 1 * ddZ_D1D2 P q * Z P q = ip12 P q := by
    simp only [ip12, ddX_D1D2, ddY_D1D2, ddZ_D1D2]
    ring
  have e13 : (-1) * (dX_D2 P q) ^ 2 - 1 * (dY_D2 P q) ^ 2 - 1 * (dZ_D2 P q) ^ 2 - 1 * ddX_D2D2 P q * X P q - 1 * ddY_D2D2 P q * Y P q - 1 * ddZ_D2D2 P q * Z P q = 0 - ip22 P q := by
    simp only [ip22, ddX_D2D2, ddY_D2D2, ddZ_D2D2]
    ring
  have e14 : (-1) * dX_D2 P q * X P q - 1 * dY_D2 P q * Y P q - 1 * dZ_D2 P q * Z P q = 0 - iu2 P q := by
    simp only [iu2]
    ring
  have e15 : (-3) * dX_D2 P q * X P q - 3 * dY_D2 P q * Y P q - 3 * dZ_D2 P q * Z P q = 0 - 3 * iu2 P q := by
    simp only [iu2]
    ring
  have e16 : 1 * dX_D1 P q * X P q + 1 * dY_D1 P q * Y P q + 1 * dZ_D1 P q * Z P q = iu1 P q := by
    simp only [iu1]
    ring
  unfold dddR_D1D2D2
  rw [e0, e1, e2, e3, e4, e5, e6, e7, e8, e9, e10, e11, e12, e13, e14, e15, e16]
  rfl

noncomputable def dddR_D2D2D0_i (P : Par) (q : Pt) : ℝ :=
  P.lit * (ip22 P q - (8 * P.a ^ 2 * ig2 P q * iu2 P q * iw P q + 8 * P.a ^ 4 * (ig2 P q) ^ 2 + 2 * (iu2 P q) ^ 2 * (iw P q) ^ 2) / (Tq P q) ^ 3 + (2 * P.a ^ 2 * iz22 P q
    + ip22 P q * iw P q + 2 * (iu2 P q) ^ 2) / Tq P q) * (0 - iu0 P q - (2 * P.a ^ 2 * ig0 P q + iu0 P q * iw P q) / Tq P q) / (Sq P q) ^ 3 + P.lit * (0 - 3 * iu0 P q -
    (6 * P.a ^ 2 * ig0 P q + 3 * iu0 P q * iw P q) / Tq P q) * (0 - iu2 P q - (2 * P.a ^ 2 * ig2 P q + iu2 P q * iw P q) / Tq P q) * (iu2 P q + (2 * P.a ^ 2 * ig2 P q +
    iu2 P q * iw P q) / Tq P q) / (Sq P q) ^ 5 + P.lit * (iu2 P q + (2 * P.a ^ 2 * ig2 P q + iu2 P q * iw P q) / Tq P q) * (0 - ip02 P q - (2 * P.a ^ 2 * iz02 P q + ip02
    P q * iw P q + 2 * iu0 P q * iu2 P q) / Tq P q - (0 - 4 * P.a ^ 2 * ig0 P q * iu2 P q * iw P q - 4 * P.a ^ 2 * ig2 P q * iu0 P q * iw P q - 8 * P.a ^ 4 * ig0 P q *
    ig2 P q - 2 * iu0 P q * iu2 P q * (iw P q) ^ 2) / (Tq P q) ^ 3) / (Sq P q) ^ 3 + P.lit * (0 - iu2 P q - (2 * P.a ^ 2 * ig2 P q + iu2 P q * iw P q) / Tq P q) * (ip02 P
    q + (2 * P.a ^ 2 * iz02 P q + ip02 P q * iw P q + 2 * iu0 P q * iu2 P q) / Tq P q + (0 - 4 * P.a ^ 2 * ig0 P q * iu2 P q * iw P q - 4 * P.a ^ 2 * ig2 P q * iu0 P q *
    iw P q - 8 * P.a ^ 4 * ig0 P q * ig2 P q - 2 * iu0 P q * iu2 P q * (iw P q) ^ 2) / (Tq P q) ^ 3) / (Sq P q) ^ 3 + P.lit * (0 + (4 * ip02 P q * iu2 P q + 2 * ip22 P q
    * iu0 P q) / Tq P q + (0 - 4 * P.a ^ 2 * ig0 P q * ip22 P q * iw P q - 8 * P.a ^ 2 * ig0 P q * (iu2 P q) ^ 2 - 4 * P.a ^ 2 * iu0 P q * iw P q * iz22 P q - 8 * P.a ^ 4
    * ig0 P q * iz22 P q - 2 * ip22 P q * iu0 P q * (iw P q) ^ 2 - 4 * iu0 P q * (iu2 P q) ^ 2 * iw P q) / (Tq P q) ^ 3 + (0 - 4 * P.a ^ 2 * ig2 P q * ip02 P q * iw P q -
    8 * P.a ^ 2 * ig2 P q * iu0 P q * iu2 P q - 4 * P.a ^ 2 * iu2 P q * iw P q * iz02 P q - 8 * P.a ^ 4 * ig2 P q * iz02 P q - 2 * ip02 P q * iu2 P q * (iw P q) ^ 2 - 4 *
    iu0 P q * (iu2 P q) ^ 2 * iw P q) / (Tq P q) ^ 3 + (0 - 4 * P.a ^ 2 * ig2 P q * ip02 P q * iw P q - 8 * P.a ^ 2 * ig2 P q * iu0 P q * iu2 P q - 4 * P.a ^ 2 * iu2 P q
    * iw P q * iz02 P q - 8 * P.a ^ 4 * ig2 P q * iz02 P q - 2 * ip02 P q * iu2 P q * (iw P q) ^ 2 - 4 * iu0 P q * (iu2 P q) ^ 2 * iw P q) / (Tq P q) ^ 3 + (24 * P.a ^ 2
    * ig0 P q * (iu2 P q) ^ 2 * (iw P q) ^ 2 + 48 * P.a ^ 2 * ig2 P q * iu0 P q * iu2 P q * (iw P q) ^ 2 + 96 * P.a ^ 4 * ig0 P q * ig2 P q * iu2 P q * iw P q + 48 * P.a
    ^ 4 * (ig2 P q) ^ 2 * iu0 P q * iw P q + 96 * P.a ^ 6 * ig0 P q * (ig2 P q) ^ 2 + 12 * iu0 P q * (iu2 P q) ^ 2 * (iw P q) ^ 3) / (Tq P q) ^ 5) / Sq P q

theorem dddR_D2D2D0_eq (P : Par) (q : Pt) : dddR_D2D2D0 P q = dddR_D2D2D0_i P q := by
  have e0 : (1 / 2) * (4 * dZ_D0 P q * ddZ_D2D2 P q * P.a ^ 2 + 8 * dZ_D2 P q * ddZ_D0D2 P q * P.a ^ 2 + 4 * dddZ_D0D2D2 P q * P.a ^ 2 * Z P q + 4 * (dX_D0 P q * X P q + dY_D0 P q * Y P q + dZ_D0 P q * Z P q) * (1 * (dX_D2 P q) ^ 2 + 1 * (dY_D2 P q) ^ 2 + 1 * (dZ_D2 P q) ^ 2 + 1 * ddX_D2D2 P q * X P q + 1 * ddY_D2D2 P q * Y P q + 1 * ddZ_D2D2 P q * Z P q) + 4 * (1 * dX_D2 P q * X P q + 1 * dY_D2 P q * Y P q + 1 * dZ_D2 P q * Z P q) * (dX_D0 P q * dX_D2 P q + dY_D0 P q * dY_D2 P q + dZ_D0 P q * dZ_D2 P q + ddX_D0D2 P q * X P q + ddY_D0D2 P q * Y P q + ddZ_D0D2 P q * Z P q) + 4 * (dX_D2 P q * X P q + dY_D2 P q * Y P q + dZ_D2 P q * Z P q) * (1 * dX_D0 P q * dX_D2 P q + 1 * dY_D0 P q * dY_D2 P q + 1 * dZ_D0 P q * dZ_D2 P q + 1 * ddX_D0D2 P q * X P q + 1 * ddY_D0D2 P q * Y P q + 1 * ddZ_D0D2 P q * Z P q) + (2 * dX_D0 P q * ddX_D2D2 P q + 2 * dY_D0 P q * ddY_D2D2 P q + 2 * dZ_D0 P q * ddZ_D2D2 P q + 4 * dX_D2 P q * ddX_D0D2 P q + 4 * dY_D2 P q * ddY_D0D2 P q + 4 * dZ_D2 P q * ddZ_D0D2 P q + 2 * dddX_D0D2D2 P q * X P q + 2 * dddY_D0D2D2 P q * Y P q + 2 * dddZ_D0D2D2 P q * Z P q) * (-P.a ^ 2 + (X P q) ^ 2 + (Y P q) ^ 2 + (Z P q) ^ 2)) = 4 * ip02 P q * iu2 P q + 2 * ip22 P q * iu0 P q := by
    simp only [ip02, ip22, iu0, iu2, ddX_D0D2, ddX_D2D2, ddY_D0D2, ddY_D2D2, ddZ_D0D2, ddZ_D2D2, dddX_D0D2D2, dddY_D0D2D2, dddZ_D0D2D2]
    ring
  have e1 : (1 / 2) * ((-4) * dZ_D0 P q * dZ_D2 P q * P.a ^ 2 - 4 * ddZ_D0D2 P q * P.a ^ 2 * Z P q - 4 * (dX_D0 P q * X P q + dY_D0 P q * Y P q + dZ_D0 P q * Z P q) * (1 * dX_D2 P q * X P q + 1 * dY_D2 P q * Y P q + 1 * dZ_D2 P q * Z P q) + ((-2) * dX_D0 P q * dX_D2 P q - 2 * dY_D0 P q * dY_D2 P q - 2 * dZ_D0 P q * dZ_D2 P q - 2 * ddX_D0D2 P q * X P q - 2 * ddY_D0D2 P q * Y P q - 2 * ddZ_D0D2 P q * Z P q) * (-P.a ^ 2 + (X P q) ^ 2 + (Y P q) ^ 2 + (Z P q) ^ 2)) * (4 * dZ_D2 P q * P.a ^ 2 * Z P q + 2 * (dX_D2 P q * X P q + dY_D2 P q * Y P q + dZ_D2 P q * Z P q) * ((-1) * P.a ^ 2 + (X P q) ^ 2 + (Y P q) ^ 2 + (Z P q) ^ 2)) = 0 - 4 * P.a ^ 2 * ig2 P q * ip02 P q * iw P q - 8 * P.a ^ 2 * ig2 P q * iu0 P q * iu2 P q - 4 * P.a ^ 2 * iu2 P q * iw P q * iz02 P q - 8 * P.a ^ 4 * ig2 P q * iz02 P q - 2 * ip02 P q * iu2 P q * (iw P q) ^ 2 - 4 * iu0 P q * (iu2 P q) ^ 2 * iw P q := by
    simp only [ig2, ip02, iu0, iu2, iw, iz02, ddX_D0D2, ddY_D0D2, ddZ_D0D2]
    ring
  have e2 : (1 / 2) * (4 * dZ_D0 P q * dZ_D2 P q * P.a ^ 2 + 4 * ddZ_D0D2 P q * P.a ^ 2 * Z P q + 4 * (dX_D0 P q * X P q + dY_D0 P q * Y P q + dZ_D0 P q * Z P q) * (1 * dX_D2 P q * X P q + 1 * dY_D2 P q * Y P q + 1 * dZ_D2 P q * Z P q) + (2 * dX_D0 P q * dX_D2 P q + 2 * dY_D0 P q * dY_D2 P q + 2 * dZ_D0 P q * dZ_D2 P q + 2 * ddX_D0D2 P q * X P q + 2 * ddY_D0D2 P q * Y P q + 2 * ddZ_D0D2 P q * Z P q) * (-P.a ^ 2 + (X P q) ^ 2 + (Y P q) ^ 2 + (Z P q) ^ 2)) * ((-4) * dZ_D2 P q * P.a ^ 2 * Z P q - 2 * (dX_D2 P q * X P q + dY_D2 P q * Y P q + dZ_D2 P q * Z P q) * ((-1) * P.a ^ 2 + (X P q) ^ 2 + (Y P q) ^ 2 + (Z P q) ^ 2)) = 0 - 4 * P.a ^ 2 * ig2 P q * ip02 P q * iw P q - 8 * P.a ^ 2 * ig2 P q * iu0 P q * iu2 P q - 4 * P.a ^ 2 * iu2 P q * iw P q * iz02 P q - 8 * P.a ^ 4 * ig2 P q * iz02 P q - 2 * ip02 P q * iu2 P q * (iw P q) ^ 2 - 4 * iu0 P q * (iu2 P q) ^ 2 * iw P q := by
    simp only [ig2, ip02, iu0, iu2, iw, iz02, ddX_D0D2, ddY_D0D2, ddZ_D0D2]
    ring
  have e3 : (1 / 2) * (4 * (dZ_D2 P q) ^ 2 * P.a ^ 2 + 4 * ddZ_D2D2 P q * P.a ^ 2 * Z P q + 4 * (1 * dX_D2 P q * X P q + 1 * dY_D2 P q * Y P q + 1 * dZ_D2 P q * Z P q) ^ 2 + (2 * (dX_D2 P q) ^ 2 + 2 * (dY_D2 P q) ^ 2 + 2 * (dZ_D2 P q) ^ 2 + 2 * ddX_D2D2 P q * X P q + 2 * ddY_D2D2 P q * Y P q + 2 * ddZ_D2D2 P q * Z P q) * (-P.a ^ 2 + (X P q) ^ 2 + (Y P q) ^ 2 + (Z P q) ^ 2)) * ((-4) * dZ_D0 P q * P.a ^ 2 * Z P q - 2 * (dX_D0 P q * X P q + dY_D0 P q * Y P q + dZ_D0 P q * Z P q) * ((-1) * P.a ^ 2 + (X P q) ^ 2 + (Y P q) ^ 2 + (Z P q) ^ 2)) = 0 - 4 * P.a ^ 2 * ig0 P q * ip22 P q * iw P q - 8 * P.a ^ 2 * ig0 P q * (iu2 P q) ^ 2 - 4 * P.a ^ 2 * iu0 P q * iw P q * iz22 P q - 8 * P.a ^ 4 * ig0 P q * iz22 P q - 2 * ip22 P q * iu0 P q * (iw P q) ^ 2 - 4 * iu0 P q * (iu2 P q) ^ 2 * iw P q := by
    simp only [ig0, ip22, iu0, iu2, iw, iz22, ddX_D2D2, ddY_D2D2, ddZ_D2D2]
    ring
  have e4 : (1 / 2) * ((-12) * dZ_D0 P q * P.a ^ 2 * Z P q - 6 * (dX_D0 P q * X P q + dY_D0 P q * Y P q + dZ_D0 P q * Z P q) * ((-1) * P.a ^ 2 + (X P q) ^ 2 + (Y P q) ^ 2 + (Z P q) ^ 2)) * ((-4) * dZ_D2 P q * P.a ^ 2 * Z P q - 2 * (dX_D2 P q * X P q + dY_D2 P q * Y P q + dZ_D2 P q * Z P q) * ((-1) * P.a ^ 2 + (X P q) ^ 2 + (Y P q) ^ 2 + (Z P q) ^ 2)) * (4 * dZ_D2 P q * P.a ^ 2 * Z P q + 2 * (dX_D2 P q * X P q + dY_D2 P q * Y P q + dZ_D2 P q * Z P q) * ((-1) * P.a ^ 2 + (X P q) ^ 2 + (Y P q) ^ 2 + (Z P q) ^ 2)) = 24 * P.a ^ 2 * ig0 P q * (iu2 P q) ^ 2 * (iw P q) ^ 2 + 48 * P.a ^ 2 * ig2 P q * iu0 P q * iu2 P q * (iw P q) ^ 2 + 96 * P.a ^ 4 * ig0 P q * ig2 P q * iu2 P q * iw P q + 48 * P.a ^ 4 * (ig2 P q) ^ 2 * iu0 P q * iw P q + 96 * P.a ^ 6 * ig0 P q * (ig2 P q) ^ 2 + 12 * iu0 P q * (iu2 P q) ^ 2 * (iw P q) ^ 3 := by
    simp only [ig0, ig2, iu0, iu2, iw]
    ring
  have e5 : (1 / 2) * (4 * dZ_D0 P q * dZ_D2 P q * P.a ^ 2 + 4 * ddZ_D0D2 P q * P.a ^ 2 * Z P q + 4 * (dX_D0 P q * X P q + dY_D0 P q * Y P q + dZ_D0 P q * Z P q) * (1 * dX_D2 P q * X P q + 1 * dY_D2 P q * Y P q + 1 * dZ_D2 P q * Z P q) + (2 * dX_D0 P q * dX_D2 P q + 2 * dY_D0 P q * dY_D2 P q + 2 * dZ_D0 P q * dZ_D2 P q + 2 * ddX_D0D2 P q * X P q + 2 * ddY_D0D2 P q * Y P q + 2 * ddZ_D0D2 P q * Z P q) * (-P.a ^ 2 + (X P q) ^ 2 + (Y P q) ^ 2 + (Z P q) ^ 2)) = 2 * P.a ^ 2 * iz02 P q + ip02 P q * iw P q + 2 * iu0 P q * iu2 P q := by
    simp only [ip02, iu0, iu2, iw, iz02, ddX_D0D2, ddY_D0D2, ddZ_D0D2]
    ring
  have e6 : (1 / 2) * (4 * (dZ_D2 P q) ^ 2 * P.a ^ 2 + 4 * ddZ_D2D2 P q * P.a ^ 2 * Z P q + 4 * (1 * dX_D2 P q * X P q + 1 * dY_D2 P q * Y P q + 1 * dZ_D2 P q * Z P q) ^ 2 + (2 * (dX_D2 P q) ^ 2 + 2 * (dY_D2 P q) ^ 2 + 2 * (dZ_D2 P q) ^ 2 + 2 * ddX_D2D2 P q * X P q + 2 * ddY_D2D2 P q * Y P q + 2 * ddZ_D2D2 P q * Z P q) * (-P.a ^ 2 + (X P q) ^ 2 + (Y P q) ^ 2 + (Z P q) ^ 2)) = 2 * P.a ^ 2 * iz22 P q + ip22 P q * iw P q + 2 * (iu2 P q) ^ 2 := by
    simp only [ip22, iu2, iw, iz22, ddX_D2D2, ddY_D2D2, ddZ_D2D2]
    ring
  have e7 : (1 / 2) * ((-4) * dZ_D0 P q * P.a ^ 2 * Z P q - 2 * (dX_D0 P q * X P q + dY_D0 P q * Y P q + dZ_D0 P q * Z P q) * ((-1) * P.a ^ 2 + (X P q) ^ 2 + (Y P q) ^ 2 + (Z P q) ^ 2)) * (4 * dZ_D2 P q * P.a ^ 2 * Z P q + 2 * (dX_D2 P q * X P q + dY_D2 P q * Y P q + dZ_D2 P q * Z P q) * ((-1) * P.a ^ 2 + (X P q) ^ 2 + (Y P q) ^ 2 + (Z P q) ^ 2)) = 0 - 4 * P.a ^ 2 * ig0 P q * iu2 P q * iw P q - 4 * P.a ^ 2 * ig2 P q * iu0 P q * iw P q - 8 * P.a ^ 4 * ig0 P q * ig2 P q - 2 * iu0 P q * iu2 P q * (iw P q) ^ 2 := by
    simp only [ig0, ig2, iu0, iu2, iw]
    ring
  have e8 : 2 * (dZ_D2 P q * Z P q * ((-1) * P.a ^ 2 - 1 * (X P q) ^ 2 - 1 * (Y P q) ^ 2 - 1 * (Z P q) ^ 2) + dX_D2 P q * X P q * (1 * P.a ^ 2 - 1 * (X P q) ^ 2 - 1 * (Y P q) ^ 2 - 1 * (Z P q) ^ 2) + dY_D2 P q * Y P q * (1 * P.a ^ 2 - 1 * (X P q) ^ 2 - 1 * (Y P q) ^ 2 - 1 * (Z P q) ^ 2)) ^ 2 = 8 * P.a ^ 2 * ig2 P q * iu2 P q * iw P q + 8 * P.a ^ 4 * (ig2 P q) ^ 2 + 2 * (iu2 P q) ^ 2 * (iw P q) ^ 2 := by
    simp only [ig2, iu2, iw]
    ring
  have e9 : 1 * dX_D0 P q * ddX_D2D2 P q + 1 * dY_D0 P q * ddY_D2D2 P q + 1 * dZ_D0 P q * ddZ_D2D2 P q + 2 * dX_D2 P q * ddX_D0D2 P q + 2 * dY_D2 P q * ddY_D0D2 P q + 2 * dZ_D2 P q * ddZ_D0D2 P q + 1 * dddX_D0D2D2 P q * X P q + 1 * dddY_D0D2D2 P q * Y P q + 1 * dddZ_D0D2D2 P q * Z P q = 0 := by
    simp only [ddX_D0D2, ddX_D2D2, ddY_D0D2, ddY_D2D2, ddZ_D0D2, ddZ_D2D2, dddX_D0D2D2, dddY_D0D2D2, dddZ_D0D2D2]
    ring
  have e10 : (1 / 2) * (4 * dZ_D0 P q * P.a ^ 2 * Z P q + 2 * (dX_D0 P q * X P q + dY_D0 P q * Y P q + dZ_D0 P q * Z P q) * ((-1) * P.a ^ 2 + (X P q) ^ 2 + (Y P q) ^ 2 + (Z P q) ^ 2)) = 2 * P.a ^ 2 * ig0 P q + iu0 P q * iw P q := by
    simp only [ig0, iu0, iw]
    ring
  have e11 : (3 / 2) * (4 * dZ_D0 P q * P.a ^ 2 * Z P q + 2 * (dX_D0 P q * X P q + dY_D0 P q * Y P q + dZ_D0 P q * Z P q) * ((-1) * P.a ^ 2 + (X P q) ^ 2 + (Y P q) ^ 2 + (Z P q) ^ 2)) = 6 * P.a ^ 2 * ig0 P q + 3 * iu0 P q * iw P q := by
    simp only [ig0, iu0, iw]
    ring
  have e12 : (1 / 2) * (4 * dZ_D2 P q * P.a ^ 2 * Z P q + 2 * (dX_D2 P q * X P q + dY_D2 P q * Y P q + dZ_D2 P q * Z P q) * ((-1) * P.a ^ 2 + (X P q) ^ 2 + (Y P q) ^ 2 + (Z P q) ^ 2)) = 2 * P.a ^ 2 * ig2 P q + iu2 P q * iw P q := by
    simp only [ig2, iu2, iw]
    ring
  have e13 : (-1) * dX_D0 P q * dX_D2 P q - 1 * dY_D0 P q * dY_D2 P q - 1 * dZ_D0 P q * dZ_D2 P q - 1 * ddX_D0D2 P q * X P q - 1 * ddY_D0D2 P q * Y P q - 1 * ddZ_D0D2 P q * Z P q = 0 - ip02 P q := by
    simp only [ip02, ddX_D0D2, ddY_D0D2, ddZ_D0D2]
    ring
  have e14 : 1 * dX_D0 P q * dX_D2 P q + 1 * dY_D0 P q * dY_D2 P q + 1 * dZ_D0 P q * dZ_D2 P q + 1 * ddX_D0D2 P q * X P q + 1 * ddY_D0D2 P q * Y P q + 1 * ddZ_D0D2 P q * Z P q = ip02 P q := by
    simp only [ip02, ddX_D0D2, ddY_D0D2, ddZ_D0D2]
    ring
  have e15 : 1 * (dX_D2 P q) ^ 2 + 1 * (dY_D2 P q) ^ 2 + 1 * (dZ_D2 P q) ^ 2 + 1 * ddX_D2D2 P q * X P q + 1 * ddY_D2D2 P q * Y P q + 1 * ddZ_D2D2 P q * Z P q = ip22 P q := by
    simp only [ip22, ddX_D2D2, ddY_D2D2, ddZ_D2D2]
    ring
  have e16 : (-1) * dX_D0 P q * X P q - 1 * dY_D0 P q * Y P q - 1 * dZ_D0 P q * Z P q = 0 - iu0 P q := by
    simp only [iu0]
    ring
  have e17 : (-3) * dX_D0 P q * X P q - 3 * dY_D0 P q * Y P q - 3 * dZ_D0 P q * Z P q = 0 - 3 * iu0 P q := by
    simp only [iu0]
    ring
  have e18 : (-1) * dX_D2 P q * X P q - 1 * dY_D2 P q * Y P q - 1 * dZ_D2 P q * Z P q = 0 - iu2 P q := by
    simp only [iu2]
    ring
  have e19 : 1 * dX_D2 P q * X P q + 1 * dY_D2 P q * Y P q + 1 * dZ_D2 P q * Z P q = iu2 P q := by
    simp only [iu2]
    ring
  unfold dddR_D2D2D0
  rw [e0, e1, e2, e3, e4, e5, e6, e7, e8, e9, e10, e11, e12, e13, e14, e15, e16, e17, e18, e19]
  rfl

noncomputable def dddR_D2D2D1_i (P : Par) (q : Pt) : ℝ :=
  P.lit * (ip22 P q - (8 * P.a ^ 2 * ig2 P q * iu2 P q * iw P q + 8 * P.a ^ 4 * (ig2 P q) ^ 2 + 2 * (iu2 P q) ^ 2 * (iw P q) ^ 2) / (Tq P q) ^ 3 + (2 * P.a ^ 2 * iz22 P q
    + ip22 P q * iw P q + 2 * (iu2 P q) ^ 2) / Tq P q) * (0 - iu1 P q - (2 * P.a ^ 2 * ig1 P q + iu1 P q * iw P q) / Tq P q) / (Sq P q) ^ 3 + P.lit * (0 - 3 * iu1 P q -
    (6 * P.a ^ 2 * ig1 P q + 3 * iu1 P q * iw P q) / Tq P q) * (0 - iu2 P q - (2 * P.a ^ 2 * ig2 P q + iu2 P q * iw P q) / Tq P q) * (iu2 P q + (2 * P.a ^ 2 * ig2 P q +
    iu2 P q * iw P q) / Tq P q) / (Sq P q) ^ 5 + P.lit * (iu2 P q + (2 * P.a ^ 2 * ig2 P q + iu2 P q * iw P q) / Tq P q) * (0 - ip12 P q - (2 * P.a ^ 2 * iz12 P q + ip12
    P q * iw P q + 2 * iu1 P q * iu2 P q) / Tq P q - (0 - 4 * P.a ^ 2 * ig1 P q * iu2 P q * iw P q - 4 * P.a ^ 2 * ig2 P q * iu1 P q * iw P q - 8 * P.a ^ 4 * ig1 P q *
    ig2 P q - 2 * iu1 P q * iu2 P q * (iw P q) ^ 2) / (Tq P q) ^ 3) / (Sq P q) ^ 3 + P.lit * (0 - iu2 P q - (2 * P.a ^ 2 * ig2 P q + iu2 P q * iw P q) / Tq P q) * (ip12 P
    q + (2 * P.a ^ 2 * iz12 P q + ip12 P q * iw P q + 2 * iu1 P q * iu2 P q) / Tq P q + (0 - 4 * P.a ^ 2 * ig1 P q * iu2 P q * iw P q - 4 * P.a ^ 2 * ig2 P q * iu1 P q *
    iw P q - 8 * P.a ^ 4 * ig1 P q * ig2 P q - 2 * iu1 P q * iu2 P q * (iw P q) ^ 2) / (Tq P q) ^ 3) / (Sq P q) ^ 3 + P.lit * (0 + (4 * ip12 P q * iu2 P q + 2 * ip22 P q
    * iu1 P q) / Tq P q + (0 - 4 * P.a ^ 2 * ig1 P q * ip22 P q * iw P q - 8 * P.a ^ 2 * ig1 P q * (iu2 P q) ^ 2 - 4 * P.a ^ 2 * iu1 P q * iw P q * iz22 P q - 8 * P.a ^ 4
    * ig1 P q * iz22 P q - 2 * ip22 P q * iu1 P q * (iw P q) ^ 2 - 4 * iu1 P q * (iu2 P q) ^ 2 * iw P q) / (Tq P q) ^ 3 + (0 - 4 * P.a ^ 2 * ig2 P q * ip12 P q * iw P q -
    8 * P.a ^ 2 * ig2 P q * iu1 P q * iu2 P q - 4 * P.a ^ 2 * iu2 P q * iw P q * iz12 P q - 8 * P.a ^ 4 * ig2 P q * iz12 P q - 2 * ip12 P q * iu2 P q * (iw P q) ^ 2 - 4 *
    iu1 P q * (iu2 P q) ^ 2 * iw P q) / (Tq P q) ^ 3 + (0 - 4 * P.a ^ 2 * ig2 P q * ip12 P q * iw P q - 8 * P.a ^ 2 * ig2 P q * iu1 P q * iu2 P q - 4 * P.a ^ 2 * iu2 P q
    * iw P q * iz12 P q - 8 * P.a ^ 4 * ig2 P q * iz12 P q - 2 * ip12 P q * iu2 P q * (iw P q) ^ 2 - 4 * iu1 P q * (iu2 P q) ^ 2 * iw P q) / (Tq P q) ^ 3 + (24 * P.a ^ 2
    * ig1 P q * (iu2 P q) ^ 2 * (iw P q) ^ 2 + 48 * P.a ^ 2 * ig2 P q * iu1 P q * iu2 P q * (iw P q) ^ 2 + 96 * P.a ^ 4 * ig1 P q * ig2 P q * iu2 P q * iw P q + 48 * P.a
    ^ 4 * (ig2 P q) ^ 2 * iu1 P q * iw P q + 96 * P.a ^ 6 * ig1 P q * (ig2 P q) ^ 2 + 12 * iu1 P q * (iu2 P q) ^ 2 * (iw P q) ^ 3) / (Tq P q) ^ 5) / Sq P q

theorem dddR_D2D2D1_eq (P : Par) (q : Pt) : dddR_D2D2D1 P q = dddR_D2D2D1_i P q := by
  have e0 : (1 / 2) * (4 * dZ_D1 P q * ddZ_D2D2 P q * P.a ^ 2 + 8 * dZ_D2 P q * ddZ_D1D2 P q * P.a ^ 2 + 4 * dddZ_D1D2D2 P q * P.a ^ 2 * Z P q + 4 * (dX_D1 P q * X P q + dY_D1 P q * Y P q + dZ_D1 P q * Z P q) * (1 * (dX_D2 P q) ^ 2 + 1 * (dY_D2 P q) ^ 2 + 1 * (dZ_D2 P q) ^ 2 + 1 * ddX_D2D2 P q * X P q + 1 * ddY_D2D2 P q * Y P q + 1 * ddZ_D2D2 P q * Z P q) + 4 * (1 * dX_D2 P q * X P q + 1 * dY_D2 P q * Y P q + 1 * dZ_D2 P q * Z P q) * (dX_D1 P q * dX_D2 P q + dY_D1 P q * dY_D2 P q + dZ_D1 P q * dZ_D2 P q + ddX_D1D2 P q * X P q + ddY_D1D2 P q * Y P q + ddZ_D1D2 P q * Z P q) + 4 * (dX_D2 P q * X P q + dY_D2 P q * Y P q + dZ_D2 P q * Z P q) * (1 * dX_D1 P q * dX_D2 P q + 1 * dY_D1 P q * dY_D2 P q + 1 * dZ_D1 P q * dZ_D2 P q + 1 * ddX_D1D2 P q * X P q + 1 * ddY_D1D2 P q * Y P q + 1 * ddZ_D1D2 P q * Z P q) + (2 * dX_D1 P q * ddX_D2D2 P q + 2 * dY_D1 P q * ddY_D2D2 P q + 2 * dZ_D1 P q * ddZ_D2D2 P q + 4 * dX_D2 P q * ddX_D1D2 P q + 4 * dY_D2 P q * ddY_D1D2 P q + 4 * dZ_D2 P q * ddZ_D1D2 P q + 2 * dddX_D1D2D2 P q * X P q + 2 * dddY_D1D2D2 P q * Y P q + 2 * dddZ_D1D2D2 P q * Z P q) * (-P.a ^ 2 + (X P q) ^ 2 + (Y P q) ^ 2 + (Z P q) ^ 2)) = 4 * ip12 P q * iu2 P q + 2 * ip22 P q * iu1 P q := by
    simp only [ip12, ip22, iu1, iu2, ddX_D1D2, ddX_D2D2, ddY_D1D2, ddY_D2D2, ddZ_D1D2, ddZ_D2D2, dddX_D1D2D2, dddY_D1D2D2, dddZ_D1D2D2]
    ring
  have e1 : (1 / 2) * ((-4) * dZ_D1 P q * dZ_D2 P q * P.a ^ 2 - 4 * ddZ_D1D2 P q * P.a ^ 2 * Z P q - 4 * (dX_D1 P q * X P q + dY_D1 P q * Y P q + dZ_D1 P q * Z P q) * (1 * dX_D2 P q * X P q + 1 * dY_D2 P q * Y P q + 1 * dZ_D2 P q * Z P q) + ((-2) * dX_D1 P q * dX_D2 P q - 2 * dY_D1 P q * dY_D2 P q - 2 * dZ_D1 P q * dZ_D2 P q - 2 * ddX_D1D2 P q * X P q - 2 * ddY_D1D2 P q * Y P q - 2 * ddZ_D1D2 P q * Z P q) * (-P.a ^ 2 + (X P q) ^ 2 + (Y P q) ^ 2 + (Z P q) ^ 2)) * (4 * dZ_D2 P q * P.a ^ 2 * Z P q + 2 * (dX_D2 P q * X P q + dY_D2 P q * Y P q + dZ_D2 P q * Z P q) * ((-1) * P.a ^ 2 + (X P q) ^ 2 + (Y P q) ^ 2 + (Z P q) ^ 2)) = 0 - 4 * P.a ^ 2 * ig2 P q * ip12 P q * iw P q - 8 * P.a ^ 2 * ig2 P q * iu1 P q * iu2 P q - 4 * P.a ^ 2 * iu2 P q * iw P q * iz12 P q - 8 * P.a ^ 4 * ig2 P q * iz12 P q - 2 * ip12 P q * iu2 P q * (iw P q) ^ 2 - 4 * iu1 P q * (iu2 P q) ^ 2 * iw P q := by
    simp only [ig2, ip12, iu1, iu2, iw, iz12, ddX_D1D2, ddY_D1D2, ddZ_D1D2]
    ring
  have e2 : (1 / 2) * (4 * dZ_D1 P q * dZ_D2 P q * P.a ^ 2 + 4 * ddZ_D1D2 P q * P.a ^ 2 * Z P q + 4 * (dX_D1 P q * X P q + dY_D1 P q * Y P q + dZ_D1 P q * Z P q) * (1 * dX_D2 P q * X P q + 1 * dY_D2 P q * Y P q + 1 * dZ_D2 P q * Z P q) + (2 * dX_D1 P q * dX_D2 P q + 2 * dY_D1 P q * dY_D2 P q + 2 * dZ_D1 P q * dZ_D2 P q + 2 * ddX_D1D2 P q * X P q + 2 * ddY_D1D2 P q * Y P q + 2 * ddZ_D1D2 P q * Z P q) * (-P.a ^ 2 + (X P q) ^ 2 + (Y P q) ^ 2 + (Z P q) ^ 2)) * ((-4) * dZ_D2 P q * P.a ^ 2 * Z P q - 2 * (dX_D2 P q * X P q + dY_D2 P q * Y P q + dZ_D2 P q * Z P q) * ((-1) * P.a ^ 2 + (X P q) ^ 2 + (Y P q) ^ 2 + (Z P q) ^ 2)) = 0 - 4 * P.a ^ 2 * ig2 P q * ip12 P q * iw P q - 8 * P.a ^ 2 * ig2 P q * iu1 P q * iu2 P q - 4 * P.a ^ 2 * iu2 P q * iw P q * iz12 P q - 8 * P.a ^ 4 * ig2 P q * iz12 P q - 2 * ip12 P q * iu2 P q * (iw P q) ^ 2 - 4 * iu1 P q * (iu2 P q) ^ 2 * iw P q := by
    simp only [ig2, ip12, iu1, iu2, iw, iz12, ddX_D1D2, ddY_D1D2, ddZ_D1D2]
    ring
  have e3 : (1 / 2) * (4 * (dZ_D2 P q) ^ 2 * P.a ^ 2 + 4 * ddZ_D2D2 P q * P.a ^ 2 * Z P q + 4 * (1 * dX_D2 P q * X P q + 1 * dY_D2 P q * Y P q + 1 * dZ_D2 P q * Z P q) ^ 2 + (2 * (dX_D2 P q) ^ 2 + 2 * (dY_D2 P q) ^ 2 + 2 * (dZ_D2 P q) ^ 2 + 2 * ddX_D2D2 P q * X P q + 2 * ddY_D2D2 P q * Y P q + 2 * ddZ_D2D2 P q * Z P q) * (-P.a ^ 2 + (X P q) ^ 2 + (Y P q) ^ 2 + (Z P q) ^ 2)) * ((-4) * dZ_D1 P q * P.a ^ 2 * Z P q - 2 * (dX_D1 P q * X P q + dY_D1 P q * Y P q + dZ_D1 P q * Z P q) * ((-1) * P.a ^ 2 + (X P q) ^ 2 + (Y P q) ^ 2 + (Z P q) ^ 2)) = 0 - 4 * P.a ^ 2 * ig1 P q * ip22 P q * iw P q - 8 * P.a ^ 2 * ig1 P q * (iu2 P q) ^ 2 - 4 * P.a ^ 2 * iu1 P q * iw P q * iz22 P q - 8 * P.a ^ 4 * ig1 P q * iz22 P q - 2 * ip22 P q * iu1 P q * (iw P q) ^ 2 - 4 * iu1 P q * (iu2 P q) ^ 2 * iw P q := by
    simp only [ig1, ip22, iu1, iu2, iw, iz22, ddX_D2D2, ddY_D2D2, ddZ_D2D2]
    ring
  have e4 : (1 / 2) * ((-12) * dZ_D1 P q * P.a ^ 2 * Z P q - 6 * (dX_D1 P q * X P q + dY_D1 P q * Y P q + dZ_D1 P q * Z P q) * ((-1) * P.a ^ 2 + (X P q) ^ 2 + (Y P q) ^ 2 + (Z P q) ^ 2)) * ((-4) * dZ_D2 P q * P.a ^ 2 * Z P q - 2 * (dX_D2 P q * X P q + dY_D2 P q * Y P q + dZ_D2 P q * Z P q) * ((-1) * P.a ^ 2 + (X P q) ^ 2 + (Y P q) ^ 2 + (Z P q) ^ 2)) * (4 * dZ_D2 P q * P.a ^ 2 * Z P q + 2 * (dX_D2 P q * X P q + dY_D2 P q * Y P q + dZ_D2 P q * Z P q) * ((-1) * P.a ^ 2 + (X P q) ^ 2 + (Y P q) ^ 2 + (Z P q) ^ 2)) = 24 * P.a ^ 2 * ig1 P q * (iu2 P q) ^ 2 * (iw P q) ^ 2 + 48 * P.a ^ 2 * ig2 P q * iu1 P q * iu2 P q * (iw P q) ^ 2 + 96 * P.a ^ 4 * ig1 P q * ig2 P q * iu2 P q * iw P q + 48 * P.a ^ 4 * (ig2 P q) ^ 2 * iu1 P q * iw P q + 96 * P.a ^ 6 * ig1 P q * (ig2 P q) ^ 2 + 12 * iu1 P q * (iu2 P q) ^ 2 * (iw P q) ^ 3 := by
    simp only [ig1, ig2, iu1, iu2, iw]
    ring
  have e5 : (1 / 2) * (4 * dZ_D1 P q * dZ_D2 P q * P.a ^ 2 + 4 * ddZ_D1D2 P q * P.a ^ 2 * Z P q + 4 * (dX_D1 P q * X P q + dY_D1 P q * Y P q + dZ_D1 P q * Z P q) * (1 * dX_D2 P q * X P q + 1 * dY_D2 P q * Y P q + 1 * dZ_D2 P q * Z P q) + (2 * dX_D1 P q * dX_D2 P q + 2 * dY_D1 P q * dY_D2 P q + 2 * dZ_D1 P q * dZ_D2 P q + 2 * ddX_D1D2 P q * X P q + 2 * ddY_D1D2 P q * Y P q + 2 * ddZ_D1D2 P q * Z P q) * (-P.a ^ 2 + (X P q) ^ 2 + (Y P q) ^ 2 + (Z P q) ^ 2)) = 2 * P.a ^ 2 * iz12 P q + ip12 P q * iw P q + 2 * iu1 P q * iu2 P q := by
    simp only [ip12, iu1, iu2, iw, iz12, ddX_D1D2, ddY_D1D2, ddZ_D1D2]
    ring
  have e6 : (1 / 2) * (4 * (dZ_D2 P q) ^ 2 * P.a ^ 2 + 4 * ddZ_D2D2 P q * P.a ^ 2 * Z P q + 4 * (1 * dX_D2 P q * X P q + 1 * dY_D2 P q * Y P q + 1 * dZ_D2 P q * Z P q) ^ 2 + (2 * (dX_D2 P q) ^ 2 + 2 * (dY_D2 P q) ^ 2 + 2 * (dZ_D2 P q) ^ 2 + 2 * ddX_D2D2 P q * X P q + 2 * ddY_D2D2 P q * Y P q + 2 * ddZ_D2D2 P q * Z P q) * (-P.a ^ 2 + (X P q) ^ 2 + (Y P q) ^ 2 + (Z P q) ^ 2)) = 2 * P.a ^ 2 * iz22 P q + ip22 P q * iw P q + 2 * (iu2 P q) ^ 2 := by
    simp only [ip22, iu2, iw, iz22, ddX_D2D2, ddY_D2D2, ddZ_D2D2]
    ring
  have e7 : (1 / 2) * ((-4) * dZ_D1 P q * P.a ^ 2 * Z P q - 2 * (dX_D1 P q * X P q + dY_D1 P q * Y P q + dZ_D1 P q * Z P q) * ((-1) * P.a ^ 2 + (X P q) ^ 2 + (Y P q) ^ 2 + (Z P q) ^ 2)) * (4 * dZ_D2 P q * P.a ^ 2 * Z P q + 2 * (dX_D2 P q * X P q + dY_D2 P q * Y P q + dZ_D2 P q * Z P q) * ((-1) * P.a ^ 2 + (X P q) ^ 2 + (Y P q) ^ 2 + (Z P q) ^ 2)) = 0 - 4 * P.a ^ 2 * ig1 P q * iu2 P q * iw P q - 4 * P.a ^ 2 * ig2 P q * iu1 P q * iw P q - 8 * P.a ^ 4 * ig1 P q * ig2 P q - 2 * iu1 P q * iu2 P q * (iw P q) ^ 2 := by
    simp only [ig1, ig2, iu1, iu2, iw]
    ring
  have e8 : 2 * (dZ_D2 P q * Z P q * ((-1) * P.a ^ 2 - 1 * (X P q) ^ 2 - 1 * (Y P q) ^ 2 - 1 * (Z P q) ^ 2) + dX_D2 P q * X P q * (1 * P.a ^ 2 - 1 * (X P q) ^ 2 - 1 * (Y P q) ^ 2 - 1 * (Z P q) ^ 2) + dY_D2 P q * Y P q * (1 * P.a ^ 2 - 1 * (X P q) ^ 2 - 1 * (Y P q) ^ 2 - 1 * (Z P q) ^ 2)) ^ 2 = 8 * P.a ^ 2 * ig2 P q * iu2 P q * iw P q + 8 * P.a ^ 4 * (ig2 P q) ^ 2 + 2 * (iu2 P q) ^ 2 * (iw P q) ^ 2 := by
    simp only [ig2, iu2, iw]
    ring
  have e9 : 1 * dX_D1 P q * ddX_D2D2 P q + 1 * dY_D1 P q * ddY_D2D2 P q + 1 * dZ_D1 P q * ddZ_D2D2 P q + 2 * dX_D2 P q * ddX_D1D2 P q + 2 * dY_D2 P q * ddY_D1D2 P q + 2 * dZ_D2 P q * ddZ_D1D2 P q + 1 * dddX_D1D2D2 P q * X P q + 1 * dddY_D1D2D2 P q * Y P q + 1 * dddZ_D1D2D2 P q * Z P q = 0 := by
    simp only [ddX_D1D2, ddX_D2D2, ddY_D1D2, ddY_D2D2, ddZ_D1D2, ddZ_D2D2, dddX_D1D2D2, dddY_D1D2D2, dddZ_D1D2D2]
    ring
  have e10 : (1 / 2) * (4 * dZ_D1 P q * P.a ^ 2 * Z P q + 2 * (dX_D1 P q * X P q + dY_D1 P q * Y P q + dZ_D1 P q * Z P q) * ((-1) * P.a ^ 2 + (X P q) ^ 2 + (Y P q) ^ 2 + (Z P q) ^ 2)) = 2 * P.a ^ 2 * ig1 P q + iu1 P q * iw P q := by
    simp only [ig1, iu1, iw]
    ring
  have e11 : (3 / 2) * (4 * dZ_D1 P q * P.a ^ 2 * Z P q + 2 * (dX_D1 P q * X P q + dY_D1 P q * Y P q + dZ_D1 P q * Z P q) * ((-1) * P.a ^ 2 + (X P q) ^ 2 + (Y P q) ^ 2 + (Z P q) ^ 2)) = 6 * P.a ^ 2 * ig1 P q + 3 * iu1 P q * iw P q := by
    simp only [ig1, iu1, iw]
    ring
  have e12 : (1 / 2) * (4 * dZ_D2 P q * P.a ^ 2 * Z P q + 2 * (dX_D2 P q * X P q + dY_D2 P q * Y P q + dZ_D2 P q * Z P q) * ((-1) * P.a ^ 2 + (X P q) ^ 2 + (Y P q) ^ 2 + (Z P q) ^ 2)) = 2 * P.a ^ 2 * ig2 P q + iu2 P q * iw P q := by
    simp only [ig2, iu2, iw]
    ring
  have e13 : (-1) * dX_D1 P q * dX_D2 P q - 1 * dY_D1 P q * dY_D2 P q - 1 * dZ_D1 P q * dZ_D2 P q - 1 * ddX_D1D2 P q * X P q - 1 * ddY_D1D2 P q * Y P q - 1 * ddZ_D1D2 P q * Z P q = 0 - ip12 P q := by
    simp only [ip12, ddX_D1D2, ddY_D1D2, ddZ_D1D2]
    ring
  have e14 : 1 * dX_D1 P q * dX_D2 P q + 1 * dY_D1 P q * dY_D2 P q + 1 * dZ_D1 P q * dZ_D2 P q + 1 * ddX_D1D2 P q * X P q + 1 * ddY_D1D2 P q * Y P q + 1 * ddZ_D1D2 P q * Z P q = ip12 P q := by
    simp only [ip12, ddX_D1D2, ddY_D1D2, ddZ_D1D2]
    ring
  have e15 : 1 * (dX_D2 P q) ^ 2 + 1 * (dY_D2 P q) ^ 2 + 1 * (dZ_D2 P q) ^ 2 + 1 * ddX_D2D2 P q * X P q + 1 * ddY_D2D2 P q * Y P q + 1 * ddZ_D2D2 P q * Z P q = ip22 P q := by
    simp only [ip22, ddX_D2D2, ddY_D2D2, ddZ_D2D2]
    ring
  have e16 : (-1) * dX_D1 P q * X P q - 1 * dY_D1 P q * Y P q - 1 * dZ_D1 P q * Z P q = 0 - iu1 P q := by
    simp only [iu1]
    ring
  have e17 : (-3) * dX_D1 P q * X P q - 3 * dY_D1 P q * Y P q - 3 * dZ_D1 P q * Z P q = 0 - 3 * iu1 P q := by
    simp only [iu1]
    ring
  have e18 : (-1) * dX_D2 P q * X P q - 1 * dY_D2 P q * Y P q - 1 * dZ_D2 P q * Z P q = 0 - iu2 P q := by
    simp only [iu2]
    ring
  have e19 : 1 * dX_D2 P q * X P q + 1 * dY_D2 P q * Y P q + 1 * dZ_D2 P q * Z P q = iu2 P q := by
    simp only [iu2]
    ring
  unfold dddR_D2D2D1
  rw [e0, e1, e2, e3, e4, e5, e6, e7, e8, e9, e10, e11, e12, e13, e14, e15, e16, e17, e18, e19]
  rfl

noncomputable def dddR_D2D2D2_i (P : Par) (q : Pt) : ℝ :=
  (3 * P.lit) * (2 * P.a ^ 2 * ig2 P q + iu2 P q * iw P q + ie2 P q * Tq P q + (0 - ie2 P q - ig2 P q + iu2 P q) * Tq P q + ig2 P q * Tq P q) ^ 3 / ((Tq P q) ^ 3 * (Sq P
    q) ^ 5) + P.lit * (0 - (0 - 72 * P.a ^ 2 * ig2 P q * (iu2 P q) ^ 2 * (iw P q) ^ 2 - 144 * P.a ^ 4 * (ig2 P q) ^ 2 * iu2 P q * iw P q - 96 * P.a ^ 6 * (ig2 P q) ^ 3 -
    12 * (iu2 P q) ^ 3 * (iw P q) ^ 3) / (Tq P q) ^ 5 + 6 * ip22 P q * iu2 P q / Tq P q + (0 - 8 * P.a ^ 2 * ig2 P q * ip22 P q * iw P q - 16 * P.a ^ 2 * ig2 P q * (iu2 P
    q) ^ 2 - 8 * P.a ^ 2 * iu2 P q * iw P q * iz22 P q - 16 * P.a ^ 4 * ig2 P q * iz22 P q - 4 * ip22 P q * iu2 P q * (iw P q) ^ 2 - 8 * (iu2 P q) ^ 3 * iw P q) / (Tq P
    q) ^ 3 + (0 - 4 * P.a ^ 2 * ig2 P q * ip22 P q * iw P q - 8 * P.a ^ 2 * ig2 P q * (iu2 P q) ^ 2 - 4 * P.a ^ 2 * iu2 P q * iw P q * iz22 P q - 8 * P.a ^ 4 * ig2 P q *
    iz22 P q - 2 * ip22 P q * iu2 P q * (iw P q) ^ 2 - 4 * (iu2 P q) ^ 3 * iw P q) / (Tq P q) ^ 3) / Sq P q + (2 * P.lit) * (ip22 P q - (8 * P.a ^ 2 * ig2 P q * iu2 P q *
    iw P q + 8 * P.a ^ 4 * (ig2 P q) ^ 2 + 2 * (iu2 P q) ^ 2 * (iw P q) ^ 2) / (Tq P q) ^ 3 + (2 * P.a ^ 2 * iz22 P q + ip22 P q * iw P q + 2 * (iu2 P q) ^ 2) / Tq P q) *
    (0 - iu2 P q - (2 * P.a ^ 2 * ig2 P q + iu2 P q * iw P q) / Tq P q) / (Sq P q) ^ 3 + P.lit * (0 - ip22 P q + (8 * P.a ^ 2 * ig2 P q * iu2 P q * iw P q + 8 * P.a ^ 4 *
    (ig2 P q) ^ 2 + 2 * (iu2 P q) ^ 2 * (iw P q) ^ 2) / (Tq P q) ^ 3 - (2 * P.a ^ 2 * iz22 P q + ip22 P q * iw P q + 2 * (iu2 P q) ^ 2) / Tq P q) * (iu2 P q + (2 * P.a ^
    2 * ig2 P q + iu2 P q * iw P q) / Tq P q) / (Sq P q) ^ 3

theorem dddR_D2D2D2_eq (P : Par) (q : Pt) : dddR_D2D2D2 P q = dddR_D2D2D2_i P q := by
  have e0 : (1 / 2) * (12 * dZ_D2 P q * ddZ_D2D2 P q * P.a ^ 2 + 4 * dddZ_D2D2D2 P q * P.a ^ 2 * Z P q + 4 * (1 * dX_D2 P q * X P q + 1 * dY_D2 P q * Y P q + 1 * dZ_D2 P q * Z P q) * ((dX_D2 P q) ^ 2 + (dY_D2 P q) ^ 2 + (dZ_D2 P q) ^ 2 + ddX_D2D2 P q * X P q + ddY_D2D2 P q * Y P q + ddZ_D2D2 P q * Z P q) + 8 * (dX_D2 P q * X P q + dY_D2 P q * Y P q + dZ_D2 P q * Z P q) * (1 * (dX_D2 P q) ^ 2 + 1 * (dY_D2 P q) ^ 2 + 1 * (dZ_D2 P q) ^ 2 + 1 * ddX_D2D2 P q * X P q + 1 * ddY_D2D2 P q * Y P q + 1 * ddZ_D2D2 P q * Z P q) + (6 * dX_D2 P q * ddX_D2D2 P q + 6 * dY_D2 P q * ddY_D2D2 P q + 6 * dZ_D2 P q * ddZ_D2D2 P q + 2 * dddX_D2D2D2 P q * X P q + 2 * dddY_D2D2D2 P q * Y P q + 2 * dddZ_D2D2D2 P q * Z P q) * (-P.a ^ 2 + (X P q) ^ 2 + (Y P q) ^ 2 + (Z P q) ^ 2)) = 6 * ip22 P q * iu2 P q := by
    simp only [ip22, iu2, ddX_D2D2, ddY_D2D2, ddZ_D2D2, dddX_D2D2D2, dddY_D2D2D2, dddZ_D2D2D2]
    ring
  have e1 : 1 * (4 * (dZ_D2 P q) ^ 2 * P.a ^ 2 + 4 * ddZ_D2D2 P q * P.a ^ 2 * Z P q + 4 * (1 * dX_D2 P q * X P q + 1 * dY_D2 P q * Y P q + 1 * dZ_D2 P q * Z P q) ^ 2 + (2 * (dX_D2 P q) ^ 2 + 2 * (dY_D2 P q) ^ 2 + 2 * (dZ_D2 P q) ^ 2 + 2 * ddX_D2D2 P q * X P q + 2 * ddY_D2D2 P q * Y P q + 2 * ddZ_D2D2 P q * Z P q) * (-P.a ^ 2 + (X P q) ^ 2 + (Y P q) ^ 2 + (Z P q) ^ 2)) * ((-4) * dZ_D2 P q * P.a ^ 2 * Z P q - 2 * (dX_D2 P q * X P q + dY_D2 P q * Y P q + dZ_D2 P q * Z P q) * ((-1) * P.a ^ 2 + (X P q) ^ 2 + (Y P q) ^ 2 + (Z P q) ^ 2)) = 0 - 8 * P.a ^ 2 * ig2 P q * ip22 P q * iw P q - 16 * P.a ^ 2 * ig2 P q * (iu2 P q) ^ 2 - 8 * P.a ^ 2 * iu2 P q * iw P q * iz22 P q - 16 * P.a ^ 4 * ig2 P q * iz22 P q - 4 * ip22 P q * iu2 P q * (iw P q) ^ 2 - 8 * (iu2 P q) ^ 3 * iw P q := by
    simp only [ig2, ip22, iu2, iw, iz22, ddX_D2D2, ddY_D2D2, ddZ_D2D2]
    ring
  have e2 : (1 / 2) * ((-4) * (dZ_D2 P q) ^ 2 * P.a ^ 2 - 4 * ddZ_D2D2 P q * P.a ^ 2 * Z P q - 4 * (dX_D2 P q * X P q + dY_D2 P q * Y P q + dZ_D2 P q * Z P q) ^ 2 + ((-2) * (dX_D2 P q) ^ 2 - 2 * (dY_D2 P q) ^ 2 - 2 * (dZ_D2 P q) ^ 2 - 2 * ddX_D2D2 P q * X P q - 2 * ddY_D2D2 P q * Y P q - 2 * ddZ_D2D2 P q * Z P q) * (-P.a ^ 2 + (X P q) ^ 2 + (Y P q) ^ 2 + (Z P q) ^ 2)) * (4 * dZ_D2 P q * P.a ^ 2 * Z P q + 2 * (dX_D2 P q * X P q + dY_D2 P q * Y P q + dZ_D2 P q * Z P q) * ((-1) * P.a ^ 2 + (X P q) ^ 2 + (Y P q) ^ 2 + (Z P q) ^ 2)) = 0 - 4 * P.a ^ 2 * ig2 P q * ip22 P q * iw P q - 8 * P.a ^ 2 * ig2 P q * (iu2 P q) ^ 2 - 4 * P.a ^ 2 * iu2 P q * iw P q * iz22 P q - 8 * P.a ^ 4 * ig2 P q * iz22 P q - 2 * ip22 P q * iu2 P q * (iw P q) ^ 2 - 4 * (iu2 P q) ^ 3 * iw P q := by
    simp only [ig2, ip22, iu2, iw, iz22, ddX_D2D2, ddY_D2D2, ddZ_D2D2]
    ring
  have e3 : (-1) * dX_D2 P q * P.a ^ 2 * X P q + 1 * dX_D2 P q * (X P q) ^ 3 - 1 * dY_D2 P q * P.a ^ 2 * Y P q + 1 * dY_D2 P q * (X P q) ^ 2 * Y P q + 1 * dX_D2 P q * X P q * (Y P q) ^ 2 + 1 * dY_D2 P q * (Y P q) ^ 3 + 1 * dZ_D2 P q * P.a ^ 2 * Z P q + 1 * dZ_D2 P q * (X P q) ^ 2 * Z P q + 1 * dZ_D2 P q * (Y P q) ^ 2 * Z P q + 1 * dX_D2 P q * X P q * (Z P q) ^ 2 + 1 * dY_D2 P q * Y P q * (Z P q) ^ 2 + 1 * dZ_D2 P q * (Z P q) ^ 3 = 2 * P.a ^ 2 * ig2 P q + iu2 P q * iw P q := by
    simp only [ig2, iu2, iw]
    ring
  have e4 : (1 / 2) * (4 * (dZ_D2 P q) ^ 2 * P.a ^ 2 + 4 * ddZ_D2D2 P q * P.a ^ 2 * Z P q + 4 * (1 * dX_D2 P q * X P q + 1 * dY_D2 P q * Y P q + 1 * dZ_D2 P q * Z P q) ^ 2 + (2 * (dX_D2 P q) ^ 2 + 2 * (dY_D2 P q) ^ 2 + 2 * (dZ_D2 P q) ^ 2 + 2 * ddX_D2D2 P q * X P q + 2 * ddY_D2D2 P q * Y P q + 2 * ddZ_D2D2 P q * Z P q) * (-P.a ^ 2 + (X P q) ^ 2 + (Y P q) ^ 2 + (Z P q) ^ 2)) = 2 * P.a ^ 2 * iz22 P q + ip22 P q * iw P q + 2 * (iu2 P q) ^ 2 := by
    simp only [ip22, iu2, iw, iz22, ddX_D2D2, ddY_D2D2, ddZ_D2D2]
    ring
  have e5 : 12 * (dZ_D2 P q * Z P q * ((-1) * P.a ^ 2 - 1 * (X P q) ^ 2 - 1 * (Y P q) ^ 2 - 1 * (Z P q) ^ 2) + dX_D2 P q * X P q * (1 * P.a ^ 2 - 1 * (X P q) ^ 2 - 1 * (Y P q) ^ 2 - 1 * (Z P q) ^ 2) + dY_D2 P q * Y P q * (1 * P.a ^ 2 - 1 * (X P q) ^ 2 - 1 * (Y P q) ^ 2 - 1 * (Z P q) ^ 2)) ^ 3 = 0 - 72 * P.a ^ 2 * ig2 P q * (iu2 P q) ^ 2 * (iw P q) ^ 2 - 144 * P.a ^ 4 * (ig2 P q) ^ 2 * iu2 P q * iw P q - 96 * P.a ^ 6 * (ig2 P q) ^ 3 - 12 * (iu2 P q) ^ 3 * (iw P q) ^ 3 := by
    simp only [ig2, iu2, iw]
    ring
  have e6 : 2 * (dZ_D2 P q * Z P q * ((-1) * P.a ^ 2 - 1 * (X P q) ^ 2 - 1 * (Y P q) ^ 2 - 1 * (Z P q) ^ 2) + dX_D2 P q * X P q * (1 * P.a ^ 2 - 1 * (X P q) ^ 2 - 1 * (Y P q) ^ 2 - 1 * (Z P q) ^ 2) + dY_D2 P q * Y P q * (1 * P.a ^ 2 - 1 * (X P q) ^ 2 - 1 * (Y P q) ^ 2 - 1 * (Z P q) ^ 2)) ^ 2 = 8 * P.a ^ 2 * ig2 P q * iu2 P q * iw P q + 8 * P.a ^ 4 * (ig2 P q) ^ 2 + 2 * (iu2 P q) ^ 2 * (iw P q) ^ 2 := by
    simp only [ig2, iu2, iw]
    ring
  have e7 : 3 * dX_D2 P q * ddX_D2D2 P q + 3 * dY_D2 P q * ddY_D2D2 P q + 3 * dZ_D2 P q * ddZ_D2D2 P q + 1 * dddX_D2D2D2 P q * X P q + 1 * dddY_D2D2D2 P q * Y P q + 1 * dddZ_D2D2D2 P q * Z P q = 0 := by
    simp only [ddX_D2D2, ddY_D2D2, ddZ_D2D2, dddX_D2D2D2, dddY_D2D2D2, dddZ_D2D2D2]
    ring
  have e8 : (1 / 2) * (4 * dZ_D2 P q * P.a ^ 2 * Z P q + 2 * (dX_D2 P q * X P q + dY_D2 P q * Y P q + dZ_D2 P q * Z P q) * ((-1) * P.a ^ 2 + (X P q) ^ 2 + (Y P q) ^ 2 + (Z P q) ^ 2)) = 2 * P.a ^ 2 * ig2 P q + iu2 P q * iw P q := by
    simp only [ig2, iu2, iw]
    ring
  have e9 : (-1) * (dX_D2 P q) ^ 2 - 1 * (dY_D2 P q) ^ 2 - 1 * (dZ_D2 P q) ^ 2 - 1 * ddX_D2D2 P q * X P q - 1 * ddY_D2D2 P q * Y P q - 1 * ddZ_D2D2 P q * Z P q = 0 - ip22 P q := by
    simp only [ip22, ddX_D2D2, ddY_D2D2, ddZ_D2D2]
    ring
  have e10 : 1 * (dX_D2 P q) ^ 2 + 1 * (dY_D2 P q) ^ 2 + 1 * (dZ_D2 P q) ^ 2 + 1 * ddX_D2D2 P q * X P q + 1 * ddY_D2D2 P q * Y P q + 1 * ddZ_D2D2 P q * Z P q = ip22 P q := by
    simp only [ip22, ddX_D2D2, ddY_D2D2, ddZ_D2D2]
    ring
  have e11 : (-1) * dX_D2 P q * X P q - 1 * dY_D2 P q * Y P q - 1 * dZ_D2 P q * Z P q = 0 - iu2 P q := by
    simp only [iu2]
    ring
  have e12 : 1 * dX_D2 P q * X P q + 1 * dY_D2 P q * Y P q + 1 * dZ_D2 P q * Z P q = iu2 P q := by
    simp only [iu2]
    ring
  have e13 : 1 * dX_D2 P q * X P q = ie2 P q := by
    simp only [ie2]
    ring
  have e14 : 1 * dY_D2 P q * Y P q = 0 - ie2 P q - ig2 P q + iu2 P q := by
    simp only [ie2, ig2, iu2]
    ring
  have e15 : 1 * dZ_D2 P q * Z P q = ig2 P q := by
    simp only [ig2]
    ring
  unfold dddR_D2D2D2
  rw [e0, e1, e2, e3, e4, e5, e6, e7, e8, e9, e10, e11, e12, e13, e14, e15]
  rfl

theorem ddR_D0D0_at0 (P : Par) (q : Pt) (hR : 0 < R P q) : HasDerivAt (line (ddR_D0D0 P) 0 q) (dddR_D0D0D0 P q) (q 0) := by
  have hc : ∀ c : ℝ, HasDerivAt (fun _ => c) 0 (q 0) := fun c => hasDerivAt_const _ c
  have hT := Tq_pos P q hR
  have hS := Sq_pos P q hR
  have h_Sq := Sq_iat0 P q hR
  have h_Tq := Tq_iat0 P q hR
  have h_ig0 := ig0_at0 P q hR
  have h_ip00 := ip00_at0 P q hR
  have h_iu0 := iu0_at0 P q hR
  have h_iw := iw_at0 P q hR
  have h_iz00 := iz00_at0 P q hR
  have key := ((div_one_at ((hc (P.lit)).mul ((h_ip00.sub (div_pow_at 2 ((((((hc (8 * P.a ^ 2)).mul h_ig0).mul h_iu0).mul h_iw).add ((hc (8 * P.a ^ 4)).mul (h_ig0.pow
    2))).add (((hc (2)).mul (h_iu0.pow 2)).mul (h_iw.pow 2))) h_Tq (by ks_ne))).add (div_one_at ((((hc (2 * P.a ^ 2)).mul h_iz00).add (h_ip00.mul h_iw)).add ((hc (2)).mul
    (h_iu0.pow 2))) h_Tq (by ks_ne)))) h_Sq (by ks_ne)).add (div_pow_at 2 (((hc (P.lit)).mul (((hc (0)).sub h_iu0).sub (div_one_at (((hc (2 * P.a ^ 2)).mul h_ig0).add
    (h_iu0.mul h_iw)) h_Tq (by ks_ne)))).mul (h_iu0.add (div_one_at (((hc (2 * P.a ^ 2)).mul h_ig0).add (h_iu0.mul h_iw)) h_Tq (by ks_ne)))) h_Sq (by ks_ne)))
  rw [show ddR_D0D0 P = ddR_D0D0_i P from funext (ddR_D0D0_eq P), dddR_D0D0D0_eq]
  refine key.congr_deriv ?_
  simp only [Pi.add_apply, Pi.sub_apply, Pi.neg_apply, Pi.mul_apply, Pi.pow_apply, Pi.div_apply, line_at]
  unfold dddR_D0D0D0_i
  simp only [div_eq_mul_inv, Nat.cast_ofNat, Nat.reduceSub, Nat.reduceAdd, pow_one, mul_zero, zero_mul, add_zero, zero_add, sub_zero]
  field_simp
  ring

theorem ddR_D0D0_at1 (P : Par) (q : Pt) (hR : 0 < R P q) : HasDerivAt (line (ddR_D0D0 P) 1 q) (dddR_D0D0D1 P q) (q 1) := by
  have hc : ∀ c : ℝ, HasDerivAt (fun _ => c) 0 (q 1) := fun c => hasDerivAt_const _ c
  have hT := Tq_pos P q hR
  have hS := Sq_pos P q hR
  have h_Sq := Sq_iat1 P q hR
  have h_Tq := Tq_iat1 P q hR
  have h_ig0 := ig0_at1 P q hR
  have h_ip00 := ip00_at1 P q hR
  have h_iu0 := iu0_at1 P q hR
  have h_iw := iw_at1 P q hR
  have h_iz00 := iz00_at1 P q hR
  have key := ((div_one_at ((hc (P.lit)).mul ((h_ip00.sub (div_pow_at 2 ((((((hc (8 * P.a ^ 2)).mul h_ig0).mul h_iu0).mul h_iw).add ((hc (8 * P.a ^ 4)).mul (h_ig0.pow
    2))).add (((hc (2)).mul (h_iu0.pow 2)).mul (h_iw.pow 2))) h_Tq (by ks_ne))).add (div_one_at ((((hc (2 * P.a ^ 2)).mul h_iz00).add (h_ip00.mul h_iw)).add ((hc (2)).mul
    (h_iu0.pow 2))) h_Tq (by ks_ne)))) h_Sq (by ks_ne)).add (div_pow_at 2 (((hc (P.lit)).mul (((hc (0)).sub h_iu0).sub (div_one_at (((hc (2 * P.a ^ 2)).mul h_ig0).add
    (h_iu0.mul h_iw)) h_Tq (by ks_ne)))).mul (h_iu0.add (div_one_at (((hc (2 * P.a ^ 2)).mul h_ig0).add (h_iu0.mul h_iw)) h_Tq (by ks_ne)))) h_Sq (by ks_ne)))
  rw [show ddR_D0D0 P = ddR_D0D0_i P from funext (ddR_D0D0_eq P), dddR_D0D0D1_eq]
  refine key.congr_deriv ?_
  simp only [Pi.add_apply, Pi.sub_apply, Pi.neg_apply, Pi.mul_apply, Pi.pow_apply, Pi.div_apply, line_at]
  unfold dddR_D0D0D1_i
  simp only [div_eq_mul_inv, Nat.cast_ofNat, Nat.reduceSub, Nat.reduceAdd, pow_one, mul_zero, zero_mul, add_zero, zero_add, sub_zero]
  ring

theorem ddR_D0D0_at2 (P : Par) (q : Pt) (hR : 0 < R P q) : HasDerivAt (line (ddR_D0D0 P) 2 q) (dddR_D0D0D2 P q) (q 2) := by
  have hc : ∀ c : ℝ, HasDerivAt (fun _ => c) 0 (q 2) := fun c => hasDerivAt_const _ c
  have hT := Tq_pos P q hR
  have hS := Sq_pos P q hR
  have h_Sq := Sq_iat2 P q hR
  have h_Tq := Tq_iat2 P q hR
  have h_ig0 := ig0_at2 P q hR
  have h_ip00 := ip00_at2 P q hR
  have h_iu0 := iu0_at2 P q hR
  have h_iw := iw_at2 P q hR
  have h_iz00 := iz00_at2 P q hR
  have key := ((div_one_at ((hc (P.lit)).mul ((h_ip00.sub (div_pow_at 2 ((((((hc (8 * P.a ^ 2)).mul h_ig0).mul h_iu0).mul h_iw).add ((hc (8 * P.a ^ 4)).mul (h_ig0.pow
    2))).add (((hc (2)).mul (h_iu0.pow 2)).mul (h_iw.pow 2))) h_Tq (by ks_ne))).add (div_one_at ((((hc (2 * P.a ^ 2)).mul h_iz00).add (h_ip00.mul h_iw)).add ((hc (2)).mul
    (h_iu0.pow 2))) h_Tq (by ks_ne)))) h_Sq (by ks_ne)).add (div_pow_at 2 (((hc (P.lit)).mul (((hc (0)).sub h_iu0).sub (div_one_at (((hc (2 * P.a ^ 2)).mul h_ig0).add
    (h_iu0.mul h_iw)) h_Tq (by ks_ne)))).mul (h_iu0.add (div_one_at (((hc (2 * P.a ^ 2)).mul h_ig0).add (h_iu0.mul h_iw)) h_Tq (by ks_ne)))) h_Sq (by ks_ne)))
  rw [show ddR_D0D0 P = ddR_D0D0_i P from funext (ddR_D0D0_eq P), dddR_D0D0D2_eq]
  refine key.congr_deriv ?_
  simp only [Pi.add_apply, Pi.sub_apply, Pi.neg_apply, Pi.mul_apply, Pi.pow_apply, Pi.div_apply, line_at]
  unfold dddR_D0D0D2_i
  simp only [div_eq_mul_inv, Nat.cast_ofNat, Nat.reduceSub, Nat.reduceAdd, pow_one, mul_zero, zero_mul, add_zero, zero_add, sub_zero]
  ring

theorem ddR_D0D1_at0 (P : Par) (q : Pt) (hR : 0 < R P q) : HasDerivAt (line (ddR_D0D1 P) 0 q) (dddR_D0D1D0 P q) (q 0) := by
  have hc : ∀ c : ℝ, HasDerivAt (fun _ => c) 0 (q 0) := fun c => hasDerivAt_const _ c
  have hT := Tq_pos P q hR
  have hS := Sq_pos P q hR
  have h_Sq := Sq_iat0 P q hR
  have h_Tq := Tq_iat0 P q hR
  have h_ig0 := ig0_at0 P q hR
  have h_ig1 := ig1_at0 P q hR
  have h_ip01 := ip01_at0 P q hR
  have h_iu0 := iu0_at0 P q hR
  have h_iu1 := iu1_at0 P q hR
  have h_iw := iw_at0 P q hR
  have h_iz01 := iz01_at0 P q hR
  have key := ((div_one_at ((hc (P.lit)).mul ((h_ip01.add (div_one_at ((((hc (2 * P.a ^ 2)).mul h_iz01).add (h_ip01.mul h_iw)).add (((hc (2)).mul h_iu0).mul h_iu1)) h_Tq
    (by ks_ne))).add (div_pow_at 2 (((((hc (0)).sub ((((hc (4 * P.a ^ 2)).mul h_ig0).mul h_iu1).mul h_iw)).sub ((((hc (4 * P.a ^ 2)).mul h_ig1).mul h_iu0).mul h_iw)).sub
    (((hc (8 * P.a ^ 4)).mul h_ig0).mul h_ig1)).sub ((((hc (2)).mul h_iu0).mul h_iu1).mul (h_iw.pow 2))) h_Tq (by ks_ne)))) h_Sq (by ks_ne)).add (div_pow_at 2 (((hc
    (P.lit)).mul (h_iu0.add (div_one_at (((hc (2 * P.a ^ 2)).mul h_ig0).add (h_iu0.mul h_iw)) h_Tq (by ks_ne)))).mul (((hc (0)).sub h_iu1).sub (div_one_at (((hc (2 * P.a
    ^ 2)).mul h_ig1).add (h_iu1.mul h_iw)) h_Tq (by ks_ne)))) h_Sq (by ks_ne)))
  rw [show ddR_D0D1 P = ddR_D0D1_i P from funext (ddR_D0D1_eq P), dddR_D0D1D0_eq]
  refine key.congr_deriv ?_
  simp only [Pi.add_apply, Pi.sub_apply, Pi.neg_apply, Pi.mul_apply, Pi.pow_apply, Pi.div_apply, line_at]
  unfold dddR_D0D1D0_i
  simp only [div_eq_mul_inv, Nat.cast_ofNat, Nat.reduceSub, Nat.reduceAdd, pow_one, mul_zero, zero_mul, add_zero, zero_add, sub_zero]
  ring

theorem ddR_D0D1_at1 (P : Par) (q : Pt) (hR : 0 < R P q) : HasDerivAt (line (ddR_D0D1 P) 1 q) (dddR_D0D1D1 P q) (q 1) := by
  have hc : ∀ c : ℝ, HasDerivAt (fun _ => c) 0 (q 1) := fun c => hasDerivAt_const _ c
  have hT := Tq_pos P q hR
  have hS := Sq_pos P q hR
  have h_Sq := Sq_iat1 P q hR
  have h_Tq := Tq_iat1 P q hR
  have h_ig0 := ig0_at1 P q hR
  have h_ig1 := ig1_at1 P q hR
  have h_ip01 := ip01_at1 P q hR
  have h_iu0 := iu0_at1 P q hR
  have h_iu1 := iu1_at1 P q hR
  have h_iw := iw_at1 P q hR
  have h_iz01 := iz01_at1 P q hR
  have key := ((div_one_at ((hc (P.lit)).mul ((h_ip01.add (div_one_at ((((hc (2 * P.a ^ 2)).mul h_iz01).add (h_ip01.mul h_iw)).add (((hc (2)).mul h_iu0).mul h_iu1)) h_Tq
    (by ks_ne))).add (div_pow_at 2 (((((hc (0)).sub ((((hc (4 * P.a ^ 2)).mul h_ig0).mul h_iu1).mul h_iw)).sub ((((hc (4 * P.a ^ 2)).mul h_ig1).mul h_iu0).mul h_iw)).sub
    (((hc (8 * P.a ^ 4)).mul h_ig0).mul h_ig1)).sub ((((hc (2)).mul h_iu0).mul h_iu1).mul (h_iw.pow 2))) h_Tq (by ks_ne)))) h_Sq (by ks_ne)).add (div_pow_at 2 (((hc
    (P.lit)).mul (h_iu0.add (div_one_at (((hc (2 * P.a ^ 2)).mul h_ig0).add (h_iu0.mul h_iw)) h_Tq (by ks_ne)))).mul (((hc (0)).sub h_iu1).sub (div_one_at (((hc (2 * P.a
    ^ 2)).mul h_ig1).add (h_iu1.mul h_iw)) h_Tq (by ks_ne)))) h_Sq (by ks_ne)))
  rw [show ddR_D0D1 P = ddR_D0D1_i P from funext (ddR_D0D1_eq P), dddR_D0D1D1_eq]
  refine key.congr_deriv ?_
  simp only [Pi.add_apply, Pi.sub_apply, Pi.neg_apply, Pi.mul_apply, Pi.pow_apply, Pi.div_apply, line_at]
  unfold dddR_D0D1D1_i
  simp only [div_eq_mul_inv, Nat.cast_ofNat, Nat.reduceSub, Nat.reduceAdd, pow_one, mul_zero, zero_mul, add_zero, zero_add, sub_zero]
  ring

theorem ddR_D0D1_at2 (P : Par) (q : Pt) (hR : 0 < R P q) : HasDerivAt (line (ddR_D0D1 P) 2 q) (dddR_D0D1D2 P q) (q 2) := by
  have hc : ∀ c : ℝ, HasDerivAt (fun _ => c) 0 (q 2) := fun c => hasDerivAt_const _ c
  have hT := Tq_pos P q hR
  have hS := Sq_pos P q hR
  have h_Sq := Sq_iat2 P q hR
  have h_Tq := Tq_iat2 P q hR
  have h_ig0 := ig0_at2 P q hR
  have h_ig1 := ig1_at2 P q hR
  have h_ip01 := ip01_at2 P q hR
  have h_iu0 := iu0_at2 P q hR
  have h_iu1 := iu1_at2 P q hR
  have h_iw := iw_at2 P q hR
  have h_iz01 := iz01_at2 P q hR
  have key := ((div_one_at ((hc (P.lit)).mul ((h_ip01.add (div_one_at ((((hc (2 * P.a ^ 2)).mul h_iz01).add (h_ip01.mul h_iw)).add (((hc (2)).mul h_iu0).mul h_iu1)) h_Tq
    (by ks_ne))).add (div_pow_at 2 (((((hc (0)).sub ((((hc (4 * P.a ^ 2)).mul h_ig0).mul h_iu1).mul h_iw)).sub ((((hc (4 * P.a ^ 2)).mul h_ig1).mul h_iu0).mul h_iw)).sub
    (((hc (8 * P.a ^ 4)).mul h_ig0).mul h_ig1)).sub ((((hc (2)).mul h_iu0).mul h_iu1).mul (h_iw.pow 2))) h_Tq (by ks_ne)))) h_Sq (by ks_ne)).add (div_pow_at 2 (((hc
    (P.lit)).mul (h_iu0.add (div_one_at (((hc (2 * P.a ^ 2)).mul h_ig0).add (h_iu0.mul h_iw)) h_Tq (by ks_ne)))).mul (((hc (0)).sub h_iu1).sub (div_one_at (((hc (2 * P.a
    ^ 2)).mul h_ig1).add (h_iu1.mul h_iw)) h_Tq (by ks_ne)))) h_Sq (by ks_ne)))
  rw [show ddR_D0D1 P = ddR_D0D1_i P from funext (ddR_D0D1_eq P), dddR_D0D1D2_eq]
  refine key.congr_deriv ?_
  simp only [Pi.add_apply, Pi.sub_apply, Pi.neg_apply, Pi.mul_apply, Pi.pow_apply, Pi.div_apply, line_at]
  unfold dddR_D0D1D2_i
  simp only [div_eq_mul_inv, Nat.cast_ofNat, Nat.reduceSub, Nat.reduceAdd, pow_one, mul_zero, zero_mul, add_zero, zero_add, sub_zero]
  ring

theorem ddR_D0D2_at0 (P : Par) (q : Pt) (hR : 0 < R P q) : HasDerivAt (line (ddR_D0D2 P) 0 q) (dddR_D0D2D0 P q) (q 0) := by
  have hc : ∀ c : ℝ, HasDerivAt (fun _ => c) 0 (q 0) := fun c => hasDerivAt_const _ c
  have hT := Tq_pos P q hR
  have hS := Sq_pos P q hR
  have h_Sq := Sq_iat0 P q hR
  have h_Tq := Tq_iat0 P q hR
  have h_ig0 := ig0_at0 P q hR
  have h_ig2 := ig2_at0 P q hR
  have h_ip02 := ip02_at0 P q hR
  have h_iu0 := iu0_at0 P q hR
  have h_iu2 := iu2_at0 P q hR
  have h_iw := iw_at0 P q hR
  have h_iz02 := iz02_at0 P q hR
  have key := ((div_one_at ((hc (P.lit)).mul ((h_ip02.add (div_one_at ((((hc (2 * P.a ^ 2)).mul h_iz02).add (h_ip02.mul h_iw)).add (((hc (2)).mul h_iu0).mul h_iu2)) h_Tq
    (by ks_ne))).add (div_pow_at 2 (((((hc (0)).sub ((((hc (4 * P.a ^ 2)).mul h_ig0).mul h_iu2).mul h_iw)).sub ((((hc (4 * P.a ^ 2)).mul h_ig2).mul h_iu0).mul h_iw)).sub
    (((hc (8 * P.a ^ 4)).mul h_ig0).mul h_ig2)).sub ((((hc (2)).mul h_iu0).mul h_iu2).mul (h_iw.pow 2))) h_Tq (by ks_ne)))) h_Sq (by ks_ne)).add (div_pow_at 2 (((hc
    (P.lit)).mul (h_iu0.add (div_one_at (((hc (2 * P.a ^ 2)).mul h_ig0).add (h_iu0.mul h_iw)) h_Tq (by ks_ne)))).mul (((hc (0)).sub h_iu2).sub (div_one_at (((hc (2 * P.a
    ^ 2)).mul h_ig2).add (h_iu2.mul h_iw)) h_Tq (by ks_ne)))) h_Sq (by ks_ne)))
  rw [show ddR_D0D2 P = ddR_D0D2_i P from funext (ddR_D0D2_eq P), dddR_D0D2D0_eq]
  refine key.congr_deriv ?_
  simp only [Pi.add_apply, Pi.sub_apply, Pi.neg_apply, Pi.mul_apply, Pi.pow_apply, Pi.div_apply, line_at]
  unfold dddR_D0D2D0_i
  simp only [div_eq_mul_inv, Nat.cast_ofNat, Nat.reduceSub, Nat.reduceAdd, pow_one, mul_zero, zero_mul, add_zero, zero_add, sub_zero]
  ring

theorem ddR_D0D2_at1 (P : Par) (q : Pt) (hR : 0 < R P q) : HasDerivAt (line (ddR_D0D2 P) 1 q) (dddR_D0D2D1 P q) (q 1) := by
  have hc : ∀ c : ℝ, HasDerivAt (fun _ => c) 0 (q 1) := fun c => hasDerivAt_const _ c
  have hT := Tq_pos P q hR
  have hS := Sq_pos P q hR
  have h_Sq := Sq_iat1 P q hR
  have h_Tq := Tq_iat1 P q hR
  have h_ig0 := ig0_at1 P q hR
  have h_ig2 := ig2_at1 P q hR
  have h_ip02 := ip02_at1 P q hR
  have h_iu0 := iu0_at1 P q hR
  have h_iu2 := iu2_at1 P q hR
  have h_iw := iw_at1 P q hR
  have h_iz02 := iz02_at1 P q hR
  have key := ((div_one_at ((hc (P.lit)).mul ((h_ip02.add (div_one_at ((((hc (2 * P.a ^ 2)).mul h_iz02).add (h_ip02.mul h_iw)).add (((hc (2)).mul h_iu0).mul h_iu2)) h_Tq
    (by ks_ne))).add (div_pow_at 2 (((((hc (0)).sub ((((hc (4 * P.a ^ 2)).mul h_ig0).mul h_iu2).mul h_iw)).sub ((((hc (4 * P.a ^ 2)).mul h_ig2).mul h_iu0).mul h_iw)).sub
    (((hc (8 * P.a ^ 4)).mul h_ig0).mul h_ig2)).sub ((((hc (2)).mul h_iu0).mul h_iu2).mul (h_iw.pow 2))) h_Tq (by ks_ne)))) h_Sq (by ks_ne)).add (div_pow_at 2 (((hc
    (P.lit)).mul (h_iu0.add (div_one_at (((hc (2 * P.a ^ 2)).mul h_ig0).add (h_iu0.mul h_iw)) h_Tq (by ks_ne)))).mul (((hc (0)).sub h_iu2).sub (div_one_at (((hc (2 * P.a
    ^ 2)).mul h_ig2).add (h_iu2.mul h_iw)) h_Tq (by ks_ne)))) h_Sq (by ks_ne)))
  rw [show ddR_D0D2 P = ddR_D0D2_i P from funext (ddR_D0D2_eq P), dddR_D0D2D1_eq]
  refine key.congr_deriv ?_
  simp only [Pi.add_apply, Pi.sub_apply, Pi.neg_apply, Pi.mul_apply, Pi.pow_apply, Pi.div_apply, line_at]
  unfold dddR_D0D2D1_i
  simp only [div_eq_mul_inv, Nat.cast_ofNat, Nat.reduceSub, Nat.reduceAdd, pow_one, mul_zero, zero_mul, add_zero, zero_add, sub_zero]
  ring

theorem ddR_D0D2_at2 (P : Par) (q : Pt) (hR : 0 < R P q) : HasDerivAt (line (ddR_D0D2 P) 2 q) (dddR_D0D2D2 P q) (q 2) := by
  have hc : ∀ c : ℝ, HasDerivAt (fun _ => c) 0 (q 2) := fun c => hasDerivAt_const _ c
  have hT := Tq_pos P q hR
  have hS := Sq_pos P q hR
  have h_Sq := Sq_iat2 P q hR
  have h_Tq := Tq_iat2 P q hR
  have h_ig0 := ig0_at2 P q hR
  have h_ig2 := ig2_at2 P q hR
  have h_ip02 := ip02_at2 P q hR
  have h_iu0 := iu0_at2 P q hR
  have h_iu2 := iu2_at2 P q hR
  have h_iw := iw_at2 P q hR
  have h_iz02 := iz02_at2 P q hR
  have key := ((div_one_at ((hc (P.lit)).mul ((h_ip02.add (div_one_at ((((hc (2 * P.a ^ 2)).mul h_iz02).add (h_ip02.mul h_iw)).add (((hc (2)).mul h_iu0).mul h_iu2)) h_Tq
    (by ks_ne))).add (div_pow_at 2 (((((hc (0)).sub ((((hc (4 * P.a ^ 2)).mul h_ig0).mul h_iu2).mul h_iw)).sub ((((hc (4 * P.a ^ 2)).mul h_ig2).mul h_iu0).mul h_iw)).sub
    (((hc (8 * P.a ^ 4)).mul h_ig0).mul h_ig2)).sub ((((hc (2)).mul h_iu0).mul h_iu2).mul (h_iw.pow 2))) h_Tq (by ks_ne)))) h_Sq (by ks_ne)).add (div_pow_at 2 (((hc
    (P.lit)).mul (h_iu0.add (div_one_at (((hc (2 * P.a ^ 2)).mul h_ig0).add (h_iu0.mul h_iw)) h_Tq (by ks_ne)))).mul (((hc (0)).sub h_iu2).sub (div_one_at (((hc (2 * P.a
    ^ 2)).mul h_ig2).add (h_iu2.mul h_iw)) h_Tq (by ks_ne)))) h_Sq (by ks_ne)))
  rw [show ddR_D0D2 P = ddR_D0D2_i P from funext (ddR_D0D2_eq P), dddR_D0D2D2_eq]
  refine key.congr_deriv ?_
  simp only [Pi.add_apply, Pi.sub_apply, Pi.neg_apply, Pi.mul_apply, Pi.pow_apply, Pi.div_apply, line_at]
  unfold dddR_D0D2D2_i
  simp only [div_eq_mul_inv, Nat.cast_ofNat, Nat.reduceSub, Nat.reduceAdd, pow_one, mul_zero, zero_mul, add_zero, zero_add, sub_zero]
  ring

theorem ddR_D1D1_at0 (P : Par) (q : Pt) (hR : 0 < R P q) : HasDerivAt (line (ddR_D1D1 P) 0 q) (dddR_D1D1D0 P q) (q 0) := by
  have hc : ∀ c : ℝ, HasDerivAt (fun _ => c) 0 (q 0) := fun c => hasDerivAt_const _ c
  have hT := Tq_pos P q hR
  have hS := Sq_pos P q hR
  have h_Sq := Sq_iat0 P q hR
  have h_Tq := Tq_iat0 P q hR
  have h_ig1 := ig1_at0 P q hR
  have h_ip11 := ip11_at0 P q hR
  have h_iu1 := iu1_at0 P q hR
  have h_iw := iw_at0 P q hR
  have h_iz11 := iz11_at0 P q hR
  have key := ((div_one_at ((hc (P.lit)).mul ((h_ip11.sub (div_pow_at 2 ((((((hc (8 * P.a ^ 2)).mul h_ig1).mul h_iu1).mul h_iw).add ((hc (8 * P.a ^ 4)).mul (h_ig1.pow
    2))).add (((hc (2)).mul (h_iu1.pow 2)).mul (h_iw.pow 2))) h_Tq (by ks_ne))).add (div_one_at ((((hc (2 * P.a ^ 2)).mul h_iz11).add (h_ip11.mul h_iw)).add ((hc (2)).mul
    (h_iu1.pow 2))) h_Tq (by ks_ne)))) h_Sq (by ks_ne)).add (div_pow_at 2 (((hc (P.lit)).mul (((hc (0)).sub h_iu1).sub (div_one_at (((hc (2 * P.a ^ 2)).mul h_ig1).add
    (h_iu1.mul h_iw)) h_Tq (by ks_ne)))).mul (h_iu1.add (div_one_at (((hc (2 * P.a ^ 2)).mul h_ig1).add (h_iu1.mul h_iw)) h_Tq (by ks_ne)))) h_Sq (by ks_ne)))
  rw [show ddR_D1D1 P = ddR_D1D1_i P from funext (ddR_D1D1_eq P), dddR_D1D1D0_eq]
  refine key.congr_deriv ?_
  simp only [Pi.add_apply, Pi.sub_apply, Pi.neg_apply, Pi.mul_apply, Pi.pow_apply, Pi.div_apply, line_at]
  unfold dddR_D1D1D0_i
  simp only [div_eq_mul_inv, Nat.cast_ofNat, Nat.reduceSub, Nat.reduceAdd, pow_one, mul_zero, zero_mul, add_zero, zero_add, sub_zero]
  ring

theorem ddR_D1D1_at1 (P : Par) (q : Pt) (hR : 0 < R P q) : HasDerivAt (line (ddR_D1D1 P) 1 q) (dddR_D1D1D1 P q) (q 1) := by
  have hc : ∀ c : ℝ, HasDerivAt (fun _ => c) 0 (q 1) := fun c => hasDerivAt_const _ c
  have hT := Tq_pos P q hR
  have hS := Sq_pos P q hR
  have h_Sq := Sq_iat1 P q hR
  have h_Tq := Tq_iat1 P q hR
  have h_ig1 := ig1_at1 P q hR
  have h_ip11 := ip11_at1 P q hR
  have h_iu1 := iu1_at1 P q hR
  have h_iw := iw_at1 P q hR
  have h_iz11 := iz11_at1 P q hR
  have key := ((div_one_at ((hc (P.lit)).mul ((h_ip11.sub (div_pow_at 2 ((((((hc (8 * P.a ^ 2)).mul h_ig1).mul h_iu1).mul h_iw).add ((hc (8 * P.a ^ 4)).mul (h_ig1.pow
    2))).add (((hc (2)).mul (h_iu1.pow 2)).mul (h_iw.pow 2))) h_Tq (by ks_ne))).add (div_one_at ((((hc (2 * P.a ^ 2)).mul h_iz11).add (h_ip11.mul h_iw)).add ((hc (2)).mul
    (h_iu1.pow 2))) h_Tq (by ks_ne)))) h_Sq (by ks_ne)).add (div_pow_at 2 (((hc (P.lit)).mul (((hc (0)).sub h_iu1).sub (div_one_at (((hc (2 * P.a ^ 2)).mul h_ig1).add
    (h_iu1.mul h_iw)) h_Tq (by ks_ne)))).mul (h_iu1.add (div_one_at (((hc (2 * P.a ^ 2)).mul h_ig1).add (h_iu1.mul h_iw)) h_Tq (by ks_ne)))) h_Sq (by ks_ne)))
  rw [show ddR_D1D1 P = ddR_D1D1_i P from funext (ddR_D1D1_eq P), dddR_D1D1D1_eq]
  refine key.congr_deriv ?_
  simp only [Pi.add_apply, Pi.sub_apply, Pi.neg_apply, Pi.mul_apply, Pi.pow_apply, Pi.div_apply, line_at]
  unfold dddR_D1D1D1_i
  simp only [div_eq_mul_inv, Nat.cast_ofNat, Nat.reduceSub, Nat.reduceAdd, pow_one, mul_zero, zero_mul, add_zero, zero_add, sub_zero]
  field_simp
  ring

theorem ddR_D1D1_at2 (P : Par) (q : Pt) (hR : 0 < R P q) : HasDerivAt (line (ddR_D1D1 P) 2 q) (dddR_D1D1D2 P q) (q 2) := by
  have hc : ∀ c : ℝ, HasDerivAt (fun _ => c) 0 (q 2) := fun c => hasDerivAt_const _ c
  have hT := Tq_pos P q hR
  have hS := Sq_pos P q hR
  have h_Sq := Sq_iat2 P q hR
  have h_Tq := Tq_iat2 P q hR
  have h_ig1 := ig1_at2 P q hR
  have h_ip11 := ip11_at2 P q hR
  have h_iu1 := iu1_at2 P q hR
  have h_iw := iw_at2 P q hR
  have h_iz11 := iz11_at2 P q hR
  have key := ((div_one_at ((hc (P.lit)).mul ((h_ip11.sub (div_pow_at 2 ((((((hc (8 * P.a ^ 2)).mul h_ig1).mul h_iu1).mul h_iw).add ((hc (8 * P.a ^ 4)).mul (h_ig1.pow
    2))).add (((hc (2)).mul (h_iu1.pow 2)).mul (h_iw.pow 2))) h_Tq (by ks_ne))).add (div_one_at ((((hc (2 * P.a ^ 2)).mul h_iz11).add (h_ip11.mul h_iw)).add ((hc (2)).mul
    (h_iu1.pow 2))) h_Tq (by ks_ne)))) h_Sq (by ks_ne)).add (div_pow_at 2 (((hc (P.lit)).mul (((hc (0)).sub h_iu1).sub (div_one_at (((hc (2 * P.a ^ 2)).mul h_ig1).add
    (h_iu1.mul h_iw)) h_Tq (by ks_ne)))).mul (h_iu1.add (div_one_at (((hc (2 * P.a ^ 2)).mul h_ig1).add (h_iu1.mul h_iw)) h_Tq (by ks_ne)))) h_Sq (by ks_ne)))
  rw [show ddR_D1D1 P = ddR_D1D1_i P from funext (ddR_D1D1_eq P), dddR_D1D1D2_eq]
  refine key.congr_deriv ?_
  simp only [Pi.add_apply, Pi.sub_apply, Pi.neg_apply, Pi.mul_apply, Pi.pow_apply, Pi.div_apply, line_at]
  unfold dddR_D1D1D2_i
  simp only [div_eq_mul_inv, Nat.cast_ofNat, Nat.reduceSub, Nat.reduceAdd, pow_one, mul_zero, zero_mul, add_zero, zero_add, sub_zero]
  ring

theorem ddR_D1D2_at0 (P : Par) (q : Pt) (hR : 0 < R P q) : HasDerivAt (line (ddR_D1D2 P) 0 q) (dddR_D1D2D0 P q) (q 0) := by
  have hc : ∀ c : ℝ, HasDerivAt (fun _ => c) 0 (q 0) := fun c => hasDerivAt_const _ c
  have hT := Tq_pos P q hR
  have hS := Sq_pos P q hR
  have h_Sq := Sq_iat0 P q hR
  have h_Tq := Tq_iat0 P q hR
  have h_ig1 := ig1_at0 P q hR
  have h_ig2 := ig2_at0 P q hR
  have h_ip12 := ip12_at0 P q hR
  have h_iu1 := iu1_at0 P q hR
  have h_iu2 := iu2_at0 P q hR
  have h_iw := iw_at0 P q hR
  have h_iz12 := iz12_at0 P q hR
  have key := ((div_one_at ((hc (P.lit)).mul ((h_ip12.add (div_one_at ((((hc (2 * P.a ^ 2)).mul h_iz12).add (h_ip12.mul h_iw)).add (((hc (2)).mul h_iu1).mul h_iu2)) h_Tq
    (by ks_ne))).add (div_pow_at 2 (((((hc (0)).sub ((((hc (4 * P.a ^ 2)).mul h_ig1).mul h_iu2).mul h_iw)).sub ((((hc (4 * P.a ^ 2)).mul h_ig2).mul h_iu1).mul h_iw)).sub
    (((hc (8 * P.a ^ 4)).mul h_ig1).mul h_ig2)).sub ((((hc (2)).mul h_iu1).mul h_iu2).mul (h_iw.pow 2))) h_Tq (by ks_ne)))) h_Sq (by ks_ne)).add (div_pow_at 2 (((hc
    (P.lit)).mul (h_iu1.add (div_one_at (((hc (2 * P.a ^ 2)).mul h_ig1).add (h_iu1.mul h_iw)) h_Tq (by ks_ne)))).mul (((hc (0)).sub h_iu2).sub (div_one_at (((hc (2 * P.a
    ^ 2)).mul h_ig2).add (h_iu2.mul h_iw)) h_Tq (by ks_ne)))) h_Sq (by ks_ne)))
  rw [show ddR_D1D2 P = ddR_D1D2_i P from funext (ddR_D1D2_eq P), dddR_D1D2D0_eq]
  refine key.congr_deriv ?_
  simp only [Pi.add_apply, Pi.sub_apply, Pi.neg_apply, Pi.mul_apply, Pi.pow_apply, Pi.div_apply, line_at]
  unfold dddR_D1D2D0_i
  simp only [div_eq_mul_inv, Nat.cast_ofNat, Nat.reduceSub, Nat.reduceAdd, pow_one, mul_zero, zero_mul, add_zero, zero_add, sub_zero]
  ring

theorem ddR_D1D2_at1 (P : Par) (q : Pt) (hR : 0 < R P q) : HasDerivAt (line (ddR_D1D2 P) 1 q) (dddR_D1D2D1 P q) (q 1) := by
  have hc : ∀ c : ℝ, HasDerivAt (fun _ => c) 0 (q 1) := fun c => hasDerivAt_const _ c
  have hT := Tq_pos P q hR
  have hS := Sq_pos P q hR
  have h_Sq := Sq_iat1 P q hR
  have h_Tq := Tq_iat1 P q hR
  have h_ig1 := ig1_at1 P q hR
  have h_ig2 := ig2_at1 P q hR
  have h_ip12 := ip12_at1 P q hR
  have h_iu1 := iu1_at1 P q hR
  have h_iu2 := iu2_at1 P q hR
  have h_iw := iw_at1 P q hR
  have h_iz12 := iz12_at1 P q hR
  have key := ((div_one_at ((hc (P.lit)).mul ((h_ip12.add (div_one_at ((((hc (2 * P.a ^ 2)).mul h_iz12).add (h_ip12.mul h_iw)).add (((hc (2)).mul h_iu1).mul h_iu2)) h_Tq
    (by ks_ne))).add (div_pow_at 2 (((((hc (0)).sub ((((hc (4 * P.a ^ 2)).mul h_ig1).mul h_iu2).mul h_iw)).sub ((((hc (4 * P.a ^ 2)).mul h_ig2).mul h_iu1).mul h_iw)).sub
    (((hc (8 * P.a ^ 4)).mul h_ig1).mul h_ig2)).sub ((((hc (2)).mul h_iu1).mul h_iu2).mul (h_iw.pow 2))) h_Tq (by ks_ne)))) h_Sq (by ks_ne)).add (div_pow_at 2 (((hc
    (P.lit)).mul (h_iu1.add (div_one_at (((hc (2 * P.a ^ 2)).mul h_ig1).add (h_iu1.mul h_iw)) h_Tq (by ks_ne)))).mul (((hc (0)).sub h_iu2).sub (div_one_at (((hc (2 * P.a
    ^ 2)).mul h_ig2).add (h_iu2.mul h_iw)) h_Tq (by ks_ne)))) h_Sq (by ks_ne)))
  rw [show ddR_D1D2 P = ddR_D1D2_i P from funext (ddR_D1D2_eq P), dddR_D1D2D1_eq]
  refine key.congr_deriv ?_
  simp only [Pi.add_apply, Pi.sub_apply, Pi.neg_apply, Pi.mul_apply, Pi.pow_apply, Pi.div_apply, line_at]
  unfold dddR_D1D2D1_i
  simp only [div_eq_mul_inv, Nat.cast_ofNat, Nat.reduceSub, Nat.reduceAdd, pow_one, mul_zero, zero_mul, add_zero, zero_add, sub_zero]
  ring

theorem ddR_D1D2_at2 (P : Par) (q : Pt) (hR : 0 < R P q) : HasDerivAt (line (ddR_D1D2 P) 2 q) (dddR_D1D2D2 P q) (q 2) := by
  have hc : ∀ c : ℝ, HasDerivAt (fun _ => c) 0 (q 2) := fun c => hasDerivAt_const _ c
  have hT := Tq_pos P q hR
  have hS := Sq_pos P q hR
  have h_Sq := Sq_iat2 P q hR
  have h_Tq := Tq_iat2 P q hR
  have h_ig1 := ig1_at2 P q hR
  have h_ig2 := ig2_at2 P q hR
  have h_ip12 := ip12_at2 P q hR
  have h_iu1 := iu1_at2 P q hR
  have h_iu2 := iu2_at2 P q hR
  have h_iw := iw_at2 P q hR
  have h_iz12 := iz12_at2 P q hR
  have key := ((div_one_at ((hc (P.lit)).mul ((h_ip12.add (div_one_at ((((hc (2 * P.a ^ 2)).mul h_iz12).add (h_ip12.mul h_iw)).add (((hc (2)).mul h_iu1).mul h_iu2)) h_Tq
    (by ks_ne))).add (div_pow_at 2 (((((hc (0)).sub ((((hc (4 * P.a ^ 2)).mul h_ig1).mul h_iu2).mul h_iw)).sub ((((hc (4 * P.a ^ 2)).mul h_ig2).mul h_iu1).mul h_iw)).sub
    (((hc (8 * P.a ^ 4)).mul h_ig1).mul h_ig2)).sub ((((hc (2)).mul h_iu1).mul h_iu2).mul (h_iw.pow 2))) h_Tq (by ks_ne)))) h_Sq (by ks_ne)).add (div_pow_at 2 (((hc
    (P.lit)).mul (h_iu1.add (div_one_at (((hc (2 * P.a ^ 2)).mul h_ig1).add (h_iu1.mul h_iw)) h_Tq (by ks_ne)))).mul (((hc (0)).sub h_iu2).sub (div_one_at (((hc (2 * P.a
    ^ 2)).mul h_ig2).add (h_iu2.mul h_iw)) h_Tq (by ks_ne)))) h_Sq (by ks_ne)))
  rw [show ddR_D1D2 P = ddR_D1D2_i P from funext (ddR_D1D2_eq P), dddR_D1D2D2_eq]
  refine key.congr_deriv ?_
  simp only [Pi.add_apply, Pi.sub_apply, Pi.neg_apply, Pi.mul_apply, Pi.pow_apply, Pi.div_apply, line_at]
  unfold dddR_D1D2D2_i
  simp only [div_eq_mul_inv, Nat.cast_ofNat, Nat.reduceSub, Nat.reduceAdd, pow_one, mul_zero, zero_mul, add_zero, zero_add, sub_zero]
  ring

theorem ddR_D2D2_at0 (P : Par) (q : Pt) (hR : 0 < R P q) : HasDerivAt (line (ddR_D2D2 P) 0 q) (dddR_D2D2D0 P q) (q 0) := by
  have hc : ∀ c : ℝ, HasDerivAt (fun _ => c) 0 (q 0) := fun c => hasDerivAt_const _ c
  have hT := Tq_pos P q hR
  have hS := Sq_pos P q hR
  have h_Sq := Sq_iat0 P q hR
  have h_Tq := Tq_iat0 P q hR
  have h_ig2 := ig2_at0 P q hR
  have h_ip22 := ip22_at0 P q hR
  have h_iu2 := iu2_at0 P q hR
  have h_iw := iw_at0 P q hR
  have h_iz22 := iz22_at0 P q hR
  have key := ((div_one_at ((hc (P.lit)).mul ((h_ip22.sub (div_pow_at 2 ((((((hc (8 * P.a ^ 2)).mul h_ig2).mul h_iu2).mul h_iw).add ((hc (8 * P.a ^ 4)).mul (h_ig2.pow
    2))).add (((hc (2)).mul (h_iu2.pow 2)).mul (h_iw.pow 2))) h_Tq (by ks_ne))).add (div_one_at ((((hc (2 * P.a ^ 2)).mul h_iz22).add (h_ip22.mul h_iw)).add ((hc (2)).mul
    (h_iu2.pow 2))) h_Tq (by ks_ne)))) h_Sq (by ks_ne)).add (div_pow_at 2 (((hc (P.lit)).mul (((hc (0)).sub h_iu2).sub (div_one_at (((hc (2 * P.a ^ 2)).mul h_ig2).add
    (h_iu2.mul h_iw)) h_Tq (by ks_ne)))).mul (h_iu2.add (div_one_at (((hc (2 * P.a ^ 2)).mul h_ig2).add (h_iu2.mul h_iw)) h_Tq (by ks_ne)))) h_Sq (by ks_ne)))
  rw [show ddR_D2D2 P = ddR_D2D2_i P from funext (ddR_D2D2_eq P), dddR_D2D2D0_eq]
  refine key.congr_deriv ?_
  simp only [Pi.add_apply, Pi.sub_apply, Pi.neg_apply, Pi.mul_apply, Pi.pow_apply, Pi.div_apply, line_at]
  unfold dddR_D2D2D0_i
  simp only [div_eq_mul_inv, Nat.cast_ofNat, Nat.reduceSub, Nat.reduceAdd, pow_one, mul_zero, zero_mul, add_zero, zero_add, sub_zero]
  ring

theorem ddR_D2D2_at1 (P : Par) (q : Pt) (hR : 0 < R P q) : HasDerivAt (line (ddR_D2D2 P) 1 q) (dddR_D2D2D1 P q) (q 1) := by
  have hc : ∀ c : ℝ, HasDerivAt (fun _ => c) 0 (q 1) := fun c => hasDerivAt_const _ c
  have hT := Tq_pos P q hR
  have hS := Sq_pos P q hR
  have h_Sq := Sq_iat1 P q hR
  have h_Tq := Tq_iat1 P q hR
  have h_ig2 := ig2_at1 P q hR
  have h_ip22 := ip22_at1 P q hR
  have h_iu2 := iu2_at1 P q hR
  have h_iw := iw_at1 P q hR
  have h_iz22 := iz22_at1 P q hR
  have key := ((div_one_at ((hc (P.lit)).mul ((h_ip22.sub (div_pow_at 2 ((((((hc (8 * P.a ^ 2)).mul h_ig2).mul h_iu2).mul h_iw).add ((hc (8 * P.a ^ 4)).mul (h_ig2.pow
    2))).add (((hc (2)).mul (h_iu2.pow 2)).mul (h_iw.pow 2))) h_Tq (by ks_ne))).add (div_one_at ((((hc (2 * P.a ^ 2)).mul h_iz22).add (h_ip22.mul h_iw)).add ((hc (2)).mul
    (h_iu2.pow 2))) h_Tq (by ks_ne)))) h_Sq (by ks_ne)).add (div_pow_at 2 (((hc (P.lit)).mul (((hc (0)).sub h_iu2).sub (div_one_at (((hc (2 * P.a ^ 2)).mul h_ig2).add
    (h_iu2.mul h_iw)) h_Tq (by ks_ne)))).mul (h_iu2.add (div_one_at (((hc (2 * P.a ^ 2)).mul h_ig2).add (h_iu2.mul h_iw)) h_Tq (by ks_ne)))) h_Sq (by ks_ne)))
  rw [show ddR_D2D2 P = ddR_D2D2_i P from funext (ddR_D2D2_eq P), dddR_D2D2D1_eq]
  refine key.congr_deriv ?_
  simp only [Pi.add_apply, Pi.sub_apply, Pi.neg_apply, Pi.mul_apply, Pi.pow_apply, Pi.div_apply, line_at]
  unfold dddR_D2D2D1_i
  simp only [div_eq_mul_inv, Nat.cast_ofNat, Nat.reduceSub, Nat.reduceAdd, pow_one, mul_zero, zero_mul, add_zero, zero_add, sub_zero]
  ring

theorem ddR_D2D2_at2 (P : Par) (q : Pt) (hR : 0 < R P q) : HasDerivAt (line (ddR_D2D2 P) 2 q) (dddR_D2D2D2 P q) (q 2) := by
  have hc : ∀ c : ℝ, HasDerivAt (fun _ => c) 0 (q 2) := fun c => hasDerivAt_const _ c
  have hT := Tq_pos P q hR
  have hS := Sq_pos P q hR
  have h_Sq := Sq_iat2 P q hR
  have h_Tq := Tq_iat2 P q hR
  have h_ig2 := ig2_at2 P q hR
  have h_ip22 := ip22_at2 P q hR
  have h_iu2 := iu2_at2 P q hR
  have h_iw := iw_at2 P q hR
  have h_iz22 := iz22_at2 P q hR
  have key := ((div_one_at ((hc (P.lit)).mul ((h_ip22.sub (div_pow_at 2 ((((((hc (8 * P.a ^ 2)).mul h_ig2).mul h_iu2).mul h_iw).add ((hc (8 * P.a ^ 4)).mul (h_ig2.pow
    2))).add (((hc (2)).mul (h_iu2.pow 2)).mul (h_iw.pow 2))) h_Tq (by ks_ne))).add (div_one_at ((((hc (2 * P.a ^ 2)).mul h_iz22).add (h_ip22.mul h_iw)).add ((hc (2)).mul
    (h_iu2.pow 2))) h_Tq (by ks_ne)))) h_Sq (by ks_ne)).add (div_pow_at 2 (((hc (P.lit)).mul (((hc (0)).sub h_iu2).sub (div_one_at (((hc (2 * P.a ^ 2)).mul h_ig2).add
    (h_iu2.mul h_iw)) h_Tq (by ks_ne)))).mul (h_iu2.add (div_one_at (((hc (2 * P.a ^ 2)).mul h_ig2).add (h_iu2.mul h_iw)) h_Tq (by ks_ne)))) h_Sq (by ks_ne)))
  rw [show ddR_D2D2 P = ddR_D2D2_i P from funext (ddR_D2D2_eq P), dddR_D2D2D2_eq]
  refine key.congr_deriv ?_
  simp only [Pi.add_apply, Pi.sub_apply, Pi.neg_apply, Pi.mul_apply, Pi.pow_apply, Pi.div_apply, line_at]
  unfold dddR_D2D2D2_i
  simp only [div_eq_mul_inv, Nat.cast_ofNat, Nat.reduceSub, Nat.reduceAdd, pow_one, mul_zero, zero_mul, add_zero, zero_add, sub_zero]
  field_simp
  ring

end Elliptica.Ks
