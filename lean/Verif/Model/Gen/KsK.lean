import Verif.Model.Gen.KsH
/-!
Generated by tools/gen_ks.py from /repo/Src/Main/Modules/Physics/Free_Data/fd_KerrSchild_c_k0_k1_k2_kt.c: one definition per C function.
-/
namespace Elliptica.Ks
open Elliptica.Fields

set_option linter.unusedVariables false

-- the same terms as the usual notation, elaborated directly at type ℝ (long expressions elaborate slowly otherwise)
local macro_rules
  | `($x + $y) => `((HAdd.hAdd : ℝ → ℝ → ℝ) $x $y)
  | `($x - $y) => `((HSub.hSub : ℝ → ℝ → ℝ) $x $y)
  | `($x * $y) => `((HMul.hMul : ℝ → ℝ → ℝ) $x $y)
  | `($x / $y) => `((HDiv.hDiv : ℝ → ℝ → ℝ) $x $y)
  | `($x ^ $y) => `((HPow.hPow : ℝ → ℕ → ℝ) $x $y)
  | `(-$x) => `((Neg.neg : ℝ → ℝ) $x)

/-- Free_Data/fd_KerrSchild_c_k0_k1_k2_kt.c:142-158 `fd_ks_k0` -/
noncomputable def k0 (P : Par) (q : Pt) : ℝ :=
  (√(1 - P.B2))⁻¹ * ((-P.B2) * P.Bx - (P.Bx * P.By * (√(1 - P.B2) - 1) * Real.cos P.phiz + (P.B2 * √(1 - P.B2) + P.Bx ^ 2 * (1 - √(1 - P.B2))) * Real.sin P.phiz) * K1 P q
    + (P.Bx * P.Bz * (√(1 - P.B2) - 1) * Real.sin P.phiy + ((-P.Bx) * P.By * (√(1 - P.B2) - 1) * Real.sin P.phiz + (P.B2 * √(1 - P.B2) + P.Bx ^ 2 * (1 - √(1 - P.B2))) *
    Real.cos P.phiz) * Real.cos P.phiy) * K0 P q - (P.Bx * P.Bz * (√(1 - P.B2) - 1) * Real.cos P.phiy + (P.Bx * P.By * (√(1 - P.B2) - 1) * Real.sin P.phiz + ((-P.B2) *
    √(1 - P.B2) + P.Bx ^ 2 * (√(1 - P.B2) - 1)) * Real.cos P.phiz) * Real.sin P.phiy) * K2 P q) / P.B2

/-- Free_Data/fd_KerrSchild_c_k0_k1_k2_kt.c:176-192 `fd_ks_dk0_D0` -/
noncomputable def dk0_D0 (P : Par) (q : Pt) : ℝ :=
  (√(1 - P.B2))⁻¹ * ((-(P.Bx * P.By * (√(1 - P.B2) - 1) * Real.cos P.phiz + (P.B2 * √(1 - P.B2) + P.Bx ^ 2 * (1 - √(1 - P.B2))) * Real.sin P.phiz)) * dK1_D0 P q + (P.Bx *
    P.Bz * (√(1 - P.B2) - 1) * Real.sin P.phiy + ((-P.Bx) * P.By * (√(1 - P.B2) - 1) * Real.sin P.phiz + (P.B2 * √(1 - P.B2) + P.Bx ^ 2 * (1 - √(1 - P.B2))) * Real.cos
    P.phiz) * Real.cos P.phiy) * dK0_D0 P q - (P.Bx * P.Bz * (√(1 - P.B2) - 1) * Real.cos P.phiy + (P.Bx * P.By * (√(1 - P.B2) - 1) * Real.sin P.phiz + ((-P.B2) * √(1 -
    P.B2) + P.Bx ^ 2 * (√(1 - P.B2) - 1)) * Real.cos P.phiz) * Real.sin P.phiy) * dK2_D0 P q) / P.B2

/-- Free_Data/fd_KerrSchild_c_k0_k1_k2_kt.c:193-209 `fd_ks_dk0_D1` -/
noncomputable def dk0_D1 (P : Par) (q : Pt) : ℝ :=
  (√(1 - P.B2))⁻¹ * ((-(P.Bx * P.By * (√(1 - P.B2) - 1) * Real.cos P.phiz + (P.B2 * √(1 - P.B2) + P.Bx ^ 2 * (1 - √(1 - P.B2))) * Real.sin P.phiz)) * dK1_D1 P q + (P.Bx *
    P.Bz * (√(1 - P.B2) - 1) * Real.sin P.phiy + ((-P.Bx) * P.By * (√(1 - P.B2) - 1) * Real.sin P.phiz + (P.B2 * √(1 - P.B2) + P.Bx ^ 2 * (1 - √(1 - P.B2))) * Real.cos
    P.phiz) * Real.cos P.phiy) * dK0_D1 P q - (P.Bx * P.Bz * (√(1 - P.B2) - 1) * Real.cos P.phiy + (P.Bx * P.By * (√(1 - P.B2) - 1) * Real.sin P.phiz + ((-P.B2) * √(1 -
    P.B2) + P.Bx ^ 2 * (√(1 - P.B2) - 1)) * Real.cos P.phiz) * Real.sin P.phiy) * dK2_D1 P q) / P.B2

/-- Free_Data/fd_KerrSchild_c_k0_k1_k2_kt.c:159-175 `fd_ks_dk0_D2` -/
noncomputable def dk0_D2 (P : Par) (q : Pt) : ℝ :=
  (√(1 - P.B2))⁻¹ * ((-(P.Bx * P.By * (√(1 - P.B2) - 1) * Real.cos P.phiz + (P.B2 * √(1 - P.B2) + P.Bx ^ 2 * (1 - √(1 - P.B2))) * Real.sin P.phiz)) * dK1_D2 P q + (P.Bx *
    P.Bz * (√(1 - P.B2) - 1) * Real.sin P.phiy + ((-P.Bx) * P.By * (√(1 - P.B2) - 1) * Real.sin P.phiz + (P.B2 * √(1 - P.B2) + P.Bx ^ 2 * (1 - √(1 - P.B2))) * Real.cos
    P.phiz) * Real.cos P.phiy) * dK0_D2 P q - (P.Bx * P.Bz * (√(1 - P.B2) - 1) * Real.cos P.phiy + (P.Bx * P.By * (√(1 - P.B2) - 1) * Real.sin P.phiz + ((-P.B2) * √(1 -
    P.B2) + P.Bx ^ 2 * (√(1 - P.B2) - 1)) * Real.cos P.phiz) * Real.sin P.phiy) * dK2_D2 P q) / P.B2

/-- Free_Data/fd_KerrSchild_c_k0_k1_k2_kt.c:261-277 `fd_ks_ddk0_D0D0` -/
noncomputable def ddk0_D0D0 (P : Par) (q : Pt) : ℝ :=
  (√(1 - P.B2))⁻¹ * ((-(P.Bx * P.By * (√(1 - P.B2) - 1) * Real.cos P.phiz + (P.B2 * √(1 - P.B2) + P.Bx ^ 2 * (1 - √(1 - P.B2))) * Real.sin P.phiz)) * ddK1_D0D0 P q +
    (P.Bx * P.Bz * (√(1 - P.B2) - 1) * Real.sin P.phiy + ((-P.Bx) * P.By * (√(1 - P.B2) - 1) * Real.sin P.phiz + (P.B2 * √(1 - P.B2) + P.Bx ^ 2 * (1 - √(1 - P.B2))) *
    Real.cos P.phiz) * Real.cos P.phiy) * ddK0_D0D0 P q - (P.Bx * P.Bz * (√(1 - P.B2) - 1) * Real.cos P.phiy + (P.Bx * P.By * (√(1 - P.B2) - 1) * Real.sin P.phiz +
    ((-P.B2) * √(1 - P.B2) + P.Bx ^ 2 * (√(1 - P.B2) - 1)) * Real.cos P.phiz) * Real.sin P.phiy) * ddK2_D0D0 P q) / P.B2

/-- Free_Data/fd_KerrSchild_c_k0_k1_k2_kt.c:244-260 `fd_ks_ddk0_D0D1` -/
noncomputable def ddk0_D0D1 (P : Par) (q : Pt) : ℝ :=
  (√(1 - P.B2))⁻¹ * ((-(P.Bx * P.By * (√(1 - P.B2) - 1) * Real.cos P.phiz + (P.B2 * √(1 - P.B2) + P.Bx ^ 2 * (1 - √(1 - P.B2))) * Real.sin P.phiz)) * ddK1_D0D1 P q +
    (P.Bx * P.Bz * (√(1 - P.B2) - 1) * Real.sin P.phiy + ((-P.Bx) * P.By * (√(1 - P.B2) - 1) * Real.sin P.phiz + (P.B2 * √(1 - P.B2) + P.Bx ^ 2 * (1 - √(1 - P.B2))) *
    Real.cos P.phiz) * Real.cos P.phiy) * ddK0_D0D1 P q - (P.Bx * P.Bz * (√(1 - P.B2) - 1) * Real.cos P.phiy + (P.Bx * P.By * (√(1 - P.B2) - 1) * Real.sin P.phiz +
    ((-P.B2) * √(1 - P.B2) + P.Bx ^ 2 * (√(1 - P.B2) - 1)) * Real.cos P.phiz) * Real.sin P.phiy) * ddK2_D0D1 P q) / P.B2

/-- Free_Data/fd_KerrSchild_c_k0_k1_k2_kt.c:278-294 `fd_ks_ddk0_D0D2` -/
noncomputable def ddk0_D0D2 (P : Par) (q : Pt) : ℝ :=
  (√(1 - P.B2))⁻¹ * ((-(P.Bx * P.By * (√(1 - P.B2) - 1) * Real.cos P.phiz + (P.B2 * √(1 - P.B2) + P.Bx ^ 2 * (1 - √(1 - P.B2))) * Real.sin P.phiz)) * ddK1_D0D2 P q +
    (P.Bx * P.Bz * (√(1 - P.B2) - 1) * Real.sin P.phiy + ((-P.Bx) * P.By * (√(1 - P.B2) - 1) * Real.sin P.phiz + (P.B2 * √(1 - P.B2) + P.Bx ^ 2 * (1 - √(1 - P.B2))) *
    Real.cos P.phiz) * Real.cos P.phiy) * ddK0_D0D2 P q - (P.Bx * P.Bz * (√(1 - P.B2) - 1) * Real.cos P.phiy + (P.Bx * P.By * (√(1 - P.B2) - 1) * Real.sin P.phiz +
    ((-P.B2) * √(1 - P.B2) + P.Bx ^ 2 * (√(1 - P.B2) - 1)) * Real.cos P.phiz) * Real.sin P.phiy) * ddK2_D0D2 P q) / P.B2

/-- Free_Data/fd_KerrSchild_c_k0_k1_k2_kt.c:210-226 `fd_ks_ddk0_D1D1` -/
noncomputable def ddk0_D1D1 (P : Par) (q : Pt) : ℝ :=
  (√(1 - P.B2))⁻¹ * ((-(P.Bx * P.By * (√(1 - P.B2) - 1) * Real.cos P.phiz + (P.B2 * √(1 - P.B2) + P.Bx ^ 2 * (1 - √(1 - P.B2))) * Real.sin P.phiz)) * ddK1_D1D1 P q +
    (P.Bx * P.Bz * (√(1 - P.B2) - 1) * Real.sin P.phiy + ((-P.Bx) * P.By * (√(1 - P.B2) - 1) * Real.sin P.phiz + (P.B2 * √(1 - P.B2) + P.Bx ^ 2 * (1 - √(1 - P.B2))) *
    Real.cos P.phiz) * Real.cos P.phiy) * ddK0_D1D1 P q - (P.Bx * P.Bz * (√(1 - P.B2) - 1) * Real.cos P.phiy + (P.Bx * P.By * (√(1 - P.B2) - 1) * Real.sin P.phiz +
    ((-P.B2) * √(1 - P.B2) + P.Bx ^ 2 * (√(1 - P.B2) - 1)) * Real.cos P.phiz) * Real.sin P.phiy) * ddK2_D1D1 P q) / P.B2

/-- Free_Data/fd_KerrSchild_c_k0_k1_k2_kt.c:227-243 `fd_ks_ddk0_D1D2` -/
noncomputable def ddk0_D1D2 (P : Par) (q : Pt) : ℝ :=
  (√(1 - P.B2))⁻¹ * ((-(P.Bx * P.By * (√(1 - P.B2) - 1) * Real.cos P.phiz + (P.B2 * √(1 - P.B2) + P.Bx ^ 2 * (1 - √(1 - P.B2))) * Real.sin P.phiz)) * ddK1_D1D2 P q +
    (P.Bx * P.Bz * (√(1 - P.B2) - 1) * Real.sin P.phiy + ((-P.Bx) * P.By * (√(1 - P.B2) - 1) * Real.sin P.phiz + (P.B2 * √(1 - P.B2) + P.Bx ^ 2 * (1 - √(1 - P.B2))) *
    Real.cos P.phiz) * Real.cos P.phiy) * ddK0_D1D2 P q - (P.Bx * P.Bz * (√(1 - P.B2) - 1) * Real.cos P.phiy + (P.Bx * P.By * (√(1 - P.B2) - 1) * Real.sin P.phiz +
    ((-P.B2) * √(1 - P.B2) + P.Bx ^ 2 * (√(1 - P.B2) - 1)) * Real.cos P.phiz) * Real.sin P.phiy) * ddK2_D1D2 P q) / P.B2

/-- Free_Data/fd_KerrSchild_c_k0_k1_k2_kt.c:295-311 `fd_ks_ddk0_D2D2` -/
noncomputable def ddk0_D2D2 (P : Par) (q : Pt) : ℝ :=
  (√(1 - P.B2))⁻¹ * ((-(P.Bx * P.By * (√(1 - P.B2) - 1) * Real.cos P.phiz + (P.B2 * √(1 - P.B2) + P.Bx ^ 2 * (1 - √(1 - P.B2))) * Real.sin P.phiz)) * ddK1_D2D2 P q +
    (P.Bx * P.Bz * (√(1 - P.B2) - 1) * Real.sin P.phiy + ((-P.Bx) * P.By * (√(1 - P.B2) - 1) * Real.sin P.phiz + (P.B2 * √(1 - P.B2) + P.Bx ^ 2 * (1 - √(1 - P.B2))) *
    Real.cos P.phiz) * Real.cos P.phiy) * ddK0_D2D2 P q - (P.Bx * P.Bz * (√(1 - P.B2) - 1) * Real.cos P.phiy + (P.Bx * P.By * (√(1 - P.B2) - 1) * Real.sin P.phiz +
    ((-P.B2) * √(1 - P.B2) + P.Bx ^ 2 * (√(1 - P.B2) - 1)) * Real.cos P.phiz) * Real.sin P.phiy) * ddK2_D2D2 P q) / P.B2

/-- Free_Data/fd_KerrSchild_c_k0_k1_k2_kt.c:542-558 `fd_ks_dddk0_D0D0D0` -/
noncomputable def dddk0_D0D0D0 (P : Par) (q : Pt) : ℝ :=
  (√(1 - P.B2))⁻¹ * ((-(P.Bx * P.By * (√(1 - P.B2) - 1) * Real.cos P.phiz + (P.B2 * √(1 - P.B2) + P.Bx ^ 2 * (1 - √(1 - P.B2))) * Real.sin P.phiz)) * dddK1_D0D0D0 P q +
    (P.Bx * P.Bz * (√(1 - P.B2) - 1) * Real.sin P.phiy + ((-P.Bx) * P.By * (√(1 - P.B2) - 1) * Real.sin P.phiz + (P.B2 * √(1 - P.B2) + P.Bx ^ 2 * (1 - √(1 - P.B2))) *
    Real.cos P.phiz) * Real.cos P.phiy) * dddK0_D0D0D0 P q - (P.Bx * P.Bz * (√(1 - P.B2) - 1) * Real.cos P.phiy + (P.Bx * P.By * (√(1 - P.B2) - 1) * Real.sin P.phiz +
    ((-P.B2) * √(1 - P.B2) + P.Bx ^ 2 * (√(1 - P.B2) - 1)) * Real.cos P.phiz) * Real.sin P.phiy) * dddK2_D0D0D0 P q) / P.B2

/-- Free_Data/fd_KerrSchild_c_k0_k1_k2_kt.c:559-576 `fd_ks_dddk0_D0D0D1` -/
noncomputable def dddk0_D0D0D1 (P : Par) (q : Pt) : ℝ :=
  (√(1 - P.B2))⁻¹ * ((-(P.Bx * P.By * (√(1 - P.B2) - 1) * Real.cos P.phiz + (P.B2 * √(1 - P.B2) + P.Bx ^ 2 * (1 - √(1 - P.B2))) * Real.sin P.phiz)) * dddK1_D0D0D1 P q +
    (P.Bx * P.Bz * (√(1 - P.B2) - 1) * Real.sin P.phiy + ((-P.Bx) * P.By * (√(1 - P.B2) - 1) * Real.sin P.phiz + (P.B2 * √(1 - P.B2) + P.Bx ^ 2 * (1 - √(1 - P.B2))) *
    Real.cos P.phiz) * Real.cos P.phiy) * dddK0_D0D0D1 P q - (P.Bx * P.Bz * (√(1 - P.B2) - 1) * Real.cos P.phiy + (P.Bx * P.By * (√(1 - P.B2) - 1) * Real.sin P.phiz +
    ((-P.B2) * √(1 - P.B2) + P.Bx ^ 2 * (√(1 - P.B2) - 1)) * Real.cos P.phiz) * Real.sin P.phiy) * dddK2_D0D0D1 P q) / P.B2

/-- Free_Data/fd_KerrSchild_c_k0_k1_k2_kt.c:577-594 `fd_ks_dddk0_D0D0D2` -/
noncomputable def dddk0_D0D0D2 (P : Par) (q : Pt) : ℝ :=
  (√(1 - P.B2))⁻¹ * ((-(P.Bx * P.By * (√(1 - P.B2) - 1) * Real.cos P.phiz + (P.B2 * √(1 - P.B2) + P.Bx ^ 2 * (1 - √(1 - P.B2))) * Real.sin P.phiz)) * dddK1_D0D0D2 P q +
    (P.Bx * P.Bz * (√(1 - P.B2) - 1) * Real.sin P.phiy + ((-P.Bx) * P.By * (√(1 - P.B2) - 1) * Real.sin P.phiz + (P.B2 * √(1 - P.B2) + P.Bx ^ 2 * (1 - √(1 - P.B2))) *
    Real.cos P.phiz) * Real.cos P.phiy) * dddK0_D0D0D2 P q - (P.Bx * P.Bz * (√(1 - P.B2) - 1) * Real.cos P.phiy + (P.Bx * P.By * (√(1 - P.B2) - 1) * Real.sin P.phiz +
    ((-P.B2) * √(1 - P.B2) + P.Bx ^ 2 * (√(1 - P.B2) - 1)) * Real.cos P.phiz) * Real.sin P.phiy) * dddK2_D0D0D2 P q) / P.B2

/-- Free_Data/fd_KerrSchild_c_k0_k1_k2_kt.c:471-488 `fd_ks_dddk0_D0D1D0` -/
noncomputable def dddk0_D0D1D0 (P : Par) (q : Pt) : ℝ :=
  (√(1 - P.B2))⁻¹ * ((-(P.Bx * P.By * (√(1 - P.B2) - 1) * Real.cos P.phiz + (P.B2 * √(1 - P.B2) + P.Bx ^ 2 * (1 - √(1 - P.B2))) * Real.sin P.phiz)) * dddK1_D0D0D1 P q +
    (P.Bx * P.Bz * (√(1 - P.B2) - 1) * Real.sin P.phiy + ((-P.Bx) * P.By * (√(1 - P.B2) - 1) * Real.sin P.phiz + (P.B2 * √(1 - P.B2) + P.Bx ^ 2 * (1 - √(1 - P.B2))) *
    Real.cos P.phiz) * Real.cos P.phiy) * dddK0_D0D0D1 P q - (P.Bx * P.Bz * (√(1 - P.B2) - 1) * Real.cos P.phiy + (P.Bx * P.By * (√(1 - P.B2) - 1) * Real.sin P.phiz +
    ((-P.B2) * √(1 - P.B2) + P.Bx ^ 2 * (√(1 - P.B2) - 1)) * Real.cos P.phiz) * Real.sin P.phiy) * dddK2_D0D0D1 P q) / P.B2

/-- Free_Data/fd_KerrSchild_c_k0_k1_k2_kt.c:453-470 `fd_ks_dddk0_D0D1D1` -/
noncomputable def dddk0_D0D1D1 (P : Par) (q : Pt) : ℝ :=
  (√(1 - P.B2))⁻¹ * ((-(P.Bx * P.By * (√(1 - P.B2) - 1) * Real.cos P.phiz + (P.B2 * √(1 - P.B2) + P.Bx ^ 2 * (1 - √(1 - P.B2))) * Real.sin P.phiz)) * dddK1_D0D1D1 P q +
    (P.Bx * P.Bz * (√(1 - P.B2) - 1) * Real.sin P.phiy + ((-P.Bx) * P.By * (√(1 - P.B2) - 1) * Real.sin P.phiz + (P.B2 * √(1 - P.B2) + P.Bx ^ 2 * (1 - √(1 - P.B2))) *
    Real.cos P.phiz) * Real.cos P.phiy) * dddK0_D0D1D1 P q - (P.Bx * P.Bz * (√(1 - P.B2) - 1) * Real.cos P.phiy + (P.Bx * P.By * (√(1 - P.B2) - 1) * Real.sin P.phiz +
    ((-P.B2) * √(1 - P.B2) + P.Bx ^ 2 * (√(1 - P.B2) - 1)) * Real.cos P.phiz) * Real.sin P.phiy) * dddK2_D0D1D1 P q) / P.B2

/-- Free_Data/fd_KerrSchild_c_k0_k1_k2_kt.c:507-523 `fd_ks_dddk0_D0D1D2` -/
noncomputable def dddk0_D0D1D2 (P : Par) (q : Pt) : ℝ :=
  (√(1 - P.B2))⁻¹ * ((-(P.Bx * P.By * (√(1 - P.B2) - 1) * Real.cos P.phiz + (P.B2 * √(1 - P.B2) + P.Bx ^ 2 * (1 - √(1 - P.B2))) * Real.sin P.phiz)) * dddK1_D0D1D2 P q +
    (P.Bx * P.Bz * (√(1 - P.B2) - 1) * Real.sin P.phiy + ((-P.Bx) * P.By * (√(1 - P.B2) - 1) * Real.sin P.phiz + (P.B2 * √(1 - P.B2) + P.Bx ^ 2 * (1 - √(1 - P.B2))) *
    Real.cos P.phiz) * Real.cos P.phiy) * dddK0_D0D1D2 P q - (P.Bx * P.Bz * (√(1 - P.B2) - 1) * Real.cos P.phiy + (P.Bx * P.By * (√(1 - P.B2) - 1) * Real.sin P.phiz +
    ((-P.B2) * √(1 - P.B2) + P.Bx ^ 2 * (√(1 - P.B2) - 1)) * Real.cos P.phiz) * Real.sin P.phiy) * dddK2_D0D1D2 P q) / P.B2

/-- Free_Data/fd_KerrSchild_c_k0_k1_k2_kt.c:348-365 `fd_ks_dddk0_D0D2D0` -/
noncomputable def dddk0_D0D2D0 (P : Par) (q : Pt) : ℝ :=
  (√(1 - P.B2))⁻¹ * ((-(P.Bx * P.By * (√(1 - P.B2) - 1) * Real.cos P.phiz + (P.B2 * √(1 - P.B2) + P.Bx ^ 2 * (1 - √(1 - P.B2))) * Real.sin P.phiz)) * dddK1_D0D0D2 P q +
    (P.Bx * P.Bz * (√(1 - P.B2) - 1) * Real.sin P.phiy + ((-P.Bx) * P.By * (√(1 - P.B2) - 1) * Real.sin P.phiz + (P.B2 * √(1 - P.B2) + P.Bx ^ 2 * (1 - √(1 - P.B2))) *
    Real.cos P.phiz) * Real.cos P.phiy) * dddK0_D0D0D2 P q - (P.Bx * P.Bz * (√(1 - P.B2) - 1) * Real.cos P.phiy + (P.Bx * P.By * (√(1 - P.B2) - 1) * Real.sin P.phiz +
    ((-P.B2) * √(1 - P.B2) + P.Bx ^ 2 * (√(1 - P.B2) - 1)) * Real.cos P.phiz) * Real.sin P.phiy) * dddK2_D0D0D2 P q) / P.B2

/-- Free_Data/fd_KerrSchild_c_k0_k1_k2_kt.c:366-382 `fd_ks_dddk0_D0D2D1` -/
noncomputable def dddk0_D0D2D1 (P : Par) (q : Pt) : ℝ :=
  (√(1 - P.B2))⁻¹ * ((-(P.Bx * P.By * (√(1 - P.B2) - 1) * Real.cos P.phiz + (P.B2 * √(1 - P.B2) + P.Bx ^ 2 * (1 - √(1 - P.B2))) * Real.sin P.phiz)) * dddK1_D0D1D2 P q +
    (P.Bx * P.Bz * (√(1 - P.B2) - 1) * Real.sin P.phiy + ((-P.Bx) * P.By * (√(1 - P.B2) - 1) * Real.sin P.phiz + (P.B2 * √(1 - P.B2) + P.Bx ^ 2 * (1 - √(1 - P.B2))) *
    Real.cos P.phiz) * Real.cos P.phiy) * dddK0_D0D1D2 P q - (P.Bx * P.Bz * (√(1 - P.B2) - 1) * Real.cos P.phiy + (P.Bx * P.By * (√(1 - P.B2) - 1) * Real.sin P.phiz +
    ((-P.B2) * √(1 - P.B2) + P.Bx ^ 2 * (√(1 - P.B2) - 1)) * Real.cos P.phiz) * Real.sin P.phiy) * dddK2_D0D1D2 P q) / P.B2

/-- Free_Data/fd_KerrSchild_c_k0_k1_k2_kt.c:312-329 `fd_ks_dddk0_D0D2D2` -/
noncomputable def dddk0_D0D2D2 (P : Par) (q : Pt) : ℝ :=
  (√(1 - P.B2))⁻¹ * ((-(P.Bx * P.By * (√(1 - P.B2) - 1) * Real.cos P.phiz + (P.B2 * √(1 - P.B2) + P.Bx ^ 2 * (1 - √(1 - P.B2))) * Real.sin P.phiz)) * dddK1_D0D2D2 P q +
    (P.Bx * P.Bz * (√(1 - P.B2) - 1) * Real.sin P.phiy + ((-P.Bx) * P.By * (√(1 - P.B2) - 1) * Real.sin P.phiz + (P.B2 * √(1 - P.B2) + P.Bx ^ 2 * (1 - √(1 - P.B2))) *
    Real.cos P.phiz) * Real.cos P.phiy) * dddK0_D0D2D2 P q - (P.Bx * P.Bz * (√(1 - P.B2) - 1) * Real.cos P.phiy + (P.Bx * P.By * (√(1 - P.B2) - 1) * Real.sin P.phiz +
    ((-P.B2) * √(1 - P.B2) + P.Bx ^ 2 * (√(1 - P.B2) - 1)) * Real.cos P.phiz) * Real.sin P.phiy) * dddK2_D0D2D2 P q) / P.B2

/-- Free_Data/fd_KerrSchild_c_k0_k1_k2_kt.c:330-347 `fd_ks_dddk0_D1D1D0` -/
noncomputable def dddk0_D1D1D0 (P : Par) (q : Pt) : ℝ :=
  (√(1 - P.B2))⁻¹ * ((-(P.Bx * P.By * (√(1 - P.B2) - 1) * Real.cos P.phiz + (P.B2 * √(1 - P.B2) + P.Bx ^ 2 * (1 - √(1 - P.B2))) * Real.sin P.phiz)) * dddK1_D0D1D1 P q +
    (P.Bx * P.Bz * (√(1 - P.B2) - 1) * Real.sin P.phiy + ((-P.Bx) * P.By * (√(1 - P.B2) - 1) * Real.sin P.phiz + (P.B2 * √(1 - P.B2) + P.Bx ^ 2 * (1 - √(1 - P.B2))) *
    Real.cos P.phiz) * Real.cos P.phiy) * dddK0_D0D1D1 P q - (P.Bx * P.Bz * (√(1 - P.B2) - 1) * Real.cos P.phiy + (P.Bx * P.By * (√(1 - P.B2) - 1) * Real.sin P.phiz +
    ((-P.B2) * √(1 - P.B2) + P.Bx ^ 2 * (√(1 - P.B2) - 1)) * Real.cos P.phiz) * Real.sin P.phiy) * dddK2_D0D1D1 P q) / P.B2

/-- Free_Data/fd_KerrSchild_c_k0_k1_k2_kt.c:419-435 `fd_ks_dddk0_D1D1D1` -/
noncomputable def dddk0_D1D1D1 (P : Par) (q : Pt) : ℝ :=
  (√(1 - P.B2))⁻¹ * ((-(P.Bx * P.By * (√(1 - P.B2) - 1) * Real.cos P.phiz + (P.B2 * √(1 - P.B2) + P.Bx ^ 2 * (1 - √(1 - P.B2))) * Real.sin P.phiz)) * dddK1_D1D1D1 P q +
    (P.Bx * P.Bz * (√(1 - P.B2) - 1) * Real.sin P.phiy + ((-P.Bx) * P.By * (√(1 - P.B2) - 1) * Real.sin P.phiz + (P.B2 * √(1 - P.B2) + P.Bx ^ 2 * (1 - √(1 - P.B2))) *
    Real.cos P.phiz) * Real.cos P.phiy) * dddK0_D1D1D1 P q - (P.Bx * P.Bz * (√(1 - P.B2) - 1) * Real.cos P.phiy + (P.Bx * P.By * (√(1 - P.B2) - 1) * Real.sin P.phiz +
    ((-P.B2) * √(1 - P.B2) + P.Bx ^ 2 * (√(1 - P.B2) - 1)) * Real.cos P.phiz) * Real.sin P.phiy) * dddK2_D1D1D1 P q) / P.B2

/-- Free_Data/fd_KerrSchild_c_k0_k1_k2_kt.c:489-506 `fd_ks_dddk0_D1D1D2` -/
noncomputable def dddk0_D1D1D2 (P : Par) (q : Pt) : ℝ :=
  (√(1 - P.B2))⁻¹ * ((-(P.Bx * P.By * (√(1 - P.B2) - 1) * Real.cos P.phiz + (P.B2 * √(1 - P.B2) + P.Bx ^ 2 * (1 - √(1 - P.B2))) * Real.sin P.phiz)) * dddK1_D1D1D2 P q +
    (P.Bx * P.Bz * (√(1 - P.B2) - 1) * Real.sin P.phiy + ((-P.Bx) * P.By * (√(1 - P.B2) - 1) * Real.sin P.phiz + (P.B2 * √(1 - P.B2) + P.Bx ^ 2 * (1 - √(1 - P.B2))) *
    Real.cos P.phiz) * Real.cos P.phiy) * dddK0_D1D1D2 P q - (P.Bx * P.Bz * (√(1 - P.B2) - 1) * Real.cos P.phiy + (P.Bx * P.By * (√(1 - P.B2) - 1) * Real.sin P.phiz +
    ((-P.B2) * √(1 - P.B2) + P.Bx ^ 2 * (√(1 - P.B2) - 1)) * Real.cos P.phiz) * Real.sin P.phiy) * dddK2_D1D1D2 P q) / P.B2

/-- Free_Data/fd_KerrSchild_c_k0_k1_k2_kt.c:595-611 `fd_ks_dddk0_D1D2D0` -/
noncomputable def dddk0_D1D2D0 (P : Par) (q : Pt) : ℝ :=
  (√(1 - P.B2))⁻¹ * ((-(P.Bx * P.By * (√(1 - P.B2) - 1) * Real.cos P.phiz + (P.B2 * √(1 - P.B2) + P.Bx ^ 2 * (1 - √(1 - P.B2))) * Real.sin P.phiz)) * dddK1_D0D1D2 P q +
    (P.Bx * P.Bz * (√(1 - P.B2) - 1) * Real.sin P.phiy + ((-P.Bx) * P.By * (√(1 - P.B2) - 1) * Real.sin P.phiz + (P.B2 * √(1 - P.B2) + P.Bx ^ 2 * (1 - √(1 - P.B2))) *
    Real.cos P.phiz) * Real.cos P.phiy) * dddK0_D0D1D2 P q - (P.Bx * P.Bz * (√(1 - P.B2) - 1) * Real.cos P.phiy + (P.Bx * P.By * (√(1 - P.B2) - 1) * Real.sin P.phiz +
    ((-P.B2) * √(1 - P.B2) + P.Bx ^ 2 * (√(1 - P.B2) - 1)) * Real.cos P.phiz) * Real.sin P.phiy) * dddK2_D0D1D2 P q) / P.B2

/-- Free_Data/fd_KerrSchild_c_k0_k1_k2_kt.c:612-629 `fd_ks_dddk0_D1D2D1` -/
noncomputable def dddk0_D1D2D1 (P : Par) (q : Pt) : ℝ :=
  (√(1 - P.B2))⁻¹ * ((-(P.Bx * P.By * (√(1 - P.B2) - 1) * Real.cos P.phiz + (P.B2 * √(1 - P.B2) + P.Bx ^ 2 * (1 - √(1 - P.B2))) * Real.sin P.phiz)) * dddK1_D1D1D2 P q +
    (P.Bx * P.Bz * (√(1 - P.B2) - 1) * Real.sin P.phiy + ((-P.Bx) * P.By * (√(1 - P.B2) - 1) * Real.sin P.phiz + (P.B2 * √(1 - P.B2) + P.Bx ^ 2 * (1 - √(1 - P.B2))) *
    Real.cos P.phiz) * Real.cos P.phiy) * dddK0_D1D1D2 P q - (P.Bx * P.Bz * (√(1 - P.B2) - 1) * Real.cos P.phiy + (P.Bx * P.By * (√(1 - P.B2) - 1) * Real.sin P.phiz +
    ((-P.B2) * √(1 - P.B2) + P.Bx ^ 2 * (√(1 - P.B2) - 1)) * Real.cos P.phiz) * Real.sin P.phiy) * dddK2_D1D1D2 P q) / P.B2

/-- Free_Data/fd_KerrSchild_c_k0_k1_k2_kt.c:524-541 `fd_ks_dddk0_D1D2D2` -/
noncomputable def dddk0_D1D2D2 (P : Par) (q : Pt) : ℝ :=
  (√(1 - P.B2))⁻¹ * ((-(P.Bx * P.By * (√(1 - P.B2) - 1) * Real.cos P.phiz + (P.B2 * √(1 - P.B2) + P.Bx ^ 2 * (1 - √(1 - P.B2))) * Real.sin P.phiz)) * dddK1_D1D2D2 P q +
    (P.Bx * P.Bz * (√(1 - P.B2) - 1) * Real.sin P.phiy + ((-P.Bx) * P.By * (√(1 - P.B2) - 1) * Real.sin P.phiz + (P.B2 * √(1 - P.B2) + P.Bx ^ 2 * (1 - √(1 - P.B2))) *
    Real.cos P.phiz) * Real.cos P.phiy) * dddK0_D1D2D2 P q - (P.Bx * P.Bz * (√(1 - P.B2) - 1) * Real.cos P.phiy + (P.Bx * P.By * (√(1 - P.B2) - 1) * Real.sin P.phiz +
    ((-P.B2) * √(1 - P.B2) + P.Bx ^ 2 * (√(1 - P.B2) - 1)) * Real.cos P.phiz) * Real.sin P.phiy) * dddK2_D1D2D2 P q) / P.B2

/-- Free_Data/fd_KerrSchild_c_k0_k1_k2_kt.c:401-418 `fd_ks_dddk0_D2D2D0` -/
noncomputable def dddk0_D2D2D0 (P : Par) (q : Pt) : ℝ :=
  (√(1 - P.B2))⁻¹ * ((-(P.Bx * P.By * (√(1 - P.B2) - 1) * Real.cos P.phiz + (P.B2 * √(1 - P.B2) + P.Bx ^ 2 * (1 - √(1 - P.B2))) * Real.sin P.phiz)) * dddK1_D0D2D2 P q +
    (P.Bx * P.Bz * (√(1 - P.B2) - 1) * Real.sin P.phiy + ((-P.Bx) * P.By * (√(1 - P.B2) - 1) * Real.sin P.phiz + (P.B2 * √(1 - P.B2) + P.Bx ^ 2 * (1 - √(1 - P.B2))) *
    Real.cos P.phiz) * Real.cos P.phiy) * dddK0_D0D2D2 P q - (P.Bx * P.Bz * (√(1 - P.B2) - 1) * Real.cos P.phiy + (P.Bx * P.By * (√(1 - P.B2) - 1) * Real.sin P.phiz +
    ((-P.B2) * √(1 - P.B2) + P.Bx ^ 2 * (√(1 - P.B2) - 1)) * Real.cos P.phiz) * Real.sin P.phiy) * dddK2_D0D2D2 P q) / P.B2

/-- Free_Data/fd_KerrSchild_c_k0_k1_k2_kt.c:383-400 `fd_ks_dddk0_D2D2D1` -/
noncomputable def dddk0_D2D2D1 (P : Par) (q : Pt) : ℝ :=
  (√(1 - P.B2))⁻¹ * ((-(P.Bx * P.By * (√(1 - P.B2) - 1) * Real.cos P.phiz + (P.B2 * √(1 - P.B2) + P.Bx ^ 2 * (1 - √(1 - P.B2))) * Real.sin P.phiz)) * dddK1_D1D2D2 P q +
    (P.Bx * P.Bz * (√(1 - P.B2) - 1) * Real.sin P.phiy + ((-P.Bx) * P.By * (√(1 - P.B2) - 1) * Real.sin P.phiz + (P.B2 * √(1 - P.B2) + P.Bx ^ 2 * (1 - √(1 - P.B2))) *
    Real.cos P.phiz) * Real.cos P.phiy) * dddK0_D1D2D2 P q - (P.Bx * P.Bz * (√(1 - P.B2) - 1) * Real.cos P.phiy + (P.Bx * P.By * (√(1 - P.B2) - 1) * Real.sin P.phiz +
    ((-P.B2) * √(1 - P.B2) + P.Bx ^ 2 * (√(1 - P.B2) - 1)) * Real.cos P.phiz) * Real.sin P.phiy) * dddK2_D1D2D2 P q) / P.B2

/-- Free_Data/fd_KerrSchild_c_k0_k1_k2_kt.c:436-452 `fd_ks_dddk0_D2D2D2` -/
noncomputable def dddk0_D2D2D2 (P : Par) (q : Pt) : ℝ :=
  (√(1 - P.B2))⁻¹ * ((-(P.Bx * P.By * (√(1 - P.B2) - 1) * Real.cos P.phiz + (P.B2 * √(1 - P.B2) + P.Bx ^ 2 * (1 - √(1 - P.B2))) * Real.sin P.phiz)) * dddK1_D2D2D2 P q +
    (P.Bx * P.Bz * (√(1 - P.B2) - 1) * Real.sin P.phiy + ((-P.Bx) * P.By * (√(1 - P.B2) - 1) * Real.sin P.phiz + (P.B2 * √(1 - P.B2) + P.Bx ^ 2 * (1 - √(1 - P.B2))) *
    Real.cos P.phiz) * Real.cos P.phiy) * dddK0_D2D2D2 P q - (P.Bx * P.Bz * (√(1 - P.B2) - 1) * Real.cos P.phiy + (P.Bx * P.By * (√(1 - P.B2) - 1) * Real.sin P.phiz +
    ((-P.B2) * √(1 - P.B2) + P.Bx ^ 2 * (√(1 - P.B2) - 1)) * Real.cos P.phiz) * Real.sin P.phiy) * dddK2_D2D2D2 P q) / P.B2

/-- the first derivatives of `k0` -/
noncomputable def dk0 (P : Par) : Fin 3 → Pt → ℝ
  | 0, q => dk0_D0 P q
  | 1, q => dk0_D1 P q
  | 2, q => dk0_D2 P q

/-- the second derivatives of `k0`: D1D0 is kept as D0D1 -/
noncomputable def ddk0 (P : Par) : Fin 3 → Fin 3 → Pt → ℝ
  | 0, 0, q => ddk0_D0D0 P q
  | 0, 1, q => ddk0_D0D1 P q
  | 0, 2, q => ddk0_D0D2 P q
  | 1, 0, q => ddk0_D0D1 P q
  | 1, 1, q => ddk0_D1D1 P q
  | 1, 2, q => ddk0_D1D2 P q
  | 2, 0, q => ddk0_D0D2 P q
  | 2, 1, q => ddk0_D1D2 P q
  | 2, 2, q => ddk0_D2D2 P q

/-- the third derivatives of `k0` -/
noncomputable def dddk0 (P : Par) : Fin 3 → Fin 3 → Fin 3 → Pt → ℝ
  | 0, 0, 0, q => dddk0_D0D0D0 P q
  | 0, 0, 1, q => dddk0_D0D0D1 P q
  | 0, 0, 2, q => dddk0_D0D0D2 P q
  | 0, 1, 0, q => dddk0_D0D1D0 P q
  | 0, 1, 1, q => dddk0_D0D1D1 P q
  | 0, 1, 2, q => dddk0_D0D1D2 P q
  | 0, 2, 0, q => dddk0_D0D2D0 P q
  | 0, 2, 1, q => dddk0_D0D2D1 P q
  | 0, 2, 2, q => dddk0_D0D2D2 P q
  | 1, 0, 0, q => dddk0_D0D1D0 P q
  | 1, 0, 1, q => dddk0_D0D1D1 P q
  | 1, 0, 2, q => dddk0_D0D1D2 P q
  | 1, 1, 0, q => dddk0_D1D1D0 P q
  | 1, 1, 1, q => dddk0_D1D1D1 P q
  | 1, 1, 2, q => dddk0_D1D1D2 P q
  | 1, 2, 0, q => dddk0_D1D2D0 P q
  | 1, 2, 1, q => dddk0_D1D2D1 P q
  | 1, 2, 2, q => dddk0_D1D2D2 P q
  | 2, 0, 0, q => dddk0_D0D2D0 P q
  | 2, 0, 1, q => dddk0_D0D2D1 P q
  | 2, 0, 2, q => dddk0_D0D2D2 P q
  | 2, 1, 0, q => dddk0_D1D2D0 P q
  | 2, 1, 1, q => dddk0_D1D2D1 P q
  | 2, 1, 2, q => dddk0_D1D2D2 P q
  | 2, 2, 0, q => dddk0_D2D2D0 P q
  | 2, 2, 1, q => dddk0_D2D2D1 P q
  | 2, 2, 2, q => dddk0_D2D2D2 P q

/-- Free_Data/fd_KerrSchild_c_k0_k1_k2_kt.c:630-646 `fd_ks_k1` -/
noncomputable def k1 (P : Par) (q : Pt) : ℝ :=
  (√(1 - P.B2))⁻¹ * ((-P.B2) * P.By + (P.Bx * P.By * (√(1 - P.B2) - 1) * Real.sin P.phiz + (P.B2 * √(1 - P.B2) + P.By ^ 2 * (1 - √(1 - P.B2))) * Real.cos P.phiz) * K1 P q
    + (P.By * P.Bz * (√(1 - P.B2) - 1) * Real.sin P.phiy + ((-P.Bx) * P.By * (√(1 - P.B2) - 1) * Real.cos P.phiz + (P.B2 * √(1 - P.B2) + P.By ^ 2 * (1 - √(1 - P.B2))) *
    Real.sin P.phiz) * Real.cos P.phiy) * K0 P q - (P.By * P.Bz * (√(1 - P.B2) - 1) * Real.cos P.phiy + (P.Bx * P.By * (√(1 - P.B2) - 1) * Real.cos P.phiz + ((-P.B2) *
    √(1 - P.B2) + P.By ^ 2 * (√(1 - P.B2) - 1)) * Real.sin P.phiz) * Real.sin P.phiy) * K2 P q) / P.B2

/-- Free_Data/fd_KerrSchild_c_k0_k1_k2_kt.c:664-680 `fd_ks_dk1_D0` -/
noncomputable def dk1_D0 (P : Par) (q : Pt) : ℝ :=
  (√(1 - P.B2))⁻¹ * ((P.Bx * P.By * (√(1 - P.B2) - 1) * Real.sin P.phiz + (P.B2 * √(1 - P.B2) + P.By ^ 2 * (1 - √(1 - P.B2))) * Real.cos P.phiz) * dK1_D0 P q + (P.By *
    P.Bz * (√(1 - P.B2) - 1) * Real.sin P.phiy + ((-P.Bx) * P.By * (√(1 - P.B2) - 1) * Real.cos P.phiz + (P.B2 * √(1 - P.B2) + P.By ^ 2 * (1 - √(1 - P.B2))) * Real.sin
    P.phiz) * Real.cos P.phiy) * dK0_D0 P q - (P.By * P.Bz * (√(1 - P.B2) - 1) * Real.cos P.phiy + (P.Bx * P.By * (√(1 - P.B2) - 1) * Real.cos P.phiz + ((-P.B2) * √(1 -
    P.B2) + P.By ^ 2 * (√(1 - P.B2) - 1)) * Real.sin P.phiz) * Real.sin P.phiy) * dK2_D0 P q) / P.B2

/-- Free_Data/fd_KerrSchild_c_k0_k1_k2_kt.c:647-663 `fd_ks_dk1_D1` -/
noncomputable def dk1_D1 (P : Par) (q : Pt) : ℝ :=
  (√(1 - P.B2))⁻¹ * ((P.Bx * P.By * (√(1 - P.B2) - 1) * Real.sin P.phiz + (P.B2 * √(1 - P.B2) + P.By ^ 2 * (1 - √(1 - P.B2))) * Real.cos P.phiz) * dK1_D1 P q + (P.By *
    P.Bz * (√(1 - P.B2) - 1) * Real.sin P.phiy + ((-P.Bx) * P.By * (√(1 - P.B2) - 1) * Real.cos P.phiz + (P.B2 * √(1 - P.B2) + P.By ^ 2 * (1 - √(1 - P.B2))) * Real.sin
    P.phiz) * Real.cos P.phiy) * dK0_D1 P q - (P.By * P.Bz * (√(1 - P.B2) - 1) * Real.cos P.phiy + (P.Bx * P.By * (√(1 - P.B2) - 1) * Real.cos P.phiz + ((-P.B2) * √(1 -
    P.B2) + P.By ^ 2 * (√(1 - P.B2) - 1)) * Real.sin P.phiz) * Real.sin P.phiy) * dK2_D1 P q) / P.B2

/-- Free_Data/fd_KerrSchild_c_k0_k1_k2_kt.c:681-697 `fd_ks_dk1_D2` -/
noncomputable def dk1_D2 (P : Par) (q : Pt) : ℝ :=
  (√(1 - P.B2))⁻¹ * ((P.Bx * P.By * (√(1 - P.B2) - 1) * Real.sin P.phiz + (P.B2 * √(1 - P.B2) + P.By ^ 2 * (1 - √(1 - P.B2))) * Real.cos P.phiz) * dK1_D2 P q + (P.By *
    P.Bz * (√(1 - P.B2) - 1) * Real.sin P.phiy + ((-P.Bx) * P.By * (√(1 - P.B2) - 1) * Real.cos P.phiz + (P.B2 * √(1 - P.B2) + P.By ^ 2 * (1 - √(1 - P.B2))) * Real.sin
    P.phiz) * Real.cos P.phiy) * dK0_D2 P q - (P.By * P.Bz * (√(1 - P.B2) - 1) * Real.cos P.phiy + (P.Bx * P.By * (√(1 - P.B2) - 1) * Real.cos P.phiz + ((-P.B2) * √(1 -
    P.B2) + P.By ^ 2 * (√(1 - P.B2) - 1)) * Real.sin P.phiz) * Real.sin P.phiy) * dK2_D2 P q) / P.B2

/-- Free_Data/fd_KerrSchild_c_k0_k1_k2_kt.c:715-731 `fd_ks_ddk1_D0D0` -/
noncomputable def ddk1_D0D0 (P : Par) (q : Pt) : ℝ :=
  (√(1 - P.B2))⁻¹ * ((P.Bx * P.By * (√(1 - P.B2) - 1) * Real.sin P.phiz + (P.B2 * √(1 - P.B2) + P.By ^ 2 * (1 - √(1 - P.B2))) * Real.cos P.phiz) * ddK1_D0D0 P q + (P.By *
    P.Bz * (√(1 - P.B2) - 1) * Real.sin P.phiy + ((-P.Bx) * P.By * (√(1 - P.B2) - 1) * Real.cos P.phiz + (P.B2 * √(1 - P.B2) + P.By ^ 2 * (1 - √(1 - P.B2))) * Real.sin
    P.phiz) * Real.cos P.phiy) * ddK0_D0D0 P q - (P.By * P.Bz * (√(1 - P.B2) - 1) * Real.cos P.phiy + (P.Bx * P.By * (√(1 - P.B2) - 1) * Real.cos P.phiz + ((-P.B2) * √(1
    - P.B2) + P.By ^ 2 * (√(1 - P.B2) - 1)) * Real.sin P.phiz) * Real.sin P.phiy) * ddK2_D0D0 P q) / P.B2

/-- Free_Data/fd_KerrSchild_c_k0_k1_k2_kt.c:783-799 `fd_ks_ddk1_D0D1` -/
noncomputable def ddk1_D0D1 (P : Par) (q : Pt) : ℝ :=
  (√(1 - P.B2))⁻¹ * ((P.Bx * P.By * (√(1 - P.B2) - 1) * Real.sin P.phiz + (P.B2 * √(1 - P.B2) + P.By ^ 2 * (1 - √(1 - P.B2))) * Real.cos P.phiz) * ddK1_D0D1 P q + (P.By *
    P.Bz * (√(1 - P.B2) - 1) * Real.sin P.phiy + ((-P.Bx) * P.By * (√(1 - P.B2) - 1) * Real.cos P.phiz + (P.B2 * √(1 - P.B2) + P.By ^ 2 * (1 - √(1 - P.B2))) * Real.sin
    P.phiz) * Real.cos P.phiy) * ddK0_D0D1 P q - (P.By * P.Bz * (√(1 - P.B2) - 1) * Real.cos P.phiy + (P.Bx * P.By * (√(1 - P.B2) - 1) * Real.cos P.phiz + ((-P.B2) * √(1
    - P.B2) + P.By ^ 2 * (√(1 - P.B2) - 1)) * Real.sin P.phiz) * Real.sin P.phiy) * ddK2_D0D1 P q) / P.B2

/-- Free_Data/fd_KerrSchild_c_k0_k1_k2_kt.c:732-748 `fd_ks_ddk1_D0D2` -/
noncomputable def ddk1_D0D2 (P : Par) (q : Pt) : ℝ :=
  (√(1 - P.B2))⁻¹ * ((P.Bx * P.By * (√(1 - P.B2) - 1) * Real.sin P.phiz + (P.B2 * √(1 - P.B2) + P.By ^ 2 * (1 - √(1 - P.B2))) * Real.cos P.phiz) * ddK1_D0D2 P q + (P.By *
    P.Bz * (√(1 - P.B2) - 1) * Real.sin P.phiy + ((-P.Bx) * P.By * (√(1 - P.B2) - 1) * Real.cos P.phiz + (P.B2 * √(1 - P.B2) + P.By ^ 2 * (1 - √(1 - P.B2))) * Real.sin
    P.phiz) * Real.cos P.phiy) * ddK0_D0D2 P q - (P.By * P.Bz * (√(1 - P.B2) - 1) * Real.cos P.phiy + (P.Bx * P.By * (√(1 - P.B2) - 1) * Real.cos P.phiz + ((-P.B2) * √(1
    - P.B2) + P.By ^ 2 * (√(1 - P.B2) - 1)) * Real.sin P.phiz) * Real.sin P.phiy) * ddK2_D0D2 P q) / P.B2

/-- Free_Data/fd_KerrSchild_c_k0_k1_k2_kt.c:766-782 `fd_ks_ddk1_D1D1` -/
noncomputable def ddk1_D1D1 (P : Par) (q : Pt) : ℝ :=
  (√(1 - P.B2))⁻¹ * ((P.Bx * P.By * (√(1 - P.B2) - 1) * Real.sin P.phiz + (P.B2 * √(1 - P.B2) + P.By ^ 2 * (1 - √(1 - P.B2))) * Real.cos P.phiz) * ddK1_D1D1 P q + (P.By *
    P.Bz * (√(1 - P.B2) - 1) * Real.sin P.phiy + ((-P.Bx) * P.By * (√(1 - P.B2) - 1) * Real.cos P.phiz + (P.B2 * √(1 - P.B2) + P.By ^ 2 * (1 - √(1 - P.B2))) * Real.sin
    P.phiz) * Real.cos P.phiy) * ddK0_D1D1 P q - (P.By * P.Bz * (√(1 - P.B2) - 1) * Real.cos P.phiy + (P.Bx * P.By * (√(1 - P.B2) - 1) * Real.cos P.phiz + ((-P.B2) * √(1
    - P.B2) + P.By ^ 2 * (√(1 - P.B2) - 1)) * Real.sin P.phiz) * Real.sin P.phiy) * ddK2_D1D1 P q) / P.B2

/-- Free_Data/fd_KerrSchild_c_k0_k1_k2_kt.c:749-765 `fd_ks_ddk1_D1D2` -/
noncomputable def ddk1_D1D2 (P : Par) (q : Pt) : ℝ :=
  (√(1 - P.B2))⁻¹ * ((P.Bx * P.By * (√(1 - P.B2) - 1) * Real.sin P.phiz + (P.B2 * √(1 - P.B2) + P.By ^ 2 * (1 - √(1 - P.B2))) * Real.cos P.phiz) * ddK1_D1D2 P q + (P.By *
    P.Bz * (√(1 - P.B2) - 1) * Real.sin P.phiy + ((-P.Bx) * P.By * (√(1 - P.B2) - 1) * Real.cos P.phiz + (P.B2 * √(1 - P.B2) + P.By ^ 2 * (1 - √(1 - P.B2))) * Real.sin
    P.phiz) * Real.cos P.phiy) * ddK0_D1D2 P q - (P.By * P.Bz * (√(1 - P.B2) - 1) * Real.cos P.phiy + (P.Bx * P.By * (√(1 - P.B2) - 1) * Real.cos P.phiz + ((-P.B2) * √(1
    - P.B2) + P.By ^ 2 * (√(1 - P.B2) - 1)) * Real.sin P.phiz) * Real.sin P.phiy) * ddK2_D1D2 P q) / P.B2

/-- Free_Data/fd_KerrSchild_c_k0_k1_k2_kt.c:698-714 `fd_ks_ddk1_D2D2` -/
noncomputable def ddk1_D2D2 (P : Par) (q : Pt) : ℝ :=
  (√(1 - P.B2))⁻¹ * ((P.Bx * P.By * (√(1 - P.B2) - 1) * Real.sin P.phiz + (P.B2 * √(1 - P.B2) + P.By ^ 2 * (1 - √(1 - P.B2))) * Real.cos P.phiz) * ddK1_D2D2 P q + (P.By *
    P.Bz * (√(1 - P.B2) - 1) * Real.sin P.phiy + ((-P.Bx) * P.By * (√(1 - P.B2) - 1) * Real.cos P.phiz + (P.B2 * √(1 - P.B2) + P.By ^ 2 * (1 - √(1 - P.B2))) * Real.sin
    P.phiz) * Real.cos P.phiy) * ddK0_D2D2 P q - (P.By * P.Bz * (√(1 - P.B2) - 1) * Real.cos P.phiy + (P.Bx * P.By * (√(1 - P.B2) - 1) * Real.cos P.phiz + ((-P.B2) * √(1
    - P.B2) + P.By ^ 2 * (√(1 - P.B2) - 1)) * Real.sin P.phiz) * Real.sin P.phiy) * ddK2_D2D2 P q) / P.B2

/-- Free_Data/fd_KerrSchild_c_k0_k1_k2_kt.c:976-992 `fd_ks_dddk1_D0D0D0` -/
noncomputable def dddk1_D0D0D0 (P : Par) (q : Pt) : ℝ :=
  (√(1 - P.B2))⁻¹ * ((P.Bx * P.By * (√(1 - P.B2) - 1) * Real.sin P.phiz + (P.B2 * √(1 - P.B2) + P.By ^ 2 * (1 - √(1 - P.B2))) * Real.cos P.phiz) * dddK1_D0D0D0 P q +
    (P.By * P.Bz * (√(1 - P.B2) - 1) * Real.sin P.phiy + ((-P.Bx) * P.By * (√(1 - P.B2) - 1) * Real.cos P.phiz + (P.B2 * √(1 - P.B2) + P.By ^ 2 * (1 - √(1 - P.B2))) *
    Real.sin P.phiz) * Real.cos P.phiy) * dddK0_D0D0D0 P q - (P.By * P.Bz * (√(1 - P.B2) - 1) * Real.cos P.phiy + (P.Bx * P.By * (√(1 - P.B2) - 1) * Real.cos P.phiz +
    ((-P.B2) * √(1 - P.B2) + P.By ^ 2 * (√(1 - P.B2) - 1)) * Real.sin P.phiz) * Real.sin P.phiy) * dddK2_D0D0D0 P q) / P.B2

/-- Free_Data/fd_KerrSchild_c_k0_k1_k2_kt.c:958-975 `fd_ks_dddk1_D0D0D1` -/
noncomputable def dddk1_D0D0D1 (P : Par) (q : Pt) : ℝ :=
  (√(1 - P.B2))⁻¹ * ((P.Bx * P.By * (√(1 - P.B2) - 1) * Real.sin P.phiz + (P.B2 * √(1 - P.B2) + P.By ^ 2 * (1 - √(1 - P.B2))) * Real.cos P.phiz) * dddK1_D0D0D1 P q +
    (P.By * P.Bz * (√(1 - P.B2) - 1) * Real.sin P.phiy + ((-P.Bx) * P.By * (√(1 - P.B2) - 1) * Real.cos P.phiz + (P.B2 * √(1 - P.B2) + P.By ^ 2 * (1 - √(1 - P.B2))) *
    Real.sin P.phiz) * Real.cos P.phiy) * dddK0_D0D0D1 P q - (P.By * P.Bz * (√(1 - P.B2) - 1) * Real.cos P.phiy + (P.Bx * P.By * (√(1 - P.B2) - 1) * Real.cos P.phiz +
    ((-P.B2) * √(1 - P.B2) + P.By ^ 2 * (√(1 - P.B2) - 1)) * Real.sin P.phiz) * Real.sin P.phiy) * dddK2_D0D0D1 P q) / P.B2

/-- Free_Data/fd_KerrSchild_c_k0_k1_k2_kt.c:940-957 `fd_ks_dddk1_D0D0D2` -/
noncomputable def dddk1_D0D0D2 (P : Par) (q : Pt) : ℝ :=
  (√(1 - P.B2))⁻¹ * ((P.Bx * P.By * (√(1 - P.B2) - 1) * Real.sin P.phiz + (P.B2 * √(1 - P.B2) + P.By ^ 2 * (1 - √(1 - P.B2))) * Real.cos P.phiz) * dddK1_D0D0D2 P q +
    (P.By * P.Bz * (√(1 - P.B2) - 1) * Real.sin P.phiy + ((-P.Bx) * P.By * (√(1 - P.B2) - 1) * Real.cos P.phiz + (P.B2 * √(1 - P.B2) + P.By ^ 2 * (1 - √(1 - P.B2))) *
    Real.sin P.phiz) * Real.cos P.phiy) * dddK0_D0D0D2 P q - (P.By * P.Bz * (√(1 - P.B2) - 1) * Real.cos P.phiy + (P.Bx * P.By * (√(1 - P.B2) - 1) * Real.cos P.phiz +
    ((-P.B2) * √(1 - P.B2) + P.By ^ 2 * (√(1 - P.B2) - 1)) * Real.sin P.phiz) * Real.sin P.phiy) * dddK2_D0D0D2 P q) / P.B2

/-- Free_Data/fd_KerrSchild_c_k0_k1_k2_kt.c:905-922 `fd_ks_dddk1_D0D1D0` -/
noncomputable def dddk1_D0D1D0 (P : Par) (q : Pt) : ℝ :=
  (√(1 - P.B2))⁻¹ * ((P.Bx * P.By * (√(1 - P.B2) - 1) * Real.sin P.phiz + (P.B2 * √(1 - P.B2) + P.By ^ 2 * (1 - √(1 - P.B2))) * Real.cos P.phiz) * dddK1_D0D0D1 P q +
    (P.By * P.Bz * (√(1 - P.B2) - 1) * Real.sin P.phiy + ((-P.Bx) * P.By * (√(1 - P.B2) - 1) * Real.cos P.phiz + (P.B2 * √(1 - P.B2) + P.By ^ 2 * (1 - √(1 - P.B2))) *
    Real.sin P.phiz) * Real.cos P.phiy) * dddK0_D0D0D1 P q - (P.By * P.Bz * (√(1 - P.B2) - 1) * Real.cos P.phiy + (P.Bx * P.By * (√(1 - P.B2) - 1) * Real.cos P.phiz +
    ((-P.B2) * √(1 - P.B2) + P.By ^ 2 * (√(1 - P.B2) - 1)) * Real.sin P.phiz) * Real.sin P.phiy) * dddK2_D0D0D1 P q) / P.B2

/-- Free_Data/fd_KerrSchild_c_k0_k1_k2_kt.c:1064-1081 `fd_ks_dddk1_D0D1D1` -/
noncomputable def dddk1_D0D1D1 (P : Par) (q : Pt) : ℝ :=
  (√(1 - P.B2))⁻¹ * ((P.Bx * P.By * (√(1 - P.B2) - 1) * Real.sin P.phiz + (P.B2 * √(1 - P.B2) + P.By ^ 2 * (1 - √(1 - P.B2))) * Real.cos P.phiz) * dddK1_D0D1D1 P q +
    (P.By * P.Bz * (√(1 - P.B2) - 1) * Real.sin P.phiy + ((-P.Bx) * P.By * (√(1 - P.B2) - 1) * Real.cos P.phiz + (P.B2 * √(1 - P.B2) + P.By ^ 2 * (1 - √(1 - P.B2))) *
    Real.sin P.phiz) * Real.cos P.phiy) * dddK0_D0D1D1 P q - (P.By * P.Bz * (√(1 - P.B2) - 1) * Real.cos P.phiy + (P.Bx * P.By * (√(1 - P.B2) - 1) * Real.cos P.phiz +
    ((-P.B2) * √(1 - P.B2) + P.By ^ 2 * (√(1 - P.B2) - 1)) * Real.sin P.phiz) * Real.sin P.phiy) * dddK2_D0D1D1 P q) / P.B2

/-- Free_Data/fd_KerrSchild_c_k0_k1_k2_kt.c:923-939 `fd_ks_dddk1_D0D1D2` -/
noncomputable def dddk1_D0D1D2 (P : Par) (q : Pt) : ℝ :=
  (√(1 - P.B2))⁻¹ * ((P.Bx * P.By * (√(1 - P.B2) - 1) * Real.sin P.phiz + (P.B2 * √(1 - P.B2) + P.By ^ 2 * (1 - √(1 - P.B2))) * Real.cos P.phiz) * dddK1_D0D1D2 P q +
    (P.By * P.Bz * (√(1 - P.B2) - 1) * Real.sin P.phiy + ((-P.Bx) * P.By * (√(1 - P.B2) - 1) * Real.cos P.phiz + (P.B2 * √(1 - P.B2) + P.By ^ 2 * (1 - √(1 - P.B2))) *
    Real.sin P.phiz) * Real.cos P.phiy) * dddK0_D0D1D2 P q - (P.By * P.Bz * (√(1 - P.B2) - 1) * Real.cos P.phiy + (P.Bx * P.By * (√(1 - P.B2) - 1) * Real.cos P.phiz +
    ((-P.B2) * √(1 - P.B2) + P.By ^ 2 * (√(1 - P.B2) - 1)) * Real.sin P.phiz) * Real.sin P.phiy) * dddK2_D0D1D2 P q) / P.B2

/-- Free_Data/fd_KerrSchild_c_k0_k1_k2_kt.c:817-834 `fd_ks_dddk1_D0D2D0` -/
noncomputable def dddk1_D0D2D0 (P : Par) (q : Pt) : ℝ :=
  (√(1 - P.B2))⁻¹ * ((P.Bx * P.By * (√(1 - P.B2) - 1) * Real.sin P.phiz + (P.B2 * √(1 - P.B2) + P.By ^ 2 * (1 - √(1 - P.B2))) * Real.cos P.phiz) * dddK1_D0D0D2 P q +
    (P.By * P.Bz * (√(1 - P.B2) - 1) * Real.sin P.phiy + ((-P.Bx) * P.By * (√(1 - P.B2) - 1) * Real.cos P.phiz + (P.B2 * √(1 - P.B2) + P.By ^ 2 * (1 - √(1 - P.B2))) *
    Real.sin P.phiz) * Real.cos P.phiy) * dddK0_D0D0D2 P q - (P.By * P.Bz * (√(1 - P.B2) - 1) * Real.cos P.phiy + (P.Bx * P.By * (√(1 - P.B2) - 1) * Real.cos P.phiz +
    ((-P.B2) * √(1 - P.B2) + P.By ^ 2 * (√(1 - P.B2) - 1)) * Real.sin P.phiz) * Real.sin P.phiy) * dddK2_D0D0D2 P q) / P.B2

/-- Free_Data/fd_KerrSchild_c_k0_k1_k2_kt.c:800-816 `fd_ks_dddk1_D0D2D1` -/
noncomputable def dddk1_D0D2D1 (P : Par) (q : Pt) : ℝ :=
  (√(1 - P.B2))⁻¹ * ((P.Bx * P.By * (√(1 - P.B2) - 1) * Real.sin P.phiz + (P.B2 * √(1 - P.B2) + P.By ^ 2 * (1 - √(1 - P.B2))) * Real.cos P.phiz) * dddK1_D0D1D2 P q +
    (P.By * P.Bz * (√(1 - P.B2) - 1) * Real.sin P.phiy + ((-P.Bx) * P.By * (√(1 - P.B2) - 1) * Real.cos P.phiz + (P.B2 * √(1 - P.B2) + P.By ^ 2 * (1 - √(1 - P.B2))) *
    Real.sin P.phiz) * Real.cos P.phiy) * dddK0_D0D1D2 P q - (P.By * P.Bz * (√(1 - P.B2) - 1) * Real.cos P.phiy + (P.Bx * P.By * (√(1 - P.B2) - 1) * Real.cos P.phiz +
    ((-P.B2) * √(1 - P.B2) + P.By ^ 2 * (√(1 - P.B2) - 1)) * Real.sin P.phiz) * Real.sin P.phiy) * dddK2_D0D1D2 P q) / P.B2

/-- Free_Data/fd_KerrSchild_c_k0_k1_k2_kt.c:852-869 `fd_ks_dddk1_D0D2D2` -/
noncomputable def dddk1_D0D2D2 (P : Par) (q : Pt) : ℝ :=
  (√(1 - P.B2))⁻¹ * ((P.Bx * P.By * (√(1 - P.B2) - 1) * Real.sin P.phiz + (P.B2 * √(1 - P.B2) + P.By ^ 2 * (1 - √(1 - P.B2))) * Real.cos P.phiz) * dddK1_D0D2D2 P q +
    (P.By * P.Bz * (√(1 - P.B2) - 1) * Real.sin P.phiy + ((-P.Bx) * P.By * (√(1 - P.B2) - 1) * Real.cos P.phiz + (P.B2 * √(1 - P.B2) + P.By ^ 2 * (1 - √(1 - P.B2))) *
    Real.sin P.phiz) * Real.cos P.phiy) * dddK0_D0D2D2 P q - (P.By * P.Bz * (√(1 - P.B2) - 1) * Real.cos P.phiy + (P.Bx * P.By * (√(1 - P.B2) - 1) * Real.cos P.phiz +
    ((-P.B2) * √(1 - P.B2) + P.By ^ 2 * (√(1 - P.B2) - 1)) * Real.sin P.phiz) * Real.sin P.phiy) * dddK2_D0D2D2 P q) / P.B2

/-- Free_Data/fd_KerrSchild_c_k0_k1_k2_kt.c:1100-1117 `fd_ks_dddk1_D1D1D0` -/
noncomputable def dddk1_D1D1D0 (P : Par) (q : Pt) : ℝ :=
  (√(1 - P.B2))⁻¹ * ((P.Bx * P.By * (√(1 - P.B2) - 1) * Real.sin P.phiz + (P.B2 * √(1 - P.B2) + P.By ^ 2 * (1 - √(1 - P.B2))) * Real.cos P.phiz) * dddK1_D0D1D1 P q +
    (P.By * P.Bz * (√(1 - P.B2) - 1) * Real.sin P.phiy + ((-P.Bx) * P.By * (√(1 - P.B2) - 1) * Real.cos P.phiz + (P.B2 * √(1 - P.B2) + P.By ^ 2 * (1 - √(1 - P.B2))) *
    Real.sin P.phiz) * Real.cos P.phiy) * dddK0_D0D1D1 P q - (P.By * P.Bz * (√(1 - P.B2) - 1) * Real.cos P.phiy + (P.Bx * P.By * (√(1 - P.B2) - 1) * Real.cos P.phiz +
    ((-P.B2) * √(1 - P.B2) + P.By ^ 2 * (√(1 - P.B2) - 1)) * Real.sin P.phiz) * Real.sin P.phiy) * dddK2_D0D1D1 P q) / P.B2

/-- Free_Data/fd_KerrSchild_c_k0_k1_k2_kt.c:835-851 `fd_ks_dddk1_D1D1D1` -/
noncomputable def dddk1_D1D1D1 (P : Par) (q : Pt) : ℝ :=
  (√(1 - P.B2))⁻¹ * ((P.Bx * P.By * (√(1 - P.B2) - 1) * Real.sin P.phiz + (P.B2 * √(1 - P.B2) + P.By ^ 2 * (1 - √(1 - P.B2))) * Real.cos P.phiz) * dddK1_D1D1D1 P q +
    (P.By * P.Bz * (√(1 - P.B2) - 1) * Real.sin P.phiy + ((-P.Bx) * P.By * (√(1 - P.B2) - 1) * Real.cos P.phiz + (P.B2 * √(1 - P.B2) + P.By ^ 2 * (1 - √(1 - P.B2))) *
    Real.sin P.phiz) * Real.cos P.phiy) * dddK0_D1D1D1 P q - (P.By * P.Bz * (√(1 - P.B2) - 1) * Real.cos P.phiy + (P.Bx * P.By * (√(1 - P.B2) - 1) * Real.cos P.phiz +
    ((-P.B2) * √(1 - P.B2) + P.By ^ 2 * (√(1 - P.B2) - 1)) * Real.sin P.phiz) * Real.sin P.phiy) * dddK2_D1D1D1 P q) / P.B2

/-- Free_Data/fd_KerrSchild_c_k0_k1_k2_kt.c:870-887 `fd_ks_dddk1_D1D1D2` -/
noncomputable def dddk1_D1D1D2 (P : Par) (q : Pt) : ℝ :=
  (√(1 - P.B2))⁻¹ * ((P.Bx * P.By * (√(1 - P.B2) - 1) * Real.sin P.phiz + (P.B2 * √(1 - P.B2) + P.By ^ 2 * (1 - √(1 - P.B2))) * Real.cos P.phiz) * dddK1_D1D1D2 P q +
    (P.By * P.Bz * (√(1 - P.B2) - 1) * Real.sin P.phiy + ((-P.Bx) * P.By * (√(1 - P.B2) - 1) * Real.cos P.phiz + (P.B2 * √(1 - P.B2) + P.By ^ 2 * (1 - √(1 - P.B2))) *
    Real.sin P.phiz) * Real.cos P.phiy) * dddK0_D1D1D2 P q - (P.By * P.Bz * (√(1 - P.B2) - 1) * Real.cos P.phiy + (P.Bx * P.By * (√(1 - P.B2) - 1) * Real.cos P.phiz +
    ((-P.B2) * √(1 - P.B2) + P.By ^ 2 * (√(1 - P.B2) - 1)) * Real.sin P.phiz) * Real.sin P.phiy) * dddK2_D1D1D2 P q) / P.B2

/-- Free_Data/fd_KerrSchild_c_k0_k1_k2_kt.c:1047-1063 `fd_ks_dddk1_D1D2D0` -/
noncomputable def dddk1_D1D2D0 (P : Par) (q : Pt) : ℝ :=
  (√(1 - P.B2))⁻¹ * ((P.Bx * P.By * (√(1 - P.B2) - 1) * Real.sin P.phiz + (P.B2 * √(1 - P.B2) + P.By ^ 2 * (1 - √(1 - P.B2))) * Real.cos P.phiz) * dddK1_D0D1D2 P q +
    (P.By * P.Bz * (√(1 - P.B2) - 1) * Real.sin P.phiy + ((-P.Bx) * P.By * (√(1 - P.B2) - 1) * Real.cos P.phiz + (P.B2 * √(1 - P.B2) + P.By ^ 2 * (1 - √(1 - P.B2))) *
    Real.sin P.phiz) * Real.cos P.phiy) * dddK0_D0D1D2 P q - (P.By * P.Bz * (√(1 - P.B2) - 1) * Real.cos P.phiy + (P.Bx * P.By * (√(1 - P.B2) - 1) * Real.cos P.phiz +
    ((-P.B2) * √(1 - P.B2) + P.By ^ 2 * (√(1 - P.B2) - 1)) * Real.sin P.phiz) * Real.sin P.phiy) * dddK2_D0D1D2 P q) / P.B2

/-- Free_Data/fd_KerrSchild_c_k0_k1_k2_kt.c:1029-1046 `fd_ks_dddk1_D1D2D1` -/
noncomputable def dddk1_D1D2D1 (P : Par) (q : Pt) : ℝ :=
  (√(1 - P.B2))⁻¹ * ((P.Bx * P.By * (√(1 - P.B2) - 1) * Real.sin P.phiz + (P.B2 * √(1 - P.B2) + P.By ^ 2 * (1 - √(1 - P.B2))) * Real.cos P.phiz) * dddK1_D1D1D2 P q +
    (P.By * P.Bz * (√(1 - P.B2) - 1) * Real.sin P.phiy + ((-P.Bx) * P.By * (√(1 - P.B2) - 1) * Real.cos P.phiz + (P.B2 * √(1 - P.B2) + P.By ^ 2 * (1 - √(1 - P.B2))) *
    Real.sin P.phiz) * Real.cos P.phiy) * dddK0_D1D1D2 P q - (P.By * P.Bz * (√(1 - P.B2) - 1) * Real.cos P.phiy + (P.Bx * P.By * (√(1 - P.B2) - 1) * Real.cos P.phiz +
    ((-P.B2) * √(1 - P.B2) + P.By ^ 2 * (√(1 - P.B2) - 1)) * Real.sin P.phiz) * Real.sin P.phiy) * dddK2_D1D1D2 P q) / P.B2

/-- Free_Data/fd_KerrSchild_c_k0_k1_k2_kt.c:1082-1099 `fd_ks_dddk1_D1D2D2` -/
noncomputable def dddk1_D1D2D2 (P : Par) (q : Pt) : ℝ :=
  (√(1 - P.B2))⁻¹ * ((P.Bx * P.By * (√(1 - P.B2) - 1) * Real.sin P.phiz + (P.B2 * √(1 - P.B2) + P.By ^ 2 * (1 - √(1 - P.B2))) * Real.cos P.phiz) * dddK1_D1D2D2 P q +
    (P.By * P.Bz * (√(1 - P.B2) - 1) * Real.sin P.phiy + ((-P.Bx) * P.By * (√(1 - P.B2) - 1) * Real.cos P.phiz + (P.B2 * √(1 - P.B2) + P.By ^ 2 * (1 - √(1 - P.B2))) *
    Real.sin P.phiz) * Real.cos P.phiy) * dddK0_D1D2D2 P q - (P.By * P.Bz * (√(1 - P.B2) - 1) * Real.cos P.phiy + (P.Bx * P.By * (√(1 - P.B2) - 1) * Real.cos P.phiz +
    ((-P.B2) * √(1 - P.B2) + P.By ^ 2 * (√(1 - P.B2) - 1)) * Real.sin P.phiz) * Real.sin P.phiy) * dddK2_D1D2D2 P q) / P.B2

/-- Free_Data/fd_KerrSchild_c_k0_k1_k2_kt.c:993-1010 `fd_ks_dddk1_D2D2D0` -/
noncomputable def dddk1_D2D2D0 (P : Par) (q : Pt) : ℝ :=
  (√(1 - P.B2))⁻¹ * ((P.Bx * P.By * (√(1 - P.B2) - 1) * Real.sin P.phiz + (P.B2 * √(1 - P.B2) + P.By ^ 2 * (1 - √(1 - P.B2))) * Real.cos P.phiz) * dddK1_D0D2D2 P q +
    (P.By * P.Bz * (√(1 - P.B2) - 1) * Real.sin P.phiy + ((-P.Bx) * P.By * (√(1 - P.B2) - 1) * Real.cos P.phiz + (P.B2 * √(1 - P.B2) + P.By ^ 2 * (1 - √(1 - P.B2))) *
    Real.sin P.phiz) * Real.cos P.phiy) * dddK0_D0D2D2 P q - (P.By * P.Bz * (√(1 - P.B2) - 1) * Real.cos P.phiy + (P.Bx * P.By * (√(1 - P.B2) - 1) * Real.cos P.phiz +
    ((-P.B2) * √(1 - P.B2) + P.By ^ 2 * (√(1 - P.B2) - 1)) * Real.sin P.phiz) * Real.sin P.phiy) * dddK2_D0D2D2 P q) / P.B2

/-- Free_Data/fd_KerrSchild_c_k0_k1_k2_kt.c:1011-1028 `fd_ks_dddk1_D2D2D1` -/
noncomputable def dddk1_D2D2D1 (P : Par) (q : Pt) : ℝ :=
  (√(1 - P.B2))⁻¹ * ((P.Bx * P.By * (√(1 - P.B2) - 1) * Real.sin P.phiz + (P.B2 * √(1 - P.B2) + P.By ^ 2 * (1 - √(1 - P.B2))) * Real.cos P.phiz) * dddK1_D1D2D2 P q +
    (P.By * P.Bz * (√(1 - P.B2) - 1) * Real.sin P.phiy + ((-P.Bx) * P.By * (√(1 - P.B2) - 1) * Real.cos P.phiz + (P.B2 * √(1 - P.B2) + P.By ^ 2 * (1 - √(1 - P.B2))) *
    Real.sin P.phiz) * Real.cos P.phiy) * dddK0_D1D2D2 P q - (P.By * P.Bz * (√(1 - P.B2) - 1) * Real.cos P.phiy + (P.Bx * P.By * (√(1 - P.B2) - 1) * Real.cos P.phiz +
    ((-P.B2) * √(1 - P.B2) + P.By ^ 2 * (√(1 - P.B2) - 1)) * Real.sin P.phiz) * Real.sin P.phiy) * dddK2_D1D2D2 P q) / P.B2

/-- Free_Data/fd_KerrSchild_c_k0_k1_k2_kt.c:888-904 `fd_ks_dddk1_D2D2D2` -/
noncomputable def dddk1_D2D2D2 (P : Par) (q : Pt) : ℝ :=
  (√(1 - P.B2))⁻¹ * ((P.Bx * P.By * (√(1 - P.B2) - 1) * Real.sin P.phiz + (P.B2 * √(1 - P.B2) + P.By ^ 2 * (1 - √(1 - P.B2))) * Real.cos P.phiz) * dddK1_D2D2D2 P q +
    (P.By * P.Bz * (√(1 - P.B2) - 1) * Real.sin P.phiy + ((-P.Bx) * P.By * (√(1 - P.B2) - 1) * Real.cos P.phiz + (P.B2 * √(1 - P.B2) + P.By ^ 2 * (1 - √(1 - P.B2))) *
    Real.sin P.phiz) * Real.cos P.phiy) * dddK0_D2D2D2 P q - (P.By * P.Bz * (√(1 - P.B2) - 1) * Real.cos P.phiy + (P.Bx * P.By * (√(1 - P.B2) - 1) * Real.cos P.phiz +
    ((-P.B2) * √(1 - P.B2) + P.By ^ 2 * (√(1 - P.B2) - 1)) * Real.sin P.phiz) * Real.sin P.phiy) * dddK2_D2D2D2 P q) / P.B2

/-- the first derivatives of `k1` -/
noncomputable def dk1 (P : Par) : Fin 3 → Pt → ℝ
  | 0, q => dk1_D0 P q
  | 1, q => dk1_D1 P q
  | 2, q => dk1_D2 P q

/-- the second derivatives of `k1`: D1D0 is kept as D0D1 -/
noncomputable def ddk1 (P : Par) : Fin 3 → Fin 3 → Pt → ℝ
  | 0, 0, q => ddk1_D0D0 P q
  | 0, 1, q => ddk1_D0D1 P q
  | 0, 2, q => ddk1_D0D2 P q
  | 1, 0, q => ddk1_D0D1 P q
  | 1, 1, q => ddk1_D1D1 P q
  | 1, 2, q => ddk1_D1D2 P q
  | 2, 0, q => ddk1_D0D2 P q
  | 2, 1, q => ddk1_D1D2 P q
  | 2, 2, q => ddk1_D2D2 P q

/-- the third derivatives of `k1` -/
noncomputable def dddk1 (P : Par) : Fin 3 → Fin 3 → Fin 3 → Pt → ℝ
  | 0, 0, 0, q => dddk1_D0D0D0 P q
  | 0, 0, 1, q => dddk1_D0D0D1 P q
  | 0, 0, 2, q => dddk1_D0D0D2 P q
  | 0, 1, 0, q => dddk1_D0D1D0 P q
  | 0, 1, 1, q => dddk1_D0D1D1 P q
  | 0, 1, 2, q => dddk1_D0D1D2 P q
  | 0, 2, 0, q => dddk1_D0D2D0 P q
  | 0, 2, 1, q => dddk1_D0D2D1 P q
  | 0, 2, 2, q => dddk1_D0D2D2 P q
  | 1, 0, 0, q => dddk1_D0D1D0 P q
  | 1, 0, 1, q => dddk1_D0D1D1 P q
  | 1, 0, 2, q => dddk1_D0D1D2 P q
  | 1, 1, 0, q => dddk1_D1D1D0 P q
  | 1, 1, 1, q => dddk1_D1D1D1 P q
  | 1, 1, 2, q => dddk1_D1D1D2 P q
  | 1, 2, 0, q => dddk1_D1D2D0 P q
  | 1, 2, 1, q => dddk1_D1D2D1 P q
  | 1, 2, 2, q => dddk1_D1D2D2 P q
  | 2, 0, 0, q => dddk1_D0D2D0 P q
  | 2, 0, 1, q => dddk1_D0D2D1 P q
  | 2, 0, 2, q => dddk1_D0D2D2 P q
  | 2, 1, 0, q => dddk1_D1D2D0 P q
  | 2, 1, 1, q => dddk1_D1D2D1 P q
  | 2, 1, 2, q => dddk1_D1D2D2 P q
  | 2, 2, 0, q => dddk1_D2D2D0 P q
  | 2, 2, 1, q => dddk1_D2D2D1 P q
  | 2, 2, 2, q => dddk1_D2D2D2 P q

/-- Free_Data/fd_KerrSchild_c_k0_k1_k2_kt.c:1118-1133 `fd_ks_k2` -/
noncomputable def k2 (P : Par) (q : Pt) : ℝ :=
  (√(1 - P.B2))⁻¹ * ((-P.B2) * P.Bz + P.Bz * (P.Bx * Real.sin P.phiz - P.By * Real.cos P.phiz) * (√(1 - P.B2) - 1) * K1 P q - (P.Bz * (P.Bx * Real.cos P.phiz + P.By *
    Real.sin P.phiz) * (√(1 - P.B2) - 1) * Real.sin P.phiy + ((-P.B2) * √(1 - P.B2) + P.Bz ^ 2 * (√(1 - P.B2) - 1)) * Real.cos P.phiy) * K2 P q - (P.Bz * (P.Bx * Real.cos
    P.phiz + P.By * Real.sin P.phiz) * (√(1 - P.B2) - 1) * Real.cos P.phiy + (P.B2 * √(1 - P.B2) + P.Bz ^ 2 * (1 - √(1 - P.B2))) * Real.sin P.phiy) * K0 P q) / P.B2

/-- Free_Data/fd_KerrSchild_c_k0_k1_k2_kt.c:1134-1149 `fd_ks_dk2_D0` -/
noncomputable def dk2_D0 (P : Par) (q : Pt) : ℝ :=
  (√(1 - P.B2))⁻¹ * (P.Bz * (P.Bx * Real.sin P.phiz - P.By * Real.cos P.phiz) * (√(1 - P.B2) - 1) * dK1_D0 P q - (P.Bz * (P.Bx * Real.cos P.phiz + P.By * Real.sin P.phiz)
    * (√(1 - P.B2) - 1) * Real.sin P.phiy + ((-P.B2) * √(1 - P.B2) + P.Bz ^ 2 * (√(1 - P.B2) - 1)) * Real.cos P.phiy) * dK2_D0 P q - (P.Bz * (P.Bx * Real.cos P.phiz +
    P.By * Real.sin P.phiz) * (√(1 - P.B2) - 1) * Real.cos P.phiy + (P.B2 * √(1 - P.B2) + P.Bz ^ 2 * (1 - √(1 - P.B2))) * Real.sin P.phiy) * dK0_D0 P q) / P.B2

/-- Free_Data/fd_KerrSchild_c_k0_k1_k2_kt.c:1150-1165 `fd_ks_dk2_D1` -/
noncomputable def dk2_D1 (P : Par) (q : Pt) : ℝ :=
  (√(1 - P.B2))⁻¹ * (P.Bz * (P.Bx * Real.sin P.phiz - P.By * Real.cos P.phiz) * (√(1 - P.B2) - 1) * dK1_D1 P q - (P.Bz * (P.Bx * Real.cos P.phiz + P.By * Real.sin P.phiz)
    * (√(1 - P.B2) - 1) * Real.sin P.phiy + ((-P.B2) * √(1 - P.B2) + P.Bz ^ 2 * (√(1 - P.B2) - 1)) * Real.cos P.phiy) * dK2_D1 P q - (P.Bz * (P.Bx * Real.cos P.phiz +
    P.By * Real.sin P.phiz) * (√(1 - P.B2) - 1) * Real.cos P.phiy + (P.B2 * √(1 - P.B2) + P.Bz ^ 2 * (1 - √(1 - P.B2))) * Real.sin P.phiy) * dK0_D1 P q) / P.B2

/-- Free_Data/fd_KerrSchild_c_k0_k1_k2_kt.c:1166-1181 `fd_ks_dk2_D2` -/
noncomputable def dk2_D2 (P : Par) (q : Pt) : ℝ :=
  (√(1 - P.B2))⁻¹ * (P.Bz * (P.Bx * Real.sin P.phiz - P.By * Real.cos P.phiz) * (√(1 - P.B2) - 1) * dK1_D2 P q - (P.Bz * (P.Bx * Real.cos P.phiz + P.By * Real.sin P.phiz)
    * (√(1 - P.B2) - 1) * Real.sin P.phiy + ((-P.B2) * √(1 - P.B2) + P.Bz ^ 2 * (√(1 - P.B2) - 1)) * Real.cos P.phiy) * dK2_D2 P q - (P.Bz * (P.Bx * Real.cos P.phiz +
    P.By * Real.sin P.phiz) * (√(1 - P.B2) - 1) * Real.cos P.phiy + (P.B2 * √(1 - P.B2) + P.Bz ^ 2 * (1 - √(1 - P.B2))) * Real.sin P.phiy) * dK0_D2 P q) / P.B2

/-- Free_Data/fd_KerrSchild_c_k0_k1_k2_kt.c:1182-1197 `fd_ks_ddk2_D0D0` -/
noncomputable def ddk2_D0D0 (P : Par) (q : Pt) : ℝ :=
  (√(1 - P.B2))⁻¹ * (P.Bz * (P.Bx * Real.sin P.phiz - P.By * Real.cos P.phiz) * (√(1 - P.B2) - 1) * ddK1_D0D0 P q - (P.Bz * (P.Bx * Real.cos P.phiz + P.By * Real.sin
    P.phiz) * (√(1 - P.B2) - 1) * Real.sin P.phiy + ((-P.B2) * √(1 - P.B2) + P.Bz ^ 2 * (√(1 - P.B2) - 1)) * Real.cos P.phiy) * ddK2_D0D0 P q - (P.Bz * (P.Bx * Real.cos
    P.phiz + P.By * Real.sin P.phiz) * (√(1 - P.B2) - 1) * Real.cos P.phiy + (P.B2 * √(1 - P.B2) + P.Bz ^ 2 * (1 - √(1 - P.B2))) * Real.sin P.phiy) * ddK0_D0D0 P q) /
    P.B2

/-- Free_Data/fd_KerrSchild_c_k0_k1_k2_kt.c:1246-1261 `fd_ks_ddk2_D0D1` -/
noncomputable def ddk2_D0D1 (P : Par) (q : Pt) : ℝ :=
  (√(1 - P.B2))⁻¹ * (P.Bz * (P.Bx * Real.sin P.phiz - P.By * Real.cos P.phiz) * (√(1 - P.B2) - 1) * ddK1_D0D1 P q - (P.Bz * (P.Bx * Real.cos P.phiz + P.By * Real.sin
    P.phiz) * (√(1 - P.B2) - 1) * Real.sin P.phiy + ((-P.B2) * √(1 - P.B2) + P.Bz ^ 2 * (√(1 - P.B2) - 1)) * Real.cos P.phiy) * ddK2_D0D1 P q - (P.Bz * (P.Bx * Real.cos
    P.phiz + P.By * Real.sin P.phiz) * (√(1 - P.B2) - 1) * Real.cos P.phiy + (P.B2 * √(1 - P.B2) + P.Bz ^ 2 * (1 - √(1 - P.B2))) * Real.sin P.phiy) * ddK0_D0D1 P q) /
    P.B2

/-- Free_Data/fd_KerrSchild_c_k0_k1_k2_kt.c:1230-1245 `fd_ks_ddk2_D0D2` -/
noncomputable def ddk2_D0D2 (P : Par) (q : Pt) : ℝ :=
  (√(1 - P.B2))⁻¹ * (P.Bz * (P.Bx * Real.sin P.phiz - P.By * Real.cos P.phiz) * (√(1 - P.B2) - 1) * ddK1_D0D2 P q - (P.Bz * (P.Bx * Real.cos P.phiz + P.By * Real.sin
    P.phiz) * (√(1 - P.B2) - 1) * Real.sin P.phiy + ((-P.B2) * √(1 - P.B2) + P.Bz ^ 2 * (√(1 - P.B2) - 1)) * Real.cos P.phiy) * ddK2_D0D2 P q - (P.Bz * (P.Bx * Real.cos
    P.phiz + P.By * Real.sin P.phiz) * (√(1 - P.B2) - 1) * Real.cos P.phiy + (P.B2 * √(1 - P.B2) + P.Bz ^ 2 * (1 - √(1 - P.B2))) * Real.sin P.phiy) * ddK0_D0D2 P q) /
    P.B2

/-- Free_Data/fd_KerrSchild_c_k0_k1_k2_kt.c:1262-1277 `fd_ks_ddk2_D1D1` -/
noncomputable def ddk2_D1D1 (P : Par) (q : Pt) : ℝ :=
  (√(1 - P.B2))⁻¹ * (P.Bz * (P.Bx * Real.sin P.phiz - P.By * Real.cos P.phiz) * (√(1 - P.B2) - 1) * ddK1_D1D1 P q - (P.Bz * (P.Bx * Real.cos P.phiz + P.By * Real.sin
    P.phiz) * (√(1 - P.B2) - 1) * Real.sin P.phiy + ((-P.B2) * √(1 - P.B2) + P.Bz ^ 2 * (√(1 - P.B2) - 1)) * Real.cos P.phiy) * ddK2_D1D1 P q - (P.Bz * (P.Bx * Real.cos
    P.phiz + P.By * Real.sin P.phiz) * (√(1 - P.B2) - 1) * Real.cos P.phiy + (P.B2 * √(1 - P.B2) + P.Bz ^ 2 * (1 - √(1 - P.B2))) * Real.sin P.phiy) * ddK0_D1D1 P q) /
    P.B2

/-- Free_Data/fd_KerrSchild_c_k0_k1_k2_kt.c:1214-1229 `fd_ks_ddk2_D1D2` -/
noncomputable def ddk2_D1D2 (P : Par) (q : Pt) : ℝ :=
  (√(1 - P.B2))⁻¹ * (P.Bz * (P.Bx * Real.sin P.phiz - P.By * Real.cos P.phiz) * (√(1 - P.B2) - 1) * ddK1_D1D2 P q - (P.Bz * (P.Bx * Real.cos P.phiz + P.By * Real.sin
    P.phiz) * (√(1 - P.B2) - 1) * Real.sin P.phiy + ((-P.B2) * √(1 - P.B2) + P.Bz ^ 2 * (√(1 - P.B2) - 1)) * Real.cos P.phiy) * ddK2_D1D2 P q - (P.Bz * (P.Bx * Real.cos
    P.phiz + P.By * Real.sin P.phiz) * (√(1 - P.B2) - 1) * Real.cos P.phiy + (P.B2 * √(1 - P.B2) + P.Bz ^ 2 * (1 - √(1 - P.B2))) * Real.sin P.phiy) * ddK0_D1D2 P q) /
    P.B2

/-- Free_Data/fd_KerrSchild_c_k0_k1_k2_kt.c:1198-1213 `fd_ks_ddk2_D2D2` -/
noncomputable def ddk2_D2D2 (P : Par) (q : Pt) : ℝ :=
  (√(1 - P.B2))⁻¹ * (P.Bz * (P.Bx * Real.sin P.phiz - P.By * Real.cos P.phiz) * (√(1 - P.B2) - 1) * ddK1_D2D2 P q - (P.Bz * (P.Bx * Real.cos P.phiz + P.By * Real.sin
    P.phiz) * (√(1 - P.B2) - 1) * Real.sin P.phiy + ((-P.B2) * √(1 - P.B2) + P.Bz ^ 2 * (√(1 - P.B2) - 1)) * Real.cos P.phiy) * ddK2_D2D2 P q - (P.Bz * (P.Bx * Real.cos
    P.phiz + P.By * Real.sin P.phiz) * (√(1 - P.B2) - 1) * Real.cos P.phiy + (P.B2 * √(1 - P.B2) + P.Bz ^ 2 * (1 - √(1 - P.B2))) * Real.sin P.phiy) * ddK0_D2D2 P q) /
    P.B2

/-- Free_Data/fd_KerrSchild_c_k0_k1_k2_kt.c:1390-1405 `fd_ks_dddk2_D0D0D0` -/
noncomputable def dddk2_D0D0D0 (P : Par) (q : Pt) : ℝ :=
  (√(1 - P.B2))⁻¹ * (P.Bz * (P.Bx * Real.sin P.phiz - P.By * Real.cos P.phiz) * (√(1 - P.B2) - 1) * dddK1_D0D0D0 P q - (P.Bz * (P.Bx * Real.cos P.phiz + P.By * Real.sin
    P.phiz) * (√(1 - P.B2) - 1) * Real.sin P.phiy + ((-P.B2) * √(1 - P.B2) + P.Bz ^ 2 * (√(1 - P.B2) - 1)) * Real.cos P.phiy) * dddK2_D0D0D0 P q - (P.Bz * (P.Bx *
    Real.cos P.phiz + P.By * Real.sin P.phiz) * (√(1 - P.B2) - 1) * Real.cos P.phiy + (P.B2 * √(1 - P.B2) + P.Bz ^ 2 * (1 - √(1 - P.B2))) * Real.sin P.phiy) *
    dddK0_D0D0D0 P q) / P.B2

/-- Free_Data/fd_KerrSchild_c_k0_k1_k2_kt.c:1406-1421 `fd_ks_dddk2_D0D0D1` -/
noncomputable def dddk2_D0D0D1 (P : Par) (q : Pt) : ℝ :=
  (√(1 - P.B2))⁻¹ * (P.Bz * (P.Bx * Real.sin P.phiz - P.By * Real.cos P.phiz) * (√(1 - P.B2) - 1) * dddK1_D0D0D1 P q - (P.Bz * (P.Bx * Real.cos P.phiz + P.By * Real.sin
    P.phiz) * (√(1 - P.B2) - 1) * Real.sin P.phiy + ((-P.B2) * √(1 - P.B2) + P.Bz ^ 2 * (√(1 - P.B2) - 1)) * Real.cos P.phiy) * dddK2_D0D0D1 P q - (P.Bz * (P.Bx *
    Real.cos P.phiz + P.By * Real.sin P.phiz) * (√(1 - P.B2) - 1) * Real.cos P.phiy + (P.B2 * √(1 - P.B2) + P.Bz ^ 2 * (1 - √(1 - P.B2))) * Real.sin P.phiy) *
    dddK0_D0D0D1 P q) / P.B2

/-- Free_Data/fd_KerrSchild_c_k0_k1_k2_kt.c:1358-1373 `fd_ks_dddk2_D0D0D2` -/
noncomputable def dddk2_D0D0D2 (P : Par) (q : Pt) : ℝ :=
  (√(1 - P.B2))⁻¹ * (P.Bz * (P.Bx * Real.sin P.phiz - P.By * Real.cos P.phiz) * (√(1 - P.B2) - 1) * dddK1_D0D0D2 P q - (P.Bz * (P.Bx * Real.cos P.phiz + P.By * Real.sin
    P.phiz) * (√(1 - P.B2) - 1) * Real.sin P.phiy + ((-P.B2) * √(1 - P.B2) + P.Bz ^ 2 * (√(1 - P.B2) - 1)) * Real.cos P.phiy) * dddK2_D0D0D2 P q - (P.Bz * (P.Bx *
    Real.cos P.phiz + P.By * Real.sin P.phiz) * (√(1 - P.B2) - 1) * Real.cos P.phiy + (P.B2 * √(1 - P.B2) + P.Bz ^ 2 * (1 - √(1 - P.B2))) * Real.sin P.phiy) *
    dddK0_D0D0D2 P q) / P.B2

/-- Free_Data/fd_KerrSchild_c_k0_k1_k2_kt.c:1326-1341 `fd_ks_dddk2_D0D1D0` -/
noncomputable def dddk2_D0D1D0 (P : Par) (q : Pt) : ℝ :=
  (√(1 - P.B2))⁻¹ * (P.Bz * (P.Bx * Real.sin P.phiz - P.By * Real.cos P.phiz) * (√(1 - P.B2) - 1) * dddK1_D0D0D1 P q - (P.Bz * (P.Bx * Real.cos P.phiz + P.By * Real.sin
    P.phiz) * (√(1 - P.B2) - 1) * Real.sin P.phiy + ((-P.B2) * √(1 - P.B2) + P.Bz ^ 2 * (√(1 - P.B2) - 1)) * Real.cos P.phiy) * dddK2_D0D0D1 P q - (P.Bz * (P.Bx *
    Real.cos P.phiz + P.By * Real.sin P.phiz) * (√(1 - P.B2) - 1) * Real.cos P.phiy + (P.B2 * √(1 - P.B2) + P.Bz ^ 2 * (1 - √(1 - P.B2))) * Real.sin P.phiy) *
    dddK0_D0D0D1 P q) / P.B2

/-- Free_Data/fd_KerrSchild_c_k0_k1_k2_kt.c:1550-1565 `fd_ks_dddk2_D0D1D1` -/
noncomputable def dddk2_D0D1D1 (P : Par) (q : Pt) : ℝ :=
  (√(1 - P.B2))⁻¹ * (P.Bz * (P.Bx * Real.sin P.phiz - P.By * Real.cos P.phiz) * (√(1 - P.B2) - 1) * dddK1_D0D1D1 P q - (P.Bz * (P.Bx * Real.cos P.phiz + P.By * Real.sin
    P.phiz) * (√(1 - P.B2) - 1) * Real.sin P.phiy + ((-P.B2) * √(1 - P.B2) + P.Bz ^ 2 * (√(1 - P.B2) - 1)) * Real.cos P.phiy) * dddK2_D0D1D1 P q - (P.Bz * (P.Bx *
    Real.cos P.phiz + P.By * Real.sin P.phiz) * (√(1 - P.B2) - 1) * Real.cos P.phiy + (P.B2 * √(1 - P.B2) + P.Bz ^ 2 * (1 - √(1 - P.B2))) * Real.sin P.phiy) *
    dddK0_D0D1D1 P q) / P.B2

/-- Free_Data/fd_KerrSchild_c_k0_k1_k2_kt.c:1374-1389 `fd_ks_dddk2_D0D1D2` -/
noncomputable def dddk2_D0D1D2 (P : Par) (q : Pt) : ℝ :=
  (√(1 - P.B2))⁻¹ * (P.Bz * (P.Bx * Real.sin P.phiz - P.By * Real.cos P.phiz) * (√(1 - P.B2) - 1) * dddK1_D0D1D2 P q - (P.Bz * (P.Bx * Real.cos P.phiz + P.By * Real.sin
    P.phiz) * (√(1 - P.B2) - 1) * Real.sin P.phiy + ((-P.B2) * √(1 - P.B2) + P.Bz ^ 2 * (√(1 - P.B2) - 1)) * Real.cos P.phiy) * dddK2_D0D1D2 P q - (P.Bz * (P.Bx *
    Real.cos P.phiz + P.By * Real.sin P.phiz) * (√(1 - P.B2) - 1) * Real.cos P.phiy + (P.B2 * √(1 - P.B2) + P.Bz ^ 2 * (1 - √(1 - P.B2))) * Real.sin P.phiy) *
    dddK0_D0D1D2 P q) / P.B2

/-- Free_Data/fd_KerrSchild_c_k0_k1_k2_kt.c:1278-1293 `fd_ks_dddk2_D0D2D0` -/
noncomputable def dddk2_D0D2D0 (P : Par) (q : Pt) : ℝ :=
  (√(1 - P.B2))⁻¹ * (P.Bz * (P.Bx * Real.sin P.phiz - P.By * Real.cos P.phiz) * (√(1 - P.B2) - 1) * dddK1_D0D0D2 P q - (P.Bz * (P.Bx * Real.cos P.phiz + P.By * Real.sin
    P.phiz) * (√(1 - P.B2) - 1) * Real.sin P.phiy + ((-P.B2) * √(1 - P.B2) + P.Bz ^ 2 * (√(1 - P.B2) - 1)) * Real.cos P.phiy) * dddK2_D0D0D2 P q - (P.Bz * (P.Bx *
    Real.cos P.phiz + P.By * Real.sin P.phiz) * (√(1 - P.B2) - 1) * Real.cos P.phiy + (P.B2 * √(1 - P.B2) + P.Bz ^ 2 * (1 - √(1 - P.B2))) * Real.sin P.phiy) *
    dddK0_D0D0D2 P q) / P.B2

/-- Free_Data/fd_KerrSchild_c_k0_k1_k2_kt.c:1294-1309 `fd_ks_dddk2_D0D2D1` -/
noncomputable def dddk2_D0D2D1 (P : Par) (q : Pt) : ℝ :=
  (√(1 - P.B2))⁻¹ * (P.Bz * (P.Bx * Real.sin P.phiz - P.By * Real.cos P.phiz) * (√(1 - P.B2) - 1) * dddK1_D0D1D2 P q - (P.Bz * (P.Bx * Real.cos P.phiz + P.By * Real.sin
    P.phiz) * (√(1 - P.B2) - 1) * Real.sin P.phiy + ((-P.B2) * √(1 - P.B2) + P.Bz ^ 2 * (√(1 - P.B2) - 1)) * Real.cos P.phiy) * dddK2_D0D1D2 P q - (P.Bz * (P.Bx *
    Real.cos P.phiz + P.By * Real.sin P.phiz) * (√(1 - P.B2) - 1) * Real.cos P.phiy + (P.B2 * √(1 - P.B2) + P.Bz ^ 2 * (1 - √(1 - P.B2))) * Real.sin P.phiy) *
    dddK0_D0D1D2 P q) / P.B2

/-- Free_Data/fd_KerrSchild_c_k0_k1_k2_kt.c:1310-1325 `fd_ks_dddk2_D0D2D2` -/
noncomputable def dddk2_D0D2D2 (P : Par) (q : Pt) : ℝ :=
  (√(1 - P.B2))⁻¹ * (P.Bz * (P.Bx * Real.sin P.phiz - P.By * Real.cos P.phiz) * (√(1 - P.B2) - 1) * dddK1_D0D2D2 P q - (P.Bz * (P.Bx * Real.cos P.phiz + P.By * Real.sin
    P.phiz) * (√(1 - P.B2) - 1) * Real.sin P.phiy + ((-P.B2) * √(1 - P.B2) + P.Bz ^ 2 * (√(1 - P.B2) - 1)) * Real.cos P.phiy) * dddK2_D0D2D2 P q - (P.Bz * (P.Bx *
    Real.cos P.phiz + P.By * Real.sin P.phiz) * (√(1 - P.B2) - 1) * Real.cos P.phiy + (P.B2 * √(1 - P.B2) + P.Bz ^ 2 * (1 - √(1 - P.B2))) * Real.sin P.phiy) *
    dddK0_D0D2D2 P q) / P.B2

/-- Free_Data/fd_KerrSchild_c_k0_k1_k2_kt.c:1518-1533 `fd_ks_dddk2_D1D1D0` -/
noncomputable def dddk2_D1D1D0 (P : Par) (q : Pt) : ℝ :=
  (√(1 - P.B2))⁻¹ * (P.Bz * (P.Bx * Real.sin P.phiz - P.By * Real.cos P.phiz) * (√(1 - P.B2) - 1) * dddK1_D0D1D1 P q - (P.Bz * (P.Bx * Real.cos P.phiz + P.By * Real.sin
    P.phiz) * (√(1 - P.B2) - 1) * Real.sin P.phiy + ((-P.B2) * √(1 - P.B2) + P.Bz ^ 2 * (√(1 - P.B2) - 1)) * Real.cos P.phiy) * dddK2_D0D1D1 P q - (P.Bz * (P.Bx *
    Real.cos P.phiz + P.By * Real.sin P.phiz) * (√(1 - P.B2) - 1) * Real.cos P.phiy + (P.B2 * √(1 - P.B2) + P.Bz ^ 2 * (1 - √(1 - P.B2))) * Real.sin P.phiy) *
    dddK0_D0D1D1 P q) / P.B2

/-- Free_Data/fd_KerrSchild_c_k0_k1_k2_kt.c:1534-1549 `fd_ks_dddk2_D1D1D1` -/
noncomputable def dddk2_D1D1D1 (P : Par) (q : Pt) : ℝ :=
  (√(1 - P.B2))⁻¹ * (P.Bz * (P.Bx * Real.sin P.phiz - P.By * Real.cos P.phiz) * (√(1 - P.B2) - 1) * dddK1_D1D1D1 P q - (P.Bz * (P.Bx * Real.cos P.phiz + P.By * Real.sin
    P.phiz) * (√(1 - P.B2) - 1) * Real.sin P.phiy + ((-P.B2) * √(1 - P.B2) + P.Bz ^ 2 * (√(1 - P.B2) - 1)) * Real.cos P.phiy) * dddK2_D1D1D1 P q - (P.Bz * (P.Bx *
    Real.cos P.phiz + P.By * Real.sin P.phiz) * (√(1 - P.B2) - 1) * Real.cos P.phiy + (P.B2 * √(1 - P.B2) + P.Bz ^ 2 * (1 - √(1 - P.B2))) * Real.sin P.phiy) *
    dddK0_D1D1D1 P q) / P.B2

/-- Free_Data/fd_KerrSchild_c_k0_k1_k2_kt.c:1502-1517 `fd_ks_dddk2_D1D1D2` -/
noncomputable def dddk2_D1D1D2 (P : Par) (q : Pt) : ℝ :=
  (√(1 - P.B2))⁻¹ * (P.Bz * (P.Bx * Real.sin P.phiz - P.By * Real.cos P.phiz) * (√(1 - P.B2) - 1) * dddK1_D1D1D2 P q - (P.Bz * (P.Bx * Real.cos P.phiz + P.By * Real.sin
    P.phiz) * (√(1 - P.B2) - 1) * Real.sin P.phiy + ((-P.B2) * √(1 - P.B2) + P.Bz ^ 2 * (√(1 - P.B2) - 1)) * Real.cos P.phiy) * dddK2_D1D1D2 P q - (P.Bz * (P.Bx *
    Real.cos P.phiz + P.By * Real.sin P.phiz) * (√(1 - P.B2) - 1) * Real.cos P.phiy + (P.B2 * √(1 - P.B2) + P.Bz ^ 2 * (1 - √(1 - P.B2))) * Real.sin P.phiy) *
    dddK0_D1D1D2 P q) / P.B2

/-- Free_Data/fd_KerrSchild_c_k0_k1_k2_kt.c:1486-1501 `fd_ks_dddk2_D1D2D0` -/
noncomputable def dddk2_D1D2D0 (P : Par) (q : Pt) : ℝ :=
  (√(1 - P.B2))⁻¹ * (P.Bz * (P.Bx * Real.sin P.phiz - P.By * Real.cos P.phiz) * (√(1 - P.B2) - 1) * dddK1_D0D1D2 P q - (P.Bz * (P.Bx * Real.cos P.phiz + P.By * Real.sin
    P.phiz) * (√(1 - P.B2) - 1) * Real.sin P.phiy + ((-P.B2) * √(1 - P.B2) + P.Bz ^ 2 * (√(1 - P.B2) - 1)) * Real.cos P.phiy) * dddK2_D0D1D2 P q - (P.Bz * (P.Bx *
    Real.cos P.phiz + P.By * Real.sin P.phiz) * (√(1 - P.B2) - 1) * Real.cos P.phiy + (P.B2 * √(1 - P.B2) + P.Bz ^ 2 * (1 - √(1 - P.B2))) * Real.sin P.phiy) *
    dddK0_D0D1D2 P q) / P.B2

/-- Free_Data/fd_KerrSchild_c_k0_k1_k2_kt.c:1438-1453 `fd_ks_dddk2_D1D2D1` -/
noncomputable def dddk2_D1D2D1 (P : Par) (q : Pt) : ℝ :=
  (√(1 - P.B2))⁻¹ * (P.Bz * (P.Bx * Real.sin P.phiz - P.By * Real.cos P.phiz) * (√(1 - P.B2) - 1) * dddK1_D1D1D2 P q - (P.Bz * (P.Bx * Real.cos P.phiz + P.By * Real.sin
    P.phiz) * (√(1 - P.B2) - 1) * Real.sin P.phiy + ((-P.B2) * √(1 - P.B2) + P.Bz ^ 2 * (√(1 - P.B2) - 1)) * Real.cos P.phiy) * dddK2_D1D1D2 P q - (P.Bz * (P.Bx *
    Real.cos P.phiz + P.By * Real.sin P.phiz) * (√(1 - P.B2) - 1) * Real.cos P.phiy + (P.B2 * √(1 - P.B2) + P.Bz ^ 2 * (1 - √(1 - P.B2))) * Real.sin P.phiy) *
    dddK0_D1D1D2 P q) / P.B2

/-- Free_Data/fd_KerrSchild_c_k0_k1_k2_kt.c:1342-1357 `fd_ks_dddk2_D1D2D2` -/
noncomputable def dddk2_D1D2D2 (P : Par) (q : Pt) : ℝ :=
  (√(1 - P.B2))⁻¹ * (P.Bz * (P.Bx * Real.sin P.phiz - P.By * Real.cos P.phiz) * (√(1 - P.B2) - 1) * dddK1_D1D2D2 P q - (P.Bz * (P.Bx * Real.cos P.phiz + P.By * Real.sin
    P.phiz) * (√(1 - P.B2) - 1) * Real.sin P.phiy + ((-P.B2) * √(1 - P.B2) + P.Bz ^ 2 * (√(1 - P.B2) - 1)) * Real.cos P.phiy) * dddK2_D1D2D2 P q - (P.Bz * (P.Bx *
    Real.cos P.phiz + P.By * Real.sin P.phiz) * (√(1 - P.B2) - 1) * Real.cos P.phiy + (P.B2 * √(1 - P.B2) + P.Bz ^ 2 * (1 - √(1 - P.B2))) * Real.sin P.phiy) *
    dddK0_D1D2D2 P q) / P.B2

/-- Free_Data/fd_KerrSchild_c_k0_k1_k2_kt.c:1454-1469 `fd_ks_dddk2_D2D2D0` -/
noncomputable def dddk2_D2D2D0 (P : Par) (q : Pt) : ℝ :=
  (√(1 - P.B2))⁻¹ * (P.Bz * (P.Bx * Real.sin P.phiz - P.By * Real.cos P.phiz) * (√(1 - P.B2) - 1) * dddK1_D0D2D2 P q - (P.Bz * (P.Bx * Real.cos P.phiz + P.By * Real.sin
    P.phiz) * (√(1 - P.B2) - 1) * Real.sin P.phiy + ((-P.B2) * √(1 - P.B2) + P.Bz ^ 2 * (√(1 - P.B2) - 1)) * Real.cos P.phiy) * dddK2_D0D2D2 P q - (P.Bz * (P.Bx *
    Real.cos P.phiz + P.By * Real.sin P.phiz) * (√(1 - P.B2) - 1) * Real.cos P.phiy + (P.B2 * √(1 - P.B2) + P.Bz ^ 2 * (1 - √(1 - P.B2))) * Real.sin P.phiy) *
    dddK0_D0D2D2 P q) / P.B2

/-- Free_Data/fd_KerrSchild_c_k0_k1_k2_kt.c:1470-1485 `fd_ks_dddk2_D2D2D1` -/
noncomputable def dddk2_D2D2D1 (P : Par) (q : Pt) : ℝ :=
  (√(1 - P.B2))⁻¹ * (P.Bz * (P.Bx * Real.sin P.phiz - P.By * Real.cos P.phiz) * (√(1 - P.B2) - 1) * dddK1_D1D2D2 P q - (P.Bz * (P.Bx * Real.cos P.phiz + P.By * Real.sin
    P.phiz) * (√(1 - P.B2) - 1) * Real.sin P.phiy + ((-P.B2) * √(1 - P.B2) + P.Bz ^ 2 * (√(1 - P.B2) - 1)) * Real.cos P.phiy) * dddK2_D1D2D2 P q - (P.Bz * (P.Bx *
    Real.cos P.phiz + P.By * Real.sin P.phiz) * (√(1 - P.B2) - 1) * Real.cos P.phiy + (P.B2 * √(1 - P.B2) + P.Bz ^ 2 * (1 - √(1 - P.B2))) * Real.sin P.phiy) *
    dddK0_D1D2D2 P q) / P.B2

/-- Free_Data/fd_KerrSchild_c_k0_k1_k2_kt.c:1422-1437 `fd_ks_dddk2_D2D2D2` -/
noncomputable def dddk2_D2D2D2 (P : Par) (q : Pt) : ℝ :=
  (√(1 - P.B2))⁻¹ * (P.Bz * (P.Bx * Real.sin P.phiz - P.By * Real.cos P.phiz) * (√(1 - P.B2) - 1) * dddK1_D2D2D2 P q - (P.Bz * (P.Bx * Real.cos P.phiz + P.By * Real.sin
    P.phiz) * (√(1 - P.B2) - 1) * Real.sin P.phiy + ((-P.B2) * √(1 - P.B2) + P.Bz ^ 2 * (√(1 - P.B2) - 1)) * Real.cos P.phiy) * dddK2_D2D2D2 P q - (P.Bz * (P.Bx *
    Real.cos P.phiz + P.By * Real.sin P.phiz) * (√(1 - P.B2) - 1) * Real.cos P.phiy + (P.B2 * √(1 - P.B2) + P.Bz ^ 2 * (1 - √(1 - P.B2))) * Real.sin P.phiy) *
    dddK0_D2D2D2 P q) / P.B2

/-- the first derivatives of `k2` -/
noncomputable def dk2 (P : Par) : Fin 3 → Pt → ℝ
  | 0, q => dk2_D0 P q
  | 1, q => dk2_D1 P q
  | 2, q => dk2_D2 P q

/-- the second derivatives of `k2`: D1D0 is kept as D0D1 -/
noncomputable def ddk2 (P : Par) : Fin 3 → Fin 3 → Pt → ℝ
  | 0, 0, q => ddk2_D0D0 P q
  | 0, 1, q => ddk2_D0D1 P q
  | 0, 2, q => ddk2_D0D2 P q
  | 1, 0, q => ddk2_D0D1 P q
  | 1, 1, q => ddk2_D1D1 P q
  | 1, 2, q => ddk2_D1D2 P q
  | 2, 0, q => ddk2_D0D2 P q
  | 2, 1, q => ddk2_D1D2 P q
  | 2, 2, q => ddk2_D2D2 P q

/-- the third derivatives of `k2` -/
noncomputable def dddk2 (P : Par) : Fin 3 → Fin 3 → Fin 3 → Pt → ℝ
  | 0, 0, 0, q => dddk2_D0D0D0 P q
  | 0, 0, 1, q => dddk2_D0D0D1 P q
  | 0, 0, 2, q => dddk2_D0D0D2 P q
  | 0, 1, 0, q => dddk2_D0D1D0 P q
  | 0, 1, 1, q => dddk2_D0D1D1 P q
  | 0, 1, 2, q => dddk2_D0D1D2 P q
  | 0, 2, 0, q => dddk2_D0D2D0 P q
  | 0, 2, 1, q => dddk2_D0D2D1 P q
  | 0, 2, 2, q => dddk2_D0D2D2 P q
  | 1, 0, 0, q => dddk2_D0D1D0 P q
  | 1, 0, 1, q => dddk2_D0D1D1 P q
  | 1, 0, 2, q => dddk2_D0D1D2 P q
  | 1, 1, 0, q => dddk2_D1D1D0 P q
  | 1, 1, 1, q => dddk2_D1D1D1 P q
  | 1, 1, 2, q => dddk2_D1D1D2 P q
  | 1, 2, 0, q => dddk2_D1D2D0 P q
  | 1, 2, 1, q => dddk2_D1D2D1 P q
  | 1, 2, 2, q => dddk2_D1D2D2 P q
  | 2, 0, 0, q => dddk2_D0D2D0 P q
  | 2, 0, 1, q => dddk2_D0D2D1 P q
  | 2, 0, 2, q => dddk2_D0D2D2 P q
  | 2, 1, 0, q => dddk2_D1D2D0 P q
  | 2, 1, 1, q => dddk2_D1D2D1 P q
  | 2, 1, 2, q => dddk2_D1D2D2 P q
  | 2, 2, 0, q => dddk2_D2D2D0 P q
  | 2, 2, 1, q => dddk2_D2D2D1 P q
  | 2, 2, 2, q => dddk2_D2D2D2 P q

/-- Free_Data/fd_KerrSchild_c_k0_k1_k2_kt.c:1566-1578 `fd_ks_kt` -/
noncomputable def kt (P : Par) (q : Pt) : ℝ :=
  (√(1 - P.B2))⁻¹ * ((P.Bx * Real.sin P.phiz - P.By * Real.cos P.phiz) * K1 P q + (P.Bz * Real.sin P.phiy - (P.Bx * Real.cos P.phiz + P.By * Real.sin P.phiz) * Real.cos
    P.phiy) * K0 P q - (P.Bz * Real.cos P.phiy + (P.Bx * Real.cos P.phiz + P.By * Real.sin P.phiz) * Real.sin P.phiy) * K2 P q + 1)

/-- Free_Data/fd_KerrSchild_c_k0_k1_k2_kt.c:1592-1604 `fd_ks_dkt_D0` -/
noncomputable def dkt_D0 (P : Par) (q : Pt) : ℝ :=
  (√(1 - P.B2))⁻¹ * ((P.Bx * Real.sin P.phiz - P.By * Real.cos P.phiz) * dK1_D0 P q + (P.Bz * Real.sin P.phiy - (P.Bx * Real.cos P.phiz + P.By * Real.sin P.phiz) *
    Real.cos P.phiy) * dK0_D0 P q - (P.Bz * Real.cos P.phiy + (P.Bx * Real.cos P.phiz + P.By * Real.sin P.phiz) * Real.sin P.phiy) * dK2_D0 P q)

/-- Free_Data/fd_KerrSchild_c_k0_k1_k2_kt.c:1605-1617 `fd_ks_dkt_D1` -/
noncomputable def dkt_D1 (P : Par) (q : Pt) : ℝ :=
  (√(1 - P.B2))⁻¹ * ((P.Bx * Real.sin P.phiz - P.By * Real.cos P.phiz) * dK1_D1 P q + (P.Bz * Real.sin P.phiy - (P.Bx * Real.cos P.phiz + P.By * Real.sin P.phiz) *
    Real.cos P.phiy) * dK0_D1 P q - (P.Bz * Real.cos P.phiy + (P.Bx * Real.cos P.phiz + P.By * Real.sin P.phiz) * Real.sin P.phiy) * dK2_D1 P q)

/-- Free_Data/fd_KerrSchild_c_k0_k1_k2_kt.c:1579-1591 `fd_ks_dkt_D2` -/
noncomputable def dkt_D2 (P : Par) (q : Pt) : ℝ :=
  (√(1 - P.B2))⁻¹ * ((P.Bx * Real.sin P.phiz - P.By * Real.cos P.phiz) * dK1_D2 P q + (P.Bz * Real.sin P.phiy - (P.Bx * Real.cos P.phiz + P.By * Real.sin P.phiz) *
    Real.cos P.phiy) * dK0_D2 P q - (P.Bz * Real.cos P.phiy + (P.Bx * Real.cos P.phiz + P.By * Real.sin P.phiz) * Real.sin P.phiy) * dK2_D2 P q)

/-- Free_Data/fd_KerrSchild_c_k0_k1_k2_kt.c:1657-1669 `fd_ks_ddkt_D0D0` -/
noncomputable def ddkt_D0D0 (P : Par) (q : Pt) : ℝ :=
  (√(1 - P.B2))⁻¹ * ((P.Bx * Real.sin P.phiz - P.By * Real.cos P.phiz) * ddK1_D0D0 P q + (P.Bz * Real.sin P.phiy - (P.Bx * Real.cos P.phiz + P.By * Real.sin P.phiz) *
    Real.cos P.phiy) * ddK0_D0D0 P q - (P.Bz * Real.cos P.phiy + (P.Bx * Real.cos P.phiz + P.By * Real.sin P.phiz) * Real.sin P.phiy) * ddK2_D0D0 P q)

/-- Free_Data/fd_KerrSchild_c_k0_k1_k2_kt.c:1644-1656 `fd_ks_ddkt_D0D1` -/
noncomputable def ddkt_D0D1 (P : Par) (q : Pt) : ℝ :=
  (√(1 - P.B2))⁻¹ * ((P.Bx * Real.sin P.phiz - P.By * Real.cos P.phiz) * ddK1_D0D1 P q + (P.Bz * Real.sin P.phiy - (P.Bx * Real.cos P.phiz + P.By * Real.sin P.phiz) *
    Real.cos P.phiy) * ddK0_D0D1 P q - (P.Bz * Real.cos P.phiy + (P.Bx * Real.cos P.phiz + P.By * Real.sin P.phiz) * Real.sin P.phiy) * ddK2_D0D1 P q)

/-- Free_Data/fd_KerrSchild_c_k0_k1_k2_kt.c:1670-1682 `fd_ks_ddkt_D0D2` -/
noncomputable def ddkt_D0D2 (P : Par) (q : Pt) : ℝ :=
  (√(1 - P.B2))⁻¹ * ((P.Bx * Real.sin P.phiz - P.By * Real.cos P.phiz) * ddK1_D0D2 P q + (P.Bz * Real.sin P.phiy - (P.Bx * Real.cos P.phiz + P.By * Real.sin P.phiz) *
    Real.cos P.phiy) * ddK0_D0D2 P q - (P.Bz * Real.cos P.phiy + (P.Bx * Real.cos P.phiz + P.By * Real.sin P.phiz) * Real.sin P.phiy) * ddK2_D0D2 P q)

/-- Free_Data/fd_KerrSchild_c_k0_k1_k2_kt.c:1683-1695 `fd_ks_ddkt_D1D1` -/
noncomputable def ddkt_D1D1 (P : Par) (q : Pt) : ℝ :=
  (√(1 - P.B2))⁻¹ * ((P.Bx * Real.sin P.phiz - P.By * Real.cos P.phiz) * ddK1_D1D1 P q + (P.Bz * Real.sin P.phiy - (P.Bx * Real.cos P.phiz + P.By * Real.sin P.phiz) *
    Real.cos P.phiy) * ddK0_D1D1 P q - (P.Bz * Real.cos P.phiy + (P.Bx * Real.cos P.phiz + P.By * Real.sin P.phiz) * Real.sin P.phiy) * ddK2_D1D1 P q)

/-- Free_Data/fd_KerrSchild_c_k0_k1_k2_kt.c:1631-1643 `fd_ks_ddkt_D1D2` -/
noncomputable def ddkt_D1D2 (P : Par) (q : Pt) : ℝ :=
  (√(1 - P.B2))⁻¹ * ((P.Bx * Real.sin P.phiz - P.By * Real.cos P.phiz) * ddK1_D1D2 P q + (P.Bz * Real.sin P.phiy - (P.Bx * Real.cos P.phiz + P.By * Real.sin P.phiz) *
    Real.cos P.phiy) * ddK0_D1D2 P q - (P.Bz * Real.cos P.phiy + (P.Bx * Real.cos P.phiz + P.By * Real.sin P.phiz) * Real.sin P.phiy) * ddK2_D1D2 P q)

/-- Free_Data/fd_KerrSchild_c_k0_k1_k2_kt.c:1618-1630 `fd_ks_ddkt_D2D2` -/
noncomputable def ddkt_D2D2 (P : Par) (q : Pt) : ℝ :=
  (√(1 - P.B2))⁻¹ * ((P.Bx * Real.sin P.phiz - P.By * Real.cos P.phiz) * ddK1_D2D2 P q + (P.Bz * Real.sin P.phiy - (P.Bx * Real.cos P.phiz + P.By * Real.sin P.phiz) *
    Real.cos P.phiy) * ddK0_D2D2 P q - (P.Bz * Real.cos P.phiy + (P.Bx * Real.cos P.phiz + P.By * Real.sin P.phiz) * Real.sin P.phiy) * ddK2_D2D2 P q)

/-- Free_Data/fd_KerrSchild_c_k0_k1_k2_kt.c:1696-1708 `fd_ks_dddkt_D0D0D0` -/
noncomputable def dddkt_D0D0D0 (P : Par) (q : Pt) : ℝ :=
  (√(1 - P.B2))⁻¹ * ((P.Bx * Real.sin P.phiz - P.By * Real.cos P.phiz) * dddK1_D0D0D0 P q + (P.Bz * Real.sin P.phiy - (P.Bx * Real.cos P.phiz + P.By * Real.sin P.phiz) *
    Real.cos P.phiy) * dddK0_D0D0D0 P q - (P.Bz * Real.cos P.phiy + (P.Bx * Real.cos P.phiz + P.By * Real.sin P.phiz) * Real.sin P.phiy) * dddK2_D0D0D0 P q)

/-- Free_Data/fd_KerrSchild_c_k0_k1_k2_kt.c:1709-1721 `fd_ks_dddkt_D0D0D1` -/
noncomputable def dddkt_D0D0D1 (P : Par) (q : Pt) : ℝ :=
  (√(1 - P.B2))⁻¹ * ((P.Bx * Real.sin P.phiz - P.By * Real.cos P.phiz) * dddK1_D0D0D1 P q + (P.Bz * Real.sin P.phiy - (P.Bx * Real.cos P.phiz + P.By * Real.sin P.phiz) *
    Real.cos P.phiy) * dddK0_D0D0D1 P q - (P.Bz * Real.cos P.phiy + (P.Bx * Real.cos P.phiz + P.By * Real.sin P.phiz) * Real.sin P.phiy) * dddK2_D0D0D1 P q)

/-- Free_Data/fd_KerrSchild_c_k0_k1_k2_kt.c:1722-1734 `fd_ks_dddkt_D0D0D2` -/
noncomputable def dddkt_D0D0D2 (P : Par) (q : Pt) : ℝ :=
  (√(1 - P.B2))⁻¹ * ((P.Bx * Real.sin P.phiz - P.By * Real.cos P.phiz) * dddK1_D0D0D2 P q + (P.Bz * Real.sin P.phiy - (P.Bx * Real.cos P.phiz + P.By * Real.sin P.phiz) *
    Real.cos P.phiy) * dddK0_D0D0D2 P q - (P.Bz * Real.cos P.phiy + (P.Bx * Real.cos P.phiz + P.By * Real.sin P.phiz) * Real.sin P.phiy) * dddK2_D0D0D2 P q)

/-- Free_Data/fd_KerrSchild_c_k0_k1_k2_kt.c:1891-1903 `fd_ks_dddkt_D0D1D0` -/
noncomputable def dddkt_D0D1D0 (P : Par) (q : Pt) : ℝ :=
  (√(1 - P.B2))⁻¹ * ((P.Bx * Real.sin P.phiz - P.By * Real.cos P.phiz) * dddK1_D0D0D1 P q + (P.Bz * Real.sin P.phiy - (P.Bx * Real.cos P.phiz + P.By * Real.sin P.phiz) *
    Real.cos P.phiy) * dddK0_D0D0D1 P q - (P.Bz * Real.cos P.phiy + (P.Bx * Real.cos P.phiz + P.By * Real.sin P.phiz) * Real.sin P.phiy) * dddK2_D0D0D1 P q)

/-- Free_Data/fd_KerrSchild_c_k0_k1_k2_kt.c:1878-1890 `fd_ks_dddkt_D0D1D1` -/
noncomputable def dddkt_D0D1D1 (P : Par) (q : Pt) : ℝ :=
  (√(1 - P.B2))⁻¹ * ((P.Bx * Real.sin P.phiz - P.By * Real.cos P.phiz) * dddK1_D0D1D1 P q + (P.Bz * Real.sin P.phiy - (P.Bx * Real.cos P.phiz + P.By * Real.sin P.phiz) *
    Real.cos P.phiy) * dddK0_D0D1D1 P q - (P.Bz * Real.cos P.phiy + (P.Bx * Real.cos P.phiz + P.By * Real.sin P.phiz) * Real.sin P.phiy) * dddK2_D0D1D1 P q)

/-- Free_Data/fd_KerrSchild_c_k0_k1_k2_kt.c:1917-1929 `fd_ks_dddkt_D0D1D2` -/
noncomputable def dddkt_D0D1D2 (P : Par) (q : Pt) : ℝ :=
  (√(1 - P.B2))⁻¹ * ((P.Bx * Real.sin P.phiz - P.By * Real.cos P.phiz) * dddK1_D0D1D2 P q + (P.Bz * Real.sin P.phiy - (P.Bx * Real.cos P.phiz + P.By * Real.sin P.phiz) *
    Real.cos P.phiy) * dddK0_D0D1D2 P q - (P.Bz * Real.cos P.phiy + (P.Bx * Real.cos P.phiz + P.By * Real.sin P.phiz) * Real.sin P.phiy) * dddK2_D0D1D2 P q)

/-- Free_Data/fd_KerrSchild_c_k0_k1_k2_kt.c:1904-1916 `fd_ks_dddkt_D0D2D0` -/
noncomputable def dddkt_D0D2D0 (P : Par) (q : Pt) : ℝ :=
  (√(1 - P.B2))⁻¹ * ((P.Bx * Real.sin P.phiz - P.By * Real.cos P.phiz) * dddK1_D0D0D2 P q + (P.Bz * Real.sin P.phiy - (P.Bx * Real.cos P.phiz + P.By * Real.sin P.phiz) *
    Real.cos P.phiy) * dddK0_D0D0D2 P q - (P.Bz * Real.cos P.phiy + (P.Bx * Real.cos P.phiz + P.By * Real.sin P.phiz) * Real.sin P.phiy) * dddK2_D0D0D2 P q)

/-- Free_Data/fd_KerrSchild_c_k0_k1_k2_kt.c:1865-1877 `fd_ks_dddkt_D0D2D1` -/
noncomputable def dddkt_D0D2D1 (P : Par) (q : Pt) : ℝ :=
  (√(1 - P.B2))⁻¹ * ((P.Bx * Real.sin P.phiz - P.By * Real.cos P.phiz) * dddK1_D0D1D2 P q + (P.Bz * Real.sin P.phiy - (P.Bx * Real.cos P.phiz + P.By * Real.sin P.phiz) *
    Real.cos P.phiy) * dddK0_D0D1D2 P q - (P.Bz * Real.cos P.phiy + (P.Bx * Real.cos P.phiz + P.By * Real.sin P.phiz) * Real.sin P.phiy) * dddK2_D0D1D2 P q)

/-- Free_Data/fd_KerrSchild_c_k0_k1_k2_kt.c:1748-1760 `fd_ks_dddkt_D0D2D2` -/
noncomputable def dddkt_D0D2D2 (P : Par) (q : Pt) : ℝ :=
  (√(1 - P.B2))⁻¹ * ((P.Bx * Real.sin P.phiz - P.By * Real.cos P.phiz) * dddK1_D0D2D2 P q + (P.Bz * Real.sin P.phiy - (P.Bx * Real.cos P.phiz + P.By * Real.sin P.phiz) *
    Real.cos P.phiy) * dddK0_D0D2D2 P q - (P.Bz * Real.cos P.phiy + (P.Bx * Real.cos P.phiz + P.By * Real.sin P.phiz) * Real.sin P.phiy) * dddK2_D0D2D2 P q)

/-- Free_Data/fd_KerrSchild_c_k0_k1_k2_kt.c:1839-1851 `fd_ks_dddkt_D1D1D0` -/
noncomputable def dddkt_D1D1D0 (P : Par) (q : Pt) : ℝ :=
  (√(1 - P.B2))⁻¹ * ((P.Bx * Real.sin P.phiz - P.By * Real.cos P.phiz) * dddK1_D0D1D1 P q + (P.Bz * Real.sin P.phiy - (P.Bx * Real.cos P.phiz + P.By * Real.sin P.phiz) *
    Real.cos P.phiy) * dddK0_D0D1D1 P q - (P.Bz * Real.cos P.phiy + (P.Bx * Real.cos P.phiz + P.By * Real.sin P.phiz) * Real.sin P.phiy) * dddK2_D0D1D1 P q)

/-- Free_Data/fd_KerrSchild_c_k0_k1_k2_kt.c:1800-1812 `fd_ks_dddkt_D1D1D1` -/
noncomputable def dddkt_D1D1D1 (P : Par) (q : Pt) : ℝ :=
  (√(1 - P.B2))⁻¹ * ((P.Bx * Real.sin P.phiz - P.By * Real.cos P.phiz) * dddK1_D1D1D1 P q + (P.Bz * Real.sin P.phiy - (P.Bx * Real.cos P.phiz + P.By * Real.sin P.phiz) *
    Real.cos P.phiy) * dddK0_D1D1D1 P q - (P.Bz * Real.cos P.phiy + (P.Bx * Real.cos P.phiz + P.By * Real.sin P.phiz) * Real.sin P.phiy) * dddK2_D1D1D1 P q)

/-- Free_Data/fd_KerrSchild_c_k0_k1_k2_kt.c:1826-1838 `fd_ks_dddkt_D1D1D2` -/
noncomputable def dddkt_D1D1D2 (P : Par) (q : Pt) : ℝ :=
  (√(1 - P.B2))⁻¹ * ((P.Bx * Real.sin P.phiz - P.By * Real.cos P.phiz) * dddK1_D1D1D2 P q + (P.Bz * Real.sin P.phiy - (P.Bx * Real.cos P.phiz + P.By * Real.sin P.phiz) *
    Real.cos P.phiy) * dddK0_D1D1D2 P q - (P.Bz * Real.cos P.phiy + (P.Bx * Real.cos P.phiz + P.By * Real.sin P.phiz) * Real.sin P.phiy) * dddK2_D1D1D2 P q)

/-- Free_Data/fd_KerrSchild_c_k0_k1_k2_kt.c:1735-1747 `fd_ks_dddkt_D1D2D0` -/
noncomputable def dddkt_D1D2D0 (P : Par) (q : Pt) : ℝ :=
  (√(1 - P.B2))⁻¹ * ((P.Bx * Real.sin P.phiz - P.By * Real.cos P.phiz) * dddK1_D0D1D2 P q + (P.Bz * Real.sin P.phiy - (P.Bx * Real.cos P.phiz + P.By * Real.sin P.phiz) *
    Real.cos P.phiy) * dddK0_D0D1D2 P q - (P.Bz * Real.cos P.phiy + (P.Bx * Real.cos P.phiz + P.By * Real.sin P.phiz) * Real.sin P.phiy) * dddK2_D0D1D2 P q)

/-- Free_Data/fd_KerrSchild_c_k0_k1_k2_kt.c:1813-1825 `fd_ks_dddkt_D1D2D1` -/
noncomputable def dddkt_D1D2D1 (P : Par) (q : Pt) : ℝ :=
  (√(1 - P.B2))⁻¹ * ((P.Bx * Real.sin P.phiz - P.By * Real.cos P.phiz) * dddK1_D1D1D2 P q + (P.Bz * Real.sin P.phiy - (P.Bx * Real.cos P.phiz + P.By * Real.sin P.phiz) *
    Real.cos P.phiy) * dddK0_D1D1D2 P q - (P.Bz * Real.cos P.phiy + (P.Bx * Real.cos P.phiz + P.By * Real.sin P.phiz) * Real.sin P.phiy) * dddK2_D1D1D2 P q)

/-- Free_Data/fd_KerrSchild_c_k0_k1_k2_kt.c:1852-1864 `fd_ks_dddkt_D1D2D2` -/
noncomputable def dddkt_D1D2D2 (P : Par) (q : Pt) : ℝ :=
  (√(1 - P.B2))⁻¹ * ((P.Bx * Real.sin P.phiz - P.By * Real.cos P.phiz) * dddK1_D1D2D2 P q + (P.Bz * Real.sin P.phiy - (P.Bx * Real.cos P.phiz + P.By * Real.sin P.phiz) *
    Real.cos P.phiy) * dddK0_D1D2D2 P q - (P.Bz * Real.cos P.phiy + (P.Bx * Real.cos P.phiz + P.By * Real.sin P.phiz) * Real.sin P.phiy) * dddK2_D1D2D2 P q)

/-- Free_Data/fd_KerrSchild_c_k0_k1_k2_kt.c:1761-1773 `fd_ks_dddkt_D2D2D0` -/
noncomputable def dddkt_D2D2D0 (P : Par) (q : Pt) : ℝ :=
  (√(1 - P.B2))⁻¹ * ((P.Bx * Real.sin P.phiz - P.By * Real.cos P.phiz) * dddK1_D0D2D2 P q + (P.Bz * Real.sin P.phiy - (P.Bx * Real.cos P.phiz + P.By * Real.sin P.phiz) *
    Real.cos P.phiy) * dddK0_D0D2D2 P q - (P.Bz * Real.cos P.phiy + (P.Bx * Real.cos P.phiz + P.By * Real.sin P.phiz) * Real.sin P.phiy) * dddK2_D0D2D2 P q)

/-- Free_Data/fd_KerrSchild_c_k0_k1_k2_kt.c:1774-1786 `fd_ks_dddkt_D2D2D1` -/
noncomputable def dddkt_D2D2D1 (P : Par) (q : Pt) : ℝ :=
  (√(1 - P.B2))⁻¹ * ((P.Bx * Real.sin P.phiz - P.By * Real.cos P.phiz) * dddK1_D1D2D2 P q + (P.Bz * Real.sin P.phiy - (P.Bx * Real.cos P.phiz + P.By * Real.sin P.phiz) *
    Real.cos P.phiy) * dddK0_D1D2D2 P q - (P.Bz * Real.cos P.phiy + (P.Bx * Real.cos P.phiz + P.By * Real.sin P.phiz) * Real.sin P.phiy) * dddK2_D1D2D2 P q)

/-- Free_Data/fd_KerrSchild_c_k0_k1_k2_kt.c:1787-1799 `fd_ks_dddkt_D2D2D2` -/
noncomputable def dddkt_D2D2D2 (P : Par) (q : Pt) : ℝ :=
  (√(1 - P.B2))⁻¹ * ((P.Bx * Real.sin P.phiz - P.By * Real.cos P.phiz) * dddK1_D2D2D2 P q + (P.Bz * Real.sin P.phiy - (P.Bx * Real.cos P.phiz + P.By * Real.sin P.phiz) *
    Real.cos P.phiy) * dddK0_D2D2D2 P q - (P.Bz * Real.cos P.phiy + (P.Bx * Real.cos P.phiz + P.By * Real.sin P.phiz) * Real.sin P.phiy) * dddK2_D2D2D2 P q)

/-- the first derivatives of `kt` -/
noncomputable def dkt (P : Par) : Fin 3 → Pt → ℝ
  | 0, q => dkt_D0 P q
  | 1, q => dkt_D1 P q
  | 2, q => dkt_D2 P q

/-- the second derivatives of `kt`: D1D0 is kept as D0D1 -/
noncomputable def ddkt (P : Par) : Fin 3 → Fin 3 → Pt → ℝ
  | 0, 0, q => ddkt_D0D0 P q
  | 0, 1, q => ddkt_D0D1 P q
  | 0, 2, q => ddkt_D0D2 P q
  | 1, 0, q => ddkt_D0D1 P q
  | 1, 1, q => ddkt_D1D1 P q
  | 1, 2, q => ddkt_D1D2 P q
  | 2, 0, q => ddkt_D0D2 P q
  | 2, 1, q => ddkt_D1D2 P q
  | 2, 2, q => ddkt_D2D2 P q

/-- the third derivatives of `kt` -/
noncomputable def dddkt (P : Par) : Fin 3 → Fin 3 → Fin 3 → Pt → ℝ
  | 0, 0, 0, q => dddkt_D0D0D0 P q
  | 0, 0, 1, q => dddkt_D0D0D1 P q
  | 0, 0, 2, q => dddkt_D0D0D2 P q
  | 0, 1, 0, q => dddkt_D0D1D0 P q
  | 0, 1, 1, q => dddkt_D0D1D1 P q
  | 0, 1, 2, q => dddkt_D0D1D2 P q
  | 0, 2, 0, q => dddkt_D0D2D0 P q
  | 0, 2, 1, q => dddkt_D0D2D1 P q
  | 0, 2, 2, q => dddkt_D0D2D2 P q
  | 1, 0, 0, q => dddkt_D0D1D0 P q
  | 1, 0, 1, q => dddkt_D0D1D1 P q
  | 1, 0, 2, q => dddkt_D0D1D2 P q
  | 1, 1, 0, q => dddkt_D1D1D0 P q
  | 1, 1, 1, q => dddkt_D1D1D1 P q
  | 1, 1, 2, q => dddkt_D1D1D2 P q
  | 1, 2, 0, q => dddkt_D1D2D0 P q
  | 1, 2, 1, q => dddkt_D1D2D1 P q
  | 1, 2, 2, q => dddkt_D1D2D2 P q
  | 2, 0, 0, q => dddkt_D0D2D0 P q
  | 2, 0, 1, q => dddkt_D0D2D1 P q
  | 2, 0, 2, q => dddkt_D0D2D2 P q
  | 2, 1, 0, q => dddkt_D1D2D0 P q
  | 2, 1, 1, q => dddkt_D1D2D1 P q
  | 2, 1, 2, q => dddkt_D1D2D2 P q
  | 2, 2, 0, q => dddkt_D2D2D0 P q
  | 2, 2, 1, q => dddkt_D2D2D1 P q
  | 2, 2, 2, q => dddkt_D2D2D2 P q

/-- Free_Data/fd_KerrSchild_c_k0_k1_k2_kt.c:1930-1937 `fd_ks_c` -/
noncomputable def c (P : Par) (q : Pt) : ℝ :=
  2 * H P q

/-- Free_Data/fd_KerrSchild_c_k0_k1_k2_kt.c:1954-1961 `fd_ks_dc_D0` -/
noncomputable def dc_D0 (P : Par) (q : Pt) : ℝ :=
  2 * dH_D0 P q

/-- Free_Data/fd_KerrSchild_c_k0_k1_k2_kt.c:1946-1953 `fd_ks_dc_D1` -/
noncomputable def dc_D1 (P : Par) (q : Pt) : ℝ :=
  2 * dH_D1 P q

/-- Free_Data/fd_KerrSchild_c_k0_k1_k2_kt.c:1938-1945 `fd_ks_dc_D2` -/
noncomputable def dc_D2 (P : Par) (q : Pt) : ℝ :=
  2 * dH_D2 P q

/-- Free_Data/fd_KerrSchild_c_k0_k1_k2_kt.c:1994-2001 `fd_ks_ddc_D0D0` -/
noncomputable def ddc_D0D0 (P : Par) (q : Pt) : ℝ :=
  2 * ddH_D0D0 P q

/-- Free_Data/fd_KerrSchild_c_k0_k1_k2_kt.c:1986-1993 `fd_ks_ddc_D0D1` -/
noncomputable def ddc_D0D1 (P : Par) (q : Pt) : ℝ :=
  2 * ddH_D0D1 P q

/-- Free_Data/fd_KerrSchild_c_k0_k1_k2_kt.c:1962-1969 `fd_ks_ddc_D0D2` -/
noncomputable def ddc_D0D2 (P : Par) (q : Pt) : ℝ :=
  2 * ddH_D0D2 P q

/-- Free_Data/fd_KerrSchild_c_k0_k1_k2_kt.c:1978-1985 `fd_ks_ddc_D1D1` -/
noncomputable def ddc_D1D1 (P : Par) (q : Pt) : ℝ :=
  2 * ddH_D1D1 P q

/-- Free_Data/fd_KerrSchild_c_k0_k1_k2_kt.c:1970-1977 `fd_ks_ddc_D1D2` -/
noncomputable def ddc_D1D2 (P : Par) (q : Pt) : ℝ :=
  2 * ddH_D1D2 P q

/-- Free_Data/fd_KerrSchild_c_k0_k1_k2_kt.c:2002-2009 `fd_ks_ddc_D2D2` -/
noncomputable def ddc_D2D2 (P : Par) (q : Pt) : ℝ :=
  2 * ddH_D2D2 P q

/-- Free_Data/fd_KerrSchild_c_k0_k1_k2_kt.c:2018-2025 `fd_ks_dddc_D0D0D0` -/
noncomputable def dddc_D0D0D0 (P : Par) (q : Pt) : ℝ :=
  2 * dddH_D0D0D0 P q

/-- Free_Data/fd_KerrSchild_c_k0_k1_k2_kt.c:2114-2121 `fd_ks_dddc_D0D0D1` -/
noncomputable def dddc_D0D0D1 (P : Par) (q : Pt) : ℝ :=
  2 * dddH_D0D0D1 P q

/-- Free_Data/fd_KerrSchild_c_k0_k1_k2_kt.c:2034-2041 `fd_ks_dddc_D0D0D2` -/
noncomputable def dddc_D0D0D2 (P : Par) (q : Pt) : ℝ :=
  2 * dddH_D0D0D2 P q

/-- Free_Data/fd_KerrSchild_c_k0_k1_k2_kt.c:2010-2017 `fd_ks_dddc_D0D1D0` -/
noncomputable def dddc_D0D1D0 (P : Par) (q : Pt) : ℝ :=
  2 * dddH_D0D0D1 P q

/-- Free_Data/fd_KerrSchild_c_k0_k1_k2_kt.c:2146-2153 `fd_ks_dddc_D0D1D1` -/
noncomputable def dddc_D0D1D1 (P : Par) (q : Pt) : ℝ :=
  2 * dddH_D0D1D1 P q

/-- Free_Data/fd_KerrSchild_c_k0_k1_k2_kt.c:2026-2033 `fd_ks_dddc_D0D1D2` -/
noncomputable def dddc_D0D1D2 (P : Par) (q : Pt) : ℝ :=
  2 * dddH_D0D1D2 P q

/-- Free_Data/fd_KerrSchild_c_k0_k1_k2_kt.c:2122-2129 `fd_ks_dddc_D0D2D0` -/
noncomputable def dddc_D0D2D0 (P : Par) (q : Pt) : ℝ :=
  2 * dddH_D0D0D2 P q

/-- Free_Data/fd_KerrSchild_c_k0_k1_k2_kt.c:2138-2145 `fd_ks_dddc_D0D2D1` -/
noncomputable def dddc_D0D2D1 (P : Par) (q : Pt) : ℝ :=
  2 * dddH_D0D1D2 P q

/-- Free_Data/fd_KerrSchild_c_k0_k1_k2_kt.c:2130-2137 `fd_ks_dddc_D0D2D2` -/
noncomputable def dddc_D0D2D2 (P : Par) (q : Pt) : ℝ :=
  2 * dddH_D0D2D2 P q

/-- Free_Data/fd_KerrSchild_c_k0_k1_k2_kt.c:2098-2105 `fd_ks_dddc_D1D1D0` -/
noncomputable def dddc_D1D1D0 (P : Par) (q : Pt) : ℝ :=
  2 * dddH_D0D1D1 P q

/-- Free_Data/fd_KerrSchild_c_k0_k1_k2_kt.c:2090-2097 `fd_ks_dddc_D1D1D1` -/
noncomputable def dddc_D1D1D1 (P : Par) (q : Pt) : ℝ :=
  2 * dddH_D1D1D1 P q

/-- Free_Data/fd_KerrSchild_c_k0_k1_k2_kt.c:2106-2113 `fd_ks_dddc_D1D1D2` -/
noncomputable def dddc_D1D1D2 (P : Par) (q : Pt) : ℝ :=
  2 * dddH_D1D1D2 P q

/-- Free_Data/fd_KerrSchild_c_k0_k1_k2_kt.c:2082-2089 `fd_ks_dddc_D1D2D0` -/
noncomputable def dddc_D1D2D0 (P : Par) (q : Pt) : ℝ :=
  2 * dddH_D0D1D2 P q

/-- Free_Data/fd_KerrSchild_c_k0_k1_k2_kt.c:2050-2057 `fd_ks_dddc_D1D2D1` -/
noncomputable def dddc_D1D2D1 (P : Par) (q : Pt) : ℝ :=
  2 * dddH_D1D1D2 P q

/-- Free_Data/fd_KerrSchild_c_k0_k1_k2_kt.c:2058-2065 `fd_ks_dddc_D1D2D2` -/
noncomputable def dddc_D1D2D2 (P : Par) (q : Pt) : ℝ :=
  2 * dddH_D1D2D2 P q

/-- Free_Data/fd_KerrSchild_c_k0_k1_k2_kt.c:2066-2073 `fd_ks_dddc_D2D2D0` -/
noncomputable def dddc_D2D2D0 (P : Par) (q : Pt) : ℝ :=
  2 * dddH_D0D2D2 P q

/-- Free_Data/fd_KerrSchild_c_k0_k1_k2_kt.c:2042-2049 `fd_ks_dddc_D2D2D1` -/
noncomputable def dddc_D2D2D1 (P : Par) (q : Pt) : ℝ :=
  2 * dddH_D1D2D2 P q

/-- Free_Data/fd_KerrSchild_c_k0_k1_k2_kt.c:2074-2081 `fd_ks_dddc_D2D2D2` -/
noncomputable def dddc_D2D2D2 (P : Par) (q : Pt) : ℝ :=
  2 * dddH_D2D2D2 P q

/-- the first derivatives of `c` -/
noncomputable def dc (P : Par) : Fin 3 → Pt → ℝ
  | 0, q => dc_D0 P q
  | 1, q => dc_D1 P q
  | 2, q => dc_D2 P q

/-- the second derivatives of `c`: D1D0 is kept as D0D1 -/
noncomputable def ddc (P : Par) : Fin 3 → Fin 3 → Pt → ℝ
  | 0, 0, q => ddc_D0D0 P q
  | 0, 1, q => ddc_D0D1 P q
  | 0, 2, q => ddc_D0D2 P q
  | 1, 0, q => ddc_D0D1 P q
  | 1, 1, q => ddc_D1D1 P q
  | 1, 2, q => ddc_D1D2 P q
  | 2, 0, q => ddc_D0D2 P q
  | 2, 1, q => ddc_D1D2 P q
  | 2, 2, q => ddc_D2D2 P q

/-- the third derivatives of `c` -/
noncomputable def dddc (P : Par) : Fin 3 → Fin 3 → Fin 3 → Pt → ℝ
  | 0, 0, 0, q => dddc_D0D0D0 P q
  | 0, 0, 1, q => dddc_D0D0D1 P q
  | 0, 0, 2, q => dddc_D0D0D2 P q
  | 0, 1, 0, q => dddc_D0D1D0 P q
  | 0, 1, 1, q => dddc_D0D1D1 P q
  | 0, 1, 2, q => dddc_D0D1D2 P q
  | 0, 2, 0, q => dddc_D0D2D0 P q
  | 0, 2, 1, q => dddc_D0D2D1 P q
  | 0, 2, 2, q => dddc_D0D2D2 P q
  | 1, 0, 0, q => dddc_D0D1D0 P q
  | 1, 0, 1, q => dddc_D0D1D1 P q
  | 1, 0, 2, q => dddc_D0D1D2 P q
  | 1, 1, 0, q => dddc_D1D1D0 P q
  | 1, 1, 1, q => dddc_D1D1D1 P q
  | 1, 1, 2, q => dddc_D1D1D2 P q
  | 1, 2, 0, q => dddc_D1D2D0 P q
  | 1, 2, 1, q => dddc_D1D2D1 P q
  | 1, 2, 2, q => dddc_D1D2D2 P q
  | 2, 0, 0, q => dddc_D0D2D0 P q
  | 2, 0, 1, q => dddc_D0D2D1 P q
  | 2, 0, 2, q => dddc_D0D2D2 P q
  | 2, 1, 0, q => dddc_D1D2D0 P q
  | 2, 1, 1, q => dddc_D1D2D1 P q
  | 2, 1, 2, q => dddc_D1D2D2 P q
  | 2, 2, 0, q => dddc_D2D2D0 P q
  | 2, 2, 1, q => dddc_D2D2D1 P q
  | 2, 2, 2, q => dddc_D2D2D2 P q

end Elliptica.Ks
