import Verif.Model.Gen.KsR
/-!
Generated by tools/gen_ks.py from /repo/Src/Main/Modules/Physics/Free_Data/fd_KerrSchild_H_K0_K1_K2.c: one definition per C function.
-/
namespace Elliptica.Ks
open Elliptica.Fields

set_option linter.unusedVariables false

-- the same terms as the usual notation, elaborated directly at type ℝ (long expressions elaborate slowly otherwise)
local macro_rules
  | `($x + $y) => `((HAdd.hAdd : ℝ → ℝ → ℝ) $x $y)
  | `($x - $y) => `((HSub.hSub : ℝ → ℝ → ℝ) $x $y)
  | `($x * $y) => `((HMul.hMul : ℝ → ℝ → ℝ) $x $y)
  | `($x / $y) => `((HDiv.hDiv : ℝ → ℝ → ℝ) $x $y)
  | `($x ^ $y) => `((HPow.hPow : ℝ → ℕ → ℝ) $x $y)
  | `(-$x) => `((Neg.neg : ℝ → ℝ) $x)

/-- Free_Data/fd_KerrSchild_H_K0_K1_K2.c:117-127 `fd_ks_K0` -/
noncomputable def K0 (P : Par) (q : Pt) : ℝ :=
  (P.a * Y P q + R P q * X P q) / (P.a ^ 2 + (R P q) ^ 2)

/-- Free_Data/fd_KerrSchild_H_K0_K1_K2.c:144-159 `fd_ks_dK0_D0` -/
noncomputable def dK0_D0 (P : Par) (q : Pt) : ℝ :=
  ((P.a ^ 2 + (R P q) ^ 2) * (P.a * dY_D0 P q + R P q * dX_D0 P q + X P q * dR_D0 P q) - 2 * (P.a * Y P q + R P q * X P q) * R P q * dR_D0 P q) / (P.a ^ 2 + (R P q) ^ 2)
    ^ 2

/-- Free_Data/fd_KerrSchild_H_K0_K1_K2.c:160-175 `fd_ks_dK0_D1` -/
noncomputable def dK0_D1 (P : Par) (q : Pt) : ℝ :=
  ((P.a ^ 2 + (R P q) ^ 2) * (P.a * dY_D1 P q + R P q * dX_D1 P q + X P q * dR_D1 P q) - 2 * (P.a * Y P q + R P q * X P q) * R P q * dR_D1 P q) / (P.a ^ 2 + (R P q) ^ 2)
    ^ 2

/-- Free_Data/fd_KerrSchild_H_K0_K1_K2.c:128-143 `fd_ks_dK0_D2` -/
noncomputable def dK0_D2 (P : Par) (q : Pt) : ℝ :=
  ((P.a ^ 2 + (R P q) ^ 2) * (P.a * dY_D2 P q + R P q * dX_D2 P q + X P q * dR_D2 P q) - 2 * (P.a * Y P q + R P q * X P q) * R P q * dR_D2 P q) / (P.a ^ 2 + (R P q) ^ 2)
    ^ 2

/-- Free_Data/fd_KerrSchild_H_K0_K1_K2.c:269-295 `fd_ks_ddK0_D0D0` -/
noncomputable def ddK0_D0D0 (P : Par) (q : Pt) : ℝ :=
  ((P.a ^ 2 + (R P q) ^ 2) ^ 2 * (P.a * ddY_D0D0 P q + R P q * ddX_D0D0 P q + X P q * ddR_D0D0 P q + 2 * dR_D0 P q * dX_D0 P q) - 2 * (P.a ^ 2 + (R P q) ^ 2) * ((P.a * Y
    P q + R P q * X P q) * R P q * ddR_D0D0 P q + (P.a * Y P q + R P q * X P q) * (dR_D0 P q) ^ 2 + 2 * (P.a * dY_D0 P q + R P q * dX_D0 P q + X P q * dR_D0 P q) * R P q
    * dR_D0 P q) + 8 * (P.a * Y P q + R P q * X P q) * (R P q) ^ 2 * (dR_D0 P q) ^ 2) / (P.a ^ 2 + (R P q) ^ 2) ^ 3

/-- Free_Data/fd_KerrSchild_H_K0_K1_K2.c:236-268 `fd_ks_ddK0_D0D1` -/
noncomputable def ddK0_D0D1 (P : Par) (q : Pt) : ℝ :=
  ((P.a ^ 2 + (R P q) ^ 2) ^ 2 * (P.a * ddY_D0D1 P q + R P q * ddX_D0D1 P q + X P q * ddR_D0D1 P q + dR_D0 P q * dX_D1 P q + dR_D1 P q * dX_D0 P q) - 2 * (P.a ^ 2 + (R P
    q) ^ 2) * ((P.a * Y P q + R P q * X P q) * R P q * ddR_D0D1 P q + (P.a * Y P q + R P q * X P q) * dR_D0 P q * dR_D1 P q + (P.a * dY_D0 P q + R P q * dX_D0 P q + X P q
    * dR_D0 P q) * R P q * dR_D1 P q + (P.a * dY_D1 P q + R P q * dX_D1 P q + X P q * dR_D1 P q) * R P q * dR_D0 P q) + 8 * (P.a * Y P q + R P q * X P q) * (R P q) ^ 2 *
    dR_D0 P q * dR_D1 P q) / (P.a ^ 2 + (R P q) ^ 2) ^ 3

/-- Free_Data/fd_KerrSchild_H_K0_K1_K2.c:296-328 `fd_ks_ddK0_D0D2` -/
noncomputable def ddK0_D0D2 (P : Par) (q : Pt) : ℝ :=
  ((P.a ^ 2 + (R P q) ^ 2) ^ 2 * (P.a * ddY_D0D2 P q + R P q * ddX_D0D2 P q + X P q * ddR_D0D2 P q + dR_D0 P q * dX_D2 P q + dR_D2 P q * dX_D0 P q) - 2 * (P.a ^ 2 + (R P
    q) ^ 2) * ((P.a * Y P q + R P q * X P q) * R P q * ddR_D0D2 P q + (P.a * Y P q + R P q * X P q) * dR_D0 P q * dR_D2 P q + (P.a * dY_D0 P q + R P q * dX_D0 P q + X P q
    * dR_D0 P q) * R P q * dR_D2 P q + (P.a * dY_D2 P q + R P q * dX_D2 P q + X P q * dR_D2 P q) * R P q * dR_D0 P q) + 8 * (P.a * Y P q + R P q * X P q) * (R P q) ^ 2 *
    dR_D0 P q * dR_D2 P q) / (P.a ^ 2 + (R P q) ^ 2) ^ 3

/-- Free_Data/fd_KerrSchild_H_K0_K1_K2.c:176-202 `fd_ks_ddK0_D1D1` -/
noncomputable def ddK0_D1D1 (P : Par) (q : Pt) : ℝ :=
  ((P.a ^ 2 + (R P q) ^ 2) ^ 2 * (P.a * ddY_D1D1 P q + R P q * ddX_D1D1 P q + X P q * ddR_D1D1 P q + 2 * dR_D1 P q * dX_D1 P q) - 2 * (P.a ^ 2 + (R P q) ^ 2) * ((P.a * Y
    P q + R P q * X P q) * R P q * ddR_D1D1 P q + (P.a * Y P q + R P q * X P q) * (dR_D1 P q) ^ 2 + 2 * (P.a * dY_D1 P q + R P q * dX_D1 P q + X P q * dR_D1 P q) * R P q
    * dR_D1 P q) + 8 * (P.a * Y P q + R P q * X P q) * (R P q) ^ 2 * (dR_D1 P q) ^ 2) / (P.a ^ 2 + (R P q) ^ 2) ^ 3

/-- Free_Data/fd_KerrSchild_H_K0_K1_K2.c:203-235 `fd_ks_ddK0_D1D2` -/
noncomputable def ddK0_D1D2 (P : Par) (q : Pt) : ℝ :=
  ((P.a ^ 2 + (R P q) ^ 2) ^ 2 * (P.a * ddY_D1D2 P q + R P q * ddX_D1D2 P q + X P q * ddR_D1D2 P q + dR_D1 P q * dX_D2 P q + dR_D2 P q * dX_D1 P q) - 2 * (P.a ^ 2 + (R P
    q) ^ 2) * ((P.a * Y P q + R P q * X P q) * R P q * ddR_D1D2 P q + (P.a * Y P q + R P q * X P q) * dR_D1 P q * dR_D2 P q + (P.a * dY_D1 P q + R P q * dX_D1 P q + X P q
    * dR_D1 P q) * R P q * dR_D2 P q + (P.a * dY_D2 P q + R P q * dX_D2 P q + X P q * dR_D2 P q) * R P q * dR_D1 P q) + 8 * (P.a * Y P q + R P q * X P q) * (R P q) ^ 2 *
    dR_D1 P q * dR_D2 P q) / (P.a ^ 2 + (R P q) ^ 2) ^ 3

/-- Free_Data/fd_KerrSchild_H_K0_K1_K2.c:329-355 `fd_ks_ddK0_D2D2` -/
noncomputable def ddK0_D2D2 (P : Par) (q : Pt) : ℝ :=
  ((P.a ^ 2 + (R P q) ^ 2) ^ 2 * (P.a * ddY_D2D2 P q + R P q * ddX_D2D2 P q + X P q * ddR_D2D2 P q + 2 * dR_D2 P q * dX_D2 P q) - 2 * (P.a ^ 2 + (R P q) ^ 2) * ((P.a * Y
    P q + R P q * X P q) * R P q * ddR_D2D2 P q + (P.a * Y P q + R P q * X P q) * (dR_D2 P q) ^ 2 + 2 * (P.a * dY_D2 P q + R P q * dX_D2 P q + X P q * dR_D2 P q) * R P q
    * dR_D2 P q) + 8 * (P.a * Y P q + R P q * X P q) * (R P q) ^ 2 * (dR_D2 P q) ^ 2) / (P.a ^ 2 + (R P q) ^ 2) ^ 3

/-- Free_Data/fd_KerrSchild_H_K0_K1_K2.c:1200-1241 `fd_ks_dddK0_D0D0D0` -/
noncomputable def dddK0_D0D0D0 (P : Par) (q : Pt) : ℝ :=
  ((P.a ^ 2 + (R P q) ^ 2) ^ 3 * (P.a * dddY_D0D0D0 P q + R P q * dddX_D0D0D0 P q + X P q * dddR_D0D0D0 P q + 3 * dR_D0 P q * ddX_D0D0 P q + 3 * ddR_D0D0 P q * dX_D0 P q)
    - 2 * (P.a ^ 2 + (R P q) ^ 2) ^ 2 * ((P.a * Y P q + R P q * X P q) * R P q * dddR_D0D0D0 P q + 3 * (P.a * Y P q + R P q * X P q) * dR_D0 P q * ddR_D0D0 P q + 3 * (P.a
    * dY_D0 P q + R P q * dX_D0 P q + X P q * dR_D0 P q) * R P q * ddR_D0D0 P q + 3 * (P.a * dY_D0 P q + R P q * dX_D0 P q + X P q * dR_D0 P q) * (dR_D0 P q) ^ 2 + 3 *
    (P.a * ddY_D0D0 P q + R P q * ddX_D0D0 P q + X P q * ddR_D0D0 P q + 2 * dR_D0 P q * dX_D0 P q) * R P q * dR_D0 P q) + 24 * (P.a ^ 2 + (R P q) ^ 2) * ((P.a * Y P q + R
    P q * X P q) * R P q * ddR_D0D0 P q + (P.a * Y P q + R P q * X P q) * (dR_D0 P q) ^ 2 + (P.a * dY_D0 P q + R P q * dX_D0 P q + X P q * dR_D0 P q) * R P q * dR_D0 P q)
    * R P q * dR_D0 P q - 48 * (P.a * Y P q + R P q * X P q) * (R P q) ^ 3 * (dR_D0 P q) ^ 3) / (P.a ^ 2 + (R P q) ^ 2) ^ 4

/-- Free_Data/fd_KerrSchild_H_K0_K1_K2.c:1242-1305 `fd_ks_dddK0_D0D0D1` -/
noncomputable def dddK0_D0D0D1 (P : Par) (q : Pt) : ℝ :=
  ((P.a ^ 2 + (R P q) ^ 2) ^ 3 * (P.a * dddY_D0D0D1 P q + R P q * dddX_D0D0D1 P q + X P q * dddR_D0D0D1 P q + 2 * dR_D0 P q * ddX_D0D1 P q + ddR_D0D0 P q * dX_D1 P q +
    dR_D1 P q * ddX_D0D0 P q + 2 * dX_D0 P q * ddR_D0D1 P q) - 2 * (P.a ^ 2 + (R P q) ^ 2) ^ 2 * ((P.a * Y P q + R P q * X P q) * R P q * dddR_D0D0D1 P q + 2 * (P.a * Y P
    q + R P q * X P q) * dR_D0 P q * ddR_D0D1 P q + (P.a * Y P q + R P q * X P q) * ddR_D0D0 P q * dR_D1 P q + 2 * (P.a * dY_D0 P q + R P q * dX_D0 P q + X P q * dR_D0 P
    q) * R P q * ddR_D0D1 P q + 2 * (P.a * dY_D0 P q + R P q * dX_D0 P q + X P q * dR_D0 P q) * dR_D0 P q * dR_D1 P q + (P.a * dY_D1 P q + R P q * dX_D1 P q + X P q *
    dR_D1 P q) * R P q * ddR_D0D0 P q + (P.a * dY_D1 P q + R P q * dX_D1 P q + X P q * dR_D1 P q) * (dR_D0 P q) ^ 2 + (P.a * ddY_D0D0 P q + R P q * ddX_D0D0 P q + X P q *
    ddR_D0D0 P q + 2 * dR_D0 P q * dX_D0 P q) * R P q * dR_D1 P q + 2 * (P.a * ddY_D0D1 P q + R P q * ddX_D0D1 P q + X P q * ddR_D0D1 P q + dR_D0 P q * dX_D1 P q + dR_D1
    P q * dX_D0 P q) * R P q * dR_D0 P q) + 8 * (P.a ^ 2 + (R P q) ^ 2) * (2 * (P.a * Y P q + R P q * X P q) * R P q * dR_D0 P q * ddR_D0D1 P q + (P.a * Y P q + R P q * X
    P q) * R P q * ddR_D0D0 P q * dR_D1 P q + 3 * (P.a * Y P q + R P q * X P q) * (dR_D0 P q) ^ 2 * dR_D1 P q + 2 * (P.a * dY_D0 P q + R P q * dX_D0 P q + X P q * dR_D0 P
    q) * R P q * dR_D0 P q * dR_D1 P q + (P.a * dY_D1 P q + R P q * dX_D1 P q + X P q * dR_D1 P q) * R P q * (dR_D0 P q) ^ 2) * R P q - 48 * (P.a * Y P q + R P q * X P q)
    * (R P q) ^ 3 * (dR_D0 P q) ^ 2 * dR_D1 P q) / (P.a ^ 2 + (R P q) ^ 2) ^ 4

/-- Free_Data/fd_KerrSchild_H_K0_K1_K2.c:1306-1369 `fd_ks_dddK0_D0D0D2` -/
noncomputable def dddK0_D0D0D2 (P : Par) (q : Pt) : ℝ :=
  ((P.a ^ 2 + (R P q) ^ 2) ^ 3 * (P.a * dddY_D0D0D2 P q + R P q * dddX_D0D0D2 P q + X P q * dddR_D0D0D2 P q + 2 * dR_D0 P q * ddX_D0D2 P q + ddR_D0D0 P q * dX_D2 P q +
    dR_D2 P q * ddX_D0D0 P q + 2 * dX_D0 P q * ddR_D0D2 P q) - 2 * (P.a ^ 2 + (R P q) ^ 2) ^ 2 * ((P.a * Y P q + R P q * X P q) * R P q * dddR_D0D0D2 P q + 2 * (P.a * Y P
    q + R P q * X P q) * dR_D0 P q * ddR_D0D2 P q + (P.a * Y P q + R P q * X P q) * ddR_D0D0 P q * dR_D2 P q + 2 * (P.a * dY_D0 P q + R P q * dX_D0 P q + X P q * dR_D0 P
    q) * R P q * ddR_D0D2 P q + 2 * (P.a * dY_D0 P q + R P q * dX_D0 P q + X P q * dR_D0 P q) * dR_D0 P q * dR_D2 P q + (P.a * dY_D2 P q + R P q * dX_D2 P q + X P q *
    dR_D2 P q) * R P q * ddR_D0D0 P q + (P.a * dY_D2 P q + R P q * dX_D2 P q + X P q * dR_D2 P q) * (dR_D0 P q) ^ 2 + (P.a * ddY_D0D0 P q + R P q * ddX_D0D0 P q + X P q *
    ddR_D0D0 P q + 2 * dR_D0 P q * dX_D0 P q) * R P q * dR_D2 P q + 2 * (P.a * ddY_D0D2 P q + R P q * ddX_D0D2 P q + X P q * ddR_D0D2 P q + dR_D0 P q * dX_D2 P q + dR_D2
    P q * dX_D0 P q) * R P q * dR_D0 P q) + 8 * (P.a ^ 2 + (R P q) ^ 2) * (2 * (P.a * Y P q + R P q * X P q) * R P q * dR_D0 P q * ddR_D0D2 P q + (P.a * Y P q + R P q * X
    P q) * R P q * ddR_D0D0 P q * dR_D2 P q + 3 * (P.a * Y P q + R P q * X P q) * (dR_D0 P q) ^ 2 * dR_D2 P q + 2 * (P.a * dY_D0 P q + R P q * dX_D0 P q + X P q * dR_D0 P
    q) * R P q * dR_D0 P q * dR_D2 P q + (P.a * dY_D2 P q + R P q * dX_D2 P q + X P q * dR_D2 P q) * R P q * (dR_D0 P q) ^ 2) * R P q - 48 * (P.a * Y P q + R P q * X P q)
    * (R P q) ^ 3 * (dR_D0 P q) ^ 2 * dR_D2 P q) / (P.a ^ 2 + (R P q) ^ 2) ^ 4

/-- Free_Data/fd_KerrSchild_H_K0_K1_K2.c:918-981 `fd_ks_dddK0_D0D1D0` -/
noncomputable def dddK0_D0D1D0 (P : Par) (q : Pt) : ℝ :=
  ((P.a ^ 2 + (R P q) ^ 2) ^ 3 * (P.a * dddY_D0D0D1 P q + R P q * dddX_D0D0D1 P q + X P q * dddR_D0D0D1 P q + 2 * dR_D0 P q * ddX_D0D1 P q + ddR_D0D0 P q * dX_D1 P q +
    dR_D1 P q * ddX_D0D0 P q + 2 * dX_D0 P q * ddR_D0D1 P q) - 2 * (P.a ^ 2 + (R P q) ^ 2) ^ 2 * ((P.a * Y P q + R P q * X P q) * R P q * dddR_D0D0D1 P q + 2 * (P.a * Y P
    q + R P q * X P q) * dR_D0 P q * ddR_D0D1 P q + (P.a * Y P q + R P q * X P q) * ddR_D0D0 P q * dR_D1 P q + 2 * (P.a * dY_D0 P q + R P q * dX_D0 P q + X P q * dR_D0 P
    q) * R P q * ddR_D0D1 P q + 2 * (P.a * dY_D0 P q + R P q * dX_D0 P q + X P q * dR_D0 P q) * dR_D0 P q * dR_D1 P q + (P.a * dY_D1 P q + R P q * dX_D1 P q + X P q *
    dR_D1 P q) * R P q * ddR_D0D0 P q + (P.a * dY_D1 P q + R P q * dX_D1 P q + X P q * dR_D1 P q) * (dR_D0 P q) ^ 2 + (P.a * ddY_D0D0 P q + R P q * ddX_D0D0 P q + X P q *
    ddR_D0D0 P q + 2 * dR_D0 P q * dX_D0 P q) * R P q * dR_D1 P q + 2 * (P.a * ddY_D0D1 P q + R P q * ddX_D0D1 P q + X P q * ddR_D0D1 P q + dR_D0 P q * dX_D1 P q + dR_D1
    P q * dX_D0 P q) * R P q * dR_D0 P q) + 8 * (P.a ^ 2 + (R P q) ^ 2) * (2 * (P.a * Y P q + R P q * X P q) * R P q * dR_D0 P q * ddR_D0D1 P q + (P.a * Y P q + R P q * X
    P q) * R P q * ddR_D0D0 P q * dR_D1 P q + 3 * (P.a * Y P q + R P q * X P q) * (dR_D0 P q) ^ 2 * dR_D1 P q + 2 * (P.a * dY_D0 P q + R P q * dX_D0 P q + X P q * dR_D0 P
    q) * R P q * dR_D0 P q * dR_D1 P q + (P.a * dY_D1 P q + R P q * dX_D1 P q + X P q * dR_D1 P q) * R P q * (dR_D0 P q) ^ 2) * R P q - 48 * (P.a * Y P q + R P q * X P q)
    * (R P q) ^ 3 * (dR_D0 P q) ^ 2 * dR_D1 P q) / (P.a ^ 2 + (R P q) ^ 2) ^ 4

/-- Free_Data/fd_KerrSchild_H_K0_K1_K2.c:853-917 `fd_ks_dddK0_D0D1D1` -/
noncomputable def dddK0_D0D1D1 (P : Par) (q : Pt) : ℝ :=
  ((P.a ^ 2 + (R P q) ^ 2) ^ 3 * (P.a * dddY_D0D1D1 P q + R P q * dddX_D0D1D1 P q + X P q * dddR_D0D1D1 P q + dR_D0 P q * ddX_D1D1 P q + 2 * dR_D1 P q * ddX_D0D1 P q +
    ddR_D1D1 P q * dX_D0 P q + 2 * dX_D1 P q * ddR_D0D1 P q) - 2 * (P.a ^ 2 + (R P q) ^ 2) ^ 2 * ((P.a * Y P q + R P q * X P q) * R P q * dddR_D0D1D1 P q + (P.a * Y P q +
    R P q * X P q) * dR_D0 P q * ddR_D1D1 P q + 2 * (P.a * Y P q + R P q * X P q) * dR_D1 P q * ddR_D0D1 P q + (P.a * dY_D0 P q + R P q * dX_D0 P q + X P q * dR_D0 P q) *
    R P q * ddR_D1D1 P q + (P.a * dY_D0 P q + R P q * dX_D0 P q + X P q * dR_D0 P q) * (dR_D1 P q) ^ 2 + 2 * (P.a * dY_D1 P q + R P q * dX_D1 P q + X P q * dR_D1 P q) * R
    P q * ddR_D0D1 P q + 2 * (P.a * dY_D1 P q + R P q * dX_D1 P q + X P q * dR_D1 P q) * dR_D0 P q * dR_D1 P q + (P.a * ddY_D1D1 P q + R P q * ddX_D1D1 P q + X P q *
    ddR_D1D1 P q + 2 * dR_D1 P q * dX_D1 P q) * R P q * dR_D0 P q + 2 * (P.a * ddY_D0D1 P q + R P q * ddX_D0D1 P q + X P q * ddR_D0D1 P q + dR_D0 P q * dX_D1 P q + dR_D1
    P q * dX_D0 P q) * R P q * dR_D1 P q) + 8 * (P.a ^ 2 + (R P q) ^ 2) * ((P.a * Y P q + R P q * X P q) * R P q * dR_D0 P q * ddR_D1D1 P q + 2 * (P.a * Y P q + R P q * X
    P q) * R P q * dR_D1 P q * ddR_D0D1 P q + 3 * (P.a * Y P q + R P q * X P q) * dR_D0 P q * (dR_D1 P q) ^ 2 + (P.a * dY_D0 P q + R P q * dX_D0 P q + X P q * dR_D0 P q)
    * R P q * (dR_D1 P q) ^ 2 + 2 * (P.a * dY_D1 P q + R P q * dX_D1 P q + X P q * dR_D1 P q) * R P q * dR_D0 P q * dR_D1 P q) * R P q - 48 * (P.a * Y P q + R P q * X P
    q) * (R P q) ^ 3 * dR_D0 P q * (dR_D1 P q) ^ 2) / (P.a ^ 2 + (R P q) ^ 2) ^ 4

/-- Free_Data/fd_KerrSchild_H_K0_K1_K2.c:1046-1134 `fd_ks_dddK0_D0D1D2` -/
noncomputable def dddK0_D0D1D2 (P : Par) (q : Pt) : ℝ :=
  ((P.a ^ 2 + (R P q) ^ 2) ^ 3 * (P.a * dddY_D0D1D2 P q + R P q * dddX_D0D1D2 P q + X P q * dddR_D0D1D2 P q + dR_D0 P q * ddX_D1D2 P q + dR_D1 P q * ddX_D0D2 P q + dR_D2
    P q * ddX_D0D1 P q + dX_D0 P q * ddR_D1D2 P q + dX_D1 P q * ddR_D0D2 P q + dX_D2 P q * ddR_D0D1 P q) - 2 * (P.a ^ 2 + (R P q) ^ 2) ^ 2 * ((P.a * Y P q + R P q * X P
    q) * R P q * dddR_D0D1D2 P q + (P.a * Y P q + R P q * X P q) * dR_D0 P q * ddR_D1D2 P q + (P.a * Y P q + R P q * X P q) * dR_D1 P q * ddR_D0D2 P q + (P.a * Y P q + R
    P q * X P q) * dR_D2 P q * ddR_D0D1 P q + (P.a * dY_D0 P q + R P q * dX_D0 P q + X P q * dR_D0 P q) * R P q * ddR_D1D2 P q + (P.a * dY_D0 P q + R P q * dX_D0 P q + X
    P q * dR_D0 P q) * dR_D1 P q * dR_D2 P q + (P.a * dY_D1 P q + R P q * dX_D1 P q + X P q * dR_D1 P q) * R P q * ddR_D0D2 P q + (P.a * dY_D1 P q + R P q * dX_D1 P q + X
    P q * dR_D1 P q) * dR_D0 P q * dR_D2 P q + (P.a * dY_D2 P q + R P q * dX_D2 P q + X P q * dR_D2 P q) * R P q * ddR_D0D1 P q + (P.a * dY_D2 P q + R P q * dX_D2 P q + X
    P q * dR_D2 P q) * dR_D0 P q * dR_D1 P q + (P.a * ddY_D0D1 P q + R P q * ddX_D0D1 P q + X P q * ddR_D0D1 P q + dR_D0 P q * dX_D1 P q + dR_D1 P q * dX_D0 P q) * R P q
    * dR_D2 P q + (P.a * ddY_D0D2 P q + R P q * ddX_D0D2 P q + X P q * ddR_D0D2 P q + dR_D0 P q * dX_D2 P q + dR_D2 P q * dX_D0 P q) * R P q * dR_D1 P q + (P.a * ddY_D1D2
    P q + R P q * ddX_D1D2 P q + X P q * ddR_D1D2 P q + dR_D1 P q * dX_D2 P q + dR_D2 P q * dX_D1 P q) * R P q * dR_D0 P q) + 8 * (P.a ^ 2 + (R P q) ^ 2) * ((P.a * Y P q
    + R P q * X P q) * R P q * dR_D0 P q * ddR_D1D2 P q + (P.a * Y P q + R P q * X P q) * R P q * dR_D1 P q * ddR_D0D2 P q + (P.a * Y P q + R P q * X P q) * R P q * dR_D2
    P q * ddR_D0D1 P q + 3 * (P.a * Y P q + R P q * X P q) * dR_D0 P q * dR_D1 P q * dR_D2 P q + (P.a * dY_D0 P q + R P q * dX_D0 P q + X P q * dR_D0 P q) * R P q * dR_D1
    P q * dR_D2 P q + (P.a * dY_D1 P q + R P q * dX_D1 P q + X P q * dR_D1 P q) * R P q * dR_D0 P q * dR_D2 P q + (P.a * dY_D2 P q + R P q * dX_D2 P q + X P q * dR_D2 P
    q) * R P q * dR_D0 P q * dR_D1 P q) * R P q - 48 * (P.a * Y P q + R P q * X P q) * (R P q) ^ 3 * dR_D0 P q * dR_D1 P q * dR_D2 P q) / (P.a ^ 2 + (R P q) ^ 2) ^ 4

/-- Free_Data/fd_KerrSchild_H_K0_K1_K2.c:486-549 `fd_ks_dddK0_D0D2D0` -/
noncomputable def dddK0_D0D2D0 (P : Par) (q : Pt) : ℝ :=
  ((P.a ^ 2 + (R P q) ^ 2) ^ 3 * (P.a * dddY_D0D0D2 P q + R P q * dddX_D0D0D2 P q + X P q * dddR_D0D0D2 P q + 2 * dR_D0 P q * ddX_D0D2 P q + ddR_D0D0 P q * dX_D2 P q +
    dR_D2 P q * ddX_D0D0 P q + 2 * dX_D0 P q * ddR_D0D2 P q) - 2 * (P.a ^ 2 + (R P q) ^ 2) ^ 2 * ((P.a * Y P q + R P q * X P q) * R P q * dddR_D0D0D2 P q + 2 * (P.a * Y P
    q + R P q * X P q) * dR_D0 P q * ddR_D0D2 P q + (P.a * Y P q + R P q * X P q) * ddR_D0D0 P q * dR_D2 P q + 2 * (P.a * dY_D0 P q + R P q * dX_D0 P q + X P q * dR_D0 P
    q) * R P q * ddR_D0D2 P q + 2 * (P.a * dY_D0 P q + R P q * dX_D0 P q + X P q * dR_D0 P q) * dR_D0 P q * dR_D2 P q + (P.a * dY_D2 P q + R P q * dX_D2 P q + X P q *
    dR_D2 P q) * R P q * ddR_D0D0 P q + (P.a * dY_D2 P q + R P q * dX_D2 P q + X P q * dR_D2 P q) * (dR_D0 P q) ^ 2 + (P.a * ddY_D0D0 P q + R P q * ddX_D0D0 P q + X P q *
    ddR_D0D0 P q + 2 * dR_D0 P q * dX_D0 P q) * R P q * dR_D2 P q + 2 * (P.a * ddY_D0D2 P q + R P q * ddX_D0D2 P q + X P q * ddR_D0D2 P q + dR_D0 P q * dX_D2 P q + dR_D2
    P q * dX_D0 P q) * R P q * dR_D0 P q) + 8 * (P.a ^ 2 + (R P q) ^ 2) * (2 * (P.a * Y P q + R P q * X P q) * R P q * dR_D0 P q * ddR_D0D2 P q + (P.a * Y P q + R P q * X
    P q) * R P q * ddR_D0D0 P q * dR_D2 P q + 3 * (P.a * Y P q + R P q * X P q) * (dR_D0 P q) ^ 2 * dR_D2 P q + 2 * (P.a * dY_D0 P q + R P q * dX_D0 P q + X P q * dR_D0 P
    q) * R P q * dR_D0 P q * dR_D2 P q + (P.a * dY_D2 P q + R P q * dX_D2 P q + X P q * dR_D2 P q) * R P q * (dR_D0 P q) ^ 2) * R P q - 48 * (P.a * Y P q + R P q * X P q)
    * (R P q) ^ 3 * (dR_D0 P q) ^ 2 * dR_D2 P q) / (P.a ^ 2 + (R P q) ^ 2) ^ 4

/-- Free_Data/fd_KerrSchild_H_K0_K1_K2.c:550-638 `fd_ks_dddK0_D0D2D1` -/
noncomputable def dddK0_D0D2D1 (P : Par) (q : Pt) : ℝ :=
  ((P.a ^ 2 + (R P q) ^ 2) ^ 3 * (P.a * dddY_D0D1D2 P q + R P q * dddX_D0D1D2 P q + X P q * dddR_D0D1D2 P q + dR_D0 P q * ddX_D1D2 P q + dR_D1 P q * ddX_D0D2 P q + dR_D2
    P q * ddX_D0D1 P q + dX_D0 P q * ddR_D1D2 P q + dX_D1 P q * ddR_D0D2 P q + dX_D2 P q * ddR_D0D1 P q) - 2 * (P.a ^ 2 + (R P q) ^ 2) ^ 2 * ((P.a * Y P q + R P q * X P
    q) * R P q * dddR_D0D1D2 P q + (P.a * Y P q + R P q * X P q) * dR_D0 P q * ddR_D1D2 P q + (P.a * Y P q + R P q * X P q) * dR_D1 P q * ddR_D0D2 P q + (P.a * Y P q + R
    P q * X P q) * dR_D2 P q * ddR_D0D1 P q + (P.a * dY_D0 P q + R P q * dX_D0 P q + X P q * dR_D0 P q) * R P q * ddR_D1D2 P q + (P.a * dY_D0 P q + R P q * dX_D0 P q + X
    P q * dR_D0 P q) * dR_D1 P q * dR_D2 P q + (P.a * dY_D1 P q + R P q * dX_D1 P q + X P q * dR_D1 P q) * R P q * ddR_D0D2 P q + (P.a * dY_D1 P q + R P q * dX_D1 P q + X
    P q * dR_D1 P q) * dR_D0 P q * dR_D2 P q + (P.a * dY_D2 P q + R P q * dX_D2 P q + X P q * dR_D2 P q) * R P q * ddR_D0D1 P q + (P.a * dY_D2 P q + R P q * dX_D2 P q + X
    P q * dR_D2 P q) * dR_D0 P q * dR_D1 P q + (P.a * ddY_D0D1 P q + R P q * ddX_D0D1 P q + X P q * ddR_D0D1 P q + dR_D0 P q * dX_D1 P q + dR_D1 P q * dX_D0 P q) * R P q
    * dR_D2 P q + (P.a * ddY_D0D2 P q + R P q * ddX_D0D2 P q + X P q * ddR_D0D2 P q + dR_D0 P q * dX_D2 P q + dR_D2 P q * dX_D0 P q) * R P q * dR_D1 P q + (P.a * ddY_D1D2
    P q + R P q * ddX_D1D2 P q + X P q * ddR_D1D2 P q + dR_D1 P q * dX_D2 P q + dR_D2 P q * dX_D1 P q) * R P q * dR_D0 P q) + 8 * (P.a ^ 2 + (R P q) ^ 2) * ((P.a * Y P q
    + R P q * X P q) * R P q * dR_D0 P q * ddR_D1D2 P q + (P.a * Y P q + R P q * X P q) * R P q * dR_D1 P q * ddR_D0D2 P q + (P.a * Y P q + R P q * X P q) * R P q * dR_D2
    P q * ddR_D0D1 P q + 3 * (P.a * Y P q + R P q * X P q) * dR_D0 P q * dR_D1 P q * dR_D2 P q + (P.a * dY_D0 P q + R P q * dX_D0 P q + X P q * dR_D0 P q) * R P q * dR_D1
    P q * dR_D2 P q + (P.a * dY_D1 P q + R P q * dX_D1 P q + X P q * dR_D1 P q) * R P q * dR_D0 P q * dR_D2 P q + (P.a * dY_D2 P q + R P q * dX_D2 P q + X P q * dR_D2 P
    q) * R P q * dR_D0 P q * dR_D1 P q) * R P q - 48 * (P.a * Y P q + R P q * X P q) * (R P q) ^ 3 * dR_D0 P q * dR_D1 P q * dR_D2 P q) / (P.a ^ 2 + (R P q) ^ 2) ^ 4

/-- Free_Data/fd_KerrSchild_H_K0_K1_K2.c:356-420 `fd_ks_dddK0_D0D2D2` -/
noncomputable def dddK0_D0D2D2 (P : Par) (q : Pt) : ℝ :=
  ((P.a ^ 2 + (R P q) ^ 2) ^ 3 * (P.a * dddY_D0D2D2 P q + R P q * dddX_D0D2D2 P q + X P q * dddR_D0D2D2 P q + dR_D0 P q * ddX_D2D2 P q + 2 * dR_D2 P q * ddX_D0D2 P q +
    ddR_D2D2 P q * dX_D0 P q + 2 * dX_D2 P q * ddR_D0D2 P q) - 2 * (P.a ^ 2 + (R P q) ^ 2) ^ 2 * ((P.a * Y P q + R P q * X P q) * R P q * dddR_D0D2D2 P q + (P.a * Y P q +
    R P q * X P q) * dR_D0 P q * ddR_D2D2 P q + 2 * (P.a * Y P q + R P q * X P q) * dR_D2 P q * ddR_D0D2 P q + (P.a * dY_D0 P q + R P q * dX_D0 P q + X P q * dR_D0 P q) *
    R P q * ddR_D2D2 P q + (P.a * dY_D0 P q + R P q * dX_D0 P q + X P q * dR_D0 P q) * (dR_D2 P q) ^ 2 + 2 * (P.a * dY_D2 P q + R P q * dX_D2 P q + X P q * dR_D2 P q) * R
    P q * ddR_D0D2 P q + 2 * (P.a * dY_D2 P q + R P q * dX_D2 P q + X P q * dR_D2 P q) * dR_D0 P q * dR_D2 P q + (P.a * ddY_D2D2 P q + R P q * ddX_D2D2 P q + X P q *
    ddR_D2D2 P q + 2 * dR_D2 P q * dX_D2 P q) * R P q * dR_D0 P q + 2 * (P.a * ddY_D0D2 P q + R P q * ddX_D0D2 P q + X P q * ddR_D0D2 P q + dR_D0 P q * dX_D2 P q + dR_D2
    P q * dX_D0 P q) * R P q * dR_D2 P q) + 8 * (P.a ^ 2 + (R P q) ^ 2) * ((P.a * Y P q + R P q * X P q) * R P q * dR_D0 P q * ddR_D2D2 P q + 2 * (P.a * Y P q + R P q * X
    P q) * R P q * dR_D2 P q * ddR_D0D2 P q + 3 * (P.a * Y P q + R P q * X P q) * dR_D0 P q * (dR_D2 P q) ^ 2 + (P.a * dY_D0 P q + R P q * dX_D0 P q + X P q * dR_D0 P q)
    * R P q * (dR_D2 P q) ^ 2 + 2 * (P.a * dY_D2 P q + R P q * dX_D2 P q + X P q * dR_D2 P q) * R P q * dR_D0 P q * dR_D2 P q) * R P q - 48 * (P.a * Y P q + R P q * X P
    q) * (R P q) ^ 3 * dR_D0 P q * (dR_D2 P q) ^ 2) / (P.a ^ 2 + (R P q) ^ 2) ^ 4

/-- Free_Data/fd_KerrSchild_H_K0_K1_K2.c:421-485 `fd_ks_dddK0_D1D1D0` -/
noncomputable def dddK0_D1D1D0 (P : Par) (q : Pt) : ℝ :=
  ((P.a ^ 2 + (R P q) ^ 2) ^ 3 * (P.a * dddY_D0D1D1 P q + R P q * dddX_D0D1D1 P q + X P q * dddR_D0D1D1 P q + dR_D0 P q * ddX_D1D1 P q + 2 * dR_D1 P q * ddX_D0D1 P q +
    ddR_D1D1 P q * dX_D0 P q + 2 * dX_D1 P q * ddR_D0D1 P q) - 2 * (P.a ^ 2 + (R P q) ^ 2) ^ 2 * ((P.a * Y P q + R P q * X P q) * R P q * dddR_D0D1D1 P q + (P.a * Y P q +
    R P q * X P q) * dR_D0 P q * ddR_D1D1 P q + 2 * (P.a * Y P q + R P q * X P q) * dR_D1 P q * ddR_D0D1 P q + (P.a * dY_D0 P q + R P q * dX_D0 P q + X P q * dR_D0 P q) *
    R P q * ddR_D1D1 P q + (P.a * dY_D0 P q + R P q * dX_D0 P q + X P q * dR_D0 P q) * (dR_D1 P q) ^ 2 + 2 * (P.a * dY_D1 P q + R P q * dX_D1 P q + X P q * dR_D1 P q) * R
    P q * ddR_D0D1 P q + 2 * (P.a * dY_D1 P q + R P q * dX_D1 P q + X P q * dR_D1 P q) * dR_D0 P q * dR_D1 P q + (P.a * ddY_D1D1 P q + R P q * ddX_D1D1 P q + X P q *
    ddR_D1D1 P q + 2 * dR_D1 P q * dX_D1 P q) * R P q * dR_D0 P q + 2 * (P.a * ddY_D0D1 P q + R P q * ddX_D0D1 P q + X P q * ddR_D0D1 P q + dR_D0 P q * dX_D1 P q + dR_D1
    P q * dX_D0 P q) * R P q * dR_D1 P q) + 8 * (P.a ^ 2 + (R P q) ^ 2) * ((P.a * Y P q + R P q * X P q) * R P q * dR_D0 P q * ddR_D1D1 P q + 2 * (P.a * Y P q + R P q * X
    P q) * R P q * dR_D1 P q * ddR_D0D1 P q + 3 * (P.a * Y P q + R P q * X P q) * dR_D0 P q * (dR_D1 P q) ^ 2 + (P.a * dY_D0 P q + R P q * dX_D0 P q + X P q * dR_D0 P q)
    * R P q * (dR_D1 P q) ^ 2 + 2 * (P.a * dY_D1 P q + R P q * dX_D1 P q + X P q * dR_D1 P q) * R P q * dR_D0 P q * dR_D1 P q) * R P q - 48 * (P.a * Y P q + R P q * X P
    q) * (R P q) ^ 3 * dR_D0 P q * (dR_D1 P q) ^ 2) / (P.a ^ 2 + (R P q) ^ 2) ^ 4

/-- Free_Data/fd_KerrSchild_H_K0_K1_K2.c:704-745 `fd_ks_dddK0_D1D1D1` -/
noncomputable def dddK0_D1D1D1 (P : Par) (q : Pt) : ℝ :=
  ((P.a ^ 2 + (R P q) ^ 2) ^ 3 * (P.a * dddY_D1D1D1 P q + R P q * dddX_D1D1D1 P q + X P q * dddR_D1D1D1 P q + 3 * dR_D1 P q * ddX_D1D1 P q + 3 * ddR_D1D1 P q * dX_D1 P q)
    - 2 * (P.a ^ 2 + (R P q) ^ 2) ^ 2 * ((P.a * Y P q + R P q * X P q) * R P q * dddR_D1D1D1 P q + 3 * (P.a * Y P q + R P q * X P q) * dR_D1 P q * ddR_D1D1 P q + 3 * (P.a
    * dY_D1 P q + R P q * dX_D1 P q + X P q * dR_D1 P q) * R P q * ddR_D1D1 P q + 3 * (P.a * dY_D1 P q + R P q * dX_D1 P q + X P q * dR_D1 P q) * (dR_D1 P q) ^ 2 + 3 *
    (P.a * ddY_D1D1 P q + R P q * ddX_D1D1 P q + X P q * ddR_D1D1 P q + 2 * dR_D1 P q * dX_D1 P q) * R P q * dR_D1 P q) + 24 * (P.a ^ 2 + (R P q) ^ 2) * ((P.a * Y P q + R
    P q * X P q) * R P q * ddR_D1D1 P q + (P.a * Y P q + R P q * X P q) * (dR_D1 P q) ^ 2 + (P.a * dY_D1 P q + R P q * dX_D1 P q + X P q * dR_D1 P q) * R P q * dR_D1 P q)
    * R P q * dR_D1 P q - 48 * (P.a * Y P q + R P q * X P q) * (R P q) ^ 3 * (dR_D1 P q) ^ 3) / (P.a ^ 2 + (R P q) ^ 2) ^ 4

/-- Free_Data/fd_KerrSchild_H_K0_K1_K2.c:982-1045 `fd_ks_dddK0_D1D1D2` -/
noncomputable def dddK0_D1D1D2 (P : Par) (q : Pt) : ℝ :=
  ((P.a ^ 2 + (R P q) ^ 2) ^ 3 * (P.a * dddY_D1D1D2 P q + R P q * dddX_D1D1D2 P q + X P q * dddR_D1D1D2 P q + 2 * dR_D1 P q * ddX_D1D2 P q + ddR_D1D1 P q * dX_D2 P q +
    dR_D2 P q * ddX_D1D1 P q + 2 * dX_D1 P q * ddR_D1D2 P q) - 2 * (P.a ^ 2 + (R P q) ^ 2) ^ 2 * ((P.a * Y P q + R P q * X P q) * R P q * dddR_D1D1D2 P q + 2 * (P.a * Y P
    q + R P q * X P q) * dR_D1 P q * ddR_D1D2 P q + (P.a * Y P q + R P q * X P q) * ddR_D1D1 P q * dR_D2 P q + 2 * (P.a * dY_D1 P q + R P q * dX_D1 P q + X P q * dR_D1 P
    q) * R P q * ddR_D1D2 P q + 2 * (P.a * dY_D1 P q + R P q * dX_D1 P q + X P q * dR_D1 P q) * dR_D1 P q * dR_D2 P q + (P.a * dY_D2 P q + R P q * dX_D2 P q + X P q *
    dR_D2 P q) * R P q * ddR_D1D1 P q + (P.a * dY_D2 P q + R P q * dX_D2 P q + X P q * dR_D2 P q) * (dR_D1 P q) ^ 2 + (P.a * ddY_D1D1 P q + R P q * ddX_D1D1 P q + X P q *
    ddR_D1D1 P q + 2 * dR_D1 P q * dX_D1 P q) * R P q * dR_D2 P q + 2 * (P.a * ddY_D1D2 P q + R P q * ddX_D1D2 P q + X P q * ddR_D1D2 P q + dR_D1 P q * dX_D2 P q + dR_D2
    P q * dX_D1 P q) * R P q * dR_D1 P q) + 8 * (P.a ^ 2 + (R P q) ^ 2) * (2 * (P.a * Y P q + R P q * X P q) * R P q * dR_D1 P q * ddR_D1D2 P q + (P.a * Y P q + R P q * X
    P q) * R P q * ddR_D1D1 P q * dR_D2 P q + 3 * (P.a * Y P q + R P q * X P q) * (dR_D1 P q) ^ 2 * dR_D2 P q + 2 * (P.a * dY_D1 P q + R P q * dX_D1 P q + X P q * dR_D1 P
    q) * R P q * dR_D1 P q * dR_D2 P q + (P.a * dY_D2 P q + R P q * dX_D2 P q + X P q * dR_D2 P q) * R P q * (dR_D1 P q) ^ 2) * R P q - 48 * (P.a * Y P q + R P q * X P q)
    * (R P q) ^ 3 * (dR_D1 P q) ^ 2 * dR_D2 P q) / (P.a ^ 2 + (R P q) ^ 2) ^ 4

/-- Free_Data/fd_KerrSchild_H_K0_K1_K2.c:1370-1458 `fd_ks_dddK0_D1D2D0` -/
noncomputable def dddK0_D1D2D0 (P : Par) (q : Pt) : ℝ :=
  ((P.a ^ 2 + (R P q) ^ 2) ^ 3 * (P.a * dddY_D0D1D2 P q + R P q * dddX_D0D1D2 P q + X P q * dddR_D0D1D2 P q + dR_D0 P q * ddX_D1D2 P q + dR_D1 P q * ddX_D0D2 P q + dR_D2
    P q * ddX_D0D1 P q + dX_D0 P q * ddR_D1D2 P q + dX_D1 P q * ddR_D0D2 P q + dX_D2 P q * ddR_D0D1 P q) - 2 * (P.a ^ 2 + (R P q) ^ 2) ^ 2 * ((P.a * Y P q + R P q * X P
    q) * R P q * dddR_D0D1D2 P q + (P.a * Y P q + R P q * X P q) * dR_D0 P q * ddR_D1D2 P q + (P.a * Y P q + R P q * X P q) * dR_D1 P q * ddR_D0D2 P q + (P.a * Y P q + R
    P q * X P q) * dR_D2 P q * ddR_D0D1 P q + (P.a * dY_D0 P q + R P q * dX_D0 P q + X P q * dR_D0 P q) * R P q * ddR_D1D2 P q + (P.a * dY_D0 P q + R P q * dX_D0 P q + X
    P q * dR_D0 P q) * dR_D1 P q * dR_D2 P q + (P.a * dY_D1 P q + R P q * dX_D1 P q + X P q * dR_D1 P q) * R P q * ddR_D0D2 P q + (P.a * dY_D1 P q + R P q * dX_D1 P q + X
    P q * dR_D1 P q) * dR_D0 P q * dR_D2 P q + (P.a * dY_D2 P q + R P q * dX_D2 P q + X P q * dR_D2 P q) * R P q * ddR_D0D1 P q + (P.a * dY_D2 P q + R P q * dX_D2 P q + X
    P q * dR_D2 P q) * dR_D0 P q * dR_D1 P q + (P.a * ddY_D0D1 P q + R P q * ddX_D0D1 P q + X P q * ddR_D0D1 P q + dR_D0 P q * dX_D1 P q + dR_D1 P q * dX_D0 P q) * R P q
    * dR_D2 P q + (P.a * ddY_D0D2 P q + R P q * ddX_D0D2 P q + X P q * ddR_D0D2 P q + dR_D0 P q * dX_D2 P q + dR_D2 P q * dX_D0 P q) * R P q * dR_D1 P q + (P.a * ddY_D1D2
    P q + R P q * ddX_D1D2 P q + X P q * ddR_D1D2 P q + dR_D1 P q * dX_D2 P q + dR_D2 P q * dX_D1 P q) * R P q * dR_D0 P q) + 8 * (P.a ^ 2 + (R P q) ^ 2) * ((P.a * Y P q
    + R P q * X P q) * R P q * dR_D0 P q * ddR_D1D2 P q + (P.a * Y P q + R P q * X P q) * R P q * dR_D1 P q * ddR_D0D2 P q + (P.a * Y P q + R P q * X P q) * R P q * dR_D2
    P q * ddR_D0D1 P q + 3 * (P.a * Y P q + R P q * X P q) * dR_D0 P q * dR_D1 P q * dR_D2 P q + (P.a * dY_D0 P q + R P q * dX_D0 P q + X P q * dR_D0 P q) * R P q * dR_D1
    P q * dR_D2 P q + (P.a * dY_D1 P q + R P q * dX_D1 P q + X P q * dR_D1 P q) * R P q * dR_D0 P q * dR_D2 P q + (P.a * dY_D2 P q + R P q * dX_D2 P q + X P q * dR_D2 P
    q) * R P q * dR_D0 P q * dR_D1 P q) * R P q - 48 * (P.a * Y P q + R P q * X P q) * (R P q) ^ 3 * dR_D0 P q * dR_D1 P q * dR_D2 P q) / (P.a ^ 2 + (R P q) ^ 2) ^ 4

/-- Free_Data/fd_KerrSchild_H_K0_K1_K2.c:1459-1522 `fd_ks_dddK0_D1D2D1` -/
noncomputable def dddK0_D1D2D1 (P : Par) (q : Pt) : ℝ :=
  ((P.a ^ 2 + (R P q) ^ 2) ^ 3 * (P.a * dddY_D1D1D2 P q + R P q * dddX_D1D1D2 P q + X P q * dddR_D1D1D2 P q + 2 * dR_D1 P q * ddX_D1D2 P q + ddR_D1D1 P q * dX_D2 P q +
    dR_D2 P q * ddX_D1D1 P q + 2 * dX_D1 P q * ddR_D1D2 P q) - 2 * (P.a ^ 2 + (R P q) ^ 2) ^ 2 * ((P.a * Y P q + R P q * X P q) * R P q * dddR_D1D1D2 P q + 2 * (P.a * Y P
    q + R P q * X P q) * dR_D1 P q * ddR_D1D2 P q + (P.a * Y P q + R P q * X P q) * ddR_D1D1 P q * dR_D2 P q + 2 * (P.a * dY_D1 P q + R P q * dX_D1 P q + X P q * dR_D1 P
    q) * R P q * ddR_D1D2 P q + 2 * (P.a * dY_D1 P q + R P q * dX_D1 P q + X P q * dR_D1 P q) * dR_D1 P q * dR_D2 P q + (P.a * dY_D2 P q + R P q * dX_D2 P q + X P q *
    dR_D2 P q) * R P q * ddR_D1D1 P q + (P.a * dY_D2 P q + R P q * dX_D2 P q + X P q * dR_D2 P q) * (dR_D1 P q) ^ 2 + (P.a * ddY_D1D1 P q + R P q * ddX_D1D1 P q + X P q *
    ddR_D1D1 P q + 2 * dR_D1 P q * dX_D1 P q) * R P q * dR_D2 P q + 2 * (P.a * ddY_D1D2 P q + R P q * ddX_D1D2 P q + X P q * ddR_D1D2 P q + dR_D1 P q * dX_D2 P q + dR_D2
    P q * dX_D1 P q) * R P q * dR_D1 P q) + 8 * (P.a ^ 2 + (R P q) ^ 2) * (2 * (P.a * Y P q + R P q * X P q) * R P q * dR_D1 P q * ddR_D1D2 P q + (P.a * Y P q + R P q * X
    P q) * R P q * ddR_D1D1 P q * dR_D2 P q + 3 * (P.a * Y P q + R P q * X P q) * (dR_D1 P q) ^ 2 * dR_D2 P q + 2 * (P.a * dY_D1 P q + R P q * dX_D1 P q + X P q * dR_D1 P
    q) * R P q * dR_D1 P q * dR_D2 P q + (P.a * dY_D2 P q + R P q * dX_D2 P q + X P q * dR_D2 P q) * R P q * (dR_D1 P q) ^ 2) * R P q - 48 * (P.a * Y P q + R P q * X P q)
    * (R P q) ^ 3 * (dR_D1 P q) ^ 2 * dR_D2 P q) / (P.a ^ 2 + (R P q) ^ 2) ^ 4

/-- Free_Data/fd_KerrSchild_H_K0_K1_K2.c:1135-1199 `fd_ks_dddK0_D1D2D2` -/
noncomputable def dddK0_D1D2D2 (P : Par) (q : Pt) : ℝ :=
  ((P.a ^ 2 + (R P q) ^ 2) ^ 3 * (P.a * dddY_D1D2D2 P q + R P q * dddX_D1D2D2 P q + X P q * dddR_D1D2D2 P q + dR_D1 P q * ddX_D2D2 P q + 2 * dR_D2 P q * ddX_D1D2 P q +
    ddR_D2D2 P q * dX_D1 P q + 2 * dX_D2 P q * ddR_D1D2 P q) - 2 * (P.a ^ 2 + (R P q) ^ 2) ^ 2 * ((P.a * Y P q + R P q * X P q) * R P q * dddR_D1D2D2 P q + (P.a * Y P q +
    R P q * X P q) * dR_D1 P q * ddR_D2D2 P q + 2 * (P.a * Y P q + R P q * X P q) * dR_D2 P q * ddR_D1D2 P q + (P.a * dY_D1 P q + R P q * dX_D1 P q + X P q * dR_D1 P q) *
    R P q * ddR_D2D2 P q + (P.a * dY_D1 P q + R P q * dX_D1 P q + X P q * dR_D1 P q) * (dR_D2 P q) ^ 2 + 2 * (P.a * dY_D2 P q + R P q * dX_D2 P q + X P q * dR_D2 P q) * R
    P q * ddR_D1D2 P q + 2 * (P.a * dY_D2 P q + R P q * dX_D2 P q + X P q * dR_D2 P q) * dR_D1 P q * dR_D2 P q + (P.a * ddY_D2D2 P q + R P q * ddX_D2D2 P q + X P q *
    ddR_D2D2 P q + 2 * dR_D2 P q * dX_D2 P q) * R P q * dR_D1 P q + 2 * (P.a * ddY_D1D2 P q + R P q * ddX_D1D2 P q + X P q * ddR_D1D2 P q + dR_D1 P q * dX_D2 P q + dR_D2
    P q * dX_D1 P q) * R P q * dR_D2 P q) + 8 * (P.a ^ 2 + (R P q) ^ 2) * ((P.a * Y P q + R P q * X P q) * R P q * dR_D1 P q * ddR_D2D2 P q + 2 * (P.a * Y P q + R P q * X
    P q) * R P q * dR_D2 P q * ddR_D1D2 P q + 3 * (P.a * Y P q + R P q * X P q) * dR_D1 P q * (dR_D2 P q) ^ 2 + (P.a * dY_D1 P q + R P q * dX_D1 P q + X P q * dR_D1 P q)
    * R P q * (dR_D2 P q) ^ 2 + 2 * (P.a * dY_D2 P q + R P q * dX_D2 P q + X P q * dR_D2 P q) * R P q * dR_D1 P q * dR_D2 P q) * R P q - 48 * (P.a * Y P q + R P q * X P
    q) * (R P q) ^ 3 * dR_D1 P q * (dR_D2 P q) ^ 2) / (P.a ^ 2 + (R P q) ^ 2) ^ 4

/-- Free_Data/fd_KerrSchild_H_K0_K1_K2.c:788-852 `fd_ks_dddK0_D2D2D0` -/
noncomputable def dddK0_D2D2D0 (P : Par) (q : Pt) : ℝ :=
  ((P.a ^ 2 + (R P q) ^ 2) ^ 3 * (P.a * dddY_D0D2D2 P q + R P q * dddX_D0D2D2 P q + X P q * dddR_D0D2D2 P q + dR_D0 P q * ddX_D2D2 P q + 2 * dR_D2 P q * ddX_D0D2 P q +
    ddR_D2D2 P q * dX_D0 P q + 2 * dX_D2 P q * ddR_D0D2 P q) - 2 * (P.a ^ 2 + (R P q) ^ 2) ^ 2 * ((P.a * Y P q + R P q * X P q) * R P q * dddR_D0D2D2 P q + (P.a * Y P q +
    R P q * X P q) * dR_D0 P q * ddR_D2D2 P q + 2 * (P.a * Y P q + R P q * X P q) * dR_D2 P q * ddR_D0D2 P q + (P.a * dY_D0 P q + R P q * dX_D0 P q + X P q * dR_D0 P q) *
    R P q * ddR_D2D2 P q + (P.a * dY_D0 P q + R P q * dX_D0 P q + X P q * dR_D0 P q) * (dR_D2 P q) ^ 2 + 2 * (P.a * dY_D2 P q + R P q * dX_D2 P q + X P q * dR_D2 P q) * R
    P q * ddR_D0D2 P q + 2 * (P.a * dY_D2 P q + R P q * dX_D2 P q + X P q * dR_D2 P q) * dR_D0 P q * dR_D2 P q + (P.a * ddY_D2D2 P q + R P q * ddX_D2D2 P q + X P q *
    ddR_D2D2 P q + 2 * dR_D2 P q * dX_D2 P q) * R P q * dR_D0 P q + 2 * (P.a * ddY_D0D2 P q + R P q * ddX_D0D2 P q + X P q * ddR_D0D2 P q + dR_D0 P q * dX_D2 P q + dR_D2
    P q * dX_D0 P q) * R P q * dR_D2 P q) + 8 * (P.a ^ 2 + (R P q) ^ 2) * ((P.a * Y P q + R P q * X P q) * R P q * dR_D0 P q * ddR_D2D2 P q + 2 * (P.a * Y P q + R P q * X
    P q) * R P q * dR_D2 P q * ddR_D0D2 P q + 3 * (P.a * Y P q + R P q * X P q) * dR_D0 P q * (dR_D2 P q) ^ 2 + (P.a * dY_D0 P q + R P q * dX_D0 P q + X P q * dR_D0 P q)
    * R P q * (dR_D2 P q) ^ 2 + 2 * (P.a * dY_D2 P q + R P q * dX_D2 P q + X P q * dR_D2 P q) * R P q * dR_D0 P q * dR_D2 P q) * R P q - 48 * (P.a * Y P q + R P q * X P
    q) * (R P q) ^ 3 * dR_D0 P q * (dR_D2 P q) ^ 2) / (P.a ^ 2 + (R P q) ^ 2) ^ 4

/-- Free_Data/fd_KerrSchild_H_K0_K1_K2.c:639-703 `fd_ks_dddK0_D2D2D1` -/
noncomputable def dddK0_D2D2D1 (P : Par) (q : Pt) : ℝ :=
  ((P.a ^ 2 + (R P q) ^ 2) ^ 3 * (P.a * dddY_D1D2D2 P q + R P q * dddX_D1D2D2 P q + X P q * dddR_D1D2D2 P q + dR_D1 P q * ddX_D2D2 P q + 2 * dR_D2 P q * ddX_D1D2 P q +
    ddR_D2D2 P q * dX_D1 P q + 2 * dX_D2 P q * ddR_D1D2 P q) - 2 * (P.a ^ 2 + (R P q) ^ 2) ^ 2 * ((P.a * Y P q + R P q * X P q) * R P q * dddR_D1D2D2 P q + (P.a * Y P q +
    R P q * X P q) * dR_D1 P q * ddR_D2D2 P q + 2 * (P.a * Y P q + R P q * X P q) * dR_D2 P q * ddR_D1D2 P q + (P.a * dY_D1 P q + R P q * dX_D1 P q + X P q * dR_D1 P q) *
    R P q * ddR_D2D2 P q + (P.a * dY_D1 P q + R P q * dX_D1 P q + X P q * dR_D1 P q) * (dR_D2 P q) ^ 2 + 2 * (P.a * dY_D2 P q + R P q * dX_D2 P q + X P q * dR_D2 P q) * R
    P q * ddR_D1D2 P q + 2 * (P.a * dY_D2 P q + R P q * dX_D2 P q + X P q * dR_D2 P q) * dR_D1 P q * dR_D2 P q + (P.a * ddY_D2D2 P q + R P q * ddX_D2D2 P q + X P q *
    ddR_D2D2 P q + 2 * dR_D2 P q * dX_D2 P q) * R P q * dR_D1 P q + 2 * (P.a * ddY_D1D2 P q + R P q * ddX_D1D2 P q + X P q * ddR_D1D2 P q + dR_D1 P q * dX_D2 P q + dR_D2
    P q * dX_D1 P q) * R P q * dR_D2 P q) + 8 * (P.a ^ 2 + (R P q) ^ 2) * ((P.a * Y P q + R P q * X P q) * R P q * dR_D1 P q * ddR_D2D2 P q + 2 * (P.a * Y P q + R P q * X
    P q) * R P q * dR_D2 P q * ddR_D1D2 P q + 3 * (P.a * Y P q + R P q * X P q) * dR_D1 P q * (dR_D2 P q) ^ 2 + (P.a * dY_D1 P q + R P q * dX_D1 P q + X P q * dR_D1 P q)
    * R P q * (dR_D2 P q) ^ 2 + 2 * (P.a * dY_D2 P q + R P q * dX_D2 P q + X P q * dR_D2 P q) * R P q * dR_D1 P q * dR_D2 P q) * R P q - 48 * (P.a * Y P q + R P q * X P
    q) * (R P q) ^ 3 * dR_D1 P q * (dR_D2 P q) ^ 2) / (P.a ^ 2 + (R P q) ^ 2) ^ 4

/-- Free_Data/fd_KerrSchild_H_K0_K1_K2.c:746-787 `fd_ks_dddK0_D2D2D2` -/
noncomputable def dddK0_D2D2D2 (P : Par) (q : Pt) : ℝ :=
  ((P.a ^ 2 + (R P q) ^ 2) ^ 3 * (P.a * dddY_D2D2D2 P q + R P q * dddX_D2D2D2 P q + X P q * dddR_D2D2D2 P q + 3 * dR_D2 P q * ddX_D2D2 P q + 3 * ddR_D2D2 P q * dX_D2 P q)
    - 2 * (P.a ^ 2 + (R P q) ^ 2) ^ 2 * ((P.a * Y P q + R P q * X P q) * R P q * dddR_D2D2D2 P q + 3 * (P.a * Y P q + R P q * X P q) * dR_D2 P q * ddR_D2D2 P q + 3 * (P.a
    * dY_D2 P q + R P q * dX_D2 P q + X P q * dR_D2 P q) * R P q * ddR_D2D2 P q + 3 * (P.a * dY_D2 P q + R P q * dX_D2 P q + X P q * dR_D2 P q) * (dR_D2 P q) ^ 2 + 3 *
    (P.a * ddY_D2D2 P q + R P q * ddX_D2D2 P q + X P q * ddR_D2D2 P q + 2 * dR_D2 P q * dX_D2 P q) * R P q * dR_D2 P q) + 24 * (P.a ^ 2 + (R P q) ^ 2) * ((P.a * Y P q + R
    P q * X P q) * R P q * ddR_D2D2 P q + (P.a * Y P q + R P q * X P q) * (dR_D2 P q) ^ 2 + (P.a * dY_D2 P q + R P q * dX_D2 P q + X P q * dR_D2 P q) * R P q * dR_D2 P q)
    * R P q * dR_D2 P q - 48 * (P.a * Y P q + R P q * X P q) * (R P q) ^ 3 * (dR_D2 P q) ^ 3) / (P.a ^ 2 + (R P q) ^ 2) ^ 4

/-- the first derivatives of `K0` -/
noncomputable def dK0 (P : Par) : Fin 3 → Pt → ℝ
  | 0, q => dK0_D0 P q
  | 1, q => dK0_D1 P q
  | 2, q => dK0_D2 P q

/-- the second derivatives of `K0`: D1D0 is kept as D0D1 -/
noncomputable def ddK0 (P : Par) : Fin 3 → Fin 3 → Pt → ℝ
  | 0, 0, q => ddK0_D0D0 P q
  | 0, 1, q => ddK0_D0D1 P q
  | 0, 2, q => ddK0_D0D2 P q
  | 1, 0, q => ddK0_D0D1 P q
  | 1, 1, q => ddK0_D1D1 P q
  | 1, 2, q => ddK0_D1D2 P q
  | 2, 0, q => ddK0_D0D2 P q
  | 2, 1, q => ddK0_D1D2 P q
  | 2, 2, q => ddK0_D2D2 P q

/-- the third derivatives of `K0` -/
noncomputable def dddK0 (P : Par) : Fin 3 → Fin 3 → Fin 3 → Pt → ℝ
  | 0, 0, 0, q => dddK0_D0D0D0 P q
  | 0, 0, 1, q => dddK0_D0D0D1 P q
  | 0, 0, 2, q => dddK0_D0D0D2 P q
  | 0, 1, 0, q => dddK0_D0D1D0 P q
  | 0, 1, 1, q => dddK0_D0D1D1 P q
  | 0, 1, 2, q => dddK0_D0D1D2 P q
  | 0, 2, 0, q => dddK0_D0D2D0 P q
  | 0, 2, 1, q => dddK0_D0D2D1 P q
  | 0, 2, 2, q => dddK0_D0D2D2 P q
  | 1, 0, 0, q => dddK0_D0D1D0 P q
  | 1, 0, 1, q => dddK0_D0D1D1 P q
  | 1, 0, 2, q => dddK0_D0D1D2 P q
  | 1, 1, 0, q => dddK0_D1D1D0 P q
  | 1, 1, 1, q => dddK0_D1D1D1 P q
  | 1, 1, 2, q => dddK0_D1D1D2 P q
  | 1, 2, 0, q => dddK0_D1D2D0 P q
  | 1, 2, 1, q => dddK0_D1D2D1 P q
  | 1, 2, 2, q => dddK0_D1D2D2 P q
  | 2, 0, 0, q => dddK0_D0D2D0 P q
  | 2, 0, 1, q => dddK0_D0D2D1 P q
  | 2, 0, 2, q => dddK0_D0D2D2 P q
  | 2, 1, 0, q => dddK0_D1D2D0 P q
  | 2, 1, 1, q => dddK0_D1D2D1 P q
  | 2, 1, 2, q => dddK0_D1D2D2 P q
  | 2, 2, 0, q => dddK0_D2D2D0 P q
  | 2, 2, 1, q => dddK0_D2D2D1 P q
  | 2, 2, 2, q => dddK0_D2D2D2 P q

/-- Free_Data/fd_KerrSchild_H_K0_K1_K2.c:1523-1533 `fd_ks_K1` -/
noncomputable def K1 (P : Par) (q : Pt) : ℝ :=
  ((-P.a) * X P q + R P q * Y P q) / (P.a ^ 2 + (R P q) ^ 2)

/-- Free_Data/fd_KerrSchild_H_K0_K1_K2.c:1550-1565 `fd_ks_dK1_D0` -/
noncomputable def dK1_D0 (P : Par) (q : Pt) : ℝ :=
  ((P.a ^ 2 + (R P q) ^ 2) * ((-P.a) * dX_D0 P q + R P q * dY_D0 P q + Y P q * dR_D0 P q) + 2 * (P.a * X P q - R P q * Y P q) * R P q * dR_D0 P q) / (P.a ^ 2 + (R P q) ^
    2) ^ 2

/-- Free_Data/fd_KerrSchild_H_K0_K1_K2.c:1534-1549 `fd_ks_dK1_D1` -/
noncomputable def dK1_D1 (P : Par) (q : Pt) : ℝ :=
  ((P.a ^ 2 + (R P q) ^ 2) * ((-P.a) * dX_D1 P q + R P q * dY_D1 P q + Y P q * dR_D1 P q) + 2 * (P.a * X P q - R P q * Y P q) * R P q * dR_D1 P q) / (P.a ^ 2 + (R P q) ^
    2) ^ 2

/-- Free_Data/fd_KerrSchild_H_K0_K1_K2.c:1566-1581 `fd_ks_dK1_D2` -/
noncomputable def dK1_D2 (P : Par) (q : Pt) : ℝ :=
  ((P.a ^ 2 + (R P q) ^ 2) * ((-P.a) * dX_D2 P q + R P q * dY_D2 P q + Y P q * dR_D2 P q) + 2 * (P.a * X P q - R P q * Y P q) * R P q * dR_D2 P q) / (P.a ^ 2 + (R P q) ^
    2) ^ 2

/-- Free_Data/fd_KerrSchild_H_K0_K1_K2.c:1609-1635 `fd_ks_ddK1_D0D0` -/
noncomputable def ddK1_D0D0 (P : Par) (q : Pt) : ℝ :=
  ((P.a ^ 2 + (R P q) ^ 2) ^ 2 * ((-P.a) * ddX_D0D0 P q + R P q * ddY_D0D0 P q + Y P q * ddR_D0D0 P q + 2 * dR_D0 P q * dY_D0 P q) + 2 * (P.a ^ 2 + (R P q) ^ 2) * ((P.a *
    X P q - R P q * Y P q) * R P q * ddR_D0D0 P q + (P.a * X P q - R P q * Y P q) * (dR_D0 P q) ^ 2 - 2 * ((-P.a) * dX_D0 P q + R P q * dY_D0 P q + Y P q * dR_D0 P q) * R
    P q * dR_D0 P q) + 8 * ((-P.a) * X P q + R P q * Y P q) * (R P q) ^ 2 * (dR_D0 P q) ^ 2) / (P.a ^ 2 + (R P q) ^ 2) ^ 3

/-- Free_Data/fd_KerrSchild_H_K0_K1_K2.c:1729-1761 `fd_ks_ddK1_D0D1` -/
noncomputable def ddK1_D0D1 (P : Par) (q : Pt) : ℝ :=
  ((P.a ^ 2 + (R P q) ^ 2) ^ 2 * ((-P.a) * ddX_D0D1 P q + R P q * ddY_D0D1 P q + Y P q * ddR_D0D1 P q + dR_D0 P q * dY_D1 P q + dR_D1 P q * dY_D0 P q) + 2 * (P.a ^ 2 + (R
    P q) ^ 2) * ((P.a * X P q - R P q * Y P q) * R P q * ddR_D0D1 P q + (P.a * X P q - R P q * Y P q) * dR_D0 P q * dR_D1 P q - ((-P.a) * dX_D0 P q + R P q * dY_D0 P q +
    Y P q * dR_D0 P q) * R P q * dR_D1 P q - ((-P.a) * dX_D1 P q + R P q * dY_D1 P q + Y P q * dR_D1 P q) * R P q * dR_D0 P q) - 8 * (P.a * X P q - R P q * Y P q) * (R P
    q) ^ 2 * dR_D0 P q * dR_D1 P q) / (P.a ^ 2 + (R P q) ^ 2) ^ 3

/-- Free_Data/fd_KerrSchild_H_K0_K1_K2.c:1636-1668 `fd_ks_ddK1_D0D2` -/
noncomputable def ddK1_D0D2 (P : Par) (q : Pt) : ℝ :=
  ((P.a ^ 2 + (R P q) ^ 2) ^ 2 * ((-P.a) * ddX_D0D2 P q + R P q * ddY_D0D2 P q + Y P q * ddR_D0D2 P q + dR_D0 P q * dY_D2 P q + dR_D2 P q * dY_D0 P q) + 2 * (P.a ^ 2 + (R
    P q) ^ 2) * ((P.a * X P q - R P q * Y P q) * R P q * ddR_D0D2 P q + (P.a * X P q - R P q * Y P q) * dR_D0 P q * dR_D2 P q - ((-P.a) * dX_D0 P q + R P q * dY_D0 P q +
    Y P q * dR_D0 P q) * R P q * dR_D2 P q - ((-P.a) * dX_D2 P q + R P q * dY_D2 P q + Y P q * dR_D2 P q) * R P q * dR_D0 P q) - 8 * (P.a * X P q - R P q * Y P q) * (R P
    q) ^ 2 * dR_D0 P q * dR_D2 P q) / (P.a ^ 2 + (R P q) ^ 2) ^ 3

/-- Free_Data/fd_KerrSchild_H_K0_K1_K2.c:1702-1728 `fd_ks_ddK1_D1D1` -/
noncomputable def ddK1_D1D1 (P : Par) (q : Pt) : ℝ :=
  ((P.a ^ 2 + (R P q) ^ 2) ^ 2 * ((-P.a) * ddX_D1D1 P q + R P q * ddY_D1D1 P q + Y P q * ddR_D1D1 P q + 2 * dR_D1 P q * dY_D1 P q) + 2 * (P.a ^ 2 + (R P q) ^ 2) * ((P.a *
    X P q - R P q * Y P q) * R P q * ddR_D1D1 P q + (P.a * X P q - R P q * Y P q) * (dR_D1 P q) ^ 2 - 2 * ((-P.a) * dX_D1 P q + R P q * dY_D1 P q + Y P q * dR_D1 P q) * R
    P q * dR_D1 P q) + 8 * ((-P.a) * X P q + R P q * Y P q) * (R P q) ^ 2 * (dR_D1 P q) ^ 2) / (P.a ^ 2 + (R P q) ^ 2) ^ 3

/-- Free_Data/fd_KerrSchild_H_K0_K1_K2.c:1669-1701 `fd_ks_ddK1_D1D2` -/
noncomputable def ddK1_D1D2 (P : Par) (q : Pt) : ℝ :=
  ((P.a ^ 2 + (R P q) ^ 2) ^ 2 * ((-P.a) * ddX_D1D2 P q + R P q * ddY_D1D2 P q + Y P q * ddR_D1D2 P q + dR_D1 P q * dY_D2 P q + dR_D2 P q * dY_D1 P q) + 2 * (P.a ^ 2 + (R
    P q) ^ 2) * ((P.a * X P q - R P q * Y P q) * R P q * ddR_D1D2 P q + (P.a * X P q - R P q * Y P q) * dR_D1 P q * dR_D2 P q - ((-P.a) * dX_D1 P q + R P q * dY_D1 P q +
    Y P q * dR_D1 P q) * R P q * dR_D2 P q - ((-P.a) * dX_D2 P q + R P q * dY_D2 P q + Y P q * dR_D2 P q) * R P q * dR_D1 P q) - 8 * (P.a * X P q - R P q * Y P q) * (R P
    q) ^ 2 * dR_D1 P q * dR_D2 P q) / (P.a ^ 2 + (R P q) ^ 2) ^ 3

/-- Free_Data/fd_KerrSchild_H_K0_K1_K2.c:1582-1608 `fd_ks_ddK1_D2D2` -/
noncomputable def ddK1_D2D2 (P : Par) (q : Pt) : ℝ :=
  ((P.a ^ 2 + (R P q) ^ 2) ^ 2 * ((-P.a) * ddX_D2D2 P q + R P q * ddY_D2D2 P q + Y P q * ddR_D2D2 P q + 2 * dR_D2 P q * dY_D2 P q) + 2 * (P.a ^ 2 + (R P q) ^ 2) * ((P.a *
    X P q - R P q * Y P q) * R P q * ddR_D2D2 P q + (P.a * X P q - R P q * Y P q) * (dR_D2 P q) ^ 2 - 2 * ((-P.a) * dX_D2 P q + R P q * dY_D2 P q + Y P q * dR_D2 P q) * R
    P q * dR_D2 P q) + 8 * ((-P.a) * X P q + R P q * Y P q) * (R P q) ^ 2 * (dR_D2 P q) ^ 2) / (P.a ^ 2 + (R P q) ^ 2) ^ 3

/-- Free_Data/fd_KerrSchild_H_K0_K1_K2.c:2505-2546 `fd_ks_dddK1_D0D0D0` -/
noncomputable def dddK1_D0D0D0 (P : Par) (q : Pt) : ℝ :=
  ((P.a ^ 2 + (R P q) ^ 2) ^ 3 * ((-P.a) * dddX_D0D0D0 P q + R P q * dddY_D0D0D0 P q + Y P q * dddR_D0D0D0 P q + 3 * dR_D0 P q * ddY_D0D0 P q + 3 * ddR_D0D0 P q * dY_D0 P
    q) + 2 * (P.a ^ 2 + (R P q) ^ 2) ^ 2 * ((P.a * X P q - R P q * Y P q) * R P q * dddR_D0D0D0 P q + 3 * (P.a * X P q - R P q * Y P q) * dR_D0 P q * ddR_D0D0 P q - 3 *
    ((-P.a) * dX_D0 P q + R P q * dY_D0 P q + Y P q * dR_D0 P q) * R P q * ddR_D0D0 P q + 3 * (P.a * dX_D0 P q - R P q * dY_D0 P q - Y P q * dR_D0 P q) * (dR_D0 P q) ^ 2
    - 3 * ((-P.a) * ddX_D0D0 P q + R P q * ddY_D0D0 P q + Y P q * ddR_D0D0 P q + 2 * dR_D0 P q * dY_D0 P q) * R P q * dR_D0 P q) + 24 * (P.a ^ 2 + (R P q) ^ 2) * ((-(P.a
    * X P q - R P q * Y P q)) * R P q * ddR_D0D0 P q - (P.a * X P q - R P q * Y P q) * (dR_D0 P q) ^ 2 + ((-P.a) * dX_D0 P q + R P q * dY_D0 P q + Y P q * dR_D0 P q) * R
    P q * dR_D0 P q) * R P q * dR_D0 P q + 48 * (P.a * X P q - R P q * Y P q) * (R P q) ^ 3 * (dR_D0 P q) ^ 3) / (P.a ^ 2 + (R P q) ^ 2) ^ 4

/-- Free_Data/fd_KerrSchild_H_K0_K1_K2.c:2440-2504 `fd_ks_dddK1_D0D0D1` -/
noncomputable def dddK1_D0D0D1 (P : Par) (q : Pt) : ℝ :=
  ((P.a ^ 2 + (R P q) ^ 2) ^ 3 * ((-P.a) * dddX_D0D0D1 P q + R P q * dddY_D0D0D1 P q + Y P q * dddR_D0D0D1 P q + 2 * dR_D0 P q * ddY_D0D1 P q + ddR_D0D0 P q * dY_D1 P q +
    dR_D1 P q * ddY_D0D0 P q + 2 * dY_D0 P q * ddR_D0D1 P q) + 2 * (P.a ^ 2 + (R P q) ^ 2) ^ 2 * ((P.a * X P q - R P q * Y P q) * R P q * dddR_D0D0D1 P q + 2 * (P.a * X P
    q - R P q * Y P q) * dR_D0 P q * ddR_D0D1 P q + (P.a * X P q - R P q * Y P q) * ddR_D0D0 P q * dR_D1 P q - 2 * ((-P.a) * dX_D0 P q + R P q * dY_D0 P q + Y P q * dR_D0
    P q) * R P q * ddR_D0D1 P q - 2 * ((-P.a) * dX_D0 P q + R P q * dY_D0 P q + Y P q * dR_D0 P q) * dR_D0 P q * dR_D1 P q - ((-P.a) * dX_D1 P q + R P q * dY_D1 P q + Y P
    q * dR_D1 P q) * R P q * ddR_D0D0 P q + (P.a * dX_D1 P q - R P q * dY_D1 P q - Y P q * dR_D1 P q) * (dR_D0 P q) ^ 2 - ((-P.a) * ddX_D0D0 P q + R P q * ddY_D0D0 P q +
    Y P q * ddR_D0D0 P q + 2 * dR_D0 P q * dY_D0 P q) * R P q * dR_D1 P q - 2 * ((-P.a) * ddX_D0D1 P q + R P q * ddY_D0D1 P q + Y P q * ddR_D0D1 P q + dR_D0 P q * dY_D1 P
    q + dR_D1 P q * dY_D0 P q) * R P q * dR_D0 P q) + 8 * (P.a ^ 2 + (R P q) ^ 2) * ((-2) * (P.a * X P q - R P q * Y P q) * R P q * dR_D0 P q * ddR_D0D1 P q - (P.a * X P
    q - R P q * Y P q) * R P q * ddR_D0D0 P q * dR_D1 P q - 3 * (P.a * X P q - R P q * Y P q) * (dR_D0 P q) ^ 2 * dR_D1 P q + 2 * ((-P.a) * dX_D0 P q + R P q * dY_D0 P q
    + Y P q * dR_D0 P q) * R P q * dR_D0 P q * dR_D1 P q + ((-P.a) * dX_D1 P q + R P q * dY_D1 P q + Y P q * dR_D1 P q) * R P q * (dR_D0 P q) ^ 2) * R P q + 48 * (P.a * X
    P q - R P q * Y P q) * (R P q) ^ 3 * (dR_D0 P q) ^ 2 * dR_D1 P q) / (P.a ^ 2 + (R P q) ^ 2) ^ 4

/-- Free_Data/fd_KerrSchild_H_K0_K1_K2.c:2375-2439 `fd_ks_dddK1_D0D0D2` -/
noncomputable def dddK1_D0D0D2 (P : Par) (q : Pt) : ℝ :=
  ((P.a ^ 2 + (R P q) ^ 2) ^ 3 * ((-P.a) * dddX_D0D0D2 P q + R P q * dddY_D0D0D2 P q + Y P q * dddR_D0D0D2 P q + 2 * dR_D0 P q * ddY_D0D2 P q + ddR_D0D0 P q * dY_D2 P q +
    dR_D2 P q * ddY_D0D0 P q + 2 * dY_D0 P q * ddR_D0D2 P q) + 2 * (P.a ^ 2 + (R P q) ^ 2) ^ 2 * ((P.a * X P q - R P q * Y P q) * R P q * dddR_D0D0D2 P q + 2 * (P.a * X P
    q - R P q * Y P q) * dR_D0 P q * ddR_D0D2 P q + (P.a * X P q - R P q * Y P q) * ddR_D0D0 P q * dR_D2 P q - 2 * ((-P.a) * dX_D0 P q + R P q * dY_D0 P q + Y P q * dR_D0
    P q) * R P q * ddR_D0D2 P q - 2 * ((-P.a) * dX_D0 P q + R P q * dY_D0 P q + Y P q * dR_D0 P q) * dR_D0 P q * dR_D2 P q - ((-P.a) * dX_D2 P q + R P q * dY_D2 P q + Y P
    q * dR_D2 P q) * R P q * ddR_D0D0 P q + (P.a * dX_D2 P q - R P q * dY_D2 P q - Y P q * dR_D2 P q) * (dR_D0 P q) ^ 2 - ((-P.a) * ddX_D0D0 P q + R P q * ddY_D0D0 P q +
    Y P q * ddR_D0D0 P q + 2 * dR_D0 P q * dY_D0 P q) * R P q * dR_D2 P q - 2 * ((-P.a) * ddX_D0D2 P q + R P q * ddY_D0D2 P q + Y P q * ddR_D0D2 P q + dR_D0 P q * dY_D2 P
    q + dR_D2 P q * dY_D0 P q) * R P q * dR_D0 P q) + 8 * (P.a ^ 2 + (R P q) ^ 2) * ((-2) * (P.a * X P q - R P q * Y P q) * R P q * dR_D0 P q * ddR_D0D2 P q - (P.a * X P
    q - R P q * Y P q) * R P q * ddR_D0D0 P q * dR_D2 P q - 3 * (P.a * X P q - R P q * Y P q) * (dR_D0 P q) ^ 2 * dR_D2 P q + 2 * ((-P.a) * dX_D0 P q + R P q * dY_D0 P q
    + Y P q * dR_D0 P q) * R P q * dR_D0 P q * dR_D2 P q + ((-P.a) * dX_D2 P q + R P q * dY_D2 P q + Y P q * dR_D2 P q) * R P q * (dR_D0 P q) ^ 2) * R P q + 48 * (P.a * X
    P q - R P q * Y P q) * (R P q) ^ 3 * (dR_D0 P q) ^ 2 * dR_D2 P q) / (P.a ^ 2 + (R P q) ^ 2) ^ 4

/-- Free_Data/fd_KerrSchild_H_K0_K1_K2.c:2155-2219 `fd_ks_dddK1_D0D1D0` -/
noncomputable def dddK1_D0D1D0 (P : Par) (q : Pt) : ℝ :=
  ((P.a ^ 2 + (R P q) ^ 2) ^ 3 * ((-P.a) * dddX_D0D0D1 P q + R P q * dddY_D0D0D1 P q + Y P q * dddR_D0D0D1 P q + 2 * dR_D0 P q * ddY_D0D1 P q + ddR_D0D0 P q * dY_D1 P q +
    dR_D1 P q * ddY_D0D0 P q + 2 * dY_D0 P q * ddR_D0D1 P q) + 2 * (P.a ^ 2 + (R P q) ^ 2) ^ 2 * ((P.a * X P q - R P q * Y P q) * R P q * dddR_D0D0D1 P q + 2 * (P.a * X P
    q - R P q * Y P q) * dR_D0 P q * ddR_D0D1 P q + (P.a * X P q - R P q * Y P q) * ddR_D0D0 P q * dR_D1 P q - 2 * ((-P.a) * dX_D0 P q + R P q * dY_D0 P q + Y P q * dR_D0
    P q) * R P q * ddR_D0D1 P q - 2 * ((-P.a) * dX_D0 P q + R P q * dY_D0 P q + Y P q * dR_D0 P q) * dR_D0 P q * dR_D1 P q - ((-P.a) * dX_D1 P q + R P q * dY_D1 P q + Y P
    q * dR_D1 P q) * R P q * ddR_D0D0 P q + (P.a * dX_D1 P q - R P q * dY_D1 P q - Y P q * dR_D1 P q) * (dR_D0 P q) ^ 2 - ((-P.a) * ddX_D0D0 P q + R P q * ddY_D0D0 P q +
    Y P q * ddR_D0D0 P q + 2 * dR_D0 P q * dY_D0 P q) * R P q * dR_D1 P q - 2 * ((-P.a) * ddX_D0D1 P q + R P q * ddY_D0D1 P q + Y P q * ddR_D0D1 P q + dR_D0 P q * dY_D1 P
    q + dR_D1 P q * dY_D0 P q) * R P q * dR_D0 P q) + 8 * (P.a ^ 2 + (R P q) ^ 2) * ((-2) * (P.a * X P q - R P q * Y P q) * R P q * dR_D0 P q * ddR_D0D1 P q - (P.a * X P
    q - R P q * Y P q) * R P q * ddR_D0D0 P q * dR_D1 P q - 3 * (P.a * X P q - R P q * Y P q) * (dR_D0 P q) ^ 2 * dR_D1 P q + 2 * ((-P.a) * dX_D0 P q + R P q * dY_D0 P q
    + Y P q * dR_D0 P q) * R P q * dR_D0 P q * dR_D1 P q + ((-P.a) * dX_D1 P q + R P q * dY_D1 P q + Y P q * dR_D1 P q) * R P q * (dR_D0 P q) ^ 2) * R P q + 48 * (P.a * X
    P q - R P q * Y P q) * (R P q) ^ 3 * (dR_D0 P q) ^ 2 * dR_D1 P q) / (P.a ^ 2 + (R P q) ^ 2) ^ 4

/-- Free_Data/fd_KerrSchild_H_K0_K1_K2.c:2220-2285 `fd_ks_dddK1_D0D1D1` -/
noncomputable def dddK1_D0D1D1 (P : Par) (q : Pt) : ℝ :=
  ((P.a ^ 2 + (R P q) ^ 2) ^ 3 * ((-P.a) * dddX_D0D1D1 P q + R P q * dddY_D0D1D1 P q + Y P q * dddR_D0D1D1 P q + dR_D0 P q * ddY_D1D1 P q + 2 * dR_D1 P q * ddY_D0D1 P q +
    ddR_D1D1 P q * dY_D0 P q + 2 * dY_D1 P q * ddR_D0D1 P q) + 2 * (P.a ^ 2 + (R P q) ^ 2) ^ 2 * ((P.a * X P q - R P q * Y P q) * R P q * dddR_D0D1D1 P q + (P.a * X P q -
    R P q * Y P q) * dR_D0 P q * ddR_D1D1 P q + 2 * (P.a * X P q - R P q * Y P q) * dR_D1 P q * ddR_D0D1 P q - ((-P.a) * dX_D0 P q + R P q * dY_D0 P q + Y P q * dR_D0 P
    q) * R P q * ddR_D1D1 P q + (P.a * dX_D0 P q - R P q * dY_D0 P q - Y P q * dR_D0 P q) * (dR_D1 P q) ^ 2 - 2 * ((-P.a) * dX_D1 P q + R P q * dY_D1 P q + Y P q * dR_D1
    P q) * R P q * ddR_D0D1 P q - 2 * ((-P.a) * dX_D1 P q + R P q * dY_D1 P q + Y P q * dR_D1 P q) * dR_D0 P q * dR_D1 P q - ((-P.a) * ddX_D1D1 P q + R P q * ddY_D1D1 P q
    + Y P q * ddR_D1D1 P q + 2 * dR_D1 P q * dY_D1 P q) * R P q * dR_D0 P q - 2 * ((-P.a) * ddX_D0D1 P q + R P q * ddY_D0D1 P q + Y P q * ddR_D0D1 P q + dR_D0 P q * dY_D1
    P q + dR_D1 P q * dY_D0 P q) * R P q * dR_D1 P q) + 8 * (P.a ^ 2 + (R P q) ^ 2) * ((-(P.a * X P q - R P q * Y P q)) * R P q * dR_D0 P q * ddR_D1D1 P q - 2 * (P.a * X
    P q - R P q * Y P q) * R P q * dR_D1 P q * ddR_D0D1 P q - 3 * (P.a * X P q - R P q * Y P q) * dR_D0 P q * (dR_D1 P q) ^ 2 + ((-P.a) * dX_D0 P q + R P q * dY_D0 P q +
    Y P q * dR_D0 P q) * R P q * (dR_D1 P q) ^ 2 + 2 * ((-P.a) * dX_D1 P q + R P q * dY_D1 P q + Y P q * dR_D1 P q) * R P q * dR_D0 P q * dR_D1 P q) * R P q + 48 * (P.a *
    X P q - R P q * Y P q) * (R P q) ^ 3 * dR_D0 P q * (dR_D1 P q) ^ 2) / (P.a ^ 2 + (R P q) ^ 2) ^ 4

/-- Free_Data/fd_KerrSchild_H_K0_K1_K2.c:2286-2374 `fd_ks_dddK1_D0D1D2` -/
noncomputable def dddK1_D0D1D2 (P : Par) (q : Pt) : ℝ :=
  ((P.a ^ 2 + (R P q) ^ 2) ^ 3 * ((-P.a) * dddX_D0D1D2 P q + R P q * dddY_D0D1D2 P q + Y P q * dddR_D0D1D2 P q + dR_D0 P q * ddY_D1D2 P q + dR_D1 P q * ddY_D0D2 P q +
    dR_D2 P q * ddY_D0D1 P q + dY_D0 P q * ddR_D1D2 P q + dY_D1 P q * ddR_D0D2 P q + dY_D2 P q * ddR_D0D1 P q) + 2 * (P.a ^ 2 + (R P q) ^ 2) ^ 2 * ((P.a * X P q - R P q *
    Y P q) * R P q * dddR_D0D1D2 P q + (P.a * X P q - R P q * Y P q) * dR_D0 P q * ddR_D1D2 P q + (P.a * X P q - R P q * Y P q) * dR_D1 P q * ddR_D0D2 P q + (P.a * X P q
    - R P q * Y P q) * dR_D2 P q * ddR_D0D1 P q - ((-P.a) * dX_D0 P q + R P q * dY_D0 P q + Y P q * dR_D0 P q) * R P q * ddR_D1D2 P q - ((-P.a) * dX_D0 P q + R P q *
    dY_D0 P q + Y P q * dR_D0 P q) * dR_D1 P q * dR_D2 P q - ((-P.a) * dX_D1 P q + R P q * dY_D1 P q + Y P q * dR_D1 P q) * R P q * ddR_D0D2 P q - ((-P.a) * dX_D1 P q + R
    P q * dY_D1 P q + Y P q * dR_D1 P q) * dR_D0 P q * dR_D2 P q - ((-P.a) * dX_D2 P q + R P q * dY_D2 P q + Y P q * dR_D2 P q) * R P q * ddR_D0D1 P q - ((-P.a) * dX_D2 P
    q + R P q * dY_D2 P q + Y P q * dR_D2 P q) * dR_D0 P q * dR_D1 P q - ((-P.a) * ddX_D0D1 P q + R P q * ddY_D0D1 P q + Y P q * ddR_D0D1 P q + dR_D0 P q * dY_D1 P q +
    dR_D1 P q * dY_D0 P q) * R P q * dR_D2 P q - ((-P.a) * ddX_D0D2 P q + R P q * ddY_D0D2 P q + Y P q * ddR_D0D2 P q + dR_D0 P q * dY_D2 P q + dR_D2 P q * dY_D0 P q) * R
    P q * dR_D1 P q - ((-P.a) * ddX_D1D2 P q + R P q * ddY_D1D2 P q + Y P q * ddR_D1D2 P q + dR_D1 P q * dY_D2 P q + dR_D2 P q * dY_D1 P q) * R P q * dR_D0 P q) + 8 *
    (P.a ^ 2 + (R P q) ^ 2) * ((-(P.a * X P q - R P q * Y P q)) * R P q * dR_D0 P q * ddR_D1D2 P q - (P.a * X P q - R P q * Y P q) * R P q * dR_D1 P q * ddR_D0D2 P q -
    (P.a * X P q - R P q * Y P q) * R P q * dR_D2 P q * ddR_D0D1 P q - 3 * (P.a * X P q - R P q * Y P q) * dR_D0 P q * dR_D1 P q * dR_D2 P q + ((-P.a) * dX_D0 P q + R P q
    * dY_D0 P q + Y P q * dR_D0 P q) * R P q * dR_D1 P q * dR_D2 P q + ((-P.a) * dX_D1 P q + R P q * dY_D1 P q + Y P q * dR_D1 P q) * R P q * dR_D0 P q * dR_D2 P q +
    ((-P.a) * dX_D2 P q + R P q * dY_D2 P q + Y P q * dR_D2 P q) * R P q * dR_D0 P q * dR_D1 P q) * R P q + 48 * (P.a * X P q - R P q * Y P q) * (R P q) ^ 3 * dR_D0 P q *
    dR_D1 P q * dR_D2 P q) / (P.a ^ 2 + (R P q) ^ 2) ^ 4

/-- Free_Data/fd_KerrSchild_H_K0_K1_K2.c:1851-1915 `fd_ks_dddK1_D0D2D0` -/
noncomputable def dddK1_D0D2D0 (P : Par) (q : Pt) : ℝ :=
  ((P.a ^ 2 + (R P q) ^ 2) ^ 3 * ((-P.a) * dddX_D0D0D2 P q + R P q * dddY_D0D0D2 P q + Y P q * dddR_D0D0D2 P q + 2 * dR_D0 P q * ddY_D0D2 P q + ddR_D0D0 P q * dY_D2 P q +
    dR_D2 P q * ddY_D0D0 P q + 2 * dY_D0 P q * ddR_D0D2 P q) + 2 * (P.a ^ 2 + (R P q) ^ 2) ^ 2 * ((P.a * X P q - R P q * Y P q) * R P q * dddR_D0D0D2 P q + 2 * (P.a * X P
    q - R P q * Y P q) * dR_D0 P q * ddR_D0D2 P q + (P.a * X P q - R P q * Y P q) * ddR_D0D0 P q * dR_D2 P q - 2 * ((-P.a) * dX_D0 P q + R P q * dY_D0 P q + Y P q * dR_D0
    P q) * R P q * ddR_D0D2 P q - 2 * ((-P.a) * dX_D0 P q + R P q * dY_D0 P q + Y P q * dR_D0 P q) * dR_D0 P q * dR_D2 P q - ((-P.a) * dX_D2 P q + R P q * dY_D2 P q + Y P
    q * dR_D2 P q) * R P q * ddR_D0D0 P q + (P.a * dX_D2 P q - R P q * dY_D2 P q - Y P q * dR_D2 P q) * (dR_D0 P q) ^ 2 - ((-P.a) * ddX_D0D0 P q + R P q * ddY_D0D0 P q +
    Y P q * ddR_D0D0 P q + 2 * dR_D0 P q * dY_D0 P q) * R P q * dR_D2 P q - 2 * ((-P.a) * ddX_D0D2 P q + R P q * ddY_D0D2 P q + Y P q * ddR_D0D2 P q + dR_D0 P q * dY_D2 P
    q + dR_D2 P q * dY_D0 P q) * R P q * dR_D0 P q) + 8 * (P.a ^ 2 + (R P q) ^ 2) * ((-2) * (P.a * X P q - R P q * Y P q) * R P q * dR_D0 P q * ddR_D0D2 P q - (P.a * X P
    q - R P q * Y P q) * R P q * ddR_D0D0 P q * dR_D2 P q - 3 * (P.a * X P q - R P q * Y P q) * (dR_D0 P q) ^ 2 * dR_D2 P q + 2 * ((-P.a) * dX_D0 P q + R P q * dY_D0 P q
    + Y P q * dR_D0 P q) * R P q * dR_D0 P q * dR_D2 P q + ((-P.a) * dX_D2 P q + R P q * dY_D2 P q + Y P q * dR_D2 P q) * R P q * (dR_D0 P q) ^ 2) * R P q + 48 * (P.a * X
    P q - R P q * Y P q) * (R P q) ^ 3 * (dR_D0 P q) ^ 2 * dR_D2 P q) / (P.a ^ 2 + (R P q) ^ 2) ^ 4

/-- Free_Data/fd_KerrSchild_H_K0_K1_K2.c:1762-1850 `fd_ks_dddK1_D0D2D1` -/
noncomputable def dddK1_D0D2D1 (P : Par) (q : Pt) : ℝ :=
  ((P.a ^ 2 + (R P q) ^ 2) ^ 3 * ((-P.a) * dddX_D0D1D2 P q + R P q * dddY_D0D1D2 P q + Y P q * dddR_D0D1D2 P q + dR_D0 P q * ddY_D1D2 P q + dR_D1 P q * ddY_D0D2 P q +
    dR_D2 P q * ddY_D0D1 P q + dY_D0 P q * ddR_D1D2 P q + dY_D1 P q * ddR_D0D2 P q + dY_D2 P q * ddR_D0D1 P q) + 2 * (P.a ^ 2 + (R P q) ^ 2) ^ 2 * ((P.a * X P q - R P q *
    Y P q) * R P q * dddR_D0D1D2 P q + (P.a * X P q - R P q * Y P q) * dR_D0 P q * ddR_D1D2 P q + (P.a * X P q - R P q * Y P q) * dR_D1 P q * ddR_D0D2 P q + (P.a * X P q
    - R P q * Y P q) * dR_D2 P q * ddR_D0D1 P q - ((-P.a) * dX_D0 P q + R P q * dY_D0 P q + Y P q * dR_D0 P q) * R P q * ddR_D1D2 P q - ((-P.a) * dX_D0 P q + R P q *
    dY_D0 P q + Y P q * dR_D0 P q) * dR_D1 P q * dR_D2 P q - ((-P.a) * dX_D1 P q + R P q * dY_D1 P q + Y P q * dR_D1 P q) * R P q * ddR_D0D2 P q - ((-P.a) * dX_D1 P q + R
    P q * dY_D1 P q + Y P q * dR_D1 P q) * dR_D0 P q * dR_D2 P q - ((-P.a) * dX_D2 P q + R P q * dY_D2 P q + Y P q * dR_D2 P q) * R P q * ddR_D0D1 P q - ((-P.a) * dX_D2 P
    q + R P q * dY_D2 P q + Y P q * dR_D2 P q) * dR_D0 P q * dR_D1 P q - ((-P.a) * ddX_D0D1 P q + R P q * ddY_D0D1 P q + Y P q * ddR_D0D1 P q + dR_D0 P q * dY_D1 P q +
    dR_D1 P q * dY_D0 P q) * R P q * dR_D2 P q - ((-P.a) * ddX_D0D2 P q + R P q * ddY_D0D2 P q + Y P q * ddR_D0D2 P q + dR_D0 P q * dY_D2 P q + dR_D2 P q * dY_D0 P q) * R
    P q * dR_D1 P q - ((-P.a) * ddX_D1D2 P q + R P q * ddY_D1D2 P q + Y P q * ddR_D1D2 P q + dR_D1 P q * dY_D2 P q + dR_D2 P q * dY_D1 P q) * R P q * dR_D0 P q) + 8 *
    (P.a ^ 2 + (R P q) ^ 2) * ((-(P.a * X P q - R P q * Y P q)) * R P q * dR_D0 P q * ddR_D1D2 P q - (P.a * X P q - R P q * Y P q) * R P q * dR_D1 P q * ddR_D0D2 P q -
    (P.a * X P q - R P q * Y P q) * R P q * dR_D2 P q * ddR_D0D1 P q - 3 * (P.a * X P q - R P q * Y P q) * dR_D0 P q * dR_D1 P q * dR_D2 P q + ((-P.a) * dX_D0 P q + R P q
    * dY_D0 P q + Y P q * dR_D0 P q) * R P q * dR_D1 P q * dR_D2 P q + ((-P.a) * dX_D1 P q + R P q * dY_D1 P q + Y P q * dR_D1 P q) * R P q * dR_D0 P q * dR_D2 P q +
    ((-P.a) * dX_D2 P q + R P q * dY_D2 P q + Y P q * dR_D2 P q) * R P q * dR_D0 P q * dR_D1 P q) * R P q + 48 * (P.a * X P q - R P q * Y P q) * (R P q) ^ 3 * dR_D0 P q *
    dR_D1 P q * dR_D2 P q) / (P.a ^ 2 + (R P q) ^ 2) ^ 4

/-- Free_Data/fd_KerrSchild_H_K0_K1_K2.c:1958-2023 `fd_ks_dddK1_D0D2D2` -/
noncomputable def dddK1_D0D2D2 (P : Par) (q : Pt) : ℝ :=
  ((P.a ^ 2 + (R P q) ^ 2) ^ 3 * ((-P.a) * dddX_D0D2D2 P q + R P q * dddY_D0D2D2 P q + Y P q * dddR_D0D2D2 P q + dR_D0 P q * ddY_D2D2 P q + 2 * dR_D2 P q * ddY_D0D2 P q +
    ddR_D2D2 P q * dY_D0 P q + 2 * dY_D2 P q * ddR_D0D2 P q) + 2 * (P.a ^ 2 + (R P q) ^ 2) ^ 2 * ((P.a * X P q - R P q * Y P q) * R P q * dddR_D0D2D2 P q + (P.a * X P q -
    R P q * Y P q) * dR_D0 P q * ddR_D2D2 P q + 2 * (P.a * X P q - R P q * Y P q) * dR_D2 P q * ddR_D0D2 P q - ((-P.a) * dX_D0 P q + R P q * dY_D0 P q + Y P q * dR_D0 P
    q) * R P q * ddR_D2D2 P q + (P.a * dX_D0 P q - R P q * dY_D0 P q - Y P q * dR_D0 P q) * (dR_D2 P q) ^ 2 - 2 * ((-P.a) * dX_D2 P q + R P q * dY_D2 P q + Y P q * dR_D2
    P q) * R P q * ddR_D0D2 P q - 2 * ((-P.a) * dX_D2 P q + R P q * dY_D2 P q + Y P q * dR_D2 P q) * dR_D0 P q * dR_D2 P q - ((-P.a) * ddX_D2D2 P q + R P q * ddY_D2D2 P q
    + Y P q * ddR_D2D2 P q + 2 * dR_D2 P q * dY_D2 P q) * R P q * dR_D0 P q - 2 * ((-P.a) * ddX_D0D2 P q + R P q * ddY_D0D2 P q + Y P q * ddR_D0D2 P q + dR_D0 P q * dY_D2
    P q + dR_D2 P q * dY_D0 P q) * R P q * dR_D2 P q) + 8 * (P.a ^ 2 + (R P q) ^ 2) * ((-(P.a * X P q - R P q * Y P q)) * R P q * dR_D0 P q * ddR_D2D2 P q - 2 * (P.a * X
    P q - R P q * Y P q) * R P q * dR_D2 P q * ddR_D0D2 P q - 3 * (P.a * X P q - R P q * Y P q) * dR_D0 P q * (dR_D2 P q) ^ 2 + ((-P.a) * dX_D0 P q + R P q * dY_D0 P q +
    Y P q * dR_D0 P q) * R P q * (dR_D2 P q) ^ 2 + 2 * ((-P.a) * dX_D2 P q + R P q * dY_D2 P q + Y P q * dR_D2 P q) * R P q * dR_D0 P q * dR_D2 P q) * R P q + 48 * (P.a *
    X P q - R P q * Y P q) * (R P q) ^ 3 * dR_D0 P q * (dR_D2 P q) ^ 2) / (P.a ^ 2 + (R P q) ^ 2) ^ 4

/-- Free_Data/fd_KerrSchild_H_K0_K1_K2.c:2089-2154 `fd_ks_dddK1_D1D1D0` -/
noncomputable def dddK1_D1D1D0 (P : Par) (q : Pt) : ℝ :=
  ((P.a ^ 2 + (R P q) ^ 2) ^ 3 * ((-P.a) * dddX_D0D1D1 P q + R P q * dddY_D0D1D1 P q + Y P q * dddR_D0D1D1 P q + dR_D0 P q * ddY_D1D1 P q + 2 * dR_D1 P q * ddY_D0D1 P q +
    ddR_D1D1 P q * dY_D0 P q + 2 * dY_D1 P q * ddR_D0D1 P q) + 2 * (P.a ^ 2 + (R P q) ^ 2) ^ 2 * ((P.a * X P q - R P q * Y P q) * R P q * dddR_D0D1D1 P q + (P.a * X P q -
    R P q * Y P q) * dR_D0 P q * ddR_D1D1 P q + 2 * (P.a * X P q - R P q * Y P q) * dR_D1 P q * ddR_D0D1 P q - ((-P.a) * dX_D0 P q + R P q * dY_D0 P q + Y P q * dR_D0 P
    q) * R P q * ddR_D1D1 P q + (P.a * dX_D0 P q - R P q * dY_D0 P q - Y P q * dR_D0 P q) * (dR_D1 P q) ^ 2 - 2 * ((-P.a) * dX_D1 P q + R P q * dY_D1 P q + Y P q * dR_D1
    P q) * R P q * ddR_D0D1 P q - 2 * ((-P.a) * dX_D1 P q + R P q * dY_D1 P q + Y P q * dR_D1 P q) * dR_D0 P q * dR_D1 P q - ((-P.a) * ddX_D1D1 P q + R P q * ddY_D1D1 P q
    + Y P q * ddR_D1D1 P q + 2 * dR_D1 P q * dY_D1 P q) * R P q * dR_D0 P q - 2 * ((-P.a) * ddX_D0D1 P q + R P q * ddY_D0D1 P q + Y P q * ddR_D0D1 P q + dR_D0 P q * dY_D1
    P q + dR_D1 P q * dY_D0 P q) * R P q * dR_D1 P q) + 8 * (P.a ^ 2 + (R P q) ^ 2) * ((-(P.a * X P q - R P q * Y P q)) * R P q * dR_D0 P q * ddR_D1D1 P q - 2 * (P.a * X
    P q - R P q * Y P q) * R P q * dR_D1 P q * ddR_D0D1 P q - 3 * (P.a * X P q - R P q * Y P q) * dR_D0 P q * (dR_D1 P q) ^ 2 + ((-P.a) * dX_D0 P q + R P q * dY_D0 P q +
    Y P q * dR_D0 P q) * R P q * (dR_D1 P q) ^ 2 + 2 * ((-P.a) * dX_D1 P q + R P q * dY_D1 P q + Y P q * dR_D1 P q) * R P q * dR_D0 P q * dR_D1 P q) * R P q + 48 * (P.a *
    X P q - R P q * Y P q) * (R P q) ^ 3 * dR_D0 P q * (dR_D1 P q) ^ 2) / (P.a ^ 2 + (R P q) ^ 2) ^ 4

/-- Free_Data/fd_KerrSchild_H_K0_K1_K2.c:1916-1957 `fd_ks_dddK1_D1D1D1` -/
noncomputable def dddK1_D1D1D1 (P : Par) (q : Pt) : ℝ :=
  ((P.a ^ 2 + (R P q) ^ 2) ^ 3 * ((-P.a) * dddX_D1D1D1 P q + R P q * dddY_D1D1D1 P q + Y P q * dddR_D1D1D1 P q + 3 * dR_D1 P q * ddY_D1D1 P q + 3 * ddR_D1D1 P q * dY_D1 P
    q) + 2 * (P.a ^ 2 + (R P q) ^ 2) ^ 2 * ((P.a * X P q - R P q * Y P q) * R P q * dddR_D1D1D1 P q + 3 * (P.a * X P q - R P q * Y P q) * dR_D1 P q * ddR_D1D1 P q - 3 *
    ((-P.a) * dX_D1 P q + R P q * dY_D1 P q + Y P q * dR_D1 P q) * R P q * ddR_D1D1 P q + 3 * (P.a * dX_D1 P q - R P q * dY_D1 P q - Y P q * dR_D1 P q) * (dR_D1 P q) ^ 2
    - 3 * ((-P.a) * ddX_D1D1 P q + R P q * ddY_D1D1 P q + Y P q * ddR_D1D1 P q + 2 * dR_D1 P q * dY_D1 P q) * R P q * dR_D1 P q) + 24 * (P.a ^ 2 + (R P q) ^ 2) * ((-(P.a
    * X P q - R P q * Y P q)) * R P q * ddR_D1D1 P q - (P.a * X P q - R P q * Y P q) * (dR_D1 P q) ^ 2 + ((-P.a) * dX_D1 P q + R P q * dY_D1 P q + Y P q * dR_D1 P q) * R
    P q * dR_D1 P q) * R P q * dR_D1 P q + 48 * (P.a * X P q - R P q * Y P q) * (R P q) ^ 3 * (dR_D1 P q) ^ 3) / (P.a ^ 2 + (R P q) ^ 2) ^ 4

/-- Free_Data/fd_KerrSchild_H_K0_K1_K2.c:2024-2088 `fd_ks_dddK1_D1D1D2` -/
noncomputable def dddK1_D1D1D2 (P : Par) (q : Pt) : ℝ :=
  ((P.a ^ 2 + (R P q) ^ 2) ^ 3 * ((-P.a) * dddX_D1D1D2 P q + R P q * dddY_D1D1D2 P q + Y P q * dddR_D1D1D2 P q + 2 * dR_D1 P q * ddY_D1D2 P q + ddR_D1D1 P q * dY_D2 P q +
    dR_D2 P q * ddY_D1D1 P q + 2 * dY_D1 P q * ddR_D1D2 P q) + 2 * (P.a ^ 2 + (R P q) ^ 2) ^ 2 * ((P.a * X P q - R P q * Y P q) * R P q * dddR_D1D1D2 P q + 2 * (P.a * X P
    q - R P q * Y P q) * dR_D1 P q * ddR_D1D2 P q + (P.a * X P q - R P q * Y P q) * ddR_D1D1 P q * dR_D2 P q - 2 * ((-P.a) * dX_D1 P q + R P q * dY_D1 P q + Y P q * dR_D1
    P q) * R P q * ddR_D1D2 P q - 2 * ((-P.a) * dX_D1 P q + R P q * dY_D1 P q + Y P q * dR_D1 P q) * dR_D1 P q * dR_D2 P q - ((-P.a) * dX_D2 P q + R P q * dY_D2 P q + Y P
    q * dR_D2 P q) * R P q * ddR_D1D1 P q + (P.a * dX_D2 P q - R P q * dY_D2 P q - Y P q * dR_D2 P q) * (dR_D1 P q) ^ 2 - ((-P.a) * ddX_D1D1 P q + R P q * ddY_D1D1 P q +
    Y P q * ddR_D1D1 P q + 2 * dR_D1 P q * dY_D1 P q) * R P q * dR_D2 P q - 2 * ((-P.a) * ddX_D1D2 P q + R P q * ddY_D1D2 P q + Y P q * ddR_D1D2 P q + dR_D1 P q * dY_D2 P
    q + dR_D2 P q * dY_D1 P q) * R P q * dR_D1 P q) + 8 * (P.a ^ 2 + (R P q) ^ 2) * ((-2) * (P.a * X P q - R P q * Y P q) * R P q * dR_D1 P q * ddR_D1D2 P q - (P.a * X P
    q - R P q * Y P q) * R P q * ddR_D1D1 P q * dR_D2 P q - 3 * (P.a * X P q - R P q * Y P q) * (dR_D1 P q) ^ 2 * dR_D2 P q + 2 * ((-P.a) * dX_D1 P q + R P q * dY_D1 P q
    + Y P q * dR_D1 P q) * R P q * dR_D1 P q * dR_D2 P q + ((-P.a) * dX_D2 P q + R P q * dY_D2 P q + Y P q * dR_D2 P q) * R P q * (dR_D1 P q) ^ 2) * R P q + 48 * (P.a * X
    P q - R P q * Y P q) * (R P q) ^ 3 * (dR_D1 P q) ^ 2 * dR_D2 P q) / (P.a ^ 2 + (R P q) ^ 2) ^ 4

/-- Free_Data/fd_KerrSchild_H_K0_K1_K2.c:2613-2701 `fd_ks_dddK1_D1D2D0` -/
noncomputable def dddK1_D1D2D0 (P : Par) (q : Pt) : ℝ :=
  ((P.a ^ 2 + (R P q) ^ 2) ^ 3 * ((-P.a) * dddX_D0D1D2 P q + R P q * dddY_D0D1D2 P q + Y P q * dddR_D0D1D2 P q + dR_D0 P q * ddY_D1D2 P q + dR_D1 P q * ddY_D0D2 P q +
    dR_D2 P q * ddY_D0D1 P q + dY_D0 P q * ddR_D1D2 P q + dY_D1 P q * ddR_D0D2 P q + dY_D2 P q * ddR_D0D1 P q) + 2 * (P.a ^ 2 + (R P q) ^ 2) ^ 2 * ((P.a * X P q - R P q *
    Y P q) * R P q * dddR_D0D1D2 P q + (P.a * X P q - R P q * Y P q) * dR_D0 P q * ddR_D1D2 P q + (P.a * X P q - R P q * Y P q) * dR_D1 P q * ddR_D0D2 P q + (P.a * X P q
    - R P q * Y P q) * dR_D2 P q * ddR_D0D1 P q - ((-P.a) * dX_D0 P q + R P q * dY_D0 P q + Y P q * dR_D0 P q) * R P q * ddR_D1D2 P q - ((-P.a) * dX_D0 P q + R P q *
    dY_D0 P q + Y P q * dR_D0 P q) * dR_D1 P q * dR_D2 P q - ((-P.a) * dX_D1 P q + R P q * dY_D1 P q + Y P q * dR_D1 P q) * R P q * ddR_D0D2 P q - ((-P.a) * dX_D1 P q + R
    P q * dY_D1 P q + Y P q * dR_D1 P q) * dR_D0 P q * dR_D2 P q - ((-P.a) * dX_D2 P q + R P q * dY_D2 P q + Y P q * dR_D2 P q) * R P q * ddR_D0D1 P q - ((-P.a) * dX_D2 P
    q + R P q * dY_D2 P q + Y P q * dR_D2 P q) * dR_D0 P q * dR_D1 P q - ((-P.a) * ddX_D0D1 P q + R P q * ddY_D0D1 P q + Y P q * ddR_D0D1 P q + dR_D0 P q * dY_D1 P q +
    dR_D1 P q * dY_D0 P q) * R P q * dR_D2 P q - ((-P.a) * ddX_D0D2 P q + R P q * ddY_D0D2 P q + Y P q * ddR_D0D2 P q + dR_D0 P q * dY_D2 P q + dR_D2 P q * dY_D0 P q) * R
    P q * dR_D1 P q - ((-P.a) * ddX_D1D2 P q + R P q * ddY_D1D2 P q + Y P q * ddR_D1D2 P q + dR_D1 P q * dY_D2 P q + dR_D2 P q * dY_D1 P q) * R P q * dR_D0 P q) + 8 *
    (P.a ^ 2 + (R P q) ^ 2) * ((-(P.a * X P q - R P q * Y P q)) * R P q * dR_D0 P q * ddR_D1D2 P q - (P.a * X P q - R P q * Y P q) * R P q * dR_D1 P q * ddR_D0D2 P q -
    (P.a * X P q - R P q * Y P q) * R P q * dR_D2 P q * ddR_D0D1 P q - 3 * (P.a * X P q - R P q * Y P q) * dR_D0 P q * dR_D1 P q * dR_D2 P q + ((-P.a) * dX_D0 P q + R P q
    * dY_D0 P q + Y P q * dR_D0 P q) * R P q * dR_D1 P q * dR_D2 P q + ((-P.a) * dX_D1 P q + R P q * dY_D1 P q + Y P q * dR_D1 P q) * R P q * dR_D0 P q * dR_D2 P q +
    ((-P.a) * dX_D2 P q + R P q * dY_D2 P q + Y P q * dR_D2 P q) * R P q * dR_D0 P q * dR_D1 P q) * R P q + 48 * (P.a * X P q - R P q * Y P q) * (R P q) ^ 3 * dR_D0 P q *
    dR_D1 P q * dR_D2 P q) / (P.a ^ 2 + (R P q) ^ 2) ^ 4

/-- Free_Data/fd_KerrSchild_H_K0_K1_K2.c:2702-2766 `fd_ks_dddK1_D1D2D1` -/
noncomputable def dddK1_D1D2D1 (P : Par) (q : Pt) : ℝ :=
  ((P.a ^ 2 + (R P q) ^ 2) ^ 3 * ((-P.a) * dddX_D1D1D2 P q + R P q * dddY_D1D1D2 P q + Y P q * dddR_D1D1D2 P q + 2 * dR_D1 P q * ddY_D1D2 P q + ddR_D1D1 P q * dY_D2 P q +
    dR_D2 P q * ddY_D1D1 P q + 2 * dY_D1 P q * ddR_D1D2 P q) + 2 * (P.a ^ 2 + (R P q) ^ 2) ^ 2 * ((P.a * X P q - R P q * Y P q) * R P q * dddR_D1D1D2 P q + 2 * (P.a * X P
    q - R P q * Y P q) * dR_D1 P q * ddR_D1D2 P q + (P.a * X P q - R P q * Y P q) * ddR_D1D1 P q * dR_D2 P q - 2 * ((-P.a) * dX_D1 P q + R P q * dY_D1 P q + Y P q * dR_D1
    P q) * R P q * ddR_D1D2 P q - 2 * ((-P.a) * dX_D1 P q + R P q * dY_D1 P q + Y P q * dR_D1 P q) * dR_D1 P q * dR_D2 P q - ((-P.a) * dX_D2 P q + R P q * dY_D2 P q + Y P
    q * dR_D2 P q) * R P q * ddR_D1D1 P q + (P.a * dX_D2 P q - R P q * dY_D2 P q - Y P q * dR_D2 P q) * (dR_D1 P q) ^ 2 - ((-P.a) * ddX_D1D1 P q + R P q * ddY_D1D1 P q +
    Y P q * ddR_D1D1 P q + 2 * dR_D1 P q * dY_D1 P q) * R P q * dR_D2 P q - 2 * ((-P.a) * ddX_D1D2 P q + R P q * ddY_D1D2 P q + Y P q * ddR_D1D2 P q + dR_D1 P q * dY_D2 P
    q + dR_D2 P q * dY_D1 P q) * R P q * dR_D1 P q) + 8 * (P.a ^ 2 + (R P q) ^ 2) * ((-2) * (P.a * X P q - R P q * Y P q) * R P q * dR_D1 P q * ddR_D1D2 P q - (P.a * X P
    q - R P q * Y P q) * R P q * ddR_D1D1 P q * dR_D2 P q - 3 * (P.a * X P q - R P q * Y P q) * (dR_D1 P q) ^ 2 * dR_D2 P q + 2 * ((-P.a) * dX_D1 P q + R P q * dY_D1 P q
    + Y P q * dR_D1 P q) * R P q * dR_D1 P q * dR_D2 P q + ((-P.a) * dX_D2 P q + R P q * dY_D2 P q + Y P q * dR_D2 P q) * R P q * (dR_D1 P q) ^ 2) * R P q + 48 * (P.a * X
    P q - R P q * Y P q) * (R P q) ^ 3 * (dR_D1 P q) ^ 2 * dR_D2 P q) / (P.a ^ 2 + (R P q) ^ 2) ^ 4

/-- Free_Data/fd_KerrSchild_H_K0_K1_K2.c:2767-2832 `fd_ks_dddK1_D1D2D2` -/
noncomputable def dddK1_D1D2D2 (P : Par) (q : Pt) : ℝ :=
  ((P.a ^ 2 + (R P q) ^ 2) ^ 3 * ((-P.a) * dddX_D1D2D2 P q + R P q * dddY_D1D2D2 P q + Y P q * dddR_D1D2D2 P q + dR_D1 P q * ddY_D2D2 P q + 2 * dR_D2 P q * ddY_D1D2 P q +
    ddR_D2D2 P q * dY_D1 P q + 2 * dY_D2 P q * ddR_D1D2 P q) + 2 * (P.a ^ 2 + (R P q) ^ 2) ^ 2 * ((P.a * X P q - R P q * Y P q) * R P q * dddR_D1D2D2 P q + (P.a * X P q -
    R P q * Y P q) * dR_D1 P q * ddR_D2D2 P q + 2 * (P.a * X P q - R P q * Y P q) * dR_D2 P q * ddR_D1D2 P q - ((-P.a) * dX_D1 P q + R P q * dY_D1 P q + Y P q * dR_D1 P
    q) * R P q * ddR_D2D2 P q + (P.a * dX_D1 P q - R P q * dY_D1 P q - Y P q * dR_D1 P q) * (dR_D2 P q) ^ 2 - 2 * ((-P.a) * dX_D2 P q + R P q * dY_D2 P q + Y P q * dR_D2
    P q) * R P q * ddR_D1D2 P q - 2 * ((-P.a) * dX_D2 P q + R P q * dY_D2 P q + Y P q * dR_D2 P q) * dR_D1 P q * dR_D2 P q - ((-P.a) * ddX_D2D2 P q + R P q * ddY_D2D2 P q
    + Y P q * ddR_D2D2 P q + 2 * dR_D2 P q * dY_D2 P q) * R P q * dR_D1 P q - 2 * ((-P.a) * ddX_D1D2 P q + R P q * ddY_D1D2 P q + Y P q * ddR_D1D2 P q + dR_D1 P q * dY_D2
    P q + dR_D2 P q * dY_D1 P q) * R P q * dR_D2 P q) + 8 * (P.a ^ 2 + (R P q) ^ 2) * ((-(P.a * X P q - R P q * Y P q)) * R P q * dR_D1 P q * ddR_D2D2 P q - 2 * (P.a * X
    P q - R P q * Y P q) * R P q * dR_D2 P q * ddR_D1D2 P q - 3 * (P.a * X P q - R P q * Y P q) * dR_D1 P q * (dR_D2 P q) ^ 2 + ((-P.a) * dX_D1 P q + R P q * dY_D1 P q +
    Y P q * dR_D1 P q) * R P q * (dR_D2 P q) ^ 2 + 2 * ((-P.a) * dX_D2 P q + R P q * dY_D2 P q + Y P q * dR_D2 P q) * R P q * dR_D1 P q * dR_D2 P q) * R P q + 48 * (P.a *
    X P q - R P q * Y P q) * (R P q) ^ 3 * dR_D1 P q * (dR_D2 P q) ^ 2) / (P.a ^ 2 + (R P q) ^ 2) ^ 4

/-- Free_Data/fd_KerrSchild_H_K0_K1_K2.c:2547-2612 `fd_ks_dddK1_D2D2D0` -/
noncomputable def dddK1_D2D2D0 (P : Par) (q : Pt) : ℝ :=
  ((P.a ^ 2 + (R P q) ^ 2) ^ 3 * ((-P.a) * dddX_D0D2D2 P q + R P q * dddY_D0D2D2 P q + Y P q * dddR_D0D2D2 P q + dR_D0 P q * ddY_D2D2 P q + 2 * dR_D2 P q * ddY_D0D2 P q +
    ddR_D2D2 P q * dY_D0 P q + 2 * dY_D2 P q * ddR_D0D2 P q) + 2 * (P.a ^ 2 + (R P q) ^ 2) ^ 2 * ((P.a * X P q - R P q * Y P q) * R P q * dddR_D0D2D2 P q + (P.a * X P q -
    R P q * Y P q) * dR_D0 P q * ddR_D2D2 P q + 2 * (P.a * X P q - R P q * Y P q) * dR_D2 P q * ddR_D0D2 P q - ((-P.a) * dX_D0 P q + R P q * dY_D0 P q + Y P q * dR_D0 P
    q) * R P q * ddR_D2D2 P q + (P.a * dX_D0 P q - R P q * dY_D0 P q - Y P q * dR_D0 P q) * (dR_D2 P q) ^ 2 - 2 * ((-P.a) * dX_D2 P q + R P q * dY_D2 P q + Y P q * dR_D2
    P q) * R P q * ddR_D0D2 P q - 2 * ((-P.a) * dX_D2 P q + R P q * dY_D2 P q + Y P q * dR_D2 P q) * dR_D0 P q * dR_D2 P q - ((-P.a) * ddX_D2D2 P q + R P q * ddY_D2D2 P q
    + Y P q * ddR_D2D2 P q + 2 * dR_D2 P q * dY_D2 P q) * R P q * dR_D0 P q - 2 * ((-P.a) * ddX_D0D2 P q + R P q * ddY_D0D2 P q + Y P q * ddR_D0D2 P q + dR_D0 P q * dY_D2
    P q + dR_D2 P q * dY_D0 P q) * R P q * dR_D2 P q) + 8 * (P.a ^ 2 + (R P q) ^ 2) * ((-(P.a * X P q - R P q * Y P q)) * R P q * dR_D0 P q * ddR_D2D2 P q - 2 * (P.a * X
    P q - R P q * Y P q) * R P q * dR_D2 P q * ddR_D0D2 P q - 3 * (P.a * X P q - R P q * Y P q) * dR_D0 P q * (dR_D2 P q) ^ 2 + ((-P.a) * dX_D0 P q + R P q * dY_D0 P q +
    Y P q * dR_D0 P q) * R P q * (dR_D2 P q) ^ 2 + 2 * ((-P.a) * dX_D2 P q + R P q * dY_D2 P q + Y P q * dR_D2 P q) * R P q * dR_D0 P q * dR_D2 P q) * R P q + 48 * (P.a *
    X P q - R P q * Y P q) * (R P q) ^ 3 * dR_D0 P q * (dR_D2 P q) ^ 2) / (P.a ^ 2 + (R P q) ^ 2) ^ 4

/-- Free_Data/fd_KerrSchild_H_K0_K1_K2.c:2833-2898 `fd_ks_dddK1_D2D2D1` -/
noncomputable def dddK1_D2D2D1 (P : Par) (q : Pt) : ℝ :=
  ((P.a ^ 2 + (R P q) ^ 2) ^ 3 * ((-P.a) * dddX_D1D2D2 P q + R P q * dddY_D1D2D2 P q + Y P q * dddR_D1D2D2 P q + dR_D1 P q * ddY_D2D2 P q + 2 * dR_D2 P q * ddY_D1D2 P q +
    ddR_D2D2 P q * dY_D1 P q + 2 * dY_D2 P q * ddR_D1D2 P q) + 2 * (P.a ^ 2 + (R P q) ^ 2) ^ 2 * ((P.a * X P q - R P q * Y P q) * R P q * dddR_D1D2D2 P q + (P.a * X P q -
    R P q * Y P q) * dR_D1 P q * ddR_D2D2 P q + 2 * (P.a * X P q - R P q * Y P q) * dR_D2 P q * ddR_D1D2 P q - ((-P.a) * dX_D1 P q + R P q * dY_D1 P q + Y P q * dR_D1 P
    q) * R P q * ddR_D2D2 P q + (P.a * dX_D1 P q - R P q * dY_D1 P q - Y P q * dR_D1 P q) * (dR_D2 P q) ^ 2 - 2 * ((-P.a) * dX_D2 P q + R P q * dY_D2 P q + Y P q * dR_D2
    P q) * R P q * ddR_D1D2 P q - 2 * ((-P.a) * dX_D2 P q + R P q * dY_D2 P q + Y P q * dR_D2 P q) * dR_D1 P q * dR_D2 P q - ((-P.a) * ddX_D2D2 P q + R P q * ddY_D2D2 P q
    + Y P q * ddR_D2D2 P q + 2 * dR_D2 P q * dY_D2 P q) * R P q * dR_D1 P q - 2 * ((-P.a) * ddX_D1D2 P q + R P q * ddY_D1D2 P q + Y P q * ddR_D1D2 P q + dR_D1 P q * dY_D2
    P q + dR_D2 P q * dY_D1 P q) * R P q * dR_D2 P q) + 8 * (P.a ^ 2 + (R P q) ^ 2) * ((-(P.a * X P q - R P q * Y P q)) * R P q * dR_D1 P q * ddR_D2D2 P q - 2 * (P.a * X
    P q - R P q * Y P q) * R P q * dR_D2 P q * ddR_D1D2 P q - 3 * (P.a * X P q - R P q * Y P q) * dR_D1 P q * (dR_D2 P q) ^ 2 + ((-P.a) * dX_D1 P q + R P q * dY_D1 P q +
    Y P q * dR_D1 P q) * R P q * (dR_D2 P q) ^ 2 + 2 * ((-P.a) * dX_D2 P q + R P q * dY_D2 P q + Y P q * dR_D2 P q) * R P q * dR_D1 P q * dR_D2 P q) * R P q + 48 * (P.a *
    X P q - R P q * Y P q) * (R P q) ^ 3 * dR_D1 P q * (dR_D2 P q) ^ 2) / (P.a ^ 2 + (R P q) ^ 2) ^ 4

/-- Free_Data/fd_KerrSchild_H_K0_K1_K2.c:2899-2940 `fd_ks_dddK1_D2D2D2` -/
noncomputable def dddK1_D2D2D2 (P : Par) (q : Pt) : ℝ :=
  ((P.a ^ 2 + (R P q) ^ 2) ^ 3 * ((-P.a) * dddX_D2D2D2 P q + R P q * dddY_D2D2D2 P q + Y P q * dddR_D2D2D2 P q + 3 * dR_D2 P q * ddY_D2D2 P q + 3 * ddR_D2D2 P q * dY_D2 P
    q) + 2 * (P.a ^ 2 + (R P q) ^ 2) ^ 2 * ((P.a * X P q - R P q * Y P q) * R P q * dddR_D2D2D2 P q + 3 * (P.a * X P q - R P q * Y P q) * dR_D2 P q * ddR_D2D2 P q - 3 *
    ((-P.a) * dX_D2 P q + R P q * dY_D2 P q + Y P q * dR_D2 P q) * R P q * ddR_D2D2 P q + 3 * (P.a * dX_D2 P q - R P q * dY_D2 P q - Y P q * dR_D2 P q) * (dR_D2 P q) ^ 2
    - 3 * ((-P.a) * ddX_D2D2 P q + R P q * ddY_D2D2 P q + Y P q * ddR_D2D2 P q + 2 * dR_D2 P q * dY_D2 P q) * R P q * dR_D2 P q) + 24 * (P.a ^ 2 + (R P q) ^ 2) * ((-(P.a
    * X P q - R P q * Y P q)) * R P q * ddR_D2D2 P q - (P.a * X P q - R P q * Y P q) * (dR_D2 P q) ^ 2 + ((-P.a) * dX_D2 P q + R P q * dY_D2 P q + Y P q * dR_D2 P q) * R
    P q * dR_D2 P q) * R P q * dR_D2 P q + 48 * (P.a * X P q - R P q * Y P q) * (R P q) ^ 3 * (dR_D2 P q) ^ 3) / (P.a ^ 2 + (R P q) ^ 2) ^ 4

/-- the first derivatives of `K1` -/
noncomputable def dK1 (P : Par) : Fin 3 → Pt → ℝ
  | 0, q => dK1_D0 P q
  | 1, q => dK1_D1 P q
  | 2, q => dK1_D2 P q

/-- the second derivatives of `K1`: D1D0 is kept as D0D1 -/
noncomputable def ddK1 (P : Par) : Fin 3 → Fin 3 → Pt → ℝ
  | 0, 0, q => ddK1_D0D0 P q
  | 0, 1, q => ddK1_D0D1 P q
  | 0, 2, q => ddK1_D0D2 P q
  | 1, 0, q => ddK1_D0D1 P q
  | 1, 1, q => ddK1_D1D1 P q
  | 1, 2, q => ddK1_D1D2 P q
  | 2, 0, q => ddK1_D0D2 P q
  | 2, 1, q => ddK1_D1D2 P q
  | 2, 2, q => ddK1_D2D2 P q

/-- the third derivatives of `K1` -/
noncomputable def dddK1 (P : Par) : Fin 3 → Fin 3 → Fin 3 → Pt → ℝ
  | 0, 0, 0, q => dddK1_D0D0D0 P q
  | 0, 0, 1, q => dddK1_D0D0D1 P q
  | 0, 0, 2, q => dddK1_D0D0D2 P q
  | 0, 1, 0, q => dddK1_D0D1D0 P q
  | 0, 1, 1, q => dddK1_D0D1D1 P q
  | 0, 1, 2, q => dddK1_D0D1D2 P q
  | 0, 2, 0, q => dddK1_D0D2D0 P q
  | 0, 2, 1, q => dddK1_D0D2D1 P q
  | 0, 2, 2, q => dddK1_D0D2D2 P q
  | 1, 0, 0, q => dddK1_D0D1D0 P q
  | 1, 0, 1, q => dddK1_D0D1D1 P q
  | 1, 0, 2, q => dddK1_D0D1D2 P q
  | 1, 1, 0, q => dddK1_D1D1D0 P q
  | 1, 1, 1, q => dddK1_D1D1D1 P q
  | 1, 1, 2, q => dddK1_D1D1D2 P q
  | 1, 2, 0, q => dddK1_D1D2D0 P q
  | 1, 2, 1, q => dddK1_D1D2D1 P q
  | 1, 2, 2, q => dddK1_D1D2D2 P q
  | 2, 0, 0, q => dddK1_D0D2D0 P q
  | 2, 0, 1, q => dddK1_D0D2D1 P q
  | 2, 0, 2, q => dddK1_D0D2D2 P q
  | 2, 1, 0, q => dddK1_D1D2D0 P q
  | 2, 1, 1, q => dddK1_D1D2D1 P q
  | 2, 1, 2, q => dddK1_D1D2D2 P q
  | 2, 2, 0, q => dddK1_D2D2D0 P q
  | 2, 2, 1, q => dddK1_D2D2D1 P q
  | 2, 2, 2, q => dddK1_D2D2D2 P q

/-- Free_Data/fd_KerrSchild_H_K0_K1_K2.c:2941-2949 `fd_ks_K2` -/
noncomputable def K2 (P : Par) (q : Pt) : ℝ :=
  Z P q / R P q

/-- Free_Data/fd_KerrSchild_H_K0_K1_K2.c:2950-2961 `fd_ks_dK2_D0` -/
noncomputable def dK2_D0 (P : Par) (q : Pt) : ℝ :=
  (R P q * dZ_D0 P q - Z P q * dR_D0 P q) / (R P q) ^ 2

/-- Free_Data/fd_KerrSchild_H_K0_K1_K2.c:2962-2973 `fd_ks_dK2_D1` -/
noncomputable def dK2_D1 (P : Par) (q : Pt) : ℝ :=
  (R P q * dZ_D1 P q - Z P q * dR_D1 P q) / (R P q) ^ 2

/-- Free_Data/fd_KerrSchild_H_K0_K1_K2.c:2974-2985 `fd_ks_dK2_D2` -/
noncomputable def dK2_D2 (P : Par) (q : Pt) : ℝ :=
  (R P q * dZ_D2 P q - Z P q * dR_D2 P q) / (R P q) ^ 2

/-- Free_Data/fd_KerrSchild_H_K0_K1_K2.c:2986-3001 `fd_ks_ddK2_D0D0` -/
noncomputable def ddK2_D0D0 (P : Par) (q : Pt) : ℝ :=
  ((-(Z P q * ddR_D0D0 P q + 2 * dR_D0 P q * dZ_D0 P q)) * R P q + (R P q) ^ 2 * ddZ_D0D0 P q + 2 * Z P q * (dR_D0 P q) ^ 2) / (R P q) ^ 3

/-- Free_Data/fd_KerrSchild_H_K0_K1_K2.c:3056-3074 `fd_ks_ddK2_D0D1` -/
noncomputable def ddK2_D0D1 (P : Par) (q : Pt) : ℝ :=
  ((-(Z P q * ddR_D0D1 P q + dR_D0 P q * dZ_D1 P q + dR_D1 P q * dZ_D0 P q)) * R P q + (R P q) ^ 2 * ddZ_D0D1 P q + 2 * Z P q * dR_D0 P q * dR_D1 P q) / (R P q) ^ 3

/-- Free_Data/fd_KerrSchild_H_K0_K1_K2.c:3037-3055 `fd_ks_ddK2_D0D2` -/
noncomputable def ddK2_D0D2 (P : Par) (q : Pt) : ℝ :=
  ((-(Z P q * ddR_D0D2 P q + dR_D0 P q * dZ_D2 P q + dR_D2 P q * dZ_D0 P q)) * R P q + (R P q) ^ 2 * ddZ_D0D2 P q + 2 * Z P q * dR_D0 P q * dR_D2 P q) / (R P q) ^ 3

/-- Free_Data/fd_KerrSchild_H_K0_K1_K2.c:3075-3090 `fd_ks_ddK2_D1D1` -/
noncomputable def ddK2_D1D1 (P : Par) (q : Pt) : ℝ :=
  ((-(Z P q * ddR_D1D1 P q + 2 * dR_D1 P q * dZ_D1 P q)) * R P q + (R P q) ^ 2 * ddZ_D1D1 P q + 2 * Z P q * (dR_D1 P q) ^ 2) / (R P q) ^ 3

/-- Free_Data/fd_KerrSchild_H_K0_K1_K2.c:3018-3036 `fd_ks_ddK2_D1D2` -/
noncomputable def ddK2_D1D2 (P : Par) (q : Pt) : ℝ :=
  ((-(Z P q * ddR_D1D2 P q + dR_D1 P q * dZ_D2 P q + dR_D2 P q * dZ_D1 P q)) * R P q + (R P q) ^ 2 * ddZ_D1D2 P q + 2 * Z P q * dR_D1 P q * dR_D2 P q) / (R P q) ^ 3

/-- Free_Data/fd_KerrSchild_H_K0_K1_K2.c:3002-3017 `fd_ks_ddK2_D2D2` -/
noncomputable def ddK2_D2D2 (P : Par) (q : Pt) : ℝ :=
  ((-(Z P q * ddR_D2D2 P q + 2 * dR_D2 P q * dZ_D2 P q)) * R P q + (R P q) ^ 2 * ddZ_D2D2 P q + 2 * Z P q * (dR_D2 P q) ^ 2) / (R P q) ^ 3

/-- Free_Data/fd_KerrSchild_H_K0_K1_K2.c:3291-3311 `fd_ks_dddK2_D0D0D0` -/
noncomputable def dddK2_D0D0D0 (P : Par) (q : Pt) : ℝ :=
  (6 * (Z P q * ddR_D0D0 P q + dR_D0 P q * dZ_D0 P q) * R P q * dR_D0 P q - (Z P q * dddR_D0D0D0 P q + 3 * dR_D0 P q * ddZ_D0D0 P q + 3 * ddR_D0D0 P q * dZ_D0 P q) * (R P
    q) ^ 2 + (R P q) ^ 3 * dddZ_D0D0D0 P q - 6 * Z P q * (dR_D0 P q) ^ 3) / (R P q) ^ 4

/-- Free_Data/fd_KerrSchild_H_K0_K1_K2.c:3312-3341 `fd_ks_dddK2_D0D0D1` -/
noncomputable def dddK2_D0D0D1 (P : Par) (q : Pt) : ℝ :=
  (2 * (2 * Z P q * dR_D0 P q * ddR_D0D1 P q + Z P q * ddR_D0D0 P q * dR_D1 P q + (dR_D0 P q) ^ 2 * dZ_D1 P q + 2 * dR_D0 P q * dR_D1 P q * dZ_D0 P q) * R P q - (Z P q *
    dddR_D0D0D1 P q + 2 * dR_D0 P q * ddZ_D0D1 P q + ddR_D0D0 P q * dZ_D1 P q + dR_D1 P q * ddZ_D0D0 P q + 2 * dZ_D0 P q * ddR_D0D1 P q) * (R P q) ^ 2 + (R P q) ^ 3 *
    dddZ_D0D0D1 P q - 6 * Z P q * (dR_D0 P q) ^ 2 * dR_D1 P q) / (R P q) ^ 4

/-- Free_Data/fd_KerrSchild_H_K0_K1_K2.c:3221-3250 `fd_ks_dddK2_D0D0D2` -/
noncomputable def dddK2_D0D0D2 (P : Par) (q : Pt) : ℝ :=
  (2 * (2 * Z P q * dR_D0 P q * ddR_D0D2 P q + Z P q * ddR_D0D0 P q * dR_D2 P q + (dR_D0 P q) ^ 2 * dZ_D2 P q + 2 * dR_D0 P q * dR_D2 P q * dZ_D0 P q) * R P q - (Z P q *
    dddR_D0D0D2 P q + 2 * dR_D0 P q * ddZ_D0D2 P q + ddR_D0D0 P q * dZ_D2 P q + dR_D2 P q * ddZ_D0D0 P q + 2 * dZ_D0 P q * ddR_D0D2 P q) * (R P q) ^ 2 + (R P q) ^ 3 *
    dddZ_D0D0D2 P q - 6 * Z P q * (dR_D0 P q) ^ 2 * dR_D2 P q) / (R P q) ^ 4

/-- Free_Data/fd_KerrSchild_H_K0_K1_K2.c:3191-3220 `fd_ks_dddK2_D0D1D0` -/
noncomputable def dddK2_D0D1D0 (P : Par) (q : Pt) : ℝ :=
  (2 * (2 * Z P q * dR_D0 P q * ddR_D0D1 P q + Z P q * ddR_D0D0 P q * dR_D1 P q + (dR_D0 P q) ^ 2 * dZ_D1 P q + 2 * dR_D0 P q * dR_D1 P q * dZ_D0 P q) * R P q - (Z P q *
    dddR_D0D0D1 P q + 2 * dR_D0 P q * ddZ_D0D1 P q + ddR_D0D0 P q * dZ_D1 P q + dR_D1 P q * ddZ_D0D0 P q + 2 * dZ_D0 P q * ddR_D0D1 P q) * (R P q) ^ 2 + (R P q) ^ 3 *
    dddZ_D0D0D1 P q - 6 * Z P q * (dR_D0 P q) ^ 2 * dR_D1 P q) / (R P q) ^ 4

/-- Free_Data/fd_KerrSchild_H_K0_K1_K2.c:3604-3633 `fd_ks_dddK2_D0D1D1` -/
noncomputable def dddK2_D0D1D1 (P : Par) (q : Pt) : ℝ :=
  (2 * (Z P q * dR_D0 P q * ddR_D1D1 P q + 2 * Z P q * dR_D1 P q * ddR_D0D1 P q + 2 * dR_D0 P q * dR_D1 P q * dZ_D1 P q + (dR_D1 P q) ^ 2 * dZ_D0 P q) * R P q - (Z P q *
    dddR_D0D1D1 P q + dR_D0 P q * ddZ_D1D1 P q + 2 * dR_D1 P q * ddZ_D0D1 P q + ddR_D1D1 P q * dZ_D0 P q + 2 * dZ_D1 P q * ddR_D0D1 P q) * (R P q) ^ 2 + (R P q) ^ 3 *
    dddZ_D0D1D1 P q - 6 * Z P q * dR_D0 P q * (dR_D1 P q) ^ 2) / (R P q) ^ 4

/-- Free_Data/fd_KerrSchild_H_K0_K1_K2.c:3251-3290 `fd_ks_dddK2_D0D1D2` -/
noncomputable def dddK2_D0D1D2 (P : Par) (q : Pt) : ℝ :=
  (2 * (Z P q * dR_D0 P q * ddR_D1D2 P q + Z P q * dR_D1 P q * ddR_D0D2 P q + Z P q * dR_D2 P q * ddR_D0D1 P q + dR_D0 P q * dR_D1 P q * dZ_D2 P q + dR_D0 P q * dR_D2 P q
    * dZ_D1 P q + dR_D1 P q * dR_D2 P q * dZ_D0 P q) * R P q - (Z P q * dddR_D0D1D2 P q + dR_D0 P q * ddZ_D1D2 P q + dR_D1 P q * ddZ_D0D2 P q + dR_D2 P q * ddZ_D0D1 P q +
    dZ_D0 P q * ddR_D1D2 P q + dZ_D1 P q * ddR_D0D2 P q + dZ_D2 P q * ddR_D0D1 P q) * (R P q) ^ 2 + (R P q) ^ 3 * dddZ_D0D1D2 P q - 6 * Z P q * dR_D0 P q * dR_D1 P q *
    dR_D2 P q) / (R P q) ^ 4

/-- Free_Data/fd_KerrSchild_H_K0_K1_K2.c:3091-3120 `fd_ks_dddK2_D0D2D0` -/
noncomputable def dddK2_D0D2D0 (P : Par) (q : Pt) : ℝ :=
  (2 * (2 * Z P q * dR_D0 P q * ddR_D0D2 P q + Z P q * ddR_D0D0 P q * dR_D2 P q + (dR_D0 P q) ^ 2 * dZ_D2 P q + 2 * dR_D0 P q * dR_D2 P q * dZ_D0 P q) * R P q - (Z P q *
    dddR_D0D0D2 P q + 2 * dR_D0 P q * ddZ_D0D2 P q + ddR_D0D0 P q * dZ_D2 P q + dR_D2 P q * ddZ_D0D0 P q + 2 * dZ_D0 P q * ddR_D0D2 P q) * (R P q) ^ 2 + (R P q) ^ 3 *
    dddZ_D0D0D2 P q - 6 * Z P q * (dR_D0 P q) ^ 2 * dR_D2 P q) / (R P q) ^ 4

/-- Free_Data/fd_KerrSchild_H_K0_K1_K2.c:3121-3160 `fd_ks_dddK2_D0D2D1` -/
noncomputable def dddK2_D0D2D1 (P : Par) (q : Pt) : ℝ :=
  (2 * (Z P q * dR_D0 P q * ddR_D1D2 P q + Z P q * dR_D1 P q * ddR_D0D2 P q + Z P q * dR_D2 P q * ddR_D0D1 P q + dR_D0 P q * dR_D1 P q * dZ_D2 P q + dR_D0 P q * dR_D2 P q
    * dZ_D1 P q + dR_D1 P q * dR_D2 P q * dZ_D0 P q) * R P q - (Z P q * dddR_D0D1D2 P q + dR_D0 P q * ddZ_D1D2 P q + dR_D1 P q * ddZ_D0D2 P q + dR_D2 P q * ddZ_D0D1 P q +
    dZ_D0 P q * ddR_D1D2 P q + dZ_D1 P q * ddR_D0D2 P q + dZ_D2 P q * ddR_D0D1 P q) * (R P q) ^ 2 + (R P q) ^ 3 * dddZ_D0D1D2 P q - 6 * Z P q * dR_D0 P q * dR_D1 P q *
    dR_D2 P q) / (R P q) ^ 4

/-- Free_Data/fd_KerrSchild_H_K0_K1_K2.c:3161-3190 `fd_ks_dddK2_D0D2D2` -/
noncomputable def dddK2_D0D2D2 (P : Par) (q : Pt) : ℝ :=
  (2 * (Z P q * dR_D0 P q * ddR_D2D2 P q + 2 * Z P q * dR_D2 P q * ddR_D0D2 P q + 2 * dR_D0 P q * dR_D2 P q * dZ_D2 P q + (dR_D2 P q) ^ 2 * dZ_D0 P q) * R P q - (Z P q *
    dddR_D0D2D2 P q + dR_D0 P q * ddZ_D2D2 P q + 2 * dR_D2 P q * ddZ_D0D2 P q + ddR_D2D2 P q * dZ_D0 P q + 2 * dZ_D2 P q * ddR_D0D2 P q) * (R P q) ^ 2 + (R P q) ^ 3 *
    dddZ_D0D2D2 P q - 6 * Z P q * dR_D0 P q * (dR_D2 P q) ^ 2) / (R P q) ^ 4

/-- Free_Data/fd_KerrSchild_H_K0_K1_K2.c:3553-3582 `fd_ks_dddK2_D1D1D0` -/
noncomputable def dddK2_D1D1D0 (P : Par) (q : Pt) : ℝ :=
  (2 * (Z P q * dR_D0 P q * ddR_D1D1 P q + 2 * Z P q * dR_D1 P q * ddR_D0D1 P q + 2 * dR_D0 P q * dR_D1 P q * dZ_D1 P q + (dR_D1 P q) ^ 2 * dZ_D0 P q) * R P q - (Z P q *
    dddR_D0D1D1 P q + dR_D0 P q * ddZ_D1D1 P q + 2 * dR_D1 P q * ddZ_D0D1 P q + ddR_D1D1 P q * dZ_D0 P q + 2 * dZ_D1 P q * ddR_D0D1 P q) * (R P q) ^ 2 + (R P q) ^ 3 *
    dddZ_D0D1D1 P q - 6 * Z P q * dR_D0 P q * (dR_D1 P q) ^ 2) / (R P q) ^ 4

/-- Free_Data/fd_KerrSchild_H_K0_K1_K2.c:3583-3603 `fd_ks_dddK2_D1D1D1` -/
noncomputable def dddK2_D1D1D1 (P : Par) (q : Pt) : ℝ :=
  (6 * (Z P q * ddR_D1D1 P q + dR_D1 P q * dZ_D1 P q) * R P q * dR_D1 P q - (Z P q * dddR_D1D1D1 P q + 3 * dR_D1 P q * ddZ_D1D1 P q + 3 * ddR_D1D1 P q * dZ_D1 P q) * (R P
    q) ^ 2 + (R P q) ^ 3 * dddZ_D1D1D1 P q - 6 * Z P q * (dR_D1 P q) ^ 3) / (R P q) ^ 4

/-- Free_Data/fd_KerrSchild_H_K0_K1_K2.c:3523-3552 `fd_ks_dddK2_D1D1D2` -/
noncomputable def dddK2_D1D1D2 (P : Par) (q : Pt) : ℝ :=
  (2 * (2 * Z P q * dR_D1 P q * ddR_D1D2 P q + Z P q * ddR_D1D1 P q * dR_D2 P q + (dR_D1 P q) ^ 2 * dZ_D2 P q + 2 * dR_D1 P q * dR_D2 P q * dZ_D1 P q) * R P q - (Z P q *
    dddR_D1D1D2 P q + 2 * dR_D1 P q * ddZ_D1D2 P q + ddR_D1D1 P q * dZ_D2 P q + dR_D2 P q * ddZ_D1D1 P q + 2 * dZ_D1 P q * ddR_D1D2 P q) * (R P q) ^ 2 + (R P q) ^ 3 *
    dddZ_D1D1D2 P q - 6 * Z P q * (dR_D1 P q) ^ 2 * dR_D2 P q) / (R P q) ^ 4

/-- Free_Data/fd_KerrSchild_H_K0_K1_K2.c:3483-3522 `fd_ks_dddK2_D1D2D0` -/
noncomputable def dddK2_D1D2D0 (P : Par) (q : Pt) : ℝ :=
  (2 * (Z P q * dR_D0 P q * ddR_D1D2 P q + Z P q * dR_D1 P q * ddR_D0D2 P q + Z P q * dR_D2 P q * ddR_D0D1 P q + dR_D0 P q * dR_D1 P q * dZ_D2 P q + dR_D0 P q * dR_D2 P q
    * dZ_D1 P q + dR_D1 P q * dR_D2 P q * dZ_D0 P q) * R P q - (Z P q * dddR_D0D1D2 P q + dR_D0 P q * ddZ_D1D2 P q + dR_D1 P q * ddZ_D0D2 P q + dR_D2 P q * ddZ_D0D1 P q +
    dZ_D0 P q * ddR_D1D2 P q + dZ_D1 P q * ddR_D0D2 P q + dZ_D2 P q * ddR_D0D1 P q) * (R P q) ^ 2 + (R P q) ^ 3 * dddZ_D0D1D2 P q - 6 * Z P q * dR_D0 P q * dR_D1 P q *
    dR_D2 P q) / (R P q) ^ 4

/-- Free_Data/fd_KerrSchild_H_K0_K1_K2.c:3393-3422 `fd_ks_dddK2_D1D2D1` -/
noncomputable def dddK2_D1D2D1 (P : Par) (q : Pt) : ℝ :=
  (2 * (2 * Z P q * dR_D1 P q * ddR_D1D2 P q + Z P q * ddR_D1D1 P q * dR_D2 P q + (dR_D1 P q) ^ 2 * dZ_D2 P q + 2 * dR_D1 P q * dR_D2 P q * dZ_D1 P q) * R P q - (Z P q *
    dddR_D1D1D2 P q + 2 * dR_D1 P q * ddZ_D1D2 P q + ddR_D1D1 P q * dZ_D2 P q + dR_D2 P q * ddZ_D1D1 P q + 2 * dZ_D1 P q * ddR_D1D2 P q) * (R P q) ^ 2 + (R P q) ^ 3 *
    dddZ_D1D1D2 P q - 6 * Z P q * (dR_D1 P q) ^ 2 * dR_D2 P q) / (R P q) ^ 4

/-- Free_Data/fd_KerrSchild_H_K0_K1_K2.c:3342-3371 `fd_ks_dddK2_D1D2D2` -/
noncomputable def dddK2_D1D2D2 (P : Par) (q : Pt) : ℝ :=
  (2 * (Z P q * dR_D1 P q * ddR_D2D2 P q + 2 * Z P q * dR_D2 P q * ddR_D1D2 P q + 2 * dR_D1 P q * dR_D2 P q * dZ_D2 P q + (dR_D2 P q) ^ 2 * dZ_D1 P q) * R P q - (Z P q *
    dddR_D1D2D2 P q + dR_D1 P q * ddZ_D2D2 P q + 2 * dR_D2 P q * ddZ_D1D2 P q + ddR_D2D2 P q * dZ_D1 P q + 2 * dZ_D2 P q * ddR_D1D2 P q) * (R P q) ^ 2 + (R P q) ^ 3 *
    dddZ_D1D2D2 P q - 6 * Z P q * dR_D1 P q * (dR_D2 P q) ^ 2) / (R P q) ^ 4

/-- Free_Data/fd_KerrSchild_H_K0_K1_K2.c:3423-3452 `fd_ks_dddK2_D2D2D0` -/
noncomputable def dddK2_D2D2D0 (P : Par) (q : Pt) : ℝ :=
  (2 * (Z P q * dR_D0 P q * ddR_D2D2 P q + 2 * Z P q * dR_D2 P q * ddR_D0D2 P q + 2 * dR_D0 P q * dR_D2 P q * dZ_D2 P q + (dR_D2 P q) ^ 2 * dZ_D0 P q) * R P q - (Z P q *
    dddR_D0D2D2 P q + dR_D0 P q * ddZ_D2D2 P q + 2 * dR_D2 P q * ddZ_D0D2 P q + ddR_D2D2 P q * dZ_D0 P q + 2 * dZ_D2 P q * ddR_D0D2 P q) * (R P q) ^ 2 + (R P q) ^ 3 *
    dddZ_D0D2D2 P q - 6 * Z P q * dR_D0 P q * (dR_D2 P q) ^ 2) / (R P q) ^ 4

/-- Free_Data/fd_KerrSchild_H_K0_K1_K2.c:3453-3482 `fd_ks_dddK2_D2D2D1` -/
noncomputable def dddK2_D2D2D1 (P : Par) (q : Pt) : ℝ :=
  (2 * (Z P q * dR_D1 P q * ddR_D2D2 P q + 2 * Z P q * dR_D2 P q * ddR_D1D2 P q + 2 * dR_D1 P q * dR_D2 P q * dZ_D2 P q + (dR_D2 P q) ^ 2 * dZ_D1 P q) * R P q - (Z P q *
    dddR_D1D2D2 P q + dR_D1 P q * ddZ_D2D2 P q + 2 * dR_D2 P q * ddZ_D1D2 P q + ddR_D2D2 P q * dZ_D1 P q + 2 * dZ_D2 P q * ddR_D1D2 P q) * (R P q) ^ 2 + (R P q) ^ 3 *
    dddZ_D1D2D2 P q - 6 * Z P q * dR_D1 P q * (dR_D2 P q) ^ 2) / (R P q) ^ 4

/-- Free_Data/fd_KerrSchild_H_K0_K1_K2.c:3372-3392 `fd_ks_dddK2_D2D2D2` -/
noncomputable def dddK2_D2D2D2 (P : Par) (q : Pt) : ℝ :=
  (6 * (Z P q * ddR_D2D2 P q + dR_D2 P q * dZ_D2 P q) * R P q * dR_D2 P q - (Z P q * dddR_D2D2D2 P q + 3 * dR_D2 P q * ddZ_D2D2 P q + 3 * ddR_D2D2 P q * dZ_D2 P q) * (R P
    q) ^ 2 + (R P q) ^ 3 * dddZ_D2D2D2 P q - 6 * Z P q * (dR_D2 P q) ^ 3) / (R P q) ^ 4

/-- the first derivatives of `K2` -/
noncomputable def dK2 (P : Par) : Fin 3 → Pt → ℝ
  | 0, q => dK2_D0 P q
  | 1, q => dK2_D1 P q
  | 2, q => dK2_D2 P q

/-- the second derivatives of `K2`: D1D0 is kept as D0D1 -/
noncomputable def ddK2 (P : Par) : Fin 3 → Fin 3 → Pt → ℝ
  | 0, 0, q => ddK2_D0D0 P q
  | 0, 1, q => ddK2_D0D1 P q
  | 0, 2, q => ddK2_D0D2 P q
  | 1, 0, q => ddK2_D0D1 P q
  | 1, 1, q => ddK2_D1D1 P q
  | 1, 2, q => ddK2_D1D2 P q
  | 2, 0, q => ddK2_D0D2 P q
  | 2, 1, q => ddK2_D1D2 P q
  | 2, 2, q => ddK2_D2D2 P q

/-- the third derivatives of `K2` -/
noncomputable def dddK2 (P : Par) : Fin 3 → Fin 3 → Fin 3 → Pt → ℝ
  | 0, 0, 0, q => dddK2_D0D0D0 P q
  | 0, 0, 1, q => dddK2_D0D0D1 P q
  | 0, 0, 2, q => dddK2_D0D0D2 P q
  | 0, 1, 0, q => dddK2_D0D1D0 P q
  | 0, 1, 1, q => dddK2_D0D1D1 P q
  | 0, 1, 2, q => dddK2_D0D1D2 P q
  | 0, 2, 0, q => dddK2_D0D2D0 P q
  | 0, 2, 1, q => dddK2_D0D2D1 P q
  | 0, 2, 2, q => dddK2_D0D2D2 P q
  | 1, 0, 0, q => dddK2_D0D1D0 P q
  | 1, 0, 1, q => dddK2_D0D1D1 P q
  | 1, 0, 2, q => dddK2_D0D1D2 P q
  | 1, 1, 0, q => dddK2_D1D1D0 P q
  | 1, 1, 1, q => dddK2_D1D1D1 P q
  | 1, 1, 2, q => dddK2_D1D1D2 P q
  | 1, 2, 0, q => dddK2_D1D2D0 P q
  | 1, 2, 1, q => dddK2_D1D2D1 P q
  | 1, 2, 2, q => dddK2_D1D2D2 P q
  | 2, 0, 0, q => dddK2_D0D2D0 P q
  | 2, 0, 1, q => dddK2_D0D2D1 P q
  | 2, 0, 2, q => dddK2_D0D2D2 P q
  | 2, 1, 0, q => dddK2_D1D2D0 P q
  | 2, 1, 1, q => dddK2_D1D2D1 P q
  | 2, 1, 2, q => dddK2_D1D2D2 P q
  | 2, 2, 0, q => dddK2_D2D2D0 P q
  | 2, 2, 1, q => dddK2_D2D2D1 P q
  | 2, 2, 2, q => dddK2_D2D2D2 P q

/-- Free_Data/fd_KerrSchild_H_K0_K1_K2.c:3634-3643 `fd_ks_H` -/
noncomputable def H (P : Par) (q : Pt) : ℝ :=
  P.Lam * P.M * (R P q) ^ 3 / (P.a ^ 2 * (Z P q) ^ 2 + (R P q) ^ 4)

/-- Free_Data/fd_KerrSchild_H_K0_K1_K2.c:3659-3673 `fd_ks_dH_D0` -/
noncomputable def dH_D0 (P : Par) (q : Pt) : ℝ :=
  (-P.Lam) * P.M * (2 * P.a ^ 2 * R P q * Z P q * dZ_D0 P q - 3 * P.a ^ 2 * (Z P q) ^ 2 * dR_D0 P q + (R P q) ^ 4 * dR_D0 P q) * (R P q) ^ 2 / (P.a ^ 4 * (Z P q) ^ 4 + 2
    * P.a ^ 2 * (R P q) ^ 4 * (Z P q) ^ 2 + (R P q) ^ 8)

/-- Free_Data/fd_KerrSchild_H_K0_K1_K2.c:3674-3688 `fd_ks_dH_D1` -/
noncomputable def dH_D1 (P : Par) (q : Pt) : ℝ :=
  (-P.Lam) * P.M * (2 * P.a ^ 2 * R P q * Z P q * dZ_D1 P q - 3 * P.a ^ 2 * (Z P q) ^ 2 * dR_D1 P q + (R P q) ^ 4 * dR_D1 P q) * (R P q) ^ 2 / (P.a ^ 4 * (Z P q) ^ 4 + 2
    * P.a ^ 2 * (R P q) ^ 4 * (Z P q) ^ 2 + (R P q) ^ 8)

/-- Free_Data/fd_KerrSchild_H_K0_K1_K2.c:3644-3658 `fd_ks_dH_D2` -/
noncomputable def dH_D2 (P : Par) (q : Pt) : ℝ :=
  (-P.Lam) * P.M * (2 * P.a ^ 2 * R P q * Z P q * dZ_D2 P q - 3 * P.a ^ 2 * (Z P q) ^ 2 * dR_D2 P q + (R P q) ^ 4 * dR_D2 P q) * (R P q) ^ 2 / (P.a ^ 4 * (Z P q) ^ 4 + 2
    * P.a ^ 2 * (R P q) ^ 4 * (Z P q) ^ 2 + (R P q) ^ 8)

/-- Free_Data/fd_KerrSchild_H_K0_K1_K2.c:3717-3744 `fd_ks_ddH_D0D0` -/
noncomputable def ddH_D0D0 (P : Par) (q : Pt) : ℝ :=
  P.Lam * P.M * ((P.a ^ 2 * (Z P q) ^ 2 + (R P q) ^ 4) ^ 2 * R P q * ddR_D0D0 P q - 4 * (P.a ^ 2 * (Z P q) ^ 2 + (R P q) ^ 4) * (P.a ^ 2 * R P q * Z P q * dZ_D0 P q - P.a
    ^ 2 * (Z P q) ^ 2 * dR_D0 P q + (R P q) ^ 4 * dR_D0 P q) * dR_D0 P q - 2 * (P.a ^ 2 * (Z P q) ^ 2 + (R P q) ^ 4) * ((-P.a ^ 2) * (Z P q * ddR_D0D0 P q + 4 * dR_D0 P q
    * dZ_D0 P q) * R P q * Z P q + P.a ^ 2 * (Z P q * ddZ_D0D0 P q + (dZ_D0 P q) ^ 2) * (R P q) ^ 2 + 3 * P.a ^ 2 * (Z P q) ^ 2 * (dR_D0 P q) ^ 2 + (R P q * ddR_D0D0 P q
    + (dR_D0 P q) ^ 2) * (R P q) ^ 4) + 8 * (P.a ^ 2 * R P q * Z P q * dZ_D0 P q - P.a ^ 2 * (Z P q) ^ 2 * dR_D0 P q + (R P q) ^ 4 * dR_D0 P q) ^ 2) * R P q / (P.a ^ 2 *
    (Z P q) ^ 2 + (R P q) ^ 4) ^ 3

/-- Free_Data/fd_KerrSchild_H_K0_K1_K2.c:3817-3852 `fd_ks_ddH_D0D1` -/
noncomputable def ddH_D0D1 (P : Par) (q : Pt) : ℝ :=
  P.Lam * P.M * ((-2) * P.a ^ 4 * (R P q) ^ 2 * (Z P q) ^ 3 * ddZ_D0D1 P q + 6 * P.a ^ 4 * (R P q) ^ 2 * (Z P q) ^ 2 * dZ_D0 P q * dZ_D1 P q + 3 * P.a ^ 4 * R P q * (Z P
    q) ^ 4 * ddR_D0D1 P q - 6 * P.a ^ 4 * R P q * (Z P q) ^ 3 * dR_D0 P q * dZ_D1 P q - 6 * P.a ^ 4 * R P q * (Z P q) ^ 3 * dR_D1 P q * dZ_D0 P q + 6 * P.a ^ 4 * (Z P q)
    ^ 4 * dR_D0 P q * dR_D1 P q - 2 * P.a ^ 2 * (R P q) ^ 6 * Z P q * ddZ_D0D1 P q - 2 * P.a ^ 2 * (R P q) ^ 6 * dZ_D0 P q * dZ_D1 P q + 2 * P.a ^ 2 * (R P q) ^ 5 * (Z P
    q) ^ 2 * ddR_D0D1 P q + 10 * P.a ^ 2 * (R P q) ^ 5 * Z P q * dR_D0 P q * dZ_D1 P q + 10 * P.a ^ 2 * (R P q) ^ 5 * Z P q * dR_D1 P q * dZ_D0 P q - 24 * P.a ^ 2 * (R P
    q) ^ 4 * (Z P q) ^ 2 * dR_D0 P q * dR_D1 P q - (R P q) ^ 9 * ddR_D0D1 P q + 2 * (R P q) ^ 8 * dR_D0 P q * dR_D1 P q) * R P q / (P.a ^ 6 * (Z P q) ^ 6 + 3 * P.a ^ 4 *
    (R P q) ^ 4 * (Z P q) ^ 4 + 3 * P.a ^ 2 * (R P q) ^ 8 * (Z P q) ^ 2 + (R P q) ^ 12)

/-- Free_Data/fd_KerrSchild_H_K0_K1_K2.c:3781-3816 `fd_ks_ddH_D0D2` -/
noncomputable def ddH_D0D2 (P : Par) (q : Pt) : ℝ :=
  P.Lam * P.M * ((-2) * P.a ^ 4 * (R P q) ^ 2 * (Z P q) ^ 3 * ddZ_D0D2 P q + 6 * P.a ^ 4 * (R P q) ^ 2 * (Z P q) ^ 2 * dZ_D0 P q * dZ_D2 P q + 3 * P.a ^ 4 * R P q * (Z P
    q) ^ 4 * ddR_D0D2 P q - 6 * P.a ^ 4 * R P q * (Z P q) ^ 3 * dR_D0 P q * dZ_D2 P q - 6 * P.a ^ 4 * R P q * (Z P q) ^ 3 * dR_D2 P q * dZ_D0 P q + 6 * P.a ^ 4 * (Z P q)
    ^ 4 * dR_D0 P q * dR_D2 P q - 2 * P.a ^ 2 * (R P q) ^ 6 * Z P q * ddZ_D0D2 P q - 2 * P.a ^ 2 * (R P q) ^ 6 * dZ_D0 P q * dZ_D2 P q + 2 * P.a ^ 2 * (R P q) ^ 5 * (Z P
    q) ^ 2 * ddR_D0D2 P q + 10 * P.a ^ 2 * (R P q) ^ 5 * Z P q * dR_D0 P q * dZ_D2 P q + 10 * P.a ^ 2 * (R P q) ^ 5 * Z P q * dR_D2 P q * dZ_D0 P q - 24 * P.a ^ 2 * (R P
    q) ^ 4 * (Z P q) ^ 2 * dR_D0 P q * dR_D2 P q - (R P q) ^ 9 * ddR_D0D2 P q + 2 * (R P q) ^ 8 * dR_D0 P q * dR_D2 P q) * R P q / (P.a ^ 6 * (Z P q) ^ 6 + 3 * P.a ^ 4 *
    (R P q) ^ 4 * (Z P q) ^ 4 + 3 * P.a ^ 2 * (R P q) ^ 8 * (Z P q) ^ 2 + (R P q) ^ 12)

/-- Free_Data/fd_KerrSchild_H_K0_K1_K2.c:3853-3880 `fd_ks_ddH_D1D1` -/
noncomputable def ddH_D1D1 (P : Par) (q : Pt) : ℝ :=
  P.Lam * P.M * ((P.a ^ 2 * (Z P q) ^ 2 + (R P q) ^ 4) ^ 2 * R P q * ddR_D1D1 P q - 4 * (P.a ^ 2 * (Z P q) ^ 2 + (R P q) ^ 4) * (P.a ^ 2 * R P q * Z P q * dZ_D1 P q - P.a
    ^ 2 * (Z P q) ^ 2 * dR_D1 P q + (R P q) ^ 4 * dR_D1 P q) * dR_D1 P q - 2 * (P.a ^ 2 * (Z P q) ^ 2 + (R P q) ^ 4) * ((-P.a ^ 2) * (Z P q * ddR_D1D1 P q + 4 * dR_D1 P q
    * dZ_D1 P q) * R P q * Z P q + P.a ^ 2 * (Z P q * ddZ_D1D1 P q + (dZ_D1 P q) ^ 2) * (R P q) ^ 2 + 3 * P.a ^ 2 * (Z P q) ^ 2 * (dR_D1 P q) ^ 2 + (R P q * ddR_D1D1 P q
    + (dR_D1 P q) ^ 2) * (R P q) ^ 4) + 8 * (P.a ^ 2 * R P q * Z P q * dZ_D1 P q - P.a ^ 2 * (Z P q) ^ 2 * dR_D1 P q + (R P q) ^ 4 * dR_D1 P q) ^ 2) * R P q / (P.a ^ 2 *
    (Z P q) ^ 2 + (R P q) ^ 4) ^ 3

/-- Free_Data/fd_KerrSchild_H_K0_K1_K2.c:3745-3780 `fd_ks_ddH_D1D2` -/
noncomputable def ddH_D1D2 (P : Par) (q : Pt) : ℝ :=
  P.Lam * P.M * ((-2) * P.a ^ 4 * (R P q) ^ 2 * (Z P q) ^ 3 * ddZ_D1D2 P q + 6 * P.a ^ 4 * (R P q) ^ 2 * (Z P q) ^ 2 * dZ_D1 P q * dZ_D2 P q + 3 * P.a ^ 4 * R P q * (Z P
    q) ^ 4 * ddR_D1D2 P q - 6 * P.a ^ 4 * R P q * (Z P q) ^ 3 * dR_D1 P q * dZ_D2 P q - 6 * P.a ^ 4 * R P q * (Z P q) ^ 3 * dR_D2 P q * dZ_D1 P q + 6 * P.a ^ 4 * (Z P q)
    ^ 4 * dR_D1 P q * dR_D2 P q - 2 * P.a ^ 2 * (R P q) ^ 6 * Z P q * ddZ_D1D2 P q - 2 * P.a ^ 2 * (R P q) ^ 6 * dZ_D1 P q * dZ_D2 P q + 2 * P.a ^ 2 * (R P q) ^ 5 * (Z P
    q) ^ 2 * ddR_D1D2 P q + 10 * P.a ^ 2 * (R P q) ^ 5 * Z P q * dR_D1 P q * dZ_D2 P q + 10 * P.a ^ 2 * (R P q) ^ 5 * Z P q * dR_D2 P q * dZ_D1 P q - 24 * P.a ^ 2 * (R P
    q) ^ 4 * (Z P q) ^ 2 * dR_D1 P q * dR_D2 P q - (R P q) ^ 9 * ddR_D1D2 P q + 2 * (R P q) ^ 8 * dR_D1 P q * dR_D2 P q) * R P q / (P.a ^ 6 * (Z P q) ^ 6 + 3 * P.a ^ 4 *
    (R P q) ^ 4 * (Z P q) ^ 4 + 3 * P.a ^ 2 * (R P q) ^ 8 * (Z P q) ^ 2 + (R P q) ^ 12)

/-- Free_Data/fd_KerrSchild_H_K0_K1_K2.c:3689-3716 `fd_ks_ddH_D2D2` -/
noncomputable def ddH_D2D2 (P : Par) (q : Pt) : ℝ :=
  P.Lam * P.M * ((P.a ^ 2 * (Z P q) ^ 2 + (R P q) ^ 4) ^ 2 * R P q * ddR_D2D2 P q - 4 * (P.a ^ 2 * (Z P q) ^ 2 + (R P q) ^ 4) * (P.a ^ 2 * R P q * Z P q * dZ_D2 P q - P.a
    ^ 2 * (Z P q) ^ 2 * dR_D2 P q + (R P q) ^ 4 * dR_D2 P q) * dR_D2 P q - 2 * (P.a ^ 2 * (Z P q) ^ 2 + (R P q) ^ 4) * ((-P.a ^ 2) * (Z P q * ddR_D2D2 P q + 4 * dR_D2 P q
    * dZ_D2 P q) * R P q * Z P q + P.a ^ 2 * (Z P q * ddZ_D2D2 P q + (dZ_D2 P q) ^ 2) * (R P q) ^ 2 + 3 * P.a ^ 2 * (Z P q) ^ 2 * (dR_D2 P q) ^ 2 + (R P q * ddR_D2D2 P q
    + (dR_D2 P q) ^ 2) * (R P q) ^ 4) + 8 * (P.a ^ 2 * R P q * Z P q * dZ_D2 P q - P.a ^ 2 * (Z P q) ^ 2 * dR_D2 P q + (R P q) ^ 4 * dR_D2 P q) ^ 2) * R P q / (P.a ^ 2 *
    (Z P q) ^ 2 + (R P q) ^ 4) ^ 3

/-- Free_Data/fd_KerrSchild_H_K0_K1_K2.c:5363-5420 `fd_ks_dddH_D0D0D0` -/
noncomputable def dddH_D0D0D0 (P : Par) (q : Pt) : ℝ :=
  P.Lam * P.M * ((P.a ^ 2 * (Z P q) ^ 2 + (R P q) ^ 4) ^ 3 * (R P q) ^ 2 * dddR_D0D0D0 P q - 6 * (P.a ^ 2 * (Z P q) ^ 2 + (R P q) ^ 4) ^ 2 * (P.a ^ 2 * R P q * Z P q *
    dZ_D0 P q - P.a ^ 2 * (Z P q) ^ 2 * dR_D0 P q + (R P q) ^ 4 * dR_D0 P q) * R P q * ddR_D0D0 P q - 6 * (P.a ^ 2 * (Z P q) ^ 2 + (R P q) ^ 4) ^ 2 * ((-P.a ^ 2) * (Z P q
    * ddR_D0D0 P q + 4 * dR_D0 P q * dZ_D0 P q) * R P q * Z P q + P.a ^ 2 * (Z P q * ddZ_D0D0 P q + (dZ_D0 P q) ^ 2) * (R P q) ^ 2 + 3 * P.a ^ 2 * (Z P q) ^ 2 * (dR_D0 P
    q) ^ 2 + (R P q * ddR_D0D0 P q + (dR_D0 P q) ^ 2) * (R P q) ^ 4) * dR_D0 P q - 2 * (P.a ^ 2 * (Z P q) ^ 2 + (R P q) ^ 4) ^ 2 * (9 * P.a ^ 2 * (Z P q * ddR_D0D0 P q +
    2 * dR_D0 P q * dZ_D0 P q) * R P q * Z P q * dR_D0 P q + P.a ^ 2 * (Z P q * dddZ_D0D0D0 P q + 3 * dZ_D0 P q * ddZ_D0D0 P q) * (R P q) ^ 3 - P.a ^ 2 * ((Z P q) ^ 2 *
    dddR_D0D0D0 P q + 6 * Z P q * dR_D0 P q * ddZ_D0D0 P q + 6 * Z P q * ddR_D0D0 P q * dZ_D0 P q + 6 * dR_D0 P q * (dZ_D0 P q) ^ 2) * (R P q) ^ 2 - 12 * P.a ^ 2 * (Z P
    q) ^ 2 * (dR_D0 P q) ^ 3 + (R P q * dddR_D0D0D0 P q + 3 * dR_D0 P q * ddR_D0D0 P q) * (R P q) ^ 5) + 24 * (P.a ^ 2 * (Z P q) ^ 2 + (R P q) ^ 4) * (P.a ^ 2 * R P q * Z
    P q * dZ_D0 P q - P.a ^ 2 * (Z P q) ^ 2 * dR_D0 P q + (R P q) ^ 4 * dR_D0 P q) ^ 2 * dR_D0 P q + 24 * (P.a ^ 2 * (Z P q) ^ 2 + (R P q) ^ 4) * (P.a ^ 2 * R P q * Z P q
    * dZ_D0 P q - P.a ^ 2 * (Z P q) ^ 2 * dR_D0 P q + (R P q) ^ 4 * dR_D0 P q) * ((-P.a ^ 2) * (Z P q * ddR_D0D0 P q + 4 * dR_D0 P q * dZ_D0 P q) * R P q * Z P q + P.a ^
    2 * (Z P q * ddZ_D0D0 P q + (dZ_D0 P q) ^ 2) * (R P q) ^ 2 + 3 * P.a ^ 2 * (Z P q) ^ 2 * (dR_D0 P q) ^ 2 + (R P q * ddR_D0D0 P q + (dR_D0 P q) ^ 2) * (R P q) ^ 4) -
    48 * (P.a ^ 2 * R P q * Z P q * dZ_D0 P q - P.a ^ 2 * (Z P q) ^ 2 * dR_D0 P q + (R P q) ^ 4 * dR_D0 P q) ^ 3) / (P.a ^ 2 * (Z P q) ^ 2 + (R P q) ^ 4) ^ 4

/-- Free_Data/fd_KerrSchild_H_K0_K1_K2.c:4143-4245 `fd_ks_dddH_D0D0D1` -/
noncomputable def dddH_D0D0D1 (P : Par) (q : Pt) : ℝ :=
  P.Lam * P.M * ((P.a ^ 2 * (Z P q) ^ 2 + (R P q) ^ 4) ^ 3 * (R P q) ^ 2 * dddR_D0D0D1 P q - 2 * (P.a ^ 2 * (Z P q) ^ 2 + (R P q) ^ 4) ^ 2 * (2 * (P.a ^ 2 * R P q * Z P q
    * dZ_D0 P q - P.a ^ 2 * (Z P q) ^ 2 * dR_D0 P q + (R P q) ^ 4 * dR_D0 P q) * ddR_D0D1 P q + (P.a ^ 2 * R P q * Z P q * dZ_D1 P q - P.a ^ 2 * (Z P q) ^ 2 * dR_D1 P q +
    (R P q) ^ 4 * dR_D1 P q) * ddR_D0D0 P q) * R P q - 2 * (P.a ^ 2 * (Z P q) ^ 2 + (R P q) ^ 4) ^ 2 * (2 * (P.a ^ 2 * (Z P q * ddZ_D0D1 P q + dZ_D0 P q * dZ_D1 P q) * (R
    P q) ^ 2 - P.a ^ 2 * (Z P q * ddR_D0D1 P q + 2 * dR_D0 P q * dZ_D1 P q + 2 * dR_D1 P q * dZ_D0 P q) * R P q * Z P q + 3 * P.a ^ 2 * (Z P q) ^ 2 * dR_D0 P q * dR_D1 P
    q + (R P q * ddR_D0D1 P q + dR_D0 P q * dR_D1 P q) * (R P q) ^ 4) * dR_D0 P q + ((-P.a ^ 2) * (Z P q * ddR_D0D0 P q + 4 * dR_D0 P q * dZ_D0 P q) * R P q * Z P q + P.a
    ^ 2 * (Z P q * ddZ_D0D0 P q + (dZ_D0 P q) ^ 2) * (R P q) ^ 2 + 3 * P.a ^ 2 * (Z P q) ^ 2 * (dR_D0 P q) ^ 2 + (R P q * ddR_D0D0 P q + (dR_D0 P q) ^ 2) * (R P q) ^ 4) *
    dR_D1 P q) - 2 * (P.a ^ 2 * (Z P q) ^ 2 + (R P q) ^ 4) ^ 2 * (P.a ^ 2 * (Z P q * dddZ_D0D0D1 P q + 2 * dZ_D0 P q * ddZ_D0D1 P q + ddZ_D0D0 P q * dZ_D1 P q) * (R P q)
    ^ 3 + 3 * P.a ^ 2 * (2 * Z P q * dR_D0 P q * ddR_D0D1 P q + Z P q * ddR_D0D0 P q * dR_D1 P q + 2 * (dR_D0 P q) ^ 2 * dZ_D1 P q + 4 * dR_D0 P q * dR_D1 P q * dZ_D0 P
    q) * R P q * Z P q - P.a ^ 2 * ((Z P q) ^ 2 * dddR_D0D0D1 P q + 4 * Z P q * dR_D0 P q * ddZ_D0D1 P q + 2 * Z P q * ddR_D0D0 P q * dZ_D1 P q + 2 * Z P q * dR_D1 P q *
    ddZ_D0D0 P q + 4 * Z P q * dZ_D0 P q * ddR_D0D1 P q + 4 * dR_D0 P q * dZ_D0 P q * dZ_D1 P q + 2 * dR_D1 P q * (dZ_D0 P q) ^ 2) * (R P q) ^ 2 - 12 * P.a ^ 2 * (Z P q)
    ^ 2 * (dR_D0 P q) ^ 2 * dR_D1 P q + (R P q * dddR_D0D0D1 P q + 2 * dR_D0 P q * ddR_D0D1 P q + ddR_D0D0 P q * dR_D1 P q) * (R P q) ^ 5) + 8 * (P.a ^ 2 * (Z P q) ^ 2 +
    (R P q) ^ 4) * (2 * (P.a ^ 2 * R P q * Z P q * dZ_D0 P q - P.a ^ 2 * (Z P q) ^ 2 * dR_D0 P q + (R P q) ^ 4 * dR_D0 P q) * (P.a ^ 2 * (Z P q * ddZ_D0D1 P q + dZ_D0 P q
    * dZ_D1 P q) * (R P q) ^ 2 - P.a ^ 2 * (Z P q * ddR_D0D1 P q + 2 * dR_D0 P q * dZ_D1 P q + 2 * dR_D1 P q * dZ_D0 P q) * R P q * Z P q + 3 * P.a ^ 2 * (Z P q) ^ 2 *
    dR_D0 P q * dR_D1 P q + (R P q * ddR_D0D1 P q + dR_D0 P q * dR_D1 P q) * (R P q) ^ 4) + (P.a ^ 2 * R P q * Z P q * dZ_D1 P q - P.a ^ 2 * (Z P q) ^ 2 * dR_D1 P q + (R
    P q) ^ 4 * dR_D1 P q) * ((-P.a ^ 2) * (Z P q * ddR_D0D0 P q + 4 * dR_D0 P q * dZ_D0 P q) * R P q * Z P q + P.a ^ 2 * (Z P q * ddZ_D0D0 P q + (dZ_D0 P q) ^ 2) * (R P
    q) ^ 2 + 3 * P.a ^ 2 * (Z P q) ^ 2 * (dR_D0 P q) ^ 2 + (R P q * ddR_D0D0 P q + (dR_D0 P q) ^ 2) * (R P q) ^ 4)) + 8 * (P.a ^ 2 * (Z P q) ^ 2 + (R P q) ^ 4) * ((P.a ^
    2 * R P q * Z P q * dZ_D0 P q - P.a ^ 2 * (Z P q) ^ 2 * dR_D0 P q + (R P q) ^ 4 * dR_D0 P q) * dR_D1 P q + 2 * (P.a ^ 2 * R P q * Z P q * dZ_D1 P q - P.a ^ 2 * (Z P
    q) ^ 2 * dR_D1 P q + (R P q) ^ 4 * dR_D1 P q) * dR_D0 P q) * (P.a ^ 2 * R P q * Z P q * dZ_D0 P q - P.a ^ 2 * (Z P q) ^ 2 * dR_D0 P q + (R P q) ^ 4 * dR_D0 P q) - 48
    * (P.a ^ 2 * R P q * Z P q * dZ_D0 P q - P.a ^ 2 * (Z P q) ^ 2 * dR_D0 P q + (R P q) ^ 4 * dR_D0 P q) ^ 2 * (P.a ^ 2 * R P q * Z P q * dZ_D1 P q - P.a ^ 2 * (Z P q) ^
    2 * dR_D1 P q + (R P q) ^ 4 * dR_D1 P q)) / (P.a ^ 2 * (Z P q) ^ 2 + (R P q) ^ 4) ^ 4

/-- Free_Data/fd_KerrSchild_H_K0_K1_K2.c:4246-4348 `fd_ks_dddH_D0D0D2` -/
noncomputable def dddH_D0D0D2 (P : Par) (q : Pt) : ℝ :=
  P.Lam * P.M * ((P.a ^ 2 * (Z P q) ^ 2 + (R P q) ^ 4) ^ 3 * (R P q) ^ 2 * dddR_D0D0D2 P q - 2 * (P.a ^ 2 * (Z P q) ^ 2 + (R P q) ^ 4) ^ 2 * (2 * (P.a ^ 2 * R P q * Z P q
    * dZ_D0 P q - P.a ^ 2 * (Z P q) ^ 2 * dR_D0 P q + (R P q) ^ 4 * dR_D0 P q) * ddR_D0D2 P q + (P.a ^ 2 * R P q * Z P q * dZ_D2 P q - P.a ^ 2 * (Z P q) ^ 2 * dR_D2 P q +
    (R P q) ^ 4 * dR_D2 P q) * ddR_D0D0 P q) * R P q - 2 * (P.a ^ 2 * (Z P q) ^ 2 + (R P q) ^ 4) ^ 2 * (2 * (P.a ^ 2 * (Z P q * ddZ_D0D2 P q + dZ_D0 P q * dZ_D2 P q) * (R
    P q) ^ 2 - P.a ^ 2 * (Z P q * ddR_D0D2 P q + 2 * dR_D0 P q * dZ_D2 P q + 2 * dR_D2 P q * dZ_D0 P q) * R P q * Z P q + 3 * P.a ^ 2 * (Z P q) ^ 2 * dR_D0 P q * dR_D2 P
    q + (R P q * ddR_D0D2 P q + dR_D0 P q * dR_D2 P q) * (R P q) ^ 4) * dR_D0 P q + ((-P.a ^ 2) * (Z P q * ddR_D0D0 P q + 4 * dR_D0 P q * dZ_D0 P q) * R P q * Z P q + P.a
    ^ 2 * (Z P q * ddZ_D0D0 P q + (dZ_D0 P q) ^ 2) * (R P q) ^ 2 + 3 * P.a ^ 2 * (Z P q) ^ 2 * (dR_D0 P q) ^ 2 + (R P q * ddR_D0D0 P q + (dR_D0 P q) ^ 2) * (R P q) ^ 4) *
    dR_D2 P q) - 2 * (P.a ^ 2 * (Z P q) ^ 2 + (R P q) ^ 4) ^ 2 * (P.a ^ 2 * (Z P q * dddZ_D0D0D2 P q + 2 * dZ_D0 P q * ddZ_D0D2 P q + ddZ_D0D0 P q * dZ_D2 P q) * (R P q)
    ^ 3 + 3 * P.a ^ 2 * (2 * Z P q * dR_D0 P q * ddR_D0D2 P q + Z P q * ddR_D0D0 P q * dR_D2 P q + 2 * (dR_D0 P q) ^ 2 * dZ_D2 P q + 4 * dR_D0 P q * dR_D2 P q * dZ_D0 P
    q) * R P q * Z P q - P.a ^ 2 * ((Z P q) ^ 2 * dddR_D0D0D2 P q + 4 * Z P q * dR_D0 P q * ddZ_D0D2 P q + 2 * Z P q * ddR_D0D0 P q * dZ_D2 P q + 2 * Z P q * dR_D2 P q *
    ddZ_D0D0 P q + 4 * Z P q * dZ_D0 P q * ddR_D0D2 P q + 4 * dR_D0 P q * dZ_D0 P q * dZ_D2 P q + 2 * dR_D2 P q * (dZ_D0 P q) ^ 2) * (R P q) ^ 2 - 12 * P.a ^ 2 * (Z P q)
    ^ 2 * (dR_D0 P q) ^ 2 * dR_D2 P q + (R P q * dddR_D0D0D2 P q + 2 * dR_D0 P q * ddR_D0D2 P q + ddR_D0D0 P q * dR_D2 P q) * (R P q) ^ 5) + 8 * (P.a ^ 2 * (Z P q) ^ 2 +
    (R P q) ^ 4) * (2 * (P.a ^ 2 * R P q * Z P q * dZ_D0 P q - P.a ^ 2 * (Z P q) ^ 2 * dR_D0 P q + (R P q) ^ 4 * dR_D0 P q) * (P.a ^ 2 * (Z P q * ddZ_D0D2 P q + dZ_D0 P q
    * dZ_D2 P q) * (R P q) ^ 2 - P.a ^ 2 * (Z P q * ddR_D0D2 P q + 2 * dR_D0 P q * dZ_D2 P q + 2 * dR_D2 P q * dZ_D0 P q) * R P q * Z P q + 3 * P.a ^ 2 * (Z P q) ^ 2 *
    dR_D0 P q * dR_D2 P q + (R P q * ddR_D0D2 P q + dR_D0 P q * dR_D2 P q) * (R P q) ^ 4) + (P.a ^ 2 * R P q * Z P q * dZ_D2 P q - P.a ^ 2 * (Z P q) ^ 2 * dR_D2 P q + (R
    P q) ^ 4 * dR_D2 P q) * ((-P.a ^ 2) * (Z P q * ddR_D0D0 P q + 4 * dR_D0 P q * dZ_D0 P q) * R P q * Z P q + P.a ^ 2 * (Z P q * ddZ_D0D0 P q + (dZ_D0 P q) ^ 2) * (R P
    q) ^ 2 + 3 * P.a ^ 2 * (Z P q) ^ 2 * (dR_D0 P q) ^ 2 + (R P q * ddR_D0D0 P q + (dR_D0 P q) ^ 2) * (R P q) ^ 4)) + 8 * (P.a ^ 2 * (Z P q) ^ 2 + (R P q) ^ 4) * ((P.a ^
    2 * R P q * Z P q * dZ_D0 P q - P.a ^ 2 * (Z P q) ^ 2 * dR_D0 P q + (R P q) ^ 4 * dR_D0 P q) * dR_D2 P q + 2 * (P.a ^ 2 * R P q * Z P q * dZ_D2 P q - P.a ^ 2 * (Z P
    q) ^ 2 * dR_D2 P q + (R P q) ^ 4 * dR_D2 P q) * dR_D0 P q) * (P.a ^ 2 * R P q * Z P q * dZ_D0 P q - P.a ^ 2 * (Z P q) ^ 2 * dR_D0 P q + (R P q) ^ 4 * dR_D0 P q) - 48
    * (P.a ^ 2 * R P q * Z P q * dZ_D0 P q - P.a ^ 2 * (Z P q) ^ 2 * dR_D0 P q + (R P q) ^ 4 * dR_D0 P q) ^ 2 * (P.a ^ 2 * R P q * Z P q * dZ_D2 P q - P.a ^ 2 * (Z P q) ^
    2 * dR_D2 P q + (R P q) ^ 4 * dR_D2 P q)) / (P.a ^ 2 * (Z P q) ^ 2 + (R P q) ^ 4) ^ 4

/-- Free_Data/fd_KerrSchild_H_K0_K1_K2.c:5626-5728 `fd_ks_dddH_D0D1D0` -/
noncomputable def dddH_D0D1D0 (P : Par) (q : Pt) : ℝ :=
  P.Lam * P.M * ((P.a ^ 2 * (Z P q) ^ 2 + (R P q) ^ 4) ^ 3 * (R P q) ^ 2 * dddR_D0D0D1 P q - 2 * (P.a ^ 2 * (Z P q) ^ 2 + (R P q) ^ 4) ^ 2 * (2 * (P.a ^ 2 * R P q * Z P q
    * dZ_D0 P q - P.a ^ 2 * (Z P q) ^ 2 * dR_D0 P q + (R P q) ^ 4 * dR_D0 P q) * ddR_D0D1 P q + (P.a ^ 2 * R P q * Z P q * dZ_D1 P q - P.a ^ 2 * (Z P q) ^ 2 * dR_D1 P q +
    (R P q) ^ 4 * dR_D1 P q) * ddR_D0D0 P q) * R P q - 2 * (P.a ^ 2 * (Z P q) ^ 2 + (R P q) ^ 4) ^ 2 * (2 * (P.a ^ 2 * (Z P q * ddZ_D0D1 P q + dZ_D0 P q * dZ_D1 P q) * (R
    P q) ^ 2 - P.a ^ 2 * (Z P q * ddR_D0D1 P q + 2 * dR_D0 P q * dZ_D1 P q + 2 * dR_D1 P q * dZ_D0 P q) * R P q * Z P q + 3 * P.a ^ 2 * (Z P q) ^ 2 * dR_D0 P q * dR_D1 P
    q + (R P q * ddR_D0D1 P q + dR_D0 P q * dR_D1 P q) * (R P q) ^ 4) * dR_D0 P q + ((-P.a ^ 2) * (Z P q * ddR_D0D0 P q + 4 * dR_D0 P q * dZ_D0 P q) * R P q * Z P q + P.a
    ^ 2 * (Z P q * ddZ_D0D0 P q + (dZ_D0 P q) ^ 2) * (R P q) ^ 2 + 3 * P.a ^ 2 * (Z P q) ^ 2 * (dR_D0 P q) ^ 2 + (R P q * ddR_D0D0 P q + (dR_D0 P q) ^ 2) * (R P q) ^ 4) *
    dR_D1 P q) - 2 * (P.a ^ 2 * (Z P q) ^ 2 + (R P q) ^ 4) ^ 2 * (P.a ^ 2 * (Z P q * dddZ_D0D0D1 P q + 2 * dZ_D0 P q * ddZ_D0D1 P q + ddZ_D0D0 P q * dZ_D1 P q) * (R P q)
    ^ 3 + 3 * P.a ^ 2 * (2 * Z P q * dR_D0 P q * ddR_D0D1 P q + Z P q * ddR_D0D0 P q * dR_D1 P q + 2 * (dR_D0 P q) ^ 2 * dZ_D1 P q + 4 * dR_D0 P q * dR_D1 P q * dZ_D0 P
    q) * R P q * Z P q - P.a ^ 2 * ((Z P q) ^ 2 * dddR_D0D0D1 P q + 4 * Z P q * dR_D0 P q * ddZ_D0D1 P q + 2 * Z P q * ddR_D0D0 P q * dZ_D1 P q + 2 * Z P q * dR_D1 P q *
    ddZ_D0D0 P q + 4 * Z P q * dZ_D0 P q * ddR_D0D1 P q + 4 * dR_D0 P q * dZ_D0 P q * dZ_D1 P q + 2 * dR_D1 P q * (dZ_D0 P q) ^ 2) * (R P q) ^ 2 - 12 * P.a ^ 2 * (Z P q)
    ^ 2 * (dR_D0 P q) ^ 2 * dR_D1 P q + (R P q * dddR_D0D0D1 P q + 2 * dR_D0 P q * ddR_D0D1 P q + ddR_D0D0 P q * dR_D1 P q) * (R P q) ^ 5) + 8 * (P.a ^ 2 * (Z P q) ^ 2 +
    (R P q) ^ 4) * (2 * (P.a ^ 2 * R P q * Z P q * dZ_D0 P q - P.a ^ 2 * (Z P q) ^ 2 * dR_D0 P q + (R P q) ^ 4 * dR_D0 P q) * (P.a ^ 2 * (Z P q * ddZ_D0D1 P q + dZ_D0 P q
    * dZ_D1 P q) * (R P q) ^ 2 - P.a ^ 2 * (Z P q * ddR_D0D1 P q + 2 * dR_D0 P q * dZ_D1 P q + 2 * dR_D1 P q * dZ_D0 P q) * R P q * Z P q + 3 * P.a ^ 2 * (Z P q) ^ 2 *
    dR_D0 P q * dR_D1 P q + (R P q * ddR_D0D1 P q + dR_D0 P q * dR_D1 P q) * (R P q) ^ 4) + (P.a ^ 2 * R P q * Z P q * dZ_D1 P q - P.a ^ 2 * (Z P q) ^ 2 * dR_D1 P q + (R
    P q) ^ 4 * dR_D1 P q) * ((-P.a ^ 2) * (Z P q * ddR_D0D0 P q + 4 * dR_D0 P q * dZ_D0 P q) * R P q * Z P q + P.a ^ 2 * (Z P q * ddZ_D0D0 P q + (dZ_D0 P q) ^ 2) * (R P
    q) ^ 2 + 3 * P.a ^ 2 * (Z P q) ^ 2 * (dR_D0 P q) ^ 2 + (R P q * ddR_D0D0 P q + (dR_D0 P q) ^ 2) * (R P q) ^ 4)) + 8 * (P.a ^ 2 * (Z P q) ^ 2 + (R P q) ^ 4) * ((P.a ^
    2 * R P q * Z P q * dZ_D0 P q - P.a ^ 2 * (Z P q) ^ 2 * dR_D0 P q + (R P q) ^ 4 * dR_D0 P q) * dR_D1 P q + 2 * (P.a ^ 2 * R P q * Z P q * dZ_D1 P q - P.a ^ 2 * (Z P
    q) ^ 2 * dR_D1 P q + (R P q) ^ 4 * dR_D1 P q) * dR_D0 P q) * (P.a ^ 2 * R P q * Z P q * dZ_D0 P q - P.a ^ 2 * (Z P q) ^ 2 * dR_D0 P q + (R P q) ^ 4 * dR_D0 P q) - 48
    * (P.a ^ 2 * R P q * Z P q * dZ_D0 P q - P.a ^ 2 * (Z P q) ^ 2 * dR_D0 P q + (R P q) ^ 4 * dR_D0 P q) ^ 2 * (P.a ^ 2 * R P q * Z P q * dZ_D1 P q - P.a ^ 2 * (Z P q) ^
    2 * dR_D1 P q + (R P q) ^ 4 * dR_D1 P q)) / (P.a ^ 2 * (Z P q) ^ 2 + (R P q) ^ 4) ^ 4

/-- Free_Data/fd_KerrSchild_H_K0_K1_K2.c:4041-4142 `fd_ks_dddH_D0D1D1` -/
noncomputable def dddH_D0D1D1 (P : Par) (q : Pt) : ℝ :=
  P.Lam * P.M * ((P.a ^ 2 * (Z P q) ^ 2 + (R P q) ^ 4) ^ 3 * (R P q) ^ 2 * dddR_D0D1D1 P q - 2 * (P.a ^ 2 * (Z P q) ^ 2 + (R P q) ^ 4) ^ 2 * ((P.a ^ 2 * R P q * Z P q *
    dZ_D0 P q - P.a ^ 2 * (Z P q) ^ 2 * dR_D0 P q + (R P q) ^ 4 * dR_D0 P q) * ddR_D1D1 P q + 2 * (P.a ^ 2 * R P q * Z P q * dZ_D1 P q - P.a ^ 2 * (Z P q) ^ 2 * dR_D1 P q
    + (R P q) ^ 4 * dR_D1 P q) * ddR_D0D1 P q) * R P q - 2 * (P.a ^ 2 * (Z P q) ^ 2 + (R P q) ^ 4) ^ 2 * (2 * (P.a ^ 2 * (Z P q * ddZ_D0D1 P q + dZ_D0 P q * dZ_D1 P q) *
    (R P q) ^ 2 - P.a ^ 2 * (Z P q * ddR_D0D1 P q + 2 * dR_D0 P q * dZ_D1 P q + 2 * dR_D1 P q * dZ_D0 P q) * R P q * Z P q + 3 * P.a ^ 2 * (Z P q) ^ 2 * dR_D0 P q * dR_D1
    P q + (R P q * ddR_D0D1 P q + dR_D0 P q * dR_D1 P q) * (R P q) ^ 4) * dR_D1 P q + ((-P.a ^ 2) * (Z P q * ddR_D1D1 P q + 4 * dR_D1 P q * dZ_D1 P q) * R P q * Z P q +
    P.a ^ 2 * (Z P q * ddZ_D1D1 P q + (dZ_D1 P q) ^ 2) * (R P q) ^ 2 + 3 * P.a ^ 2 * (Z P q) ^ 2 * (dR_D1 P q) ^ 2 + (R P q * ddR_D1D1 P q + (dR_D1 P q) ^ 2) * (R P q) ^
    4) * dR_D0 P q) - 2 * (P.a ^ 2 * (Z P q) ^ 2 + (R P q) ^ 4) ^ 2 * (P.a ^ 2 * (Z P q * dddZ_D0D1D1 P q + dZ_D0 P q * ddZ_D1D1 P q + 2 * dZ_D1 P q * ddZ_D0D1 P q) * (R
    P q) ^ 3 + 3 * P.a ^ 2 * (Z P q * dR_D0 P q * ddR_D1D1 P q + 2 * Z P q * dR_D1 P q * ddR_D0D1 P q + 4 * dR_D0 P q * dR_D1 P q * dZ_D1 P q + 2 * (dR_D1 P q) ^ 2 *
    dZ_D0 P q) * R P q * Z P q - P.a ^ 2 * ((Z P q) ^ 2 * dddR_D0D1D1 P q + 2 * Z P q * dR_D0 P q * ddZ_D1D1 P q + 4 * Z P q * dR_D1 P q * ddZ_D0D1 P q + 2 * Z P q *
    ddR_D1D1 P q * dZ_D0 P q + 4 * Z P q * dZ_D1 P q * ddR_D0D1 P q + 2 * dR_D0 P q * (dZ_D1 P q) ^ 2 + 4 * dR_D1 P q * dZ_D0 P q * dZ_D1 P q) * (R P q) ^ 2 - 12 * P.a ^
    2 * (Z P q) ^ 2 * dR_D0 P q * (dR_D1 P q) ^ 2 + (R P q * dddR_D0D1D1 P q + dR_D0 P q * ddR_D1D1 P q + 2 * dR_D1 P q * ddR_D0D1 P q) * (R P q) ^ 5) + 8 * (P.a ^ 2 * (Z
    P q) ^ 2 + (R P q) ^ 4) * ((P.a ^ 2 * R P q * Z P q * dZ_D0 P q - P.a ^ 2 * (Z P q) ^ 2 * dR_D0 P q + (R P q) ^ 4 * dR_D0 P q) * ((-P.a ^ 2) * (Z P q * ddR_D1D1 P q +
    4 * dR_D1 P q * dZ_D1 P q) * R P q * Z P q + P.a ^ 2 * (Z P q * ddZ_D1D1 P q + (dZ_D1 P q) ^ 2) * (R P q) ^ 2 + 3 * P.a ^ 2 * (Z P q) ^ 2 * (dR_D1 P q) ^ 2 + (R P q *
    ddR_D1D1 P q + (dR_D1 P q) ^ 2) * (R P q) ^ 4) + 2 * (P.a ^ 2 * R P q * Z P q * dZ_D1 P q - P.a ^ 2 * (Z P q) ^ 2 * dR_D1 P q + (R P q) ^ 4 * dR_D1 P q) * (P.a ^ 2 *
    (Z P q * ddZ_D0D1 P q + dZ_D0 P q * dZ_D1 P q) * (R P q) ^ 2 - P.a ^ 2 * (Z P q * ddR_D0D1 P q + 2 * dR_D0 P q * dZ_D1 P q + 2 * dR_D1 P q * dZ_D0 P q) * R P q * Z P
    q + 3 * P.a ^ 2 * (Z P q) ^ 2 * dR_D0 P q * dR_D1 P q + (R P q * ddR_D0D1 P q + dR_D0 P q * dR_D1 P q) * (R P q) ^ 4)) + 8 * (P.a ^ 2 * (Z P q) ^ 2 + (R P q) ^ 4) *
    (2 * (P.a ^ 2 * R P q * Z P q * dZ_D0 P q - P.a ^ 2 * (Z P q) ^ 2 * dR_D0 P q + (R P q) ^ 4 * dR_D0 P q) * dR_D1 P q + (P.a ^ 2 * R P q * Z P q * dZ_D1 P q - P.a ^ 2
    * (Z P q) ^ 2 * dR_D1 P q + (R P q) ^ 4 * dR_D1 P q) * dR_D0 P q) * (P.a ^ 2 * R P q * Z P q * dZ_D1 P q - P.a ^ 2 * (Z P q) ^ 2 * dR_D1 P q + (R P q) ^ 4 * dR_D1 P
    q) - 48 * (P.a ^ 2 * R P q * Z P q * dZ_D0 P q - P.a ^ 2 * (Z P q) ^ 2 * dR_D0 P q + (R P q) ^ 4 * dR_D0 P q) * (P.a ^ 2 * R P q * Z P q * dZ_D1 P q - P.a ^ 2 * (Z P
    q) ^ 2 * dR_D1 P q + (R P q) ^ 4 * dR_D1 P q) ^ 2) / (P.a ^ 2 * (Z P q) ^ 2 + (R P q) ^ 4) ^ 4

/-- Free_Data/fd_KerrSchild_H_K0_K1_K2.c:4349-4496 `fd_ks_dddH_D0D1D2` -/
noncomputable def dddH_D0D1D2 (P : Par) (q : Pt) : ℝ :=
  P.Lam * P.M * ((-2) * P.a ^ 6 * (R P q) ^ 3 * (Z P q) ^ 5 * dddZ_D0D1D2 P q + 6 * P.a ^ 6 * (R P q) ^ 3 * (Z P q) ^ 4 * dZ_D0 P q * ddZ_D1D2 P q + 6 * P.a ^ 6 * (R P q)
    ^ 3 * (Z P q) ^ 4 * dZ_D1 P q * ddZ_D0D2 P q + 6 * P.a ^ 6 * (R P q) ^ 3 * (Z P q) ^ 4 * dZ_D2 P q * ddZ_D0D1 P q - 24 * P.a ^ 6 * (R P q) ^ 3 * (Z P q) ^ 3 * dZ_D0 P
    q * dZ_D1 P q * dZ_D2 P q + 3 * P.a ^ 6 * (R P q) ^ 2 * (Z P q) ^ 6 * dddR_D0D1D2 P q - 6 * P.a ^ 6 * (R P q) ^ 2 * (Z P q) ^ 5 * dR_D0 P q * ddZ_D1D2 P q - 6 * P.a ^
    6 * (R P q) ^ 2 * (Z P q) ^ 5 * dR_D1 P q * ddZ_D0D2 P q - 6 * P.a ^ 6 * (R P q) ^ 2 * (Z P q) ^ 5 * dR_D2 P q * ddZ_D0D1 P q - 6 * P.a ^ 6 * (R P q) ^ 2 * (Z P q) ^
    5 * dZ_D0 P q * ddR_D1D2 P q - 6 * P.a ^ 6 * (R P q) ^ 2 * (Z P q) ^ 5 * dZ_D1 P q * ddR_D0D2 P q - 6 * P.a ^ 6 * (R P q) ^ 2 * (Z P q) ^ 5 * dZ_D2 P q * ddR_D0D1 P q
    + 18 * P.a ^ 6 * (R P q) ^ 2 * (Z P q) ^ 4 * dR_D0 P q * dZ_D1 P q * dZ_D2 P q + 18 * P.a ^ 6 * (R P q) ^ 2 * (Z P q) ^ 4 * dR_D1 P q * dZ_D0 P q * dZ_D2 P q + 18 *
    P.a ^ 6 * (R P q) ^ 2 * (Z P q) ^ 4 * dR_D2 P q * dZ_D0 P q * dZ_D1 P q + 6 * P.a ^ 6 * R P q * (Z P q) ^ 6 * dR_D0 P q * ddR_D1D2 P q + 6 * P.a ^ 6 * R P q * (Z P q)
    ^ 6 * dR_D1 P q * ddR_D0D2 P q + 6 * P.a ^ 6 * R P q * (Z P q) ^ 6 * dR_D2 P q * ddR_D0D1 P q - 12 * P.a ^ 6 * R P q * (Z P q) ^ 5 * dR_D0 P q * dR_D1 P q * dZ_D2 P q
    - 12 * P.a ^ 6 * R P q * (Z P q) ^ 5 * dR_D0 P q * dR_D2 P q * dZ_D1 P q - 12 * P.a ^ 6 * R P q * (Z P q) ^ 5 * dR_D1 P q * dR_D2 P q * dZ_D0 P q + 6 * P.a ^ 6 * (Z P
    q) ^ 6 * dR_D0 P q * dR_D1 P q * dR_D2 P q - 4 * P.a ^ 4 * (R P q) ^ 7 * (Z P q) ^ 3 * dddZ_D0D1D2 P q + 4 * P.a ^ 4 * (R P q) ^ 7 * (Z P q) ^ 2 * dZ_D0 P q *
    ddZ_D1D2 P q + 4 * P.a ^ 4 * (R P q) ^ 7 * (Z P q) ^ 2 * dZ_D1 P q * ddZ_D0D2 P q + 4 * P.a ^ 4 * (R P q) ^ 7 * (Z P q) ^ 2 * dZ_D2 P q * ddZ_D0D1 P q + 24 * P.a ^ 4
    * (R P q) ^ 7 * Z P q * dZ_D0 P q * dZ_D1 P q * dZ_D2 P q + 5 * P.a ^ 4 * (R P q) ^ 6 * (Z P q) ^ 4 * dddR_D0D1D2 P q + 4 * P.a ^ 4 * (R P q) ^ 6 * (Z P q) ^ 3 *
    dR_D0 P q * ddZ_D1D2 P q + 4 * P.a ^ 4 * (R P q) ^ 6 * (Z P q) ^ 3 * dR_D1 P q * ddZ_D0D2 P q + 4 * P.a ^ 4 * (R P q) ^ 6 * (Z P q) ^ 3 * dR_D2 P q * ddZ_D0D1 P q + 4
    * P.a ^ 4 * (R P q) ^ 6 * (Z P q) ^ 3 * dZ_D0 P q * ddR_D1D2 P q + 4 * P.a ^ 4 * (R P q) ^ 6 * (Z P q) ^ 3 * dZ_D1 P q * ddR_D0D2 P q + 4 * P.a ^ 4 * (R P q) ^ 6 * (Z
    P q) ^ 3 * dZ_D2 P q * ddR_D0D1 P q - 68 * P.a ^ 4 * (R P q) ^ 6 * (Z P q) ^ 2 * dR_D0 P q * dZ_D1 P q * dZ_D2 P q - 68 * P.a ^ 4 * (R P q) ^ 6 * (Z P q) ^ 2 * dR_D1
    P q * dZ_D0 P q * dZ_D2 P q - 68 * P.a ^ 4 * (R P q) ^ 6 * (Z P q) ^ 2 * dR_D2 P q * dZ_D0 P q * dZ_D1 P q - 18 * P.a ^ 4 * (R P q) ^ 5 * (Z P q) ^ 4 * dR_D0 P q *
    ddR_D1D2 P q - 18 * P.a ^ 4 * (R P q) ^ 5 * (Z P q) ^ 4 * dR_D1 P q * ddR_D0D2 P q - 18 * P.a ^ 4 * (R P q) ^ 5 * (Z P q) ^ 4 * dR_D2 P q * ddR_D0D1 P q + P.a ^ 4 *
    (R P q) ^ 5 * (Z P q) ^ 3 * dR_D0 P q * dR_D1 P q * dZ_D2 P q + P.a ^ 4 * (R P q) ^ 5 * (Z P q) ^ 3 * dR_D0 P q * dR_D2 P q * dZ_D1 P q + P.a ^ 4 * (R P q) ^ 5 * (Z P
    q) ^ 3 * dR_D1 P q * dR_D2 P q * dZ_D0 P q - 186 * P.a ^ 4 * (R P q) ^ 4 * (Z P q) ^ 4 * dR_D0 P q * dR_D1 P q * dR_D2 P q - 2 * P.a ^ 2 * (R P q) ^ 11 * Z P q *
    dddZ_D0D1D2 P q - 2 * P.a ^ 2 * (R P q) ^ 11 * dZ_D0 P q * ddZ_D1D2 P q - 2 * P.a ^ 2 * (R P q) ^ 11 * dZ_D1 P q * ddZ_D0D2 P q - 2 * P.a ^ 2 * (R P q) ^ 11 * dZ_D2 P
    q * ddZ_D0D1 P q + P.a ^ 2 * (R P q) ^ 10 * (Z P q) ^ 2 * dddR_D0D1D2 P q + 10 * P.a ^ 2 * (R P q) ^ 10 * Z P q * dR_D0 P q * ddZ_D1D2 P q + 10 * P.a ^ 2 * (R P q) ^
    10 * Z P q * dR_D1 P q * ddZ_D0D2 P q + 10 * P.a ^ 2 * (R P q) ^ 10 * Z P q * dR_D2 P q * ddZ_D0D1 P q + 10 * P.a ^ 2 * (R P q) ^ 10 * Z P q * dZ_D0 P q * ddR_D1D2 P
    q + 10 * P.a ^ 2 * (R P q) ^ 10 * Z P q * dZ_D1 P q * ddR_D0D2 P q + 10 * P.a ^ 2 * (R P q) ^ 10 * Z P q * dZ_D2 P q * ddR_D0D1 P q + 10 * P.a ^ 2 * (R P q) ^ 10 *
    dR_D0 P q * dZ_D1 P q * dZ_D2 P q + 10 * P.a ^ 2 * (R P q) ^ 10 * dR_D1 P q * dZ_D0 P q * dZ_D2 P q + 10 * P.a ^ 2 * (R P q) ^ 10 * dR_D2 P q * dZ_D0 P q * dZ_D1 P q
    - 22 * P.a ^ 2 * (R P q) ^ 9 * (Z P q) ^ 2 * dR_D0 P q * ddR_D1D2 P q - 22 * P.a ^ 2 * (R P q) ^ 9 * (Z P q) ^ 2 * dR_D1 P q * ddR_D0D2 P q - 22 * P.a ^ 2 * (R P q) ^
    9 * (Z P q) ^ 2 * dR_D2 P q * ddR_D0D1 P q - 60 * P.a ^ 2 * (R P q) ^ 9 * Z P q * dR_D0 P q * dR_D1 P q * dZ_D2 P q - 60 * P.a ^ 2 * (R P q) ^ 9 * Z P q * dR_D0 P q *
    dR_D2 P q * dZ_D1 P q - 60 * P.a ^ 2 * (R P q) ^ 9 * Z P q * dR_D1 P q * dR_D2 P q * dZ_D0 P q + 186 * P.a ^ 2 * (R P q) ^ 8 * (Z P q) ^ 2 * dR_D0 P q * dR_D1 P q *
    dR_D2 P q - (R P q) ^ 14 * dddR_D0D1D2 P q + 2 * (R P q) ^ 13 * dR_D0 P q * ddR_D1D2 P q + 2 * (R P q) ^ 13 * dR_D1 P q * ddR_D0D2 P q + 2 * (R P q) ^ 13 * dR_D2 P q
    * ddR_D0D1 P q - 6 * (R P q) ^ 12 * dR_D0 P q * dR_D1 P q * dR_D2 P q) / (P.a ^ 8 * (Z P q) ^ 8 + 4 * P.a ^ 6 * (R P q) ^ 4 * (Z P q) ^ 6 + 6 * P.a ^ 4 * (R P q) ^ 8
    * (Z P q) ^ 4 + 4 * P.a ^ 2 * (R P q) ^ 12 * (Z P q) ^ 2 + (R P q) ^ 16)

/-- Free_Data/fd_KerrSchild_H_K0_K1_K2.c:5112-5214 `fd_ks_dddH_D0D2D0` -/
noncomputable def dddH_D0D2D0 (P : Par) (q : Pt) : ℝ :=
  P.Lam * P.M * ((P.a ^ 2 * (Z P q) ^ 2 + (R P q) ^ 4) ^ 3 * (R P q) ^ 2 * dddR_D0D0D2 P q - 2 * (P.a ^ 2 * (Z P q) ^ 2 + (R P q) ^ 4) ^ 2 * (2 * (P.a ^ 2 * R P q * Z P q
    * dZ_D0 P q - P.a ^ 2 * (Z P q) ^ 2 * dR_D0 P q + (R P q) ^ 4 * dR_D0 P q) * ddR_D0D2 P q + (P.a ^ 2 * R P q * Z P q * dZ_D2 P q - P.a ^ 2 * (Z P q) ^ 2 * dR_D2 P q +
    (R P q) ^ 4 * dR_D2 P q) * ddR_D0D0 P q) * R P q - 2 * (P.a ^ 2 * (Z P q) ^ 2 + (R P q) ^ 4) ^ 2 * (2 * (P.a ^ 2 * (Z P q * ddZ_D0D2 P q + dZ_D0 P q * dZ_D2 P q) * (R
    P q) ^ 2 - P.a ^ 2 * (Z P q * ddR_D0D2 P q + 2 * dR_D0 P q * dZ_D2 P q + 2 * dR_D2 P q * dZ_D0 P q) * R P q * Z P q + 3 * P.a ^ 2 * (Z P q) ^ 2 * dR_D0 P q * dR_D2 P
    q + (R P q * ddR_D0D2 P q + dR_D0 P q * dR_D2 P q) * (R P q) ^ 4) * dR_D0 P q + ((-P.a ^ 2) * (Z P q * ddR_D0D0 P q + 4 * dR_D0 P q * dZ_D0 P q) * R P q * Z P q + P.a
    ^ 2 * (Z P q * ddZ_D0D0 P q + (dZ_D0 P q) ^ 2) * (R P q) ^ 2 + 3 * P.a ^ 2 * (Z P q) ^ 2 * (dR_D0 P q) ^ 2 + (R P q * ddR_D0D0 P q + (dR_D0 P q) ^ 2) * (R P q) ^ 4) *
    dR_D2 P q) - 2 * (P.a ^ 2 * (Z P q) ^ 2 + (R P q) ^ 4) ^ 2 * (P.a ^ 2 * (Z P q * dddZ_D0D0D2 P q + 2 * dZ_D0 P q * ddZ_D0D2 P q + ddZ_D0D0 P q * dZ_D2 P q) * (R P q)
    ^ 3 + 3 * P.a ^ 2 * (2 * Z P q * dR_D0 P q * ddR_D0D2 P q + Z P q * ddR_D0D0 P q * dR_D2 P q + 2 * (dR_D0 P q) ^ 2 * dZ_D2 P q + 4 * dR_D0 P q * dR_D2 P q * dZ_D0 P
    q) * R P q * Z P q - P.a ^ 2 * ((Z P q) ^ 2 * dddR_D0D0D2 P q + 4 * Z P q * dR_D0 P q * ddZ_D0D2 P q + 2 * Z P q * ddR_D0D0 P q * dZ_D2 P q + 2 * Z P q * dR_D2 P q *
    ddZ_D0D0 P q + 4 * Z P q * dZ_D0 P q * ddR_D0D2 P q + 4 * dR_D0 P q * dZ_D0 P q * dZ_D2 P q + 2 * dR_D2 P q * (dZ_D0 P q) ^ 2) * (R P q) ^ 2 - 12 * P.a ^ 2 * (Z P q)
    ^ 2 * (dR_D0 P q) ^ 2 * dR_D2 P q + (R P q * dddR_D0D0D2 P q + 2 * dR_D0 P q * ddR_D0D2 P q + ddR_D0D0 P q * dR_D2 P q) * (R P q) ^ 5) + 8 * (P.a ^ 2 * (Z P q) ^ 2 +
    (R P q) ^ 4) * (2 * (P.a ^ 2 * R P q * Z P q * dZ_D0 P q - P.a ^ 2 * (Z P q) ^ 2 * dR_D0 P q + (R P q) ^ 4 * dR_D0 P q) * (P.a ^ 2 * (Z P q * ddZ_D0D2 P q + dZ_D0 P q
    * dZ_D2 P q) * (R P q) ^ 2 - P.a ^ 2 * (Z P q * ddR_D0D2 P q + 2 * dR_D0 P q * dZ_D2 P q + 2 * dR_D2 P q * dZ_D0 P q) * R P q * Z P q + 3 * P.a ^ 2 * (Z P q) ^ 2 *
    dR_D0 P q * dR_D2 P q + (R P q * ddR_D0D2 P q + dR_D0 P q * dR_D2 P q) * (R P q) ^ 4) + (P.a ^ 2 * R P q * Z P q * dZ_D2 P q - P.a ^ 2 * (Z P q) ^ 2 * dR_D2 P q + (R
    P q) ^ 4 * dR_D2 P q) * ((-P.a ^ 2) * (Z P q * ddR_D0D0 P q + 4 * dR_D0 P q * dZ_D0 P q) * R P q * Z P q + P.a ^ 2 * (Z P q * ddZ_D0D0 P q + (dZ_D0 P q) ^ 2) * (R P
    q) ^ 2 + 3 * P.a ^ 2 * (Z P q) ^ 2 * (dR_D0 P q) ^ 2 + (R P q * ddR_D0D0 P q + (dR_D0 P q) ^ 2) * (R P q) ^ 4)) + 8 * (P.a ^ 2 * (Z P q) ^ 2 + (R P q) ^ 4) * ((P.a ^
    2 * R P q * Z P q * dZ_D0 P q - P.a ^ 2 * (Z P q) ^ 2 * dR_D0 P q + (R P q) ^ 4 * dR_D0 P q) * dR_D2 P q + 2 * (P.a ^ 2 * R P q * Z P q * dZ_D2 P q - P.a ^ 2 * (Z P
    q) ^ 2 * dR_D2 P q + (R P q) ^ 4 * dR_D2 P q) * dR_D0 P q) * (P.a ^ 2 * R P q * Z P q * dZ_D0 P q - P.a ^ 2 * (Z P q) ^ 2 * dR_D0 P q + (R P q) ^ 4 * dR_D0 P q) - 48
    * (P.a ^ 2 * R P q * Z P q * dZ_D0 P q - P.a ^ 2 * (Z P q) ^ 2 * dR_D0 P q + (R P q) ^ 4 * dR_D0 P q) ^ 2 * (P.a ^ 2 * R P q * Z P q * dZ_D2 P q - P.a ^ 2 * (Z P q) ^
    2 * dR_D2 P q + (R P q) ^ 4 * dR_D2 P q)) / (P.a ^ 2 * (Z P q) ^ 2 + (R P q) ^ 4) ^ 4

/-- Free_Data/fd_KerrSchild_H_K0_K1_K2.c:5215-5362 `fd_ks_dddH_D0D2D1` -/
noncomputable def dddH_D0D2D1 (P : Par) (q : Pt) : ℝ :=
  P.Lam * P.M * ((-2) * P.a ^ 6 * (R P q) ^ 3 * (Z P q) ^ 5 * dddZ_D0D1D2 P q + 6 * P.a ^ 6 * (R P q) ^ 3 * (Z P q) ^ 4 * dZ_D0 P q * ddZ_D1D2 P q + 6 * P.a ^ 6 * (R P q)
    ^ 3 * (Z P q) ^ 4 * dZ_D1 P q * ddZ_D0D2 P q + 6 * P.a ^ 6 * (R P q) ^ 3 * (Z P q) ^ 4 * dZ_D2 P q * ddZ_D0D1 P q - 24 * P.a ^ 6 * (R P q) ^ 3 * (Z P q) ^ 3 * dZ_D0 P
    q * dZ_D1 P q * dZ_D2 P q + 3 * P.a ^ 6 * (R P q) ^ 2 * (Z P q) ^ 6 * dddR_D0D1D2 P q - 6 * P.a ^ 6 * (R P q) ^ 2 * (Z P q) ^ 5 * dR_D0 P q * ddZ_D1D2 P q - 6 * P.a ^
    6 * (R P q) ^ 2 * (Z P q) ^ 5 * dR_D1 P q * ddZ_D0D2 P q - 6 * P.a ^ 6 * (R P q) ^ 2 * (Z P q) ^ 5 * dR_D2 P q * ddZ_D0D1 P q - 6 * P.a ^ 6 * (R P q) ^ 2 * (Z P q) ^
    5 * dZ_D0 P q * ddR_D1D2 P q - 6 * P.a ^ 6 * (R P q) ^ 2 * (Z P q) ^ 5 * dZ_D1 P q * ddR_D0D2 P q - 6 * P.a ^ 6 * (R P q) ^ 2 * (Z P q) ^ 5 * dZ_D2 P q * ddR_D0D1 P q
    + 18 * P.a ^ 6 * (R P q) ^ 2 * (Z P q) ^ 4 * dR_D0 P q * dZ_D1 P q * dZ_D2 P q + 18 * P.a ^ 6 * (R P q) ^ 2 * (Z P q) ^ 4 * dR_D1 P q * dZ_D0 P q * dZ_D2 P q + 18 *
    P.a ^ 6 * (R P q) ^ 2 * (Z P q) ^ 4 * dR_D2 P q * dZ_D0 P q * dZ_D1 P q + 6 * P.a ^ 6 * R P q * (Z P q) ^ 6 * dR_D0 P q * ddR_D1D2 P q + 6 * P.a ^ 6 * R P q * (Z P q)
    ^ 6 * dR_D1 P q * ddR_D0D2 P q + 6 * P.a ^ 6 * R P q * (Z P q) ^ 6 * dR_D2 P q * ddR_D0D1 P q - 12 * P.a ^ 6 * R P q * (Z P q) ^ 5 * dR_D0 P q * dR_D1 P q * dZ_D2 P q
    - 12 * P.a ^ 6 * R P q * (Z P q) ^ 5 * dR_D0 P q * dR_D2 P q * dZ_D1 P q - 12 * P.a ^ 6 * R P q * (Z P q) ^ 5 * dR_D1 P q * dR_D2 P q * dZ_D0 P q + 6 * P.a ^ 6 * (Z P
    q) ^ 6 * dR_D0 P q * dR_D1 P q * dR_D2 P q - 4 * P.a ^ 4 * (R P q) ^ 7 * (Z P q) ^ 3 * dddZ_D0D1D2 P q + 4 * P.a ^ 4 * (R P q) ^ 7 * (Z P q) ^ 2 * dZ_D0 P q *
    ddZ_D1D2 P q + 4 * P.a ^ 4 * (R P q) ^ 7 * (Z P q) ^ 2 * dZ_D1 P q * ddZ_D0D2 P q + 4 * P.a ^ 4 * (R P q) ^ 7 * (Z P q) ^ 2 * dZ_D2 P q * ddZ_D0D1 P q + 24 * P.a ^ 4
    * (R P q) ^ 7 * Z P q * dZ_D0 P q * dZ_D1 P q * dZ_D2 P q + 5 * P.a ^ 4 * (R P q) ^ 6 * (Z P q) ^ 4 * dddR_D0D1D2 P q + 4 * P.a ^ 4 * (R P q) ^ 6 * (Z P q) ^ 3 *
    dR_D0 P q * ddZ_D1D2 P q + 4 * P.a ^ 4 * (R P q) ^ 6 * (Z P q) ^ 3 * dR_D1 P q * ddZ_D0D2 P q + 4 * P.a ^ 4 * (R P q) ^ 6 * (Z P q) ^ 3 * dR_D2 P q * ddZ_D0D1 P q + 4
    * P.a ^ 4 * (R P q) ^ 6 * (Z P q) ^ 3 * dZ_D0 P q * ddR_D1D2 P q + 4 * P.a ^ 4 * (R P q) ^ 6 * (Z P q) ^ 3 * dZ_D1 P q * ddR_D0D2 P q + 4 * P.a ^ 4 * (R P q) ^ 6 * (Z
    P q) ^ 3 * dZ_D2 P q * ddR_D0D1 P q - 68 * P.a ^ 4 * (R P q) ^ 6 * (Z P q) ^ 2 * dR_D0 P q * dZ_D1 P q * dZ_D2 P q - 68 * P.a ^ 4 * (R P q) ^ 6 * (Z P q) ^ 2 * dR_D1
    P q * dZ_D0 P q * dZ_D2 P q - 68 * P.a ^ 4 * (R P q) ^ 6 * (Z P q) ^ 2 * dR_D2 P q * dZ_D0 P q * dZ_D1 P q - 18 * P.a ^ 4 * (R P q) ^ 5 * (Z P q) ^ 4 * dR_D0 P q *
    ddR_D1D2 P q - 18 * P.a ^ 4 * (R P q) ^ 5 * (Z P q) ^ 4 * dR_D1 P q * ddR_D0D2 P q - 18 * P.a ^ 4 * (R P q) ^ 5 * (Z P q) ^ 4 * dR_D2 P q * ddR_D0D1 P q + P.a ^ 4 *
    (R P q) ^ 5 * (Z P q) ^ 3 * dR_D0 P q * dR_D1 P q * dZ_D2 P q + P.a ^ 4 * (R P q) ^ 5 * (Z P q) ^ 3 * dR_D0 P q * dR_D2 P q * dZ_D1 P q + P.a ^ 4 * (R P q) ^ 5 * (Z P
    q) ^ 3 * dR_D1 P q * dR_D2 P q * dZ_D0 P q - 186 * P.a ^ 4 * (R P q) ^ 4 * (Z P q) ^ 4 * dR_D0 P q * dR_D1 P q * dR_D2 P q - 2 * P.a ^ 2 * (R P q) ^ 11 * Z P q *
    dddZ_D0D1D2 P q - 2 * P.a ^ 2 * (R P q) ^ 11 * dZ_D0 P q * ddZ_D1D2 P q - 2 * P.a ^ 2 * (R P q) ^ 11 * dZ_D1 P q * ddZ_D0D2 P q - 2 * P.a ^ 2 * (R P q) ^ 11 * dZ_D2 P
    q * ddZ_D0D1 P q + P.a ^ 2 * (R P q) ^ 10 * (Z P q) ^ 2 * dddR_D0D1D2 P q + 10 * P.a ^ 2 * (R P q) ^ 10 * Z P q * dR_D0 P q * ddZ_D1D2 P q + 10 * P.a ^ 2 * (R P q) ^
    10 * Z P q * dR_D1 P q * ddZ_D0D2 P q + 10 * P.a ^ 2 * (R P q) ^ 10 * Z P q * dR_D2 P q * ddZ_D0D1 P q + 10 * P.a ^ 2 * (R P q) ^ 10 * Z P q * dZ_D0 P q * ddR_D1D2 P
    q + 10 * P.a ^ 2 * (R P q) ^ 10 * Z P q * dZ_D1 P q * ddR_D0D2 P q + 10 * P.a ^ 2 * (R P q) ^ 10 * Z P q * dZ_D2 P q * ddR_D0D1 P q + 10 * P.a ^ 2 * (R P q) ^ 10 *
    dR_D0 P q * dZ_D1 P q * dZ_D2 P q + 10 * P.a ^ 2 * (R P q) ^ 10 * dR_D1 P q * dZ_D0 P q * dZ_D2 P q + 10 * P.a ^ 2 * (R P q) ^ 10 * dR_D2 P q * dZ_D0 P q * dZ_D1 P q
    - 22 * P.a ^ 2 * (R P q) ^ 9 * (Z P q) ^ 2 * dR_D0 P q * ddR_D1D2 P q - 22 * P.a ^ 2 * (R P q) ^ 9 * (Z P q) ^ 2 * dR_D1 P q * ddR_D0D2 P q - 22 * P.a ^ 2 * (R P q) ^
    9 * (Z P q) ^ 2 * dR_D2 P q * ddR_D0D1 P q - 60 * P.a ^ 2 * (R P q) ^ 9 * Z P q * dR_D0 P q * dR_D1 P q * dZ_D2 P q - 60 * P.a ^ 2 * (R P q) ^ 9 * Z P q * dR_D0 P q *
    dR_D2 P q * dZ_D1 P q - 60 * P.a ^ 2 * (R P q) ^ 9 * Z P q * dR_D1 P q * dR_D2 P q * dZ_D0 P q + 186 * P.a ^ 2 * (R P q) ^ 8 * (Z P q) ^ 2 * dR_D0 P q * dR_D1 P q *
    dR_D2 P q - (R P q) ^ 14 * dddR_D0D1D2 P q + 2 * (R P q) ^ 13 * dR_D0 P q * ddR_D1D2 P q + 2 * (R P q) ^ 13 * dR_D1 P q * ddR_D0D2 P q + 2 * (R P q) ^ 13 * dR_D2 P q
    * ddR_D0D1 P q - 6 * (R P q) ^ 12 * dR_D0 P q * dR_D1 P q * dR_D2 P q) / (P.a ^ 8 * (Z P q) ^ 8 + 4 * P.a ^ 6 * (R P q) ^ 4 * (Z P q) ^ 6 + 6 * P.a ^ 4 * (R P q) ^ 8
    * (Z P q) ^ 4 + 4 * P.a ^ 2 * (R P q) ^ 12 * (Z P q) ^ 2 + (R P q) ^ 16)

/-- Free_Data/fd_KerrSchild_H_K0_K1_K2.c:4952-5053 `fd_ks_dddH_D0D2D2` -/
noncomputable def dddH_D0D2D2 (P : Par) (q : Pt) : ℝ :=
  P.Lam * P.M * ((P.a ^ 2 * (Z P q) ^ 2 + (R P q) ^ 4) ^ 3 * (R P q) ^ 2 * dddR_D0D2D2 P q - 2 * (P.a ^ 2 * (Z P q) ^ 2 + (R P q) ^ 4) ^ 2 * ((P.a ^ 2 * R P q * Z P q *
    dZ_D0 P q - P.a ^ 2 * (Z P q) ^ 2 * dR_D0 P q + (R P q) ^ 4 * dR_D0 P q) * ddR_D2D2 P q + 2 * (P.a ^ 2 * R P q * Z P q * dZ_D2 P q - P.a ^ 2 * (Z P q) ^ 2 * dR_D2 P q
    + (R P q) ^ 4 * dR_D2 P q) * ddR_D0D2 P q) * R P q - 2 * (P.a ^ 2 * (Z P q) ^ 2 + (R P q) ^ 4) ^ 2 * (2 * (P.a ^ 2 * (Z P q * ddZ_D0D2 P q + dZ_D0 P q * dZ_D2 P q) *
    (R P q) ^ 2 - P.a ^ 2 * (Z P q * ddR_D0D2 P q + 2 * dR_D0 P q * dZ_D2 P q + 2 * dR_D2 P q * dZ_D0 P q) * R P q * Z P q + 3 * P.a ^ 2 * (Z P q) ^ 2 * dR_D0 P q * dR_D2
    P q + (R P q * ddR_D0D2 P q + dR_D0 P q * dR_D2 P q) * (R P q) ^ 4) * dR_D2 P q + ((-P.a ^ 2) * (Z P q * ddR_D2D2 P q + 4 * dR_D2 P q * dZ_D2 P q) * R P q * Z P q +
    P.a ^ 2 * (Z P q * ddZ_D2D2 P q + (dZ_D2 P q) ^ 2) * (R P q) ^ 2 + 3 * P.a ^ 2 * (Z P q) ^ 2 * (dR_D2 P q) ^ 2 + (R P q * ddR_D2D2 P q + (dR_D2 P q) ^ 2) * (R P q) ^
    4) * dR_D0 P q) - 2 * (P.a ^ 2 * (Z P q) ^ 2 + (R P q) ^ 4) ^ 2 * (P.a ^ 2 * (Z P q * dddZ_D0D2D2 P q + dZ_D0 P q * ddZ_D2D2 P q + 2 * dZ_D2 P q * ddZ_D0D2 P q) * (R
    P q) ^ 3 + 3 * P.a ^ 2 * (Z P q * dR_D0 P q * ddR_D2D2 P q + 2 * Z P q * dR_D2 P q * ddR_D0D2 P q + 4 * dR_D0 P q * dR_D2 P q * dZ_D2 P q + 2 * (dR_D2 P q) ^ 2 *
    dZ_D0 P q) * R P q * Z P q - P.a ^ 2 * ((Z P q) ^ 2 * dddR_D0D2D2 P q + 2 * Z P q * dR_D0 P q * ddZ_D2D2 P q + 4 * Z P q * dR_D2 P q * ddZ_D0D2 P q + 2 * Z P q *
    ddR_D2D2 P q * dZ_D0 P q + 4 * Z P q * dZ_D2 P q * ddR_D0D2 P q + 2 * dR_D0 P q * (dZ_D2 P q) ^ 2 + 4 * dR_D2 P q * dZ_D0 P q * dZ_D2 P q) * (R P q) ^ 2 - 12 * P.a ^
    2 * (Z P q) ^ 2 * dR_D0 P q * (dR_D2 P q) ^ 2 + (R P q * dddR_D0D2D2 P q + dR_D0 P q * ddR_D2D2 P q + 2 * dR_D2 P q * ddR_D0D2 P q) * (R P q) ^ 5) + 8 * (P.a ^ 2 * (Z
    P q) ^ 2 + (R P q) ^ 4) * ((P.a ^ 2 * R P q * Z P q * dZ_D0 P q - P.a ^ 2 * (Z P q) ^ 2 * dR_D0 P q + (R P q) ^ 4 * dR_D0 P q) * ((-P.a ^ 2) * (Z P q * ddR_D2D2 P q +
    4 * dR_D2 P q * dZ_D2 P q) * R P q * Z P q + P.a ^ 2 * (Z P q * ddZ_D2D2 P q + (dZ_D2 P q) ^ 2) * (R P q) ^ 2 + 3 * P.a ^ 2 * (Z P q) ^ 2 * (dR_D2 P q) ^ 2 + (R P q *
    ddR_D2D2 P q + (dR_D2 P q) ^ 2) * (R P q) ^ 4) + 2 * (P.a ^ 2 * R P q * Z P q * dZ_D2 P q - P.a ^ 2 * (Z P q) ^ 2 * dR_D2 P q + (R P q) ^ 4 * dR_D2 P q) * (P.a ^ 2 *
    (Z P q * ddZ_D0D2 P q + dZ_D0 P q * dZ_D2 P q) * (R P q) ^ 2 - P.a ^ 2 * (Z P q * ddR_D0D2 P q + 2 * dR_D0 P q * dZ_D2 P q + 2 * dR_D2 P q * dZ_D0 P q) * R P q * Z P
    q + 3 * P.a ^ 2 * (Z P q) ^ 2 * dR_D0 P q * dR_D2 P q + (R P q * ddR_D0D2 P q + dR_D0 P q * dR_D2 P q) * (R P q) ^ 4)) + 8 * (P.a ^ 2 * (Z P q) ^ 2 + (R P q) ^ 4) *
    (2 * (P.a ^ 2 * R P q * Z P q * dZ_D0 P q - P.a ^ 2 * (Z P q) ^ 2 * dR_D0 P q + (R P q) ^ 4 * dR_D0 P q) * dR_D2 P q + (P.a ^ 2 * R P q * Z P q * dZ_D2 P q - P.a ^ 2
    * (Z P q) ^ 2 * dR_D2 P q + (R P q) ^ 4 * dR_D2 P q) * dR_D0 P q) * (P.a ^ 2 * R P q * Z P q * dZ_D2 P q - P.a ^ 2 * (Z P q) ^ 2 * dR_D2 P q + (R P q) ^ 4 * dR_D2 P
    q) - 48 * (P.a ^ 2 * R P q * Z P q * dZ_D0 P q - P.a ^ 2 * (Z P q) ^ 2 * dR_D0 P q + (R P q) ^ 4 * dR_D0 P q) * (P.a ^ 2 * R P q * Z P q * dZ_D2 P q - P.a ^ 2 * (Z P
    q) ^ 2 * dR_D2 P q + (R P q) ^ 4 * dR_D2 P q) ^ 2) / (P.a ^ 2 * (Z P q) ^ 2 + (R P q) ^ 4) ^ 4

/-- Free_Data/fd_KerrSchild_H_K0_K1_K2.c:4497-4598 `fd_ks_dddH_D1D1D0` -/
noncomputable def dddH_D1D1D0 (P : Par) (q : Pt) : ℝ :=
  P.Lam * P.M * ((P.a ^ 2 * (Z P q) ^ 2 + (R P q) ^ 4) ^ 3 * (R P q) ^ 2 * dddR_D0D1D1 P q - 2 * (P.a ^ 2 * (Z P q) ^ 2 + (R P q) ^ 4) ^ 2 * ((P.a ^ 2 * R P q * Z P q *
    dZ_D0 P q - P.a ^ 2 * (Z P q) ^ 2 * dR_D0 P q + (R P q) ^ 4 * dR_D0 P q) * ddR_D1D1 P q + 2 * (P.a ^ 2 * R P q * Z P q * dZ_D1 P q - P.a ^ 2 * (Z P q) ^ 2 * dR_D1 P q
    + (R P q) ^ 4 * dR_D1 P q) * ddR_D0D1 P q) * R P q - 2 * (P.a ^ 2 * (Z P q) ^ 2 + (R P q) ^ 4) ^ 2 * (2 * (P.a ^ 2 * (Z P q * ddZ_D0D1 P q + dZ_D0 P q * dZ_D1 P q) *
    (R P q) ^ 2 - P.a ^ 2 * (Z P q * ddR_D0D1 P q + 2 * dR_D0 P q * dZ_D1 P q + 2 * dR_D1 P q * dZ_D0 P q) * R P q * Z P q + 3 * P.a ^ 2 * (Z P q) ^ 2 * dR_D0 P q * dR_D1
    P q + (R P q * ddR_D0D1 P q + dR_D0 P q * dR_D1 P q) * (R P q) ^ 4) * dR_D1 P q + ((-P.a ^ 2) * (Z P q * ddR_D1D1 P q + 4 * dR_D1 P q * dZ_D1 P q) * R P q * Z P q +
    P.a ^ 2 * (Z P q * ddZ_D1D1 P q + (dZ_D1 P q) ^ 2) * (R P q) ^ 2 + 3 * P.a ^ 2 * (Z P q) ^ 2 * (dR_D1 P q) ^ 2 + (R P q * ddR_D1D1 P q + (dR_D1 P q) ^ 2) * (R P q) ^
    4) * dR_D0 P q) - 2 * (P.a ^ 2 * (Z P q) ^ 2 + (R P q) ^ 4) ^ 2 * (P.a ^ 2 * (Z P q * dddZ_D0D1D1 P q + dZ_D0 P q * ddZ_D1D1 P q + 2 * dZ_D1 P q * ddZ_D0D1 P q) * (R
    P q) ^ 3 + 3 * P.a ^ 2 * (Z P q * dR_D0 P q * ddR_D1D1 P q + 2 * Z P q * dR_D1 P q * ddR_D0D1 P q + 4 * dR_D0 P q * dR_D1 P q * dZ_D1 P q + 2 * (dR_D1 P q) ^ 2 *
    dZ_D0 P q) * R P q * Z P q - P.a ^ 2 * ((Z P q) ^ 2 * dddR_D0D1D1 P q + 2 * Z P q * dR_D0 P q * ddZ_D1D1 P q + 4 * Z P q * dR_D1 P q * ddZ_D0D1 P q + 2 * Z P q *
    ddR_D1D1 P q * dZ_D0 P q + 4 * Z P q * dZ_D1 P q * ddR_D0D1 P q + 2 * dR_D0 P q * (dZ_D1 P q) ^ 2 + 4 * dR_D1 P q * dZ_D0 P q * dZ_D1 P q) * (R P q) ^ 2 - 12 * P.a ^
    2 * (Z P q) ^ 2 * dR_D0 P q * (dR_D1 P q) ^ 2 + (R P q * dddR_D0D1D1 P q + dR_D0 P q * ddR_D1D1 P q + 2 * dR_D1 P q * ddR_D0D1 P q) * (R P q) ^ 5) + 8 * (P.a ^ 2 * (Z
    P q) ^ 2 + (R P q) ^ 4) * ((P.a ^ 2 * R P q * Z P q * dZ_D0 P q - P.a ^ 2 * (Z P q) ^ 2 * dR_D0 P q + (R P q) ^ 4 * dR_D0 P q) * ((-P.a ^ 2) * (Z P q * ddR_D1D1 P q +
    4 * dR_D1 P q * dZ_D1 P q) * R P q * Z P q + P.a ^ 2 * (Z P q * ddZ_D1D1 P q + (dZ_D1 P q) ^ 2) * (R P q) ^ 2 + 3 * P.a ^ 2 * (Z P q) ^ 2 * (dR_D1 P q) ^ 2 + (R P q *
    ddR_D1D1 P q + (dR_D1 P q) ^ 2) * (R P q) ^ 4) + 2 * (P.a ^ 2 * R P q * Z P q * dZ_D1 P q - P.a ^ 2 * (Z P q) ^ 2 * dR_D1 P q + (R P q) ^ 4 * dR_D1 P q) * (P.a ^ 2 *
    (Z P q * ddZ_D0D1 P q + dZ_D0 P q * dZ_D1 P q) * (R P q) ^ 2 - P.a ^ 2 * (Z P q * ddR_D0D1 P q + 2 * dR_D0 P q * dZ_D1 P q + 2 * dR_D1 P q * dZ_D0 P q) * R P q * Z P
    q + 3 * P.a ^ 2 * (Z P q) ^ 2 * dR_D0 P q * dR_D1 P q + (R P q * ddR_D0D1 P q + dR_D0 P q * dR_D1 P q) * (R P q) ^ 4)) + 8 * (P.a ^ 2 * (Z P q) ^ 2 + (R P q) ^ 4) *
    (2 * (P.a ^ 2 * R P q * Z P q * dZ_D0 P q - P.a ^ 2 * (Z P q) ^ 2 * dR_D0 P q + (R P q) ^ 4 * dR_D0 P q) * dR_D1 P q + (P.a ^ 2 * R P q * Z P q * dZ_D1 P q - P.a ^ 2
    * (Z P q) ^ 2 * dR_D1 P q + (R P q) ^ 4 * dR_D1 P q) * dR_D0 P q) * (P.a ^ 2 * R P q * Z P q * dZ_D1 P q - P.a ^ 2 * (Z P q) ^ 2 * dR_D1 P q + (R P q) ^ 4 * dR_D1 P
    q) - 48 * (P.a ^ 2 * R P q * Z P q * dZ_D0 P q - P.a ^ 2 * (Z P q) ^ 2 * dR_D0 P q + (R P q) ^ 4 * dR_D0 P q) * (P.a ^ 2 * R P q * Z P q * dZ_D1 P q - P.a ^ 2 * (Z P
    q) ^ 2 * dR_D1 P q + (R P q) ^ 4 * dR_D1 P q) ^ 2) / (P.a ^ 2 * (Z P q) ^ 2 + (R P q) ^ 4) ^ 4

/-- Free_Data/fd_KerrSchild_H_K0_K1_K2.c:5054-5111 `fd_ks_dddH_D1D1D1` -/
noncomputable def dddH_D1D1D1 (P : Par) (q : Pt) : ℝ :=
  P.Lam * P.M * ((P.a ^ 2 * (Z P q) ^ 2 + (R P q) ^ 4) ^ 3 * (R P q) ^ 2 * dddR_D1D1D1 P q - 6 * (P.a ^ 2 * (Z P q) ^ 2 + (R P q) ^ 4) ^ 2 * (P.a ^ 2 * R P q * Z P q *
    dZ_D1 P q - P.a ^ 2 * (Z P q) ^ 2 * dR_D1 P q + (R P q) ^ 4 * dR_D1 P q) * R P q * ddR_D1D1 P q - 6 * (P.a ^ 2 * (Z P q) ^ 2 + (R P q) ^ 4) ^ 2 * ((-P.a ^ 2) * (Z P q
    * ddR_D1D1 P q + 4 * dR_D1 P q * dZ_D1 P q) * R P q * Z P q + P.a ^ 2 * (Z P q * ddZ_D1D1 P q + (dZ_D1 P q) ^ 2) * (R P q) ^ 2 + 3 * P.a ^ 2 * (Z P q) ^ 2 * (dR_D1 P
    q) ^ 2 + (R P q * ddR_D1D1 P q + (dR_D1 P q) ^ 2) * (R P q) ^ 4) * dR_D1 P q - 2 * (P.a ^ 2 * (Z P q) ^ 2 + (R P q) ^ 4) ^ 2 * (9 * P.a ^ 2 * (Z P q * ddR_D1D1 P q +
    2 * dR_D1 P q * dZ_D1 P q) * R P q * Z P q * dR_D1 P q + P.a ^ 2 * (Z P q * dddZ_D1D1D1 P q + 3 * dZ_D1 P q * ddZ_D1D1 P q) * (R P q) ^ 3 - P.a ^ 2 * ((Z P q) ^ 2 *
    dddR_D1D1D1 P q + 6 * Z P q * dR_D1 P q * ddZ_D1D1 P q + 6 * Z P q * ddR_D1D1 P q * dZ_D1 P q + 6 * dR_D1 P q * (dZ_D1 P q) ^ 2) * (R P q) ^ 2 - 12 * P.a ^ 2 * (Z P
    q) ^ 2 * (dR_D1 P q) ^ 3 + (R P q * dddR_D1D1D1 P q + 3 * dR_D1 P q * ddR_D1D1 P q) * (R P q) ^ 5) + 24 * (P.a ^ 2 * (Z P q) ^ 2 + (R P q) ^ 4) * (P.a ^ 2 * R P q * Z
    P q * dZ_D1 P q - P.a ^ 2 * (Z P q) ^ 2 * dR_D1 P q + (R P q) ^ 4 * dR_D1 P q) ^ 2 * dR_D1 P q + 24 * (P.a ^ 2 * (Z P q) ^ 2 + (R P q) ^ 4) * (P.a ^ 2 * R P q * Z P q
    * dZ_D1 P q - P.a ^ 2 * (Z P q) ^ 2 * dR_D1 P q + (R P q) ^ 4 * dR_D1 P q) * ((-P.a ^ 2) * (Z P q * ddR_D1D1 P q + 4 * dR_D1 P q * dZ_D1 P q) * R P q * Z P q + P.a ^
    2 * (Z P q * ddZ_D1D1 P q + (dZ_D1 P q) ^ 2) * (R P q) ^ 2 + 3 * P.a ^ 2 * (Z P q) ^ 2 * (dR_D1 P q) ^ 2 + (R P q * ddR_D1D1 P q + (dR_D1 P q) ^ 2) * (R P q) ^ 4) -
    48 * (P.a ^ 2 * R P q * Z P q * dZ_D1 P q - P.a ^ 2 * (Z P q) ^ 2 * dR_D1 P q + (R P q) ^ 4 * dR_D1 P q) ^ 3) / (P.a ^ 2 * (Z P q) ^ 2 + (R P q) ^ 4) ^ 4

/-- Free_Data/fd_KerrSchild_H_K0_K1_K2.c:5421-5523 `fd_ks_dddH_D1D1D2` -/
noncomputable def dddH_D1D1D2 (P : Par) (q : Pt) : ℝ :=
  P.Lam * P.M * ((P.a ^ 2 * (Z P q) ^ 2 + (R P q) ^ 4) ^ 3 * (R P q) ^ 2 * dddR_D1D1D2 P q - 2 * (P.a ^ 2 * (Z P q) ^ 2 + (R P q) ^ 4) ^ 2 * (2 * (P.a ^ 2 * R P q * Z P q
    * dZ_D1 P q - P.a ^ 2 * (Z P q) ^ 2 * dR_D1 P q + (R P q) ^ 4 * dR_D1 P q) * ddR_D1D2 P q + (P.a ^ 2 * R P q * Z P q * dZ_D2 P q - P.a ^ 2 * (Z P q) ^ 2 * dR_D2 P q +
    (R P q) ^ 4 * dR_D2 P q) * ddR_D1D1 P q) * R P q - 2 * (P.a ^ 2 * (Z P q) ^ 2 + (R P q) ^ 4) ^ 2 * (2 * (P.a ^ 2 * (Z P q * ddZ_D1D2 P q + dZ_D1 P q * dZ_D2 P q) * (R
    P q) ^ 2 - P.a ^ 2 * (Z P q * ddR_D1D2 P q + 2 * dR_D1 P q * dZ_D2 P q + 2 * dR_D2 P q * dZ_D1 P q) * R P q * Z P q + 3 * P.a ^ 2 * (Z P q) ^ 2 * dR_D1 P q * dR_D2 P
    q + (R P q * ddR_D1D2 P q + dR_D1 P q * dR_D2 P q) * (R P q) ^ 4) * dR_D1 P q + ((-P.a ^ 2) * (Z P q * ddR_D1D1 P q + 4 * dR_D1 P q * dZ_D1 P q) * R P q * Z P q + P.a
    ^ 2 * (Z P q * ddZ_D1D1 P q + (dZ_D1 P q) ^ 2) * (R P q) ^ 2 + 3 * P.a ^ 2 * (Z P q) ^ 2 * (dR_D1 P q) ^ 2 + (R P q * ddR_D1D1 P q + (dR_D1 P q) ^ 2) * (R P q) ^ 4) *
    dR_D2 P q) - 2 * (P.a ^ 2 * (Z P q) ^ 2 + (R P q) ^ 4) ^ 2 * (P.a ^ 2 * (Z P q * dddZ_D1D1D2 P q + 2 * dZ_D1 P q * ddZ_D1D2 P q + ddZ_D1D1 P q * dZ_D2 P q) * (R P q)
    ^ 3 + 3 * P.a ^ 2 * (2 * Z P q * dR_D1 P q * ddR_D1D2 P q + Z P q * ddR_D1D1 P q * dR_D2 P q + 2 * (dR_D1 P q) ^ 2 * dZ_D2 P q + 4 * dR_D1 P q * dR_D2 P q * dZ_D1 P
    q) * R P q * Z P q - P.a ^ 2 * ((Z P q) ^ 2 * dddR_D1D1D2 P q + 4 * Z P q * dR_D1 P q * ddZ_D1D2 P q + 2 * Z P q * ddR_D1D1 P q * dZ_D2 P q + 2 * Z P q * dR_D2 P q *
    ddZ_D1D1 P q + 4 * Z P q * dZ_D1 P q * ddR_D1D2 P q + 4 * dR_D1 P q * dZ_D1 P q * dZ_D2 P q + 2 * dR_D2 P q * (dZ_D1 P q) ^ 2) * (R P q) ^ 2 - 12 * P.a ^ 2 * (Z P q)
    ^ 2 * (dR_D1 P q) ^ 2 * dR_D2 P q + (R P q * dddR_D1D1D2 P q + 2 * dR_D1 P q * ddR_D1D2 P q + ddR_D1D1 P q * dR_D2 P q) * (R P q) ^ 5) + 8 * (P.a ^ 2 * (Z P q) ^ 2 +
    (R P q) ^ 4) * (2 * (P.a ^ 2 * R P q * Z P q * dZ_D1 P q - P.a ^ 2 * (Z P q) ^ 2 * dR_D1 P q + (R P q) ^ 4 * dR_D1 P q) * (P.a ^ 2 * (Z P q * ddZ_D1D2 P q + dZ_D1 P q
    * dZ_D2 P q) * (R P q) ^ 2 - P.a ^ 2 * (Z P q * ddR_D1D2 P q + 2 * dR_D1 P q * dZ_D2 P q + 2 * dR_D2 P q * dZ_D1 P q) * R P q * Z P q + 3 * P.a ^ 2 * (Z P q) ^ 2 *
    dR_D1 P q * dR_D2 P q + (R P q * ddR_D1D2 P q + dR_D1 P q * dR_D2 P q) * (R P q) ^ 4) + (P.a ^ 2 * R P q * Z P q * dZ_D2 P q - P.a ^ 2 * (Z P q) ^ 2 * dR_D2 P q + (R
    P q) ^ 4 * dR_D2 P q) * ((-P.a ^ 2) * (Z P q * ddR_D1D1 P q + 4 * dR_D1 P q * dZ_D1 P q) * R P q * Z P q + P.a ^ 2 * (Z P q * ddZ_D1D1 P q + (dZ_D1 P q) ^ 2) * (R P
    q) ^ 2 + 3 * P.a ^ 2 * (Z P q) ^ 2 * (dR_D1 P q) ^ 2 + (R P q * ddR_D1D1 P q + (dR_D1 P q) ^ 2) * (R P q) ^ 4)) + 8 * (P.a ^ 2 * (Z P q) ^ 2 + (R P q) ^ 4) * ((P.a ^
    2 * R P q * Z P q * dZ_D1 P q - P.a ^ 2 * (Z P q) ^ 2 * dR_D1 P q + (R P q) ^ 4 * dR_D1 P q) * dR_D2 P q + 2 * (P.a ^ 2 * R P q * Z P q * dZ_D2 P q - P.a ^ 2 * (Z P
    q) ^ 2 * dR_D2 P q + (R P q) ^ 4 * dR_D2 P q) * dR_D1 P q) * (P.a ^ 2 * R P q * Z P q * dZ_D1 P q - P.a ^ 2 * (Z P q) ^ 2 * dR_D1 P q + (R P q) ^ 4 * dR_D1 P q) - 48
    * (P.a ^ 2 * R P q * Z P q * dZ_D1 P q - P.a ^ 2 * (Z P q) ^ 2 * dR_D1 P q + (R P q) ^ 4 * dR_D1 P q) ^ 2 * (P.a ^ 2 * R P q * Z P q * dZ_D2 P q - P.a ^ 2 * (Z P q) ^
    2 * dR_D2 P q + (R P q) ^ 4 * dR_D2 P q)) / (P.a ^ 2 * (Z P q) ^ 2 + (R P q) ^ 4) ^ 4

/-- Free_Data/fd_KerrSchild_H_K0_K1_K2.c:4804-4951 `fd_ks_dddH_D1D2D0` -/
noncomputable def dddH_D1D2D0 (P : Par) (q : Pt) : ℝ :=
  P.Lam * P.M * ((-2) * P.a ^ 6 * (R P q) ^ 3 * (Z P q) ^ 5 * dddZ_D0D1D2 P q + 6 * P.a ^ 6 * (R P q) ^ 3 * (Z P q) ^ 4 * dZ_D0 P q * ddZ_D1D2 P q + 6 * P.a ^ 6 * (R P q)
    ^ 3 * (Z P q) ^ 4 * dZ_D1 P q * ddZ_D0D2 P q + 6 * P.a ^ 6 * (R P q) ^ 3 * (Z P q) ^ 4 * dZ_D2 P q * ddZ_D0D1 P q - 24 * P.a ^ 6 * (R P q) ^ 3 * (Z P q) ^ 3 * dZ_D0 P
    q * dZ_D1 P q * dZ_D2 P q + 3 * P.a ^ 6 * (R P q) ^ 2 * (Z P q) ^ 6 * dddR_D0D1D2 P q - 6 * P.a ^ 6 * (R P q) ^ 2 * (Z P q) ^ 5 * dR_D0 P q * ddZ_D1D2 P q - 6 * P.a ^
    6 * (R P q) ^ 2 * (Z P q) ^ 5 * dR_D1 P q * ddZ_D0D2 P q - 6 * P.a ^ 6 * (R P q) ^ 2 * (Z P q) ^ 5 * dR_D2 P q * ddZ_D0D1 P q - 6 * P.a ^ 6 * (R P q) ^ 2 * (Z P q) ^
    5 * dZ_D0 P q * ddR_D1D2 P q - 6 * P.a ^ 6 * (R P q) ^ 2 * (Z P q) ^ 5 * dZ_D1 P q * ddR_D0D2 P q - 6 * P.a ^ 6 * (R P q) ^ 2 * (Z P q) ^ 5 * dZ_D2 P q * ddR_D0D1 P q
    + 18 * P.a ^ 6 * (R P q) ^ 2 * (Z P q) ^ 4 * dR_D0 P q * dZ_D1 P q * dZ_D2 P q + 18 * P.a ^ 6 * (R P q) ^ 2 * (Z P q) ^ 4 * dR_D1 P q * dZ_D0 P q * dZ_D2 P q + 18 *
    P.a ^ 6 * (R P q) ^ 2 * (Z P q) ^ 4 * dR_D2 P q * dZ_D0 P q * dZ_D1 P q + 6 * P.a ^ 6 * R P q * (Z P q) ^ 6 * dR_D0 P q * ddR_D1D2 P q + 6 * P.a ^ 6 * R P q * (Z P q)
    ^ 6 * dR_D1 P q * ddR_D0D2 P q + 6 * P.a ^ 6 * R P q * (Z P q) ^ 6 * dR_D2 P q * ddR_D0D1 P q - 12 * P.a ^ 6 * R P q * (Z P q) ^ 5 * dR_D0 P q * dR_D1 P q * dZ_D2 P q
    - 12 * P.a ^ 6 * R P q * (Z P q) ^ 5 * dR_D0 P q * dR_D2 P q * dZ_D1 P q - 12 * P.a ^ 6 * R P q * (Z P q) ^ 5 * dR_D1 P q * dR_D2 P q * dZ_D0 P q + 6 * P.a ^ 6 * (Z P
    q) ^ 6 * dR_D0 P q * dR_D1 P q * dR_D2 P q - 4 * P.a ^ 4 * (R P q) ^ 7 * (Z P q) ^ 3 * dddZ_D0D1D2 P q + 4 * P.a ^ 4 * (R P q) ^ 7 * (Z P q) ^ 2 * dZ_D0 P q *
    ddZ_D1D2 P q + 4 * P.a ^ 4 * (R P q) ^ 7 * (Z P q) ^ 2 * dZ_D1 P q * ddZ_D0D2 P q + 4 * P.a ^ 4 * (R P q) ^ 7 * (Z P q) ^ 2 * dZ_D2 P q * ddZ_D0D1 P q + 24 * P.a ^ 4
    * (R P q) ^ 7 * Z P q * dZ_D0 P q * dZ_D1 P q * dZ_D2 P q + 5 * P.a ^ 4 * (R P q) ^ 6 * (Z P q) ^ 4 * dddR_D0D1D2 P q + 4 * P.a ^ 4 * (R P q) ^ 6 * (Z P q) ^ 3 *
    dR_D0 P q * ddZ_D1D2 P q + 4 * P.a ^ 4 * (R P q) ^ 6 * (Z P q) ^ 3 * dR_D1 P q * ddZ_D0D2 P q + 4 * P.a ^ 4 * (R P q) ^ 6 * (Z P q) ^ 3 * dR_D2 P q * ddZ_D0D1 P q + 4
    * P.a ^ 4 * (R P q) ^ 6 * (Z P q) ^ 3 * dZ_D0 P q * ddR_D1D2 P q + 4 * P.a ^ 4 * (R P q) ^ 6 * (Z P q) ^ 3 * dZ_D1 P q * ddR_D0D2 P q + 4 * P.a ^ 4 * (R P q) ^ 6 * (Z
    P q) ^ 3 * dZ_D2 P q * ddR_D0D1 P q - 68 * P.a ^ 4 * (R P q) ^ 6 * (Z P q) ^ 2 * dR_D0 P q * dZ_D1 P q * dZ_D2 P q - 68 * P.a ^ 4 * (R P q) ^ 6 * (Z P q) ^ 2 * dR_D1
    P q * dZ_D0 P q * dZ_D2 P q - 68 * P.a ^ 4 * (R P q) ^ 6 * (Z P q) ^ 2 * dR_D2 P q * dZ_D0 P q * dZ_D1 P q - 18 * P.a ^ 4 * (R P q) ^ 5 * (Z P q) ^ 4 * dR_D0 P q *
    ddR_D1D2 P q - 18 * P.a ^ 4 * (R P q) ^ 5 * (Z P q) ^ 4 * dR_D1 P q * ddR_D0D2 P q - 18 * P.a ^ 4 * (R P q) ^ 5 * (Z P q) ^ 4 * dR_D2 P q * ddR_D0D1 P q + P.a ^ 4 *
    (R P q) ^ 5 * (Z P q) ^ 3 * dR_D0 P q * dR_D1 P q * dZ_D2 P q + P.a ^ 4 * (R P q) ^ 5 * (Z P q) ^ 3 * dR_D0 P q * dR_D2 P q * dZ_D1 P q + P.a ^ 4 * (R P q) ^ 5 * (Z P
    q) ^ 3 * dR_D1 P q * dR_D2 P q * dZ_D0 P q - 186 * P.a ^ 4 * (R P q) ^ 4 * (Z P q) ^ 4 * dR_D0 P q * dR_D1 P q * dR_D2 P q - 2 * P.a ^ 2 * (R P q) ^ 11 * Z P q *
    dddZ_D0D1D2 P q - 2 * P.a ^ 2 * (R P q) ^ 11 * dZ_D0 P q * ddZ_D1D2 P q - 2 * P.a ^ 2 * (R P q) ^ 11 * dZ_D1 P q * ddZ_D0D2 P q - 2 * P.a ^ 2 * (R P q) ^ 11 * dZ_D2 P
    q * ddZ_D0D1 P q + P.a ^ 2 * (R P q) ^ 10 * (Z P q) ^ 2 * dddR_D0D1D2 P q + 10 * P.a ^ 2 * (R P q) ^ 10 * Z P q * dR_D0 P q * ddZ_D1D2 P q + 10 * P.a ^ 2 * (R P q) ^
    10 * Z P q * dR_D1 P q * ddZ_D0D2 P q + 10 * P.a ^ 2 * (R P q) ^ 10 * Z P q * dR_D2 P q * ddZ_D0D1 P q + 10 * P.a ^ 2 * (R P q) ^ 10 * Z P q * dZ_D0 P q * ddR_D1D2 P
    q + 10 * P.a ^ 2 * (R P q) ^ 10 * Z P q * dZ_D1 P q * ddR_D0D2 P q + 10 * P.a ^ 2 * (R P q) ^ 10 * Z P q * dZ_D2 P q * ddR_D0D1 P q + 10 * P.a ^ 2 * (R P q) ^ 10 *
    dR_D0 P q * dZ_D1 P q * dZ_D2 P q + 10 * P.a ^ 2 * (R P q) ^ 10 * dR_D1 P q * dZ_D0 P q * dZ_D2 P q + 10 * P.a ^ 2 * (R P q) ^ 10 * dR_D2 P q * dZ_D0 P q * dZ_D1 P q
    - 22 * P.a ^ 2 * (R P q) ^ 9 * (Z P q) ^ 2 * dR_D0 P q * ddR_D1D2 P q - 22 * P.a ^ 2 * (R P q) ^ 9 * (Z P q) ^ 2 * dR_D1 P q * ddR_D0D2 P q - 22 * P.a ^ 2 * (R P q) ^
    9 * (Z P q) ^ 2 * dR_D2 P q * ddR_D0D1 P q - 60 * P.a ^ 2 * (R P q) ^ 9 * Z P q * dR_D0 P q * dR_D1 P q * dZ_D2 P q - 60 * P.a ^ 2 * (R P q) ^ 9 * Z P q * dR_D0 P q *
    dR_D2 P q * dZ_D1 P q - 60 * P.a ^ 2 * (R P q) ^ 9 * Z P q * dR_D1 P q * dR_D2 P q * dZ_D0 P q + 186 * P.a ^ 2 * (R P q) ^ 8 * (Z P q) ^ 2 * dR_D0 P q * dR_D1 P q *
    dR_D2 P q - (R P q) ^ 14 * dddR_D0D1D2 P q + 2 * (R P q) ^ 13 * dR_D0 P q * ddR_D1D2 P q + 2 * (R P q) ^ 13 * dR_D1 P q * ddR_D0D2 P q + 2 * (R P q) ^ 13 * dR_D2 P q
    * ddR_D0D1 P q - 6 * (R P q) ^ 12 * dR_D0 P q * dR_D1 P q * dR_D2 P q) / (P.a ^ 8 * (Z P q) ^ 8 + 4 * P.a ^ 6 * (R P q) ^ 4 * (Z P q) ^ 6 + 6 * P.a ^ 4 * (R P q) ^ 8
    * (Z P q) ^ 4 + 4 * P.a ^ 2 * (R P q) ^ 12 * (Z P q) ^ 2 + (R P q) ^ 16)

/-- Free_Data/fd_KerrSchild_H_K0_K1_K2.c:4701-4803 `fd_ks_dddH_D1D2D1` -/
noncomputable def dddH_D1D2D1 (P : Par) (q : Pt) : ℝ :=
  P.Lam * P.M * ((P.a ^ 2 * (Z P q) ^ 2 + (R P q) ^ 4) ^ 3 * (R P q) ^ 2 * dddR_D1D1D2 P q - 2 * (P.a ^ 2 * (Z P q) ^ 2 + (R P q) ^ 4) ^ 2 * (2 * (P.a ^ 2 * R P q * Z P q
    * dZ_D1 P q - P.a ^ 2 * (Z P q) ^ 2 * dR_D1 P q + (R P q) ^ 4 * dR_D1 P q) * ddR_D1D2 P q + (P.a ^ 2 * R P q * Z P q * dZ_D2 P q - P.a ^ 2 * (Z P q) ^ 2 * dR_D2 P q +
    (R P q) ^ 4 * dR_D2 P q) * ddR_D1D1 P q) * R P q - 2 * (P.a ^ 2 * (Z P q) ^ 2 + (R P q) ^ 4) ^ 2 * (2 * (P.a ^ 2 * (Z P q * ddZ_D1D2 P q + dZ_D1 P q * dZ_D2 P q) * (R
    P q) ^ 2 - P.a ^ 2 * (Z P q * ddR_D1D2 P q + 2 * dR_D1 P q * dZ_D2 P q + 2 * dR_D2 P q * dZ_D1 P q) * R P q * Z P q + 3 * P.a ^ 2 * (Z P q) ^ 2 * dR_D1 P q * dR_D2 P
    q + (R P q * ddR_D1D2 P q + dR_D1 P q * dR_D2 P q) * (R P q) ^ 4) * dR_D1 P q + ((-P.a ^ 2) * (Z P q * ddR_D1D1 P q + 4 * dR_D1 P q * dZ_D1 P q) * R P q * Z P q + P.a
    ^ 2 * (Z P q * ddZ_D1D1 P q + (dZ_D1 P q) ^ 2) * (R P q) ^ 2 + 3 * P.a ^ 2 * (Z P q) ^ 2 * (dR_D1 P q) ^ 2 + (R P q * ddR_D1D1 P q + (dR_D1 P q) ^ 2) * (R P q) ^ 4) *
    dR_D2 P q) - 2 * (P.a ^ 2 * (Z P q) ^ 2 + (R P q) ^ 4) ^ 2 * (P.a ^ 2 * (Z P q * dddZ_D1D1D2 P q + 2 * dZ_D1 P q * ddZ_D1D2 P q + ddZ_D1D1 P q * dZ_D2 P q) * (R P q)
    ^ 3 + 3 * P.a ^ 2 * (2 * Z P q * dR_D1 P q * ddR_D1D2 P q + Z P q * ddR_D1D1 P q * dR_D2 P q + 2 * (dR_D1 P q) ^ 2 * dZ_D2 P q + 4 * dR_D1 P q * dR_D2 P q * dZ_D1 P
    q) * R P q * Z P q - P.a ^ 2 * ((Z P q) ^ 2 * dddR_D1D1D2 P q + 4 * Z P q * dR_D1 P q * ddZ_D1D2 P q + 2 * Z P q * ddR_D1D1 P q * dZ_D2 P q + 2 * Z P q * dR_D2 P q *
    ddZ_D1D1 P q + 4 * Z P q * dZ_D1 P q * ddR_D1D2 P q + 4 * dR_D1 P q * dZ_D1 P q * dZ_D2 P q + 2 * dR_D2 P q * (dZ_D1 P q) ^ 2) * (R P q) ^ 2 - 12 * P.a ^ 2 * (Z P q)
    ^ 2 * (dR_D1 P q) ^ 2 * dR_D2 P q + (R P q * dddR_D1D1D2 P q + 2 * dR_D1 P q * ddR_D1D2 P q + ddR_D1D1 P q * dR_D2 P q) * (R P q) ^ 5) + 8 * (P.a ^ 2 * (Z P q) ^ 2 +
    (R P q) ^ 4) * (2 * (P.a ^ 2 * R P q * Z P q * dZ_D1 P q - P.a ^ 2 * (Z P q) ^ 2 * dR_D1 P q + (R P q) ^ 4 * dR_D1 P q) * (P.a ^ 2 * (Z P q * ddZ_D1D2 P q + dZ_D1 P q
    * dZ_D2 P q) * (R P q) ^ 2 - P.a ^ 2 * (Z P q * ddR_D1D2 P q + 2 * dR_D1 P q * dZ_D2 P q + 2 * dR_D2 P q * dZ_D1 P q) * R P q * Z P q + 3 * P.a ^ 2 * (Z P q) ^ 2 *
    dR_D1 P q * dR_D2 P q + (R P q * ddR_D1D2 P q + dR_D1 P q * dR_D2 P q) * (R P q) ^ 4) + (P.a ^ 2 * R P q * Z P q * dZ_D2 P q - P.a ^ 2 * (Z P q) ^ 2 * dR_D2 P q + (R
    P q) ^ 4 * dR_D2 P q) * ((-P.a ^ 2) * (Z P q * ddR_D1D1 P q + 4 * dR_D1 P q * dZ_D1 P q) * R P q * Z P q + P.a ^ 2 * (Z P q * ddZ_D1D1 P q + (dZ_D1 P q) ^ 2) * (R P
    q) ^ 2 + 3 * P.a ^ 2 * (Z P q) ^ 2 * (dR_D1 P q) ^ 2 + (R P q * ddR_D1D1 P q + (dR_D1 P q) ^ 2) * (R P q) ^ 4)) + 8 * (P.a ^ 2 * (Z P q) ^ 2 + (R P q) ^ 4) * ((P.a ^
    2 * R P q * Z P q * dZ_D1 P q - P.a ^ 2 * (Z P q) ^ 2 * dR_D1 P q + (R P q) ^ 4 * dR_D1 P q) * dR_D2 P q + 2 * (P.a ^ 2 * R P q * Z P q * dZ_D2 P q - P.a ^ 2 * (Z P
    q) ^ 2 * dR_D2 P q + (R P q) ^ 4 * dR_D2 P q) * dR_D1 P q) * (P.a ^ 2 * R P q * Z P q * dZ_D1 P q - P.a ^ 2 * (Z P q) ^ 2 * dR_D1 P q + (R P q) ^ 4 * dR_D1 P q) - 48
    * (P.a ^ 2 * R P q * Z P q * dZ_D1 P q - P.a ^ 2 * (Z P q) ^ 2 * dR_D1 P q + (R P q) ^ 4 * dR_D1 P q) ^ 2 * (P.a ^ 2 * R P q * Z P q * dZ_D2 P q - P.a ^ 2 * (Z P q) ^
    2 * dR_D2 P q + (R P q) ^ 4 * dR_D2 P q)) / (P.a ^ 2 * (Z P q) ^ 2 + (R P q) ^ 4) ^ 4

/-- Free_Data/fd_KerrSchild_H_K0_K1_K2.c:4599-4700 `fd_ks_dddH_D1D2D2` -/
noncomputable def dddH_D1D2D2 (P : Par) (q : Pt) : ℝ :=
  P.Lam * P.M * ((P.a ^ 2 * (Z P q) ^ 2 + (R P q) ^ 4) ^ 3 * (R P q) ^ 2 * dddR_D1D2D2 P q - 2 * (P.a ^ 2 * (Z P q) ^ 2 + (R P q) ^ 4) ^ 2 * ((P.a ^ 2 * R P q * Z P q *
    dZ_D1 P q - P.a ^ 2 * (Z P q) ^ 2 * dR_D1 P q + (R P q) ^ 4 * dR_D1 P q) * ddR_D2D2 P q + 2 * (P.a ^ 2 * R P q * Z P q * dZ_D2 P q - P.a ^ 2 * (Z P q) ^ 2 * dR_D2 P q
    + (R P q) ^ 4 * dR_D2 P q) * ddR_D1D2 P q) * R P q - 2 * (P.a ^ 2 * (Z P q) ^ 2 + (R P q) ^ 4) ^ 2 * (2 * (P.a ^ 2 * (Z P q * ddZ_D1D2 P q + dZ_D1 P q * dZ_D2 P q) *
    (R P q) ^ 2 - P.a ^ 2 * (Z P q * ddR_D1D2 P q + 2 * dR_D1 P q * dZ_D2 P q + 2 * dR_D2 P q * dZ_D1 P q) * R P q * Z P q + 3 * P.a ^ 2 * (Z P q) ^ 2 * dR_D1 P q * dR_D2
    P q + (R P q * ddR_D1D2 P q + dR_D1 P q * dR_D2 P q) * (R P q) ^ 4) * dR_D2 P q + ((-P.a ^ 2) * (Z P q * ddR_D2D2 P q + 4 * dR_D2 P q * dZ_D2 P q) * R P q * Z P q +
    P.a ^ 2 * (Z P q * ddZ_D2D2 P q + (dZ_D2 P q) ^ 2) * (R P q) ^ 2 + 3 * P.a ^ 2 * (Z P q) ^ 2 * (dR_D2 P q) ^ 2 + (R P q * ddR_D2D2 P q + (dR_D2 P q) ^ 2) * (R P q) ^
    4) * dR_D1 P q) - 2 * (P.a ^ 2 * (Z P q) ^ 2 + (R P q) ^ 4) ^ 2 * (P.a ^ 2 * (Z P q * dddZ_D1D2D2 P q + dZ_D1 P q * ddZ_D2D2 P q + 2 * dZ_D2 P q * ddZ_D1D2 P q) * (R
    P q) ^ 3 + 3 * P.a ^ 2 * (Z P q * dR_D1 P q * ddR_D2D2 P q + 2 * Z P q * dR_D2 P q * ddR_D1D2 P q + 4 * dR_D1 P q * dR_D2 P q * dZ_D2 P q + 2 * (dR_D2 P q) ^ 2 *
    dZ_D1 P q) * R P q * Z P q - P.a ^ 2 * ((Z P q) ^ 2 * dddR_D1D2D2 P q + 2 * Z P q * dR_D1 P q * ddZ_D2D2 P q + 4 * Z P q * dR_D2 P q * ddZ_D1D2 P q + 2 * Z P q *
    ddR_D2D2 P q * dZ_D1 P q + 4 * Z P q * dZ_D2 P q * ddR_D1D2 P q + 2 * dR_D1 P q * (dZ_D2 P q) ^ 2 + 4 * dR_D2 P q * dZ_D1 P q * dZ_D2 P q) * (R P q) ^ 2 - 12 * P.a ^
    2 * (Z P q) ^ 2 * dR_D1 P q * (dR_D2 P q) ^ 2 + (R P q * dddR_D1D2D2 P q + dR_D1 P q * ddR_D2D2 P q + 2 * dR_D2 P q * ddR_D1D2 P q) * (R P q) ^ 5) + 8 * (P.a ^ 2 * (Z
    P q) ^ 2 + (R P q) ^ 4) * ((P.a ^ 2 * R P q * Z P q * dZ_D1 P q - P.a ^ 2 * (Z P q) ^ 2 * dR_D1 P q + (R P q) ^ 4 * dR_D1 P q) * ((-P.a ^ 2) * (Z P q * ddR_D2D2 P q +
    4 * dR_D2 P q * dZ_D2 P q) * R P q * Z P q + P.a ^ 2 * (Z P q * ddZ_D2D2 P q + (dZ_D2 P q) ^ 2) * (R P q) ^ 2 + 3 * P.a ^ 2 * (Z P q) ^ 2 * (dR_D2 P q) ^ 2 + (R P q *
    ddR_D2D2 P q + (dR_D2 P q) ^ 2) * (R P q) ^ 4) + 2 * (P.a ^ 2 * R P q * Z P q * dZ_D2 P q - P.a ^ 2 * (Z P q) ^ 2 * dR_D2 P q + (R P q) ^ 4 * dR_D2 P q) * (P.a ^ 2 *
    (Z P q * ddZ_D1D2 P q + dZ_D1 P q * dZ_D2 P q) * (R P q) ^ 2 - P.a ^ 2 * (Z P q * ddR_D1D2 P q + 2 * dR_D1 P q * dZ_D2 P q + 2 * dR_D2 P q * dZ_D1 P q) * R P q * Z P
    q + 3 * P.a ^ 2 * (Z P q) ^ 2 * dR_D1 P q * dR_D2 P q + (R P q * ddR_D1D2 P q + dR_D1 P q * dR_D2 P q) * (R P q) ^ 4)) + 8 * (P.a ^ 2 * (Z P q) ^ 2 + (R P q) ^ 4) *
    (2 * (P.a ^ 2 * R P q * Z P q * dZ_D1 P q - P.a ^ 2 * (Z P q) ^ 2 * dR_D1 P q + (R P q) ^ 4 * dR_D1 P q) * dR_D2 P q + (P.a ^ 2 * R P q * Z P q * dZ_D2 P q - P.a ^ 2
    * (Z P q) ^ 2 * dR_D2 P q + (R P q) ^ 4 * dR_D2 P q) * dR_D1 P q) * (P.a ^ 2 * R P q * Z P q * dZ_D2 P q - P.a ^ 2 * (Z P q) ^ 2 * dR_D2 P q + (R P q) ^ 4 * dR_D2 P
    q) - 48 * (P.a ^ 2 * R P q * Z P q * dZ_D1 P q - P.a ^ 2 * (Z P q) ^ 2 * dR_D1 P q + (R P q) ^ 4 * dR_D1 P q) * (P.a ^ 2 * R P q * Z P q * dZ_D2 P q - P.a ^ 2 * (Z P
    q) ^ 2 * dR_D2 P q + (R P q) ^ 4 * dR_D2 P q) ^ 2) / (P.a ^ 2 * (Z P q) ^ 2 + (R P q) ^ 4) ^ 4

/-- Free_Data/fd_KerrSchild_H_K0_K1_K2.c:3939-4040 `fd_ks_dddH_D2D2D0` -/
noncomputable def dddH_D2D2D0 (P : Par) (q : Pt) : ℝ :=
  P.Lam * P.M * ((P.a ^ 2 * (Z P q) ^ 2 + (R P q) ^ 4) ^ 3 * (R P q) ^ 2 * dddR_D0D2D2 P q - 2 * (P.a ^ 2 * (Z P q) ^ 2 + (R P q) ^ 4) ^ 2 * ((P.a ^ 2 * R P q * Z P q *
    dZ_D0 P q - P.a ^ 2 * (Z P q) ^ 2 * dR_D0 P q + (R P q) ^ 4 * dR_D0 P q) * ddR_D2D2 P q + 2 * (P.a ^ 2 * R P q * Z P q * dZ_D2 P q - P.a ^ 2 * (Z P q) ^ 2 * dR_D2 P q
    + (R P q) ^ 4 * dR_D2 P q) * ddR_D0D2 P q) * R P q - 2 * (P.a ^ 2 * (Z P q) ^ 2 + (R P q) ^ 4) ^ 2 * (2 * (P.a ^ 2 * (Z P q * ddZ_D0D2 P q + dZ_D0 P q * dZ_D2 P q) *
    (R P q) ^ 2 - P.a ^ 2 * (Z P q * ddR_D0D2 P q + 2 * dR_D0 P q * dZ_D2 P q + 2 * dR_D2 P q * dZ_D0 P q) * R P q * Z P q + 3 * P.a ^ 2 * (Z P q) ^ 2 * dR_D0 P q * dR_D2
    P q + (R P q * ddR_D0D2 P q + dR_D0 P q * dR_D2 P q) * (R P q) ^ 4) * dR_D2 P q + ((-P.a ^ 2) * (Z P q * ddR_D2D2 P q + 4 * dR_D2 P q * dZ_D2 P q) * R P q * Z P q +
    P.a ^ 2 * (Z P q * ddZ_D2D2 P q + (dZ_D2 P q) ^ 2) * (R P q) ^ 2 + 3 * P.a ^ 2 * (Z P q) ^ 2 * (dR_D2 P q) ^ 2 + (R P q * ddR_D2D2 P q + (dR_D2 P q) ^ 2) * (R P q) ^
    4) * dR_D0 P q) - 2 * (P.a ^ 2 * (Z P q) ^ 2 + (R P q) ^ 4) ^ 2 * (P.a ^ 2 * (Z P q * dddZ_D0D2D2 P q + dZ_D0 P q * ddZ_D2D2 P q + 2 * dZ_D2 P q * ddZ_D0D2 P q) * (R
    P q) ^ 3 + 3 * P.a ^ 2 * (Z P q * dR_D0 P q * ddR_D2D2 P q + 2 * Z P q * dR_D2 P q * ddR_D0D2 P q + 4 * dR_D0 P q * dR_D2 P q * dZ_D2 P q + 2 * (dR_D2 P q) ^ 2 *
    dZ_D0 P q) * R P q * Z P q - P.a ^ 2 * ((Z P q) ^ 2 * dddR_D0D2D2 P q + 2 * Z P q * dR_D0 P q * ddZ_D2D2 P q + 4 * Z P q * dR_D2 P q * ddZ_D0D2 P q + 2 * Z P q *
    ddR_D2D2 P q * dZ_D0 P q + 4 * Z P q * dZ_D2 P q * ddR_D0D2 P q + 2 * dR_D0 P q * (dZ_D2 P q) ^ 2 + 4 * dR_D2 P q * dZ_D0 P q * dZ_D2 P q) * (R P q) ^ 2 - 12 * P.a ^
    2 * (Z P q) ^ 2 * dR_D0 P q * (dR_D2 P q) ^ 2 + (R P q * dddR_D0D2D2 P q + dR_D0 P q * ddR_D2D2 P q + 2 * dR_D2 P q * ddR_D0D2 P q) * (R P q) ^ 5) + 8 * (P.a ^ 2 * (Z
    P q) ^ 2 + (R P q) ^ 4) * ((P.a ^ 2 * R P q * Z P q * dZ_D0 P q - P.a ^ 2 * (Z P q) ^ 2 * dR_D0 P q + (R P q) ^ 4 * dR_D0 P q) * ((-P.a ^ 2) * (Z P q * ddR_D2D2 P q +
    4 * dR_D2 P q * dZ_D2 P q) * R P q * Z P q + P.a ^ 2 * (Z P q * ddZ_D2D2 P q + (dZ_D2 P q) ^ 2) * (R P q) ^ 2 + 3 * P.a ^ 2 * (Z P q) ^ 2 * (dR_D2 P q) ^ 2 + (R P q *
    ddR_D2D2 P q + (dR_D2 P q) ^ 2) * (R P q) ^ 4) + 2 * (P.a ^ 2 * R P q * Z P q * dZ_D2 P q - P.a ^ 2 * (Z P q) ^ 2 * dR_D2 P q + (R P q) ^ 4 * dR_D2 P q) * (P.a ^ 2 *
    (Z P q * ddZ_D0D2 P q + dZ_D0 P q * dZ_D2 P q) * (R P q) ^ 2 - P.a ^ 2 * (Z P q * ddR_D0D2 P q + 2 * dR_D0 P q * dZ_D2 P q + 2 * dR_D2 P q * dZ_D0 P q) * R P q * Z P
    q + 3 * P.a ^ 2 * (Z P q) ^ 2 * dR_D0 P q * dR_D2 P q + (R P q * ddR_D0D2 P q + dR_D0 P q * dR_D2 P q) * (R P q) ^ 4)) + 8 * (P.a ^ 2 * (Z P q) ^ 2 + (R P q) ^ 4) *
    (2 * (P.a ^ 2 * R P q * Z P q * dZ_D0 P q - P.a ^ 2 * (Z P q) ^ 2 * dR_D0 P q + (R P q) ^ 4 * dR_D0 P q) * dR_D2 P q + (P.a ^ 2 * R P q * Z P q * dZ_D2 P q - P.a ^ 2
    * (Z P q) ^ 2 * dR_D2 P q + (R P q) ^ 4 * dR_D2 P q) * dR_D0 P q) * (P.a ^ 2 * R P q * Z P q * dZ_D2 P q - P.a ^ 2 * (Z P q) ^ 2 * dR_D2 P q + (R P q) ^ 4 * dR_D2 P
    q) - 48 * (P.a ^ 2 * R P q * Z P q * dZ_D0 P q - P.a ^ 2 * (Z P q) ^ 2 * dR_D0 P q + (R P q) ^ 4 * dR_D0 P q) * (P.a ^ 2 * R P q * Z P q * dZ_D2 P q - P.a ^ 2 * (Z P
    q) ^ 2 * dR_D2 P q + (R P q) ^ 4 * dR_D2 P q) ^ 2) / (P.a ^ 2 * (Z P q) ^ 2 + (R P q) ^ 4) ^ 4

/-- Free_Data/fd_KerrSchild_H_K0_K1_K2.c:5524-5625 `fd_ks_dddH_D2D2D1` -/
noncomputable def dddH_D2D2D1 (P : Par) (q : Pt) : ℝ :=
  P.Lam * P.M * ((P.a ^ 2 * (Z P q) ^ 2 + (R P q) ^ 4) ^ 3 * (R P q) ^ 2 * dddR_D1D2D2 P q - 2 * (P.a ^ 2 * (Z P q) ^ 2 + (R P q) ^ 4) ^ 2 * ((P.a ^ 2 * R P q * Z P q *
    dZ_D1 P q - P.a ^ 2 * (Z P q) ^ 2 * dR_D1 P q + (R P q) ^ 4 * dR_D1 P q) * ddR_D2D2 P q + 2 * (P.a ^ 2 * R P q * Z P q * dZ_D2 P q - P.a ^ 2 * (Z P q) ^ 2 * dR_D2 P q
    + (R P q) ^ 4 * dR_D2 P q) * ddR_D1D2 P q) * R P q - 2 * (P.a ^ 2 * (Z P q) ^ 2 + (R P q) ^ 4) ^ 2 * (2 * (P.a ^ 2 * (Z P q * ddZ_D1D2 P q + dZ_D1 P q * dZ_D2 P q) *
    (R P q) ^ 2 - P.a ^ 2 * (Z P q * ddR_D1D2 P q + 2 * dR_D1 P q * dZ_D2 P q + 2 * dR_D2 P q * dZ_D1 P q) * R P q * Z P q + 3 * P.a ^ 2 * (Z P q) ^ 2 * dR_D1 P q * dR_D2
    P q + (R P q * ddR_D1D2 P q + dR_D1 P q * dR_D2 P q) * (R P q) ^ 4) * dR_D2 P q + ((-P.a ^ 2) * (Z P q * ddR_D2D2 P q + 4 * dR_D2 P q * dZ_D2 P q) * R P q * Z P q +
    P.a ^ 2 * (Z P q * ddZ_D2D2 P q + (dZ_D2 P q) ^ 2) * (R P q) ^ 2 + 3 * P.a ^ 2 * (Z P q) ^ 2 * (dR_D2 P q) ^ 2 + (R P q * ddR_D2D2 P q + (dR_D2 P q) ^ 2) * (R P q) ^
    4) * dR_D1 P q) - 2 * (P.a ^ 2 * (Z P q) ^ 2 + (R P q) ^ 4) ^ 2 * (P.a ^ 2 * (Z P q * dddZ_D1D2D2 P q + dZ_D1 P q * ddZ_D2D2 P q + 2 * dZ_D2 P q * ddZ_D1D2 P q) * (R
    P q) ^ 3 + 3 * P.a ^ 2 * (Z P q * dR_D1 P q * ddR_D2D2 P q + 2 * Z P q * dR_D2 P q * ddR_D1D2 P q + 4 * dR_D1 P q * dR_D2 P q * dZ_D2 P q + 2 * (dR_D2 P q) ^ 2 *
    dZ_D1 P q) * R P q * Z P q - P.a ^ 2 * ((Z P q) ^ 2 * dddR_D1D2D2 P q + 2 * Z P q * dR_D1 P q * ddZ_D2D2 P q + 4 * Z P q * dR_D2 P q * ddZ_D1D2 P q + 2 * Z P q *
    ddR_D2D2 P q * dZ_D1 P q + 4 * Z P q * dZ_D2 P q * ddR_D1D2 P q + 2 * dR_D1 P q * (dZ_D2 P q) ^ 2 + 4 * dR_D2 P q * dZ_D1 P q * dZ_D2 P q) * (R P q) ^ 2 - 12 * P.a ^
    2 * (Z P q) ^ 2 * dR_D1 P q * (dR_D2 P q) ^ 2 + (R P q * dddR_D1D2D2 P q + dR_D1 P q * ddR_D2D2 P q + 2 * dR_D2 P q * ddR_D1D2 P q) * (R P q) ^ 5) + 8 * (P.a ^ 2 * (Z
    P q) ^ 2 + (R P q) ^ 4) * ((P.a ^ 2 * R P q * Z P q * dZ_D1 P q - P.a ^ 2 * (Z P q) ^ 2 * dR_D1 P q + (R P q) ^ 4 * dR_D1 P q) * ((-P.a ^ 2) * (Z P q * ddR_D2D2 P q +
    4 * dR_D2 P q * dZ_D2 P q) * R P q * Z P q + P.a ^ 2 * (Z P q * ddZ_D2D2 P q + (dZ_D2 P q) ^ 2) * (R P q) ^ 2 + 3 * P.a ^ 2 * (Z P q) ^ 2 * (dR_D2 P q) ^ 2 + (R P q *
    ddR_D2D2 P q + (dR_D2 P q) ^ 2) * (R P q) ^ 4) + 2 * (P.a ^ 2 * R P q * Z P q * dZ_D2 P q - P.a ^ 2 * (Z P q) ^ 2 * dR_D2 P q + (R P q) ^ 4 * dR_D2 P q) * (P.a ^ 2 *
    (Z P q * ddZ_D1D2 P q + dZ_D1 P q * dZ_D2 P q) * (R P q) ^ 2 - P.a ^ 2 * (Z P q * ddR_D1D2 P q + 2 * dR_D1 P q * dZ_D2 P q + 2 * dR_D2 P q * dZ_D1 P q) * R P q * Z P
    q + 3 * P.a ^ 2 * (Z P q) ^ 2 * dR_D1 P q * dR_D2 P q + (R P q * ddR_D1D2 P q + dR_D1 P q * dR_D2 P q) * (R P q) ^ 4)) + 8 * (P.a ^ 2 * (Z P q) ^ 2 + (R P q) ^ 4) *
    (2 * (P.a ^ 2 * R P q * Z P q * dZ_D1 P q - P.a ^ 2 * (Z P q) ^ 2 * dR_D1 P q + (R P q) ^ 4 * dR_D1 P q) * dR_D2 P q + (P.a ^ 2 * R P q * Z P q * dZ_D2 P q - P.a ^ 2
    * (Z P q) ^ 2 * dR_D2 P q + (R P q) ^ 4 * dR_D2 P q) * dR_D1 P q) * (P.a ^ 2 * R P q * Z P q * dZ_D2 P q - P.a ^ 2 * (Z P q) ^ 2 * dR_D2 P q + (R P q) ^ 4 * dR_D2 P
    q) - 48 * (P.a ^ 2 * R P q * Z P q * dZ_D1 P q - P.a ^ 2 * (Z P q) ^ 2 * dR_D1 P q + (R P q) ^ 4 * dR_D1 P q) * (P.a ^ 2 * R P q * Z P q * dZ_D2 P q - P.a ^ 2 * (Z P
    q) ^ 2 * dR_D2 P q + (R P q) ^ 4 * dR_D2 P q) ^ 2) / (P.a ^ 2 * (Z P q) ^ 2 + (R P q) ^ 4) ^ 4

/-- Free_Data/fd_KerrSchild_H_K0_K1_K2.c:3881-3938 `fd_ks_dddH_D2D2D2` -/
noncomputable def dddH_D2D2D2 (P : Par) (q : Pt) : ℝ :=
  P.Lam * P.M * ((P.a ^ 2 * (Z P q) ^ 2 + (R P q) ^ 4) ^ 3 * (R P q) ^ 2 * dddR_D2D2D2 P q - 6 * (P.a ^ 2 * (Z P q) ^ 2 + (R P q) ^ 4) ^ 2 * (P.a ^ 2 * R P q * Z P q *
    dZ_D2 P q - P.a ^ 2 * (Z P q) ^ 2 * dR_D2 P q + (R P q) ^ 4 * dR_D2 P q) * R P q * ddR_D2D2 P q - 6 * (P.a ^ 2 * (Z P q) ^ 2 + (R P q) ^ 4) ^ 2 * ((-P.a ^ 2) * (Z P q
    * ddR_D2D2 P q + 4 * dR_D2 P q * dZ_D2 P q) * R P q * Z P q + P.a ^ 2 * (Z P q * ddZ_D2D2 P q + (dZ_D2 P q) ^ 2) * (R P q) ^ 2 + 3 * P.a ^ 2 * (Z P q) ^ 2 * (dR_D2 P
    q) ^ 2 + (R P q * ddR_D2D2 P q + (dR_D2 P q) ^ 2) * (R P q) ^ 4) * dR_D2 P q - 2 * (P.a ^ 2 * (Z P q) ^ 2 + (R P q) ^ 4) ^ 2 * (9 * P.a ^ 2 * (Z P q * ddR_D2D2 P q +
    2 * dR_D2 P q * dZ_D2 P q) * R P q * Z P q * dR_D2 P q + P.a ^ 2 * (Z P q * dddZ_D2D2D2 P q + 3 * dZ_D2 P q * ddZ_D2D2 P q) * (R P q) ^ 3 - P.a ^ 2 * ((Z P q) ^ 2 *
    dddR_D2D2D2 P q + 6 * Z P q * dR_D2 P q * ddZ_D2D2 P q + 6 * Z P q * ddR_D2D2 P q * dZ_D2 P q + 6 * dR_D2 P q * (dZ_D2 P q) ^ 2) * (R P q) ^ 2 - 12 * P.a ^ 2 * (Z P
    q) ^ 2 * (dR_D2 P q) ^ 3 + (R P q * dddR_D2D2D2 P q + 3 * dR_D2 P q * ddR_D2D2 P q) * (R P q) ^ 5) + 24 * (P.a ^ 2 * (Z P q) ^ 2 + (R P q) ^ 4) * (P.a ^ 2 * R P q * Z
    P q * dZ_D2 P q - P.a ^ 2 * (Z P q) ^ 2 * dR_D2 P q + (R P q) ^ 4 * dR_D2 P q) ^ 2 * dR_D2 P q + 24 * (P.a ^ 2 * (Z P q) ^ 2 + (R P q) ^ 4) * (P.a ^ 2 * R P q * Z P q
    * dZ_D2 P q - P.a ^ 2 * (Z P q) ^ 2 * dR_D2 P q + (R P q) ^ 4 * dR_D2 P q) * ((-P.a ^ 2) * (Z P q * ddR_D2D2 P q + 4 * dR_D2 P q * dZ_D2 P q) * R P q * Z P q + P.a ^
    2 * (Z P q * ddZ_D2D2 P q + (dZ_D2 P q) ^ 2) * (R P q) ^ 2 + 3 * P.a ^ 2 * (Z P q) ^ 2 * (dR_D2 P q) ^ 2 + (R P q * ddR_D2D2 P q + (dR_D2 P q) ^ 2) * (R P q) ^ 4) -
    48 * (P.a ^ 2 * R P q * Z P q * dZ_D2 P q - P.a ^ 2 * (Z P q) ^ 2 * dR_D2 P q + (R P q) ^ 4 * dR_D2 P q) ^ 3) / (P.a ^ 2 * (Z P q) ^ 2 + (R P q) ^ 4) ^ 4

/-- the first derivatives of `H` -/
noncomputable def dH (P : Par) : Fin 3 → Pt → ℝ
  | 0, q => dH_D0 P q
  | 1, q => dH_D1 P q
  | 2, q => dH_D2 P q

/-- the second derivatives of `H`: D1D0 is kept as D0D1 -/
noncomputable def ddH (P : Par) : Fin 3 → Fin 3 → Pt → ℝ
  | 0, 0, q => ddH_D0D0 P q
  | 0, 1, q => ddH_D0D1 P q
  | 0, 2, q => ddH_D0D2 P q
  | 1, 0, q => ddH_D0D1 P q
  | 1, 1, q => ddH_D1D1 P q
  | 1, 2, q => ddH_D1D2 P q
  | 2, 0, q => ddH_D0D2 P q
  | 2, 1, q => ddH_D1D2 P q
  | 2, 2, q => ddH_D2D2 P q

/-- the third derivatives of `H` -/
noncomputable def dddH (P : Par) : Fin 3 → Fin 3 → Fin 3 → Pt → ℝ
  | 0, 0, 0, q => dddH_D0D0D0 P q
  | 0, 0, 1, q => dddH_D0D0D1 P q
  | 0, 0, 2, q => dddH_D0D0D2 P q
  | 0, 1, 0, q => dddH_D0D1D0 P q
  | 0, 1, 1, q => dddH_D0D1D1 P q
  | 0, 1, 2, q => dddH_D0D1D2 P q
  | 0, 2, 0, q => dddH_D0D2D0 P q
  | 0, 2, 1, q => dddH_D0D2D1 P q
  | 0, 2, 2, q => dddH_D0D2D2 P q
  | 1, 0, 0, q => dddH_D0D1D0 P q
  | 1, 0, 1, q => dddH_D0D1D1 P q
  | 1, 0, 2, q => dddH_D0D1D2 P q
  | 1, 1, 0, q => dddH_D1D1D0 P q
  | 1, 1, 1, q => dddH_D1D1D1 P q
  | 1, 1, 2, q => dddH_D1D1D2 P q
  | 1, 2, 0, q => dddH_D1D2D0 P q
  | 1, 2, 1, q => dddH_D1D2D1 P q
  | 1, 2, 2, q => dddH_D1D2D2 P q
  | 2, 0, 0, q => dddH_D0D2D0 P q
  | 2, 0, 1, q => dddH_D0D2D1 P q
  | 2, 0, 2, q => dddH_D0D2D2 P q
  | 2, 1, 0, q => dddH_D1D2D0 P q
  | 2, 1, 1, q => dddH_D1D2D1 P q
  | 2, 1, 2, q => dddH_D1D2D2 P q
  | 2, 2, 0, q => dddH_D2D2D0 P q
  | 2, 2, 1, q => dddH_D2D2D1 P q
  | 2, 2, 2, q => dddH_D2D2D2 P q

end Elliptica.Ks
