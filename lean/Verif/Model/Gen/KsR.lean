import Verif.Model.KsPar
/-!
Generated by tools/gen_ks.py from /repo/Src/Main/Modules/Physics/Free_Data/fd_KerrSchild_R_X_Y_Z.c: one definition per C function.
`pow(e,0.5)`, `pow(e,1.5)`, ... are powers of the real square root; the two roots that occur throughout the
derivatives of R are named `Tq` and `Sq`; the literal 0.707106781186548 is the parameter `lit`, the literals
1.4142135623731 and 2.121320343559644 are twice and three times it; `farg->X` etc. hold the values of the
functions at the point (macro KS_set_args).
-/
namespace Elliptica.Ks
open Elliptica.Fields

set_option linter.unusedVariables false

-- the same terms as the usual notation, elaborated directly at type ℝ (long expressions elaborate slowly otherwise)
local macro_rules
  | `($x + $y) => `((HAdd.hAdd : ℝ → ℝ → ℝ) $x $y)
  | `($x - $y) => `((HSub.hSub : ℝ → ℝ → ℝ) $x $y)
  | `($x * $y) => `((HMul.hMul : ℝ → ℝ → ℝ) $x $y)
  | `($x / $y) => `((HDiv.hDiv : ℝ → ℝ → ℝ) $x $y)
  | `($x ^ $y) => `((HPow.hPow : ℝ → ℕ → ℝ) $x $y)
  | `(-$x) => `((Neg.neg : ℝ → ℝ) $x)

/-- Free_Data/fd_KerrSchild_R_X_Y_Z.c:117-133 `fd_ks_X` -/
noncomputable def X (P : Par) (q : Pt) : ℝ :=
  ((-((-1 + √(1 - P.B2) + P.B2) * P.Bx * P.Bz * q 0) - (-1 + √(1 - P.B2) + P.B2) * P.By * P.Bz * q 1 - √(1 - P.B2) * P.B2 * q 2 + (-1 + √(1 - P.B2) + P.B2) * P.Bx ^ 2 * q
    2 + (-1 + √(1 - P.B2) + P.B2) * P.By ^ 2 * q 2) * Real.sin P.phiy + Real.cos P.phiy * ((-((-1 + √(1 - P.B2)) * (P.By ^ 2 * q 0 - P.Bx * P.By * q 1 + P.Bz * (P.Bz * q
    0 - P.Bx * q 2))) + P.B2 * ((√(1 - P.B2) - P.By ^ 2 - P.Bz ^ 2) * q 0 + P.Bx * (P.By * q 1 + P.Bz * q 2))) * Real.cos P.phiz - (-((-1 + √(1 - P.B2) + P.B2) * P.Bx *
    P.By * q 0) + (-1 + √(1 - P.B2) + P.B2) * P.Bx ^ 2 * q 1 + (-1 + √(1 - P.B2)) * P.Bz * (P.Bz * q 1 - P.By * q 2) - P.B2 * (√(1 - P.B2) * q 1 - P.Bz ^ 2 * q 1 + P.By *
    P.Bz * q 2)) * Real.sin P.phiz)) / (P.B2 * (√(1 - P.B2) - P.Bx ^ 2 - P.By ^ 2 - P.Bz ^ 2) - (-1 + √(1 - P.B2)) * (P.Bx ^ 2 + P.By ^ 2 + P.Bz ^ 2))

/-- Free_Data/fd_KerrSchild_R_X_Y_Z.c:145-156 `fd_ks_dX_D0` -/
noncomputable def dX_D0 (P : Par) (q : Pt) : ℝ :=
  (-((-1 + √(1 - P.B2) + P.B2) * P.Bx * P.Bz * Real.sin P.phiy) + Real.cos P.phiy * ((P.B2 * (√(1 - P.B2) - P.By ^ 2 - P.Bz ^ 2) - (-1 + √(1 - P.B2)) * (P.By ^ 2 + P.Bz ^
    2)) * Real.cos P.phiz + (-1 + √(1 - P.B2) + P.B2) * P.Bx * P.By * Real.sin P.phiz)) / (P.B2 * (√(1 - P.B2) - P.Bx ^ 2 - P.By ^ 2 - P.Bz ^ 2) - (-1 + √(1 - P.B2)) *
    (P.Bx ^ 2 + P.By ^ 2 + P.Bz ^ 2))

/-- Free_Data/fd_KerrSchild_R_X_Y_Z.c:157-168 `fd_ks_dX_D1` -/
noncomputable def dX_D1 (P : Par) (q : Pt) : ℝ :=
  (-((-1 + √(1 - P.B2) + P.B2) * P.By * P.Bz * Real.sin P.phiy) + Real.cos P.phiy * ((-1 + √(1 - P.B2) + P.B2) * P.Bx * P.By * Real.cos P.phiz + (P.B2 * (√(1 - P.B2) -
    P.Bx ^ 2 - P.Bz ^ 2) - (-1 + √(1 - P.B2)) * (P.Bx ^ 2 + P.Bz ^ 2)) * Real.sin P.phiz)) / (P.B2 * (√(1 - P.B2) - P.Bx ^ 2 - P.By ^ 2 - P.Bz ^ 2) - (-1 + √(1 - P.B2)) *
    (P.Bx ^ 2 + P.By ^ 2 + P.Bz ^ 2))

/-- Free_Data/fd_KerrSchild_R_X_Y_Z.c:134-144 `fd_ks_dX_D2` -/
noncomputable def dX_D2 (P : Par) (q : Pt) : ℝ :=
  (((-1 + √(1 - P.B2)) * (P.Bx ^ 2 + P.By ^ 2) + P.B2 * (-√(1 - P.B2) + P.Bx ^ 2 + P.By ^ 2)) * Real.sin P.phiy + (-1 + √(1 - P.B2) + P.B2) * P.Bz * Real.cos P.phiy *
    (P.Bx * Real.cos P.phiz + P.By * Real.sin P.phiz)) / (P.B2 * (√(1 - P.B2) - P.Bx ^ 2 - P.By ^ 2 - P.Bz ^ 2) - (-1 + √(1 - P.B2)) * (P.Bx ^ 2 + P.By ^ 2 + P.Bz ^ 2))

/-- Free_Data/fd_KerrSchild_R_X_Y_Z.c:197-203 `fd_ks_ddX_D0D0` -/
noncomputable def ddX_D0D0 (P : Par) (q : Pt) : ℝ :=
  0

/-- Free_Data/fd_KerrSchild_R_X_Y_Z.c:183-189 `fd_ks_ddX_D0D1` -/
noncomputable def ddX_D0D1 (P : Par) (q : Pt) : ℝ :=
  0

/-- Free_Data/fd_KerrSchild_R_X_Y_Z.c:176-182 `fd_ks_ddX_D0D2` -/
noncomputable def ddX_D0D2 (P : Par) (q : Pt) : ℝ :=
  0

/-- Free_Data/fd_KerrSchild_R_X_Y_Z.c:190-196 `fd_ks_ddX_D1D1` -/
noncomputable def ddX_D1D1 (P : Par) (q : Pt) : ℝ :=
  0

/-- Free_Data/fd_KerrSchild_R_X_Y_Z.c:169-175 `fd_ks_ddX_D1D2` -/
noncomputable def ddX_D1D2 (P : Par) (q : Pt) : ℝ :=
  0

/-- Free_Data/fd_KerrSchild_R_X_Y_Z.c:204-210 `fd_ks_ddX_D2D2` -/
noncomputable def ddX_D2D2 (P : Par) (q : Pt) : ℝ :=
  0

/-- Free_Data/fd_KerrSchild_R_X_Y_Z.c:302-308 `fd_ks_dddX_D0D0D0` -/
noncomputable def dddX_D0D0D0 (P : Par) (q : Pt) : ℝ :=
  0

/-- Free_Data/fd_KerrSchild_R_X_Y_Z.c:281-287 `fd_ks_dddX_D0D0D1` -/
noncomputable def dddX_D0D0D1 (P : Par) (q : Pt) : ℝ :=
  0

/-- Free_Data/fd_KerrSchild_R_X_Y_Z.c:288-294 `fd_ks_dddX_D0D0D2` -/
noncomputable def dddX_D0D0D2 (P : Par) (q : Pt) : ℝ :=
  0

/-- Free_Data/fd_KerrSchild_R_X_Y_Z.c:330-336 `fd_ks_dddX_D0D1D0` -/
noncomputable def dddX_D0D1D0 (P : Par) (q : Pt) : ℝ :=
  0

/-- Free_Data/fd_KerrSchild_R_X_Y_Z.c:274-280 `fd_ks_dddX_D0D1D1` -/
noncomputable def dddX_D0D1D1 (P : Par) (q : Pt) : ℝ :=
  0

/-- Free_Data/fd_KerrSchild_R_X_Y_Z.c:295-301 `fd_ks_dddX_D0D1D2` -/
noncomputable def dddX_D0D1D2 (P : Par) (q : Pt) : ℝ :=
  0

/-- Free_Data/fd_KerrSchild_R_X_Y_Z.c:232-238 `fd_ks_dddX_D0D2D0` -/
noncomputable def dddX_D0D2D0 (P : Par) (q : Pt) : ℝ :=
  0

/-- Free_Data/fd_KerrSchild_R_X_Y_Z.c:239-245 `fd_ks_dddX_D0D2D1` -/
noncomputable def dddX_D0D2D1 (P : Par) (q : Pt) : ℝ :=
  0

/-- Free_Data/fd_KerrSchild_R_X_Y_Z.c:218-224 `fd_ks_dddX_D0D2D2` -/
noncomputable def dddX_D0D2D2 (P : Par) (q : Pt) : ℝ :=
  0

/-- Free_Data/fd_KerrSchild_R_X_Y_Z.c:246-252 `fd_ks_dddX_D1D1D0` -/
noncomputable def dddX_D1D1D0 (P : Par) (q : Pt) : ℝ :=
  0

/-- Free_Data/fd_KerrSchild_R_X_Y_Z.c:225-231 `fd_ks_dddX_D1D1D1` -/
noncomputable def dddX_D1D1D1 (P : Par) (q : Pt) : ℝ :=
  0

/-- Free_Data/fd_KerrSchild_R_X_Y_Z.c:316-322 `fd_ks_dddX_D1D1D2` -/
noncomputable def dddX_D1D1D2 (P : Par) (q : Pt) : ℝ :=
  0

/-- Free_Data/fd_KerrSchild_R_X_Y_Z.c:309-315 `fd_ks_dddX_D1D2D0` -/
noncomputable def dddX_D1D2D0 (P : Par) (q : Pt) : ℝ :=
  0

/-- Free_Data/fd_KerrSchild_R_X_Y_Z.c:323-329 `fd_ks_dddX_D1D2D1` -/
noncomputable def dddX_D1D2D1 (P : Par) (q : Pt) : ℝ :=
  0

/-- Free_Data/fd_KerrSchild_R_X_Y_Z.c:260-266 `fd_ks_dddX_D1D2D2` -/
noncomputable def dddX_D1D2D2 (P : Par) (q : Pt) : ℝ :=
  0

/-- Free_Data/fd_KerrSchild_R_X_Y_Z.c:253-259 `fd_ks_dddX_D2D2D0` -/
noncomputable def dddX_D2D2D0 (P : Par) (q : Pt) : ℝ :=
  0

/-- Free_Data/fd_KerrSchild_R_X_Y_Z.c:267-273 `fd_ks_dddX_D2D2D1` -/
noncomputable def dddX_D2D2D1 (P : Par) (q : Pt) : ℝ :=
  0

/-- Free_Data/fd_KerrSchild_R_X_Y_Z.c:211-217 `fd_ks_dddX_D2D2D2` -/
noncomputable def dddX_D2D2D2 (P : Par) (q : Pt) : ℝ :=
  0

/-- the first derivatives of `X` -/
noncomputable def dX (P : Par) : Fin 3 → Pt → ℝ
  | 0, q => dX_D0 P q
  | 1, q => dX_D1 P q
  | 2, q => dX_D2 P q

/-- the second derivatives of `X`: D1D0 is kept as D0D1 -/
noncomputable def ddX (P : Par) : Fin 3 → Fin 3 → Pt → ℝ
  | 0, 0, q => ddX_D0D0 P q
  | 0, 1, q => ddX_D0D1 P q
  | 0, 2, q => ddX_D0D2 P q
  | 1, 0, q => ddX_D0D1 P q
  | 1, 1, q => ddX_D1D1 P q
  | 1, 2, q => ddX_D1D2 P q
  | 2, 0, q => ddX_D0D2 P q
  | 2, 1, q => ddX_D1D2 P q
  | 2, 2, q => ddX_D2D2 P q

/-- the third derivatives of `X` -/
noncomputable def dddX (P : Par) : Fin 3 → Fin 3 → Fin 3 → Pt → ℝ
  | 0, 0, 0, q => dddX_D0D0D0 P q
  | 0, 0, 1, q => dddX_D0D0D1 P q
  | 0, 0, 2, q => dddX_D0D0D2 P q
  | 0, 1, 0, q => dddX_D0D1D0 P q
  | 0, 1, 1, q => dddX_D0D1D1 P q
  | 0, 1, 2, q => dddX_D0D1D2 P q
  | 0, 2, 0, q => dddX_D0D2D0 P q
  | 0, 2, 1, q => dddX_D0D2D1 P q
  | 0, 2, 2, q => dddX_D0D2D2 P q
  | 1, 0, 0, q => dddX_D0D1D0 P q
  | 1, 0, 1, q => dddX_D0D1D1 P q
  | 1, 0, 2, q => dddX_D0D1D2 P q
  | 1, 1, 0, q => dddX_D1D1D0 P q
  | 1, 1, 1, q => dddX_D1D1D1 P q
  | 1, 1, 2, q => dddX_D1D1D2 P q
  | 1, 2, 0, q => dddX_D1D2D0 P q
  | 1, 2, 1, q => dddX_D1D2D1 P q
  | 1, 2, 2, q => dddX_D1D2D2 P q
  | 2, 0, 0, q => dddX_D0D2D0 P q
  | 2, 0, 1, q => dddX_D0D2D1 P q
  | 2, 0, 2, q => dddX_D0D2D2 P q
  | 2, 1, 0, q => dddX_D1D2D0 P q
  | 2, 1, 1, q => dddX_D1D2D1 P q
  | 2, 1, 2, q => dddX_D1D2D2 P q
  | 2, 2, 0, q => dddX_D2D2D0 P q
  | 2, 2, 1, q => dddX_D2D2D1 P q
  | 2, 2, 2, q => dddX_D2D2D2 P q

/-- Free_Data/fd_KerrSchild_R_X_Y_Z.c:337-350 `fd_ks_Y` -/
noncomputable def Y (P : Par) (q : Pt) : ℝ :=
  (((-1 + √(1 - P.B2) + P.B2) * P.Bx * P.By * q 0 - (-1 + √(1 - P.B2) + P.B2) * P.Bx ^ 2 * q 1 - (-1 + √(1 - P.B2)) * P.Bz * (P.Bz * q 1 - P.By * q 2) + P.B2 * (√(1 -
    P.B2) * q 1 - P.Bz ^ 2 * q 1 + P.By * P.Bz * q 2)) * Real.cos P.phiz + ((-1 + √(1 - P.B2)) * (P.By ^ 2 * q 0 - P.Bx * P.By * q 1 + P.Bz * (P.Bz * q 0 - P.Bx * q 2)) -
    P.B2 * ((√(1 - P.B2) - P.By ^ 2 - P.Bz ^ 2) * q 0 + P.Bx * (P.By * q 1 + P.Bz * q 2))) * Real.sin P.phiz) / (P.B2 * (√(1 - P.B2) - P.Bx ^ 2 - P.By ^ 2 - P.Bz ^ 2) -
    (-1 + √(1 - P.B2)) * (P.Bx ^ 2 + P.By ^ 2 + P.Bz ^ 2))

/-- Free_Data/fd_KerrSchild_R_X_Y_Z.c:362-372 `fd_ks_dY_D0` -/
noncomputable def dY_D0 (P : Par) (q : Pt) : ℝ :=
  ((-1 + √(1 - P.B2) + P.B2) * P.Bx * P.By * Real.cos P.phiz + ((-1 + √(1 - P.B2)) * (P.By ^ 2 + P.Bz ^ 2) + P.B2 * (-√(1 - P.B2) + P.By ^ 2 + P.Bz ^ 2)) * Real.sin
    P.phiz) / (P.B2 * (√(1 - P.B2) - P.Bx ^ 2 - P.By ^ 2 - P.Bz ^ 2) - (-1 + √(1 - P.B2)) * (P.Bx ^ 2 + P.By ^ 2 + P.Bz ^ 2))

/-- Free_Data/fd_KerrSchild_R_X_Y_Z.c:351-361 `fd_ks_dY_D1` -/
noncomputable def dY_D1 (P : Par) (q : Pt) : ℝ :=
  ((P.B2 * (√(1 - P.B2) - P.Bx ^ 2 - P.Bz ^ 2) - (-1 + √(1 - P.B2)) * (P.Bx ^ 2 + P.Bz ^ 2)) * Real.cos P.phiz - (-1 + √(1 - P.B2) + P.B2) * P.Bx * P.By * Real.sin
    P.phiz) / (P.B2 * (√(1 - P.B2) - P.Bx ^ 2 - P.By ^ 2 - P.Bz ^ 2) - (-1 + √(1 - P.B2)) * (P.Bx ^ 2 + P.By ^ 2 + P.Bz ^ 2))

/-- Free_Data/fd_KerrSchild_R_X_Y_Z.c:373-381 `fd_ks_dY_D2` -/
noncomputable def dY_D2 (P : Par) (q : Pt) : ℝ :=
  (-1 + √(1 - P.B2) + P.B2) * P.Bz * (P.By * Real.cos P.phiz - P.Bx * Real.sin P.phiz) / (P.B2 * (√(1 - P.B2) - P.Bx ^ 2 - P.By ^ 2 - P.Bz ^ 2) - (-1 + √(1 - P.B2)) *
    (P.Bx ^ 2 + P.By ^ 2 + P.Bz ^ 2))

/-- Free_Data/fd_KerrSchild_R_X_Y_Z.c:396-402 `fd_ks_ddY_D0D0` -/
noncomputable def ddY_D0D0 (P : Par) (q : Pt) : ℝ :=
  0

/-- Free_Data/fd_KerrSchild_R_X_Y_Z.c:403-409 `fd_ks_ddY_D0D1` -/
noncomputable def ddY_D0D1 (P : Par) (q : Pt) : ℝ :=
  0

/-- Free_Data/fd_KerrSchild_R_X_Y_Z.c:410-416 `fd_ks_ddY_D0D2` -/
noncomputable def ddY_D0D2 (P : Par) (q : Pt) : ℝ :=
  0

/-- Free_Data/fd_KerrSchild_R_X_Y_Z.c:382-388 `fd_ks_ddY_D1D1` -/
noncomputable def ddY_D1D1 (P : Par) (q : Pt) : ℝ :=
  0

/-- Free_Data/fd_KerrSchild_R_X_Y_Z.c:389-395 `fd_ks_ddY_D1D2` -/
noncomputable def ddY_D1D2 (P : Par) (q : Pt) : ℝ :=
  0

/-- Free_Data/fd_KerrSchild_R_X_Y_Z.c:417-423 `fd_ks_ddY_D2D2` -/
noncomputable def ddY_D2D2 (P : Par) (q : Pt) : ℝ :=
  0

/-- Free_Data/fd_KerrSchild_R_X_Y_Z.c:543-549 `fd_ks_dddY_D0D0D0` -/
noncomputable def dddY_D0D0D0 (P : Par) (q : Pt) : ℝ :=
  0

/-- Free_Data/fd_KerrSchild_R_X_Y_Z.c:536-542 `fd_ks_dddY_D0D0D1` -/
noncomputable def dddY_D0D0D1 (P : Par) (q : Pt) : ℝ :=
  0

/-- Free_Data/fd_KerrSchild_R_X_Y_Z.c:529-535 `fd_ks_dddY_D0D0D2` -/
noncomputable def dddY_D0D0D2 (P : Par) (q : Pt) : ℝ :=
  0

/-- Free_Data/fd_KerrSchild_R_X_Y_Z.c:501-507 `fd_ks_dddY_D0D1D0` -/
noncomputable def dddY_D0D1D0 (P : Par) (q : Pt) : ℝ :=
  0

/-- Free_Data/fd_KerrSchild_R_X_Y_Z.c:508-514 `fd_ks_dddY_D0D1D1` -/
noncomputable def dddY_D0D1D1 (P : Par) (q : Pt) : ℝ :=
  0

/-- Free_Data/fd_KerrSchild_R_X_Y_Z.c:487-493 `fd_ks_dddY_D0D1D2` -/
noncomputable def dddY_D0D1D2 (P : Par) (q : Pt) : ℝ :=
  0

/-- Free_Data/fd_KerrSchild_R_X_Y_Z.c:438-444 `fd_ks_dddY_D0D2D0` -/
noncomputable def dddY_D0D2D0 (P : Par) (q : Pt) : ℝ :=
  0

/-- Free_Data/fd_KerrSchild_R_X_Y_Z.c:431-437 `fd_ks_dddY_D0D2D1` -/
noncomputable def dddY_D0D2D1 (P : Par) (q : Pt) : ℝ :=
  0

/-- Free_Data/fd_KerrSchild_R_X_Y_Z.c:445-451 `fd_ks_dddY_D0D2D2` -/
noncomputable def dddY_D0D2D2 (P : Par) (q : Pt) : ℝ :=
  0

/-- Free_Data/fd_KerrSchild_R_X_Y_Z.c:452-458 `fd_ks_dddY_D1D1D0` -/
noncomputable def dddY_D1D1D0 (P : Par) (q : Pt) : ℝ :=
  0

/-- Free_Data/fd_KerrSchild_R_X_Y_Z.c:515-521 `fd_ks_dddY_D1D1D1` -/
noncomputable def dddY_D1D1D1 (P : Par) (q : Pt) : ℝ :=
  0

/-- Free_Data/fd_KerrSchild_R_X_Y_Z.c:494-500 `fd_ks_dddY_D1D1D2` -/
noncomputable def dddY_D1D1D2 (P : Par) (q : Pt) : ℝ :=
  0

/-- Free_Data/fd_KerrSchild_R_X_Y_Z.c:522-528 `fd_ks_dddY_D1D2D0` -/
noncomputable def dddY_D1D2D0 (P : Par) (q : Pt) : ℝ :=
  0

/-- Free_Data/fd_KerrSchild_R_X_Y_Z.c:473-479 `fd_ks_dddY_D1D2D1` -/
noncomputable def dddY_D1D2D1 (P : Par) (q : Pt) : ℝ :=
  0

/-- Free_Data/fd_KerrSchild_R_X_Y_Z.c:424-430 `fd_ks_dddY_D1D2D2` -/
noncomputable def dddY_D1D2D2 (P : Par) (q : Pt) : ℝ :=
  0

/-- Free_Data/fd_KerrSchild_R_X_Y_Z.c:459-465 `fd_ks_dddY_D2D2D0` -/
noncomputable def dddY_D2D2D0 (P : Par) (q : Pt) : ℝ :=
  0

/-- Free_Data/fd_KerrSchild_R_X_Y_Z.c:466-472 `fd_ks_dddY_D2D2D1` -/
noncomputable def dddY_D2D2D1 (P : Par) (q : Pt) : ℝ :=
  0

/-- Free_Data/fd_KerrSchild_R_X_Y_Z.c:480-486 `fd_ks_dddY_D2D2D2` -/
noncomputable def dddY_D2D2D2 (P : Par) (q : Pt) : ℝ :=
  0

/-- the first derivatives of `Y` -/
noncomputable def dY (P : Par) : Fin 3 → Pt → ℝ
  | 0, q => dY_D0 P q
  | 1, q => dY_D1 P q
  | 2, q => dY_D2 P q

/-- the second derivatives of `Y`: D1D0 is kept as D0D1 -/
noncomputable def ddY (P : Par) : Fin 3 → Fin 3 → Pt → ℝ
  | 0, 0, q => ddY_D0D0 P q
  | 0, 1, q => ddY_D0D1 P q
  | 0, 2, q => ddY_D0D2 P q
  | 1, 0, q => ddY_D0D1 P q
  | 1, 1, q => ddY_D1D1 P q
  | 1, 2, q => ddY_D1D2 P q
  | 2, 0, q => ddY_D0D2 P q
  | 2, 1, q => ddY_D1D2 P q
  | 2, 2, q => ddY_D2D2 P q

/-- the third derivatives of `Y` -/
noncomputable def dddY (P : Par) : Fin 3 → Fin 3 → Fin 3 → Pt → ℝ
  | 0, 0, 0, q => dddY_D0D0D0 P q
  | 0, 0, 1, q => dddY_D0D0D1 P q
  | 0, 0, 2, q => dddY_D0D0D2 P q
  | 0, 1, 0, q => dddY_D0D1D0 P q
  | 0, 1, 1, q => dddY_D0D1D1 P q
  | 0, 1, 2, q => dddY_D0D1D2 P q
  | 0, 2, 0, q => dddY_D0D2D0 P q
  | 0, 2, 1, q => dddY_D0D2D1 P q
  | 0, 2, 2, q => dddY_D0D2D2 P q
  | 1, 0, 0, q => dddY_D0D1D0 P q
  | 1, 0, 1, q => dddY_D0D1D1 P q
  | 1, 0, 2, q => dddY_D0D1D2 P q
  | 1, 1, 0, q => dddY_D1D1D0 P q
  | 1, 1, 1, q => dddY_D1D1D1 P q
  | 1, 1, 2, q => dddY_D1D1D2 P q
  | 1, 2, 0, q => dddY_D1D2D0 P q
  | 1, 2, 1, q => dddY_D1D2D1 P q
  | 1, 2, 2, q => dddY_D1D2D2 P q
  | 2, 0, 0, q => dddY_D0D2D0 P q
  | 2, 0, 1, q => dddY_D0D2D1 P q
  | 2, 0, 2, q => dddY_D0D2D2 P q
  | 2, 1, 0, q => dddY_D1D2D0 P q
  | 2, 1, 1, q => dddY_D1D2D1 P q
  | 2, 1, 2, q => dddY_D1D2D2 P q
  | 2, 2, 0, q => dddY_D2D2D0 P q
  | 2, 2, 1, q => dddY_D2D2D1 P q
  | 2, 2, 2, q => dddY_D2D2D2 P q

/-- Free_Data/fd_KerrSchild_R_X_Y_Z.c:550-566 `fd_ks_Z` -/
noncomputable def Z (P : Par) (q : Pt) : ℝ :=
  (((-1 + √(1 - P.B2) + P.B2) * P.Bx * P.Bz * q 0 + (-1 + √(1 - P.B2) + P.B2) * P.By * P.Bz * q 1 + √(1 - P.B2) * P.B2 * q 2 - (-1 + √(1 - P.B2) + P.B2) * P.Bx ^ 2 * q 2
    - (-1 + √(1 - P.B2) + P.B2) * P.By ^ 2 * q 2) * Real.cos P.phiy + Real.sin P.phiy * ((-((-1 + √(1 - P.B2)) * (P.By ^ 2 * q 0 - P.Bx * P.By * q 1 + P.Bz * (P.Bz * q 0
    - P.Bx * q 2))) + P.B2 * ((√(1 - P.B2) - P.By ^ 2 - P.Bz ^ 2) * q 0 + P.Bx * (P.By * q 1 + P.Bz * q 2))) * Real.cos P.phiz - (-((-1 + √(1 - P.B2) + P.B2) * P.Bx *
    P.By * q 0) + (-1 + √(1 - P.B2) + P.B2) * P.Bx ^ 2 * q 1 + (-1 + √(1 - P.B2)) * P.Bz * (P.Bz * q 1 - P.By * q 2) - P.B2 * (√(1 - P.B2) * q 1 - P.Bz ^ 2 * q 1 + P.By *
    P.Bz * q 2)) * Real.sin P.phiz)) / (P.B2 * (√(1 - P.B2) - P.Bx ^ 2 - P.By ^ 2 - P.Bz ^ 2) - (-1 + √(1 - P.B2)) * (P.Bx ^ 2 + P.By ^ 2 + P.Bz ^ 2))

/-- Free_Data/fd_KerrSchild_R_X_Y_Z.c:567-578 `fd_ks_dZ_D0` -/
noncomputable def dZ_D0 (P : Par) (q : Pt) : ℝ :=
  ((-1 + √(1 - P.B2) + P.B2) * P.Bx * P.Bz * Real.cos P.phiy + Real.sin P.phiy * ((P.B2 * (√(1 - P.B2) - P.By ^ 2 - P.Bz ^ 2) - (-1 + √(1 - P.B2)) * (P.By ^ 2 + P.Bz ^
    2)) * Real.cos P.phiz + (-1 + √(1 - P.B2) + P.B2) * P.Bx * P.By * Real.sin P.phiz)) / (P.B2 * (√(1 - P.B2) - P.Bx ^ 2 - P.By ^ 2 - P.Bz ^ 2) - (-1 + √(1 - P.B2)) *
    (P.Bx ^ 2 + P.By ^ 2 + P.Bz ^ 2))

/-- Free_Data/fd_KerrSchild_R_X_Y_Z.c:579-590 `fd_ks_dZ_D1` -/
noncomputable def dZ_D1 (P : Par) (q : Pt) : ℝ :=
  ((-1 + √(1 - P.B2) + P.B2) * P.By * P.Bz * Real.cos P.phiy + Real.sin P.phiy * ((-1 + √(1 - P.B2) + P.B2) * P.Bx * P.By * Real.cos P.phiz - ((-1 + √(1 - P.B2)) * (P.Bx
    ^ 2 + P.Bz ^ 2) + P.B2 * (-√(1 - P.B2) + P.Bx ^ 2 + P.Bz ^ 2)) * Real.sin P.phiz)) / (P.B2 * (√(1 - P.B2) - P.Bx ^ 2 - P.By ^ 2 - P.Bz ^ 2) - (-1 + √(1 - P.B2)) *
    (P.Bx ^ 2 + P.By ^ 2 + P.Bz ^ 2))

/-- Free_Data/fd_KerrSchild_R_X_Y_Z.c:591-601 `fd_ks_dZ_D2` -/
noncomputable def dZ_D2 (P : Par) (q : Pt) : ℝ :=
  ((P.B2 * (√(1 - P.B2) - P.Bx ^ 2 - P.By ^ 2) - (-1 + √(1 - P.B2)) * (P.Bx ^ 2 + P.By ^ 2)) * Real.cos P.phiy + (-1 + √(1 - P.B2) + P.B2) * P.Bz * Real.sin P.phiy *
    (P.Bx * Real.cos P.phiz + P.By * Real.sin P.phiz)) / (P.B2 * (√(1 - P.B2) - P.Bx ^ 2 - P.By ^ 2 - P.Bz ^ 2) - (-1 + √(1 - P.B2)) * (P.Bx ^ 2 + P.By ^ 2 + P.Bz ^ 2))

/-- Free_Data/fd_KerrSchild_R_X_Y_Z.c:609-615 `fd_ks_ddZ_D0D0` -/
noncomputable def ddZ_D0D0 (P : Par) (q : Pt) : ℝ :=
  0

/-- Free_Data/fd_KerrSchild_R_X_Y_Z.c:602-608 `fd_ks_ddZ_D0D1` -/
noncomputable def ddZ_D0D1 (P : Par) (q : Pt) : ℝ :=
  0

/-- Free_Data/fd_KerrSchild_R_X_Y_Z.c:616-622 `fd_ks_ddZ_D0D2` -/
noncomputable def ddZ_D0D2 (P : Par) (q : Pt) : ℝ :=
  0

/-- Free_Data/fd_KerrSchild_R_X_Y_Z.c:623-629 `fd_ks_ddZ_D1D1` -/
noncomputable def ddZ_D1D1 (P : Par) (q : Pt) : ℝ :=
  0

/-- Free_Data/fd_KerrSchild_R_X_Y_Z.c:630-636 `fd_ks_ddZ_D1D2` -/
noncomputable def ddZ_D1D2 (P : Par) (q : Pt) : ℝ :=
  0

/-- Free_Data/fd_KerrSchild_R_X_Y_Z.c:637-643 `fd_ks_ddZ_D2D2` -/
noncomputable def ddZ_D2D2 (P : Par) (q : Pt) : ℝ :=
  0

/-- Free_Data/fd_KerrSchild_R_X_Y_Z.c:742-748 `fd_ks_dddZ_D0D0D0` -/
noncomputable def dddZ_D0D0D0 (P : Par) (q : Pt) : ℝ :=
  0

/-- Free_Data/fd_KerrSchild_R_X_Y_Z.c:749-755 `fd_ks_dddZ_D0D0D1` -/
noncomputable def dddZ_D0D0D1 (P : Par) (q : Pt) : ℝ :=
  0

/-- Free_Data/fd_KerrSchild_R_X_Y_Z.c:735-741 `fd_ks_dddZ_D0D0D2` -/
noncomputable def dddZ_D0D0D2 (P : Par) (q : Pt) : ℝ :=
  0

/-- Free_Data/fd_KerrSchild_R_X_Y_Z.c:665-671 `fd_ks_dddZ_D0D1D0` -/
noncomputable def dddZ_D0D1D0 (P : Par) (q : Pt) : ℝ :=
  0

/-- Free_Data/fd_KerrSchild_R_X_Y_Z.c:658-664 `fd_ks_dddZ_D0D1D1` -/
noncomputable def dddZ_D0D1D1 (P : Par) (q : Pt) : ℝ :=
  0

/-- Free_Data/fd_KerrSchild_R_X_Y_Z.c:651-657 `fd_ks_dddZ_D0D1D2` -/
noncomputable def dddZ_D0D1D2 (P : Par) (q : Pt) : ℝ :=
  0

/-- Free_Data/fd_KerrSchild_R_X_Y_Z.c:679-685 `fd_ks_dddZ_D0D2D0` -/
noncomputable def dddZ_D0D2D0 (P : Par) (q : Pt) : ℝ :=
  0

/-- Free_Data/fd_KerrSchild_R_X_Y_Z.c:686-692 `fd_ks_dddZ_D0D2D1` -/
noncomputable def dddZ_D0D2D1 (P : Par) (q : Pt) : ℝ :=
  0

/-- Free_Data/fd_KerrSchild_R_X_Y_Z.c:693-699 `fd_ks_dddZ_D0D2D2` -/
noncomputable def dddZ_D0D2D2 (P : Par) (q : Pt) : ℝ :=
  0

/-- Free_Data/fd_KerrSchild_R_X_Y_Z.c:707-713 `fd_ks_dddZ_D1D1D0` -/
noncomputable def dddZ_D1D1D0 (P : Par) (q : Pt) : ℝ :=
  0

/-- Free_Data/fd_KerrSchild_R_X_Y_Z.c:721-727 `fd_ks_dddZ_D1D1D1` -/
noncomputable def dddZ_D1D1D1 (P : Par) (q : Pt) : ℝ :=
  0

/-- Free_Data/fd_KerrSchild_R_X_Y_Z.c:644-650 `fd_ks_dddZ_D1D1D2` -/
noncomputable def dddZ_D1D1D2 (P : Par) (q : Pt) : ℝ :=
  0

/-- Free_Data/fd_KerrSchild_R_X_Y_Z.c:672-678 `fd_ks_dddZ_D1D2D0` -/
noncomputable def dddZ_D1D2D0 (P : Par) (q : Pt) : ℝ :=
  0

/-- Free_Data/fd_KerrSchild_R_X_Y_Z.c:756-762 `fd_ks_dddZ_D1D2D1` -/
noncomputable def dddZ_D1D2D1 (P : Par) (q : Pt) : ℝ :=
  0

/-- Free_Data/fd_KerrSchild_R_X_Y_Z.c:728-734 `fd_ks_dddZ_D1D2D2` -/
noncomputable def dddZ_D1D2D2 (P : Par) (q : Pt) : ℝ :=
  0

/-- Free_Data/fd_KerrSchild_R_X_Y_Z.c:763-769 `fd_ks_dddZ_D2D2D0` -/
noncomputable def dddZ_D2D2D0 (P : Par) (q : Pt) : ℝ :=
  0

/-- Free_Data/fd_KerrSchild_R_X_Y_Z.c:700-706 `fd_ks_dddZ_D2D2D1` -/
noncomputable def dddZ_D2D2D1 (P : Par) (q : Pt) : ℝ :=
  0

/-- Free_Data/fd_KerrSchild_R_X_Y_Z.c:714-720 `fd_ks_dddZ_D2D2D2` -/
noncomputable def dddZ_D2D2D2 (P : Par) (q : Pt) : ℝ :=
  0

/-- the first derivatives of `Z` -/
noncomputable def dZ (P : Par) : Fin 3 → Pt → ℝ
  | 0, q => dZ_D0 P q
  | 1, q => dZ_D1 P q
  | 2, q => dZ_D2 P q

/-- the second derivatives of `Z`: D1D0 is kept as D0D1 -/
noncomputable def ddZ (P : Par) : Fin 3 → Fin 3 → Pt → ℝ
  | 0, 0, q => ddZ_D0D0 P q
  | 0, 1, q => ddZ_D0D1 P q
  | 0, 2, q => ddZ_D0D2 P q
  | 1, 0, q => ddZ_D0D1 P q
  | 1, 1, q => ddZ_D1D1 P q
  | 1, 2, q => ddZ_D1D2 P q
  | 2, 0, q => ddZ_D0D2 P q
  | 2, 1, q => ddZ_D1D2 P q
  | 2, 2, q => ddZ_D2D2 P q

/-- the third derivatives of `Z` -/
noncomputable def dddZ (P : Par) : Fin 3 → Fin 3 → Fin 3 → Pt → ℝ
  | 0, 0, 0, q => dddZ_D0D0D0 P q
  | 0, 0, 1, q => dddZ_D0D0D1 P q
  | 0, 0, 2, q => dddZ_D0D0D2 P q
  | 0, 1, 0, q => dddZ_D0D1D0 P q
  | 0, 1, 1, q => dddZ_D0D1D1 P q
  | 0, 1, 2, q => dddZ_D0D1D2 P q
  | 0, 2, 0, q => dddZ_D0D2D0 P q
  | 0, 2, 1, q => dddZ_D0D2D1 P q
  | 0, 2, 2, q => dddZ_D0D2D2 P q
  | 1, 0, 0, q => dddZ_D0D1D0 P q
  | 1, 0, 1, q => dddZ_D0D1D1 P q
  | 1, 0, 2, q => dddZ_D0D1D2 P q
  | 1, 1, 0, q => dddZ_D1D1D0 P q
  | 1, 1, 1, q => dddZ_D1D1D1 P q
  | 1, 1, 2, q => dddZ_D1D1D2 P q
  | 1, 2, 0, q => dddZ_D1D2D0 P q
  | 1, 2, 1, q => dddZ_D1D2D1 P q
  | 1, 2, 2, q => dddZ_D1D2D2 P q
  | 2, 0, 0, q => dddZ_D0D2D0 P q
  | 2, 0, 1, q => dddZ_D0D2D1 P q
  | 2, 0, 2, q => dddZ_D0D2D2 P q
  | 2, 1, 0, q => dddZ_D1D2D0 P q
  | 2, 1, 1, q => dddZ_D1D2D1 P q
  | 2, 1, 2, q => dddZ_D1D2D2 P q
  | 2, 2, 0, q => dddZ_D2D2D0 P q
  | 2, 2, 1, q => dddZ_D2D2D1 P q
  | 2, 2, 2, q => dddZ_D2D2D2 P q

/-- Free_Data/fd_KerrSchild_R_X_Y_Z.c:770-780: the inner square root of `fd_ks_R` -/
noncomputable def Tq (P : Par) (q : Pt) : ℝ :=
  √(4 * P.a ^ 2 * (Z P q) ^ 2 + (-P.a ^ 2 + (X P q) ^ 2 + (Y P q) ^ 2 + (Z P q) ^ 2) ^ 2)

/-- Free_Data/fd_KerrSchild_R_X_Y_Z.c:770-780: the outer square root of `fd_ks_R` -/
noncomputable def Sq (P : Par) (q : Pt) : ℝ :=
  √(-P.a ^ 2 + (X P q) ^ 2 + (Y P q) ^ 2 + (Z P q) ^ 2 + Tq P q)

/-- Free_Data/fd_KerrSchild_R_X_Y_Z.c:770-780 `fd_ks_R` -/
noncomputable def R (P : Par) (q : Pt) : ℝ :=
  P.lit * Sq P q

/-- Free_Data/fd_KerrSchild_R_X_Y_Z.c:781-799 `fd_ks_dR_D0` -/
noncomputable def dR_D0 (P : Par) (q : Pt) : ℝ :=
  P.lit * (1 * dX_D0 P q * X P q + 1 * dY_D0 P q * Y P q + 1 * dZ_D0 P q * Z P q + (1 / 2) * (4 * dZ_D0 P q * P.a ^ 2 * Z P q + 2 * (dX_D0 P q * X P q + dY_D0 P q * Y P q
    + dZ_D0 P q * Z P q) * ((-1) * P.a ^ 2 + (X P q) ^ 2 + (Y P q) ^ 2 + (Z P q) ^ 2)) / Tq P q) / Sq P q

/-- Free_Data/fd_KerrSchild_R_X_Y_Z.c:800-818 `fd_ks_dR_D1` -/
noncomputable def dR_D1 (P : Par) (q : Pt) : ℝ :=
  P.lit * (1 * dX_D1 P q * X P q + 1 * dY_D1 P q * Y P q + 1 * dZ_D1 P q * Z P q + (1 / 2) * (4 * dZ_D1 P q * P.a ^ 2 * Z P q + 2 * (dX_D1 P q * X P q + dY_D1 P q * Y P q
    + dZ_D1 P q * Z P q) * ((-1) * P.a ^ 2 + (X P q) ^ 2 + (Y P q) ^ 2 + (Z P q) ^ 2)) / Tq P q) / Sq P q

/-- Free_Data/fd_KerrSchild_R_X_Y_Z.c:819-837 `fd_ks_dR_D2` -/
noncomputable def dR_D2 (P : Par) (q : Pt) : ℝ :=
  P.lit * (1 * dX_D2 P q * X P q + 1 * dY_D2 P q * Y P q + 1 * dZ_D2 P q * Z P q + (1 / 2) * (4 * dZ_D2 P q * P.a ^ 2 * Z P q + 2 * (dX_D2 P q * X P q + dY_D2 P q * Y P q
    + dZ_D2 P q * Z P q) * ((-1) * P.a ^ 2 + (X P q) ^ 2 + (Y P q) ^ 2 + (Z P q) ^ 2)) / Tq P q) / Sq P q

/-- Free_Data/fd_KerrSchild_R_X_Y_Z.c:1078-1135 `fd_ks_ddR_D0D0` -/
noncomputable def ddR_D0D0 (P : Par) (q : Pt) : ℝ :=
  P.lit * (1 * (dX_D0 P q) ^ 2 + 1 * (dY_D0 P q) ^ 2 + 1 * (dZ_D0 P q) ^ 2 + 1 * ddX_D0D0 P q * X P q + 1 * ddY_D0D0 P q * Y P q + 1 * ddZ_D0D0 P q * Z P q - 2 * (dZ_D0 P
    q * Z P q * ((-1) * P.a ^ 2 - 1 * (X P q) ^ 2 - 1 * (Y P q) ^ 2 - 1 * (Z P q) ^ 2) + dX_D0 P q * X P q * (1 * P.a ^ 2 - 1 * (X P q) ^ 2 - 1 * (Y P q) ^ 2 - 1 * (Z P
    q) ^ 2) + dY_D0 P q * Y P q * (1 * P.a ^ 2 - 1 * (X P q) ^ 2 - 1 * (Y P q) ^ 2 - 1 * (Z P q) ^ 2)) ^ 2 / (Tq P q) ^ 3 + (1 / 2) * (4 * (dZ_D0 P q) ^ 2 * P.a ^ 2 + 4 *
    ddZ_D0D0 P q * P.a ^ 2 * Z P q + 4 * (1 * dX_D0 P q * X P q + 1 * dY_D0 P q * Y P q + 1 * dZ_D0 P q * Z P q) ^ 2 + (2 * (dX_D0 P q) ^ 2 + 2 * (dY_D0 P q) ^ 2 + 2 *
    (dZ_D0 P q) ^ 2 + 2 * ddX_D0D0 P q * X P q + 2 * ddY_D0D0 P q * Y P q + 2 * ddZ_D0D0 P q * Z P q) * (-P.a ^ 2 + (X P q) ^ 2 + (Y P q) ^ 2 + (Z P q) ^ 2)) / Tq P q) /
    Sq P q + P.lit * ((-1) * dX_D0 P q * X P q - 1 * dY_D0 P q * Y P q - 1 * dZ_D0 P q * Z P q - (1 / 2) * (4 * dZ_D0 P q * P.a ^ 2 * Z P q + 2 * (dX_D0 P q * X P q +
    dY_D0 P q * Y P q + dZ_D0 P q * Z P q) * ((-1) * P.a ^ 2 + (X P q) ^ 2 + (Y P q) ^ 2 + (Z P q) ^ 2)) / Tq P q) * (1 * dX_D0 P q * X P q + 1 * dY_D0 P q * Y P q + 1 *
    dZ_D0 P q * Z P q + (1 / 2) * (4 * dZ_D0 P q * P.a ^ 2 * Z P q + 2 * (dX_D0 P q * X P q + dY_D0 P q * Y P q + dZ_D0 P q * Z P q) * ((-1) * P.a ^ 2 + (X P q) ^ 2 + (Y
    P q) ^ 2 + (Z P q) ^ 2)) / Tq P q) / (Sq P q) ^ 3

/-- Free_Data/fd_KerrSchild_R_X_Y_Z.c:1016-1077 `fd_ks_ddR_D0D1` -/
noncomputable def ddR_D0D1 (P : Par) (q : Pt) : ℝ :=
  P.lit * (1 * dX_D0 P q * dX_D1 P q + 1 * dY_D0 P q * dY_D1 P q + 1 * dZ_D0 P q * dZ_D1 P q + 1 * ddX_D0D1 P q * X P q + 1 * ddY_D0D1 P q * Y P q + 1 * ddZ_D0D1 P q * Z
    P q + (1 / 2) * (4 * dZ_D0 P q * dZ_D1 P q * P.a ^ 2 + 4 * ddZ_D0D1 P q * P.a ^ 2 * Z P q + 4 * (1 * dX_D0 P q * X P q + 1 * dY_D0 P q * Y P q + 1 * dZ_D0 P q * Z P
    q) * (dX_D1 P q * X P q + dY_D1 P q * Y P q + dZ_D1 P q * Z P q) + (2 * dX_D0 P q * dX_D1 P q + 2 * dY_D0 P q * dY_D1 P q + 2 * dZ_D0 P q * dZ_D1 P q + 2 * ddX_D0D1 P
    q * X P q + 2 * ddY_D0D1 P q * Y P q + 2 * ddZ_D0D1 P q * Z P q) * (-P.a ^ 2 + (X P q) ^ 2 + (Y P q) ^ 2 + (Z P q) ^ 2)) / Tq P q + (1 / 2) * (4 * dZ_D0 P q * P.a ^ 2
    * Z P q + 2 * (dX_D0 P q * X P q + dY_D0 P q * Y P q + dZ_D0 P q * Z P q) * ((-1) * P.a ^ 2 + (X P q) ^ 2 + (Y P q) ^ 2 + (Z P q) ^ 2)) * ((-4) * dZ_D1 P q * P.a ^ 2
    * Z P q - 2 * (dX_D1 P q * X P q + dY_D1 P q * Y P q + dZ_D1 P q * Z P q) * ((-1) * P.a ^ 2 + (X P q) ^ 2 + (Y P q) ^ 2 + (Z P q) ^ 2)) / (Tq P q) ^ 3) / Sq P q +
    P.lit * (1 * dX_D0 P q * X P q + 1 * dY_D0 P q * Y P q + 1 * dZ_D0 P q * Z P q + (1 / 2) * (4 * dZ_D0 P q * P.a ^ 2 * Z P q + 2 * (dX_D0 P q * X P q + dY_D0 P q * Y P
    q + dZ_D0 P q * Z P q) * ((-1) * P.a ^ 2 + (X P q) ^ 2 + (Y P q) ^ 2 + (Z P q) ^ 2)) / Tq P q) * ((-1) * dX_D1 P q * X P q - 1 * dY_D1 P q * Y P q - 1 * dZ_D1 P q * Z
    P q - (1 / 2) * (4 * dZ_D1 P q * P.a ^ 2 * Z P q + 2 * (dX_D1 P q * X P q + dY_D1 P q * Y P q + dZ_D1 P q * Z P q) * ((-1) * P.a ^ 2 + (X P q) ^ 2 + (Y P q) ^ 2 + (Z
    P q) ^ 2)) / Tq P q) / (Sq P q) ^ 3

/-- Free_Data/fd_KerrSchild_R_X_Y_Z.c:1136-1197 `fd_ks_ddR_D0D2` -/
noncomputable def ddR_D0D2 (P : Par) (q : Pt) : ℝ :=
  P.lit * (1 * dX_D0 P q * dX_D2 P q + 1 * dY_D0 P q * dY_D2 P q + 1 * dZ_D0 P q * dZ_D2 P q + 1 * ddX_D0D2 P q * X P q + 1 * ddY_D0D2 P q * Y P q + 1 * ddZ_D0D2 P q * Z
    P q + (1 / 2) * (4 * dZ_D0 P q * dZ_D2 P q * P.a ^ 2 + 4 * ddZ_D0D2 P q * P.a ^ 2 * Z P q + 4 * (1 * dX_D0 P q * X P q + 1 * dY_D0 P q * Y P q + 1 * dZ_D0 P q * Z P
    q) * (dX_D2 P q * X P q + dY_D2 P q * Y P q + dZ_D2 P q * Z P q) + (2 * dX_D0 P q * dX_D2 P q + 2 * dY_D0 P q * dY_D2 P q + 2 * dZ_D0 P q * dZ_D2 P q + 2 * ddX_D0D2 P
    q * X P q + 2 * ddY_D0D2 P q * Y P q + 2 * ddZ_D0D2 P q * Z P q) * (-P.a ^ 2 + (X P q) ^ 2 + (Y P q) ^ 2 + (Z P q) ^ 2)) / Tq P q + (1 / 2) * (4 * dZ_D0 P q * P.a ^ 2
    * Z P q + 2 * (dX_D0 P q * X P q + dY_D0 P q * Y P q + dZ_D0 P q * Z P q) * ((-1) * P.a ^ 2 + (X P q) ^ 2 + (Y P q) ^ 2 + (Z P q) ^ 2)) * ((-4) * dZ_D2 P q * P.a ^ 2
    * Z P q - 2 * (dX_D2 P q * X P q + dY_D2 P q * Y P q + dZ_D2 P q * Z P q) * ((-1) * P.a ^ 2 + (X P q) ^ 2 + (Y P q) ^ 2 + (Z P q) ^ 2)) / (Tq P q) ^ 3) / Sq P q +
    P.lit * (1 * dX_D0 P q * X P q + 1 * dY_D0 P q * Y P q + 1 * dZ_D0 P q * Z P q + (1 / 2) * (4 * dZ_D0 P q * P.a ^ 2 * Z P q + 2 * (dX_D0 P q * X P q + dY_D0 P q * Y P
    q + dZ_D0 P q * Z P q) * ((-1) * P.a ^ 2 + (X P q) ^ 2 + (Y P q) ^ 2 + (Z P q) ^ 2)) / Tq P q) * ((-1) * dX_D2 P q * X P q - 1 * dY_D2 P q * Y P q - 1 * dZ_D2 P q * Z
    P q - (1 / 2) * (4 * dZ_D2 P q * P.a ^ 2 * Z P q + 2 * (dX_D2 P q * X P q + dY_D2 P q * Y P q + dZ_D2 P q * Z P q) * ((-1) * P.a ^ 2 + (X P q) ^ 2 + (Y P q) ^ 2 + (Z
    P q) ^ 2)) / Tq P q) / (Sq P q) ^ 3

/-- Free_Data/fd_KerrSchild_R_X_Y_Z.c:838-895 `fd_ks_ddR_D1D1` -/
noncomputable def ddR_D1D1 (P : Par) (q : Pt) : ℝ :=
  P.lit * (1 * (dX_D1 P q) ^ 2 + 1 * (dY_D1 P q) ^ 2 + 1 * (dZ_D1 P q) ^ 2 + 1 * ddX_D1D1 P q * X P q + 1 * ddY_D1D1 P q * Y P q + 1 * ddZ_D1D1 P q * Z P q - 2 * (dZ_D1 P
    q * Z P q * ((-1) * P.a ^ 2 - 1 * (X P q) ^ 2 - 1 * (Y P q) ^ 2 - 1 * (Z P q) ^ 2) + dX_D1 P q * X P q * (1 * P.a ^ 2 - 1 * (X P q) ^ 2 - 1 * (Y P q) ^ 2 - 1 * (Z P
    q) ^ 2) + dY_D1 P q * Y P q * (1 * P.a ^ 2 - 1 * (X P q) ^ 2 - 1 * (Y P q) ^ 2 - 1 * (Z P q) ^ 2)) ^ 2 / (Tq P q) ^ 3 + (1 / 2) * (4 * (dZ_D1 P q) ^ 2 * P.a ^ 2 + 4 *
    ddZ_D1D1 P q * P.a ^ 2 * Z P q + 4 * (1 * dX_D1 P q * X P q + 1 * dY_D1 P q * Y P q + 1 * dZ_D1 P q * Z P q) ^ 2 + (2 * (dX_D1 P q) ^ 2 + 2 * (dY_D1 P q) ^ 2 + 2 *
    (dZ_D1 P q) ^ 2 + 2 * ddX_D1D1 P q * X P q + 2 * ddY_D1D1 P q * Y P q + 2 * ddZ_D1D1 P q * Z P q) * (-P.a ^ 2 + (X P q) ^ 2 + (Y P q) ^ 2 + (Z P q) ^ 2)) / Tq P q) /
    Sq P q + P.lit * ((-1) * dX_D1 P q * X P q - 1 * dY_D1 P q * Y P q - 1 * dZ_D1 P q * Z P q - (1 / 2) * (4 * dZ_D1 P q * P.a ^ 2 * Z P q + 2 * (dX_D1 P q * X P q +
    dY_D1 P q * Y P q + dZ_D1 P q * Z P q) * ((-1) * P.a ^ 2 + (X P q) ^ 2 + (Y P q) ^ 2 + (Z P q) ^ 2)) / Tq P q) * (1 * dX_D1 P q * X P q + 1 * dY_D1 P q * Y P q + 1 *
    dZ_D1 P q * Z P q + (1 / 2) * (4 * dZ_D1 P q * P.a ^ 2 * Z P q + 2 * (dX_D1 P q * X P q + dY_D1 P q * Y P q + dZ_D1 P q * Z P q) * ((-1) * P.a ^ 2 + (X P q) ^ 2 + (Y
    P q) ^ 2 + (Z P q) ^ 2)) / Tq P q) / (Sq P q) ^ 3

/-- Free_Data/fd_KerrSchild_R_X_Y_Z.c:896-957 `fd_ks_ddR_D1D2` -/
noncomputable def ddR_D1D2 (P : Par) (q : Pt) : ℝ :=
  P.lit * (1 * dX_D1 P q * dX_D2 P q + 1 * dY_D1 P q * dY_D2 P q + 1 * dZ_D1 P q * dZ_D2 P q + 1 * ddX_D1D2 P q * X P q + 1 * ddY_D1D2 P q * Y P q + 1 * ddZ_D1D2 P q * Z
    P q + (1 / 2) * (4 * dZ_D1 P q * dZ_D2 P q * P.a ^ 2 + 4 * ddZ_D1D2 P q * P.a ^ 2 * Z P q + 4 * (1 * dX_D1 P q * X P q + 1 * dY_D1 P q * Y P q + 1 * dZ_D1 P q * Z P
    q) * (dX_D2 P q * X P q + dY_D2 P q * Y P q + dZ_D2 P q * Z P q) + (2 * dX_D1 P q * dX_D2 P q + 2 * dY_D1 P q * dY_D2 P q + 2 * dZ_D1 P q * dZ_D2 P q + 2 * ddX_D1D2 P
    q * X P q + 2 * ddY_D1D2 P q * Y P q + 2 * ddZ_D1D2 P q * Z P q) * (-P.a ^ 2 + (X P q) ^ 2 + (Y P q) ^ 2 + (Z P q) ^ 2)) / Tq P q + (1 / 2) * (4 * dZ_D1 P q * P.a ^ 2
    * Z P q + 2 * (dX_D1 P q * X P q + dY_D1 P q * Y P q + dZ_D1 P q * Z P q) * ((-1) * P.a ^ 2 + (X P q) ^ 2 + (Y P q) ^ 2 + (Z P q) ^ 2)) * ((-4) * dZ_D2 P q * P.a ^ 2
    * Z P q - 2 * (dX_D2 P q * X P q + dY_D2 P q * Y P q + dZ_D2 P q * Z P q) * ((-1) * P.a ^ 2 + (X P q) ^ 2 + (Y P q) ^ 2 + (Z P q) ^ 2)) / (Tq P q) ^ 3) / Sq P q +
    P.lit * (1 * dX_D1 P q * X P q + 1 * dY_D1 P q * Y P q + 1 * dZ_D1 P q * Z P q + (1 / 2) * (4 * dZ_D1 P q * P.a ^ 2 * Z P q + 2 * (dX_D1 P q * X P q + dY_D1 P q * Y P
    q + dZ_D1 P q * Z P q) * ((-1) * P.a ^ 2 + (X P q) ^ 2 + (Y P q) ^ 2 + (Z P q) ^ 2)) / Tq P q) * ((-1) * dX_D2 P q * X P q - 1 * dY_D2 P q * Y P q - 1 * dZ_D2 P q * Z
    P q - (1 / 2) * (4 * dZ_D2 P q * P.a ^ 2 * Z P q + 2 * (dX_D2 P q * X P q + dY_D2 P q * Y P q + dZ_D2 P q * Z P q) * ((-1) * P.a ^ 2 + (X P q) ^ 2 + (Y P q) ^ 2 + (Z
    P q) ^ 2)) / Tq P q) / (Sq P q) ^ 3

/-- Free_Data/fd_KerrSchild_R_X_Y_Z.c:958-1015 `fd_ks_ddR_D2D2` -/
noncomputable def ddR_D2D2 (P : Par) (q : Pt) : ℝ :=
  P.lit * (1 * (dX_D2 P q) ^ 2 + 1 * (dY_D2 P q) ^ 2 + 1 * (dZ_D2 P q) ^ 2 + 1 * ddX_D2D2 P q * X P q + 1 * ddY_D2D2 P q * Y P q + 1 * ddZ_D2D2 P q * Z P q - 2 * (dZ_D2 P
    q * Z P q * ((-1) * P.a ^ 2 - 1 * (X P q) ^ 2 - 1 * (Y P q) ^ 2 - 1 * (Z P q) ^ 2) + dX_D2 P q * X P q * (1 * P.a ^ 2 - 1 * (X P q) ^ 2 - 1 * (Y P q) ^ 2 - 1 * (Z P
    q) ^ 2) + dY_D2 P q * Y P q * (1 * P.a ^ 2 - 1 * (X P q) ^ 2 - 1 * (Y P q) ^ 2 - 1 * (Z P q) ^ 2)) ^ 2 / (Tq P q) ^ 3 + (1 / 2) * (4 * (dZ_D2 P q) ^ 2 * P.a ^ 2 + 4 *
    ddZ_D2D2 P q * P.a ^ 2 * Z P q + 4 * (1 * dX_D2 P q * X P q + 1 * dY_D2 P q * Y P q + 1 * dZ_D2 P q * Z P q) ^ 2 + (2 * (dX_D2 P q) ^ 2 + 2 * (dY_D2 P q) ^ 2 + 2 *
    (dZ_D2 P q) ^ 2 + 2 * ddX_D2D2 P q * X P q + 2 * ddY_D2D2 P q * Y P q + 2 * ddZ_D2D2 P q * Z P q) * (-P.a ^ 2 + (X P q) ^ 2 + (Y P q) ^ 2 + (Z P q) ^ 2)) / Tq P q) /
    Sq P q + P.lit * ((-1) * dX_D2 P q * X P q - 1 * dY_D2 P q * Y P q - 1 * dZ_D2 P q * Z P q - (1 / 2) * (4 * dZ_D2 P q * P.a ^ 2 * Z P q + 2 * (dX_D2 P q * X P q +
    dY_D2 P q * Y P q + dZ_D2 P q * Z P q) * ((-1) * P.a ^ 2 + (X P q) ^ 2 + (Y P q) ^ 2 + (Z P q) ^ 2)) / Tq P q) * (1 * dX_D2 P q * X P q + 1 * dY_D2 P q * Y P q + 1 *
    dZ_D2 P q * Z P q + (1 / 2) * (4 * dZ_D2 P q * P.a ^ 2 * Z P q + 2 * (dX_D2 P q * X P q + dY_D2 P q * Y P q + dZ_D2 P q * Z P q) * ((-1) * P.a ^ 2 + (X P q) ^ 2 + (Y
    P q) ^ 2 + (Z P q) ^ 2)) / Tq P q) / (Sq P q) ^ 3

/-- Free_Data/fd_KerrSchild_R_X_Y_Z.c:1651-1834 `fd_ks_dddR_D0D0D0` -/
noncomputable def dddR_D0D0D0 (P : Par) (q : Pt) : ℝ :=
  (3 * P.lit) * ((-1) * dX_D0 P q * P.a ^ 2 * X P q + 1 * dX_D0 P q * (X P q) ^ 3 - 1 * dY_D0 P q * P.a ^ 2 * Y P q + 1 * dY_D0 P q * (X P q) ^ 2 * Y P q + 1 * dX_D0 P q
    * X P q * (Y P q) ^ 2 + 1 * dY_D0 P q * (Y P q) ^ 3 + 1 * dZ_D0 P q * P.a ^ 2 * Z P q + 1 * dZ_D0 P q * (X P q) ^ 2 * Z P q + 1 * dZ_D0 P q * (Y P q) ^ 2 * Z P q + 1
    * dX_D0 P q * X P q * (Z P q) ^ 2 + 1 * dY_D0 P q * Y P q * (Z P q) ^ 2 + 1 * dZ_D0 P q * (Z P q) ^ 3 + 1 * dX_D0 P q * X P q * Tq P q + 1 * dY_D0 P q * Y P q * Tq P
    q + 1 * dZ_D0 P q * Z P q * Tq P q) ^ 3 / ((Tq P q) ^ 3 * (Sq P q) ^ 5) + P.lit * (3 * dX_D0 P q * ddX_D0D0 P q + 3 * dY_D0 P q * ddY_D0D0 P q + 3 * dZ_D0 P q *
    ddZ_D0D0 P q + 1 * dddX_D0D0D0 P q * X P q + 1 * dddY_D0D0D0 P q * Y P q + 1 * dddZ_D0D0D0 P q * Z P q - 12 * (dZ_D0 P q * Z P q * ((-1) * P.a ^ 2 - 1 * (X P q) ^ 2 -
    1 * (Y P q) ^ 2 - 1 * (Z P q) ^ 2) + dX_D0 P q * X P q * (1 * P.a ^ 2 - 1 * (X P q) ^ 2 - 1 * (Y P q) ^ 2 - 1 * (Z P q) ^ 2) + dY_D0 P q * Y P q * (1 * P.a ^ 2 - 1 *
    (X P q) ^ 2 - 1 * (Y P q) ^ 2 - 1 * (Z P q) ^ 2)) ^ 3 / (Tq P q) ^ 5 + (1 / 2) * (12 * dZ_D0 P q * ddZ_D0D0 P q * P.a ^ 2 + 4 * dddZ_D0D0D0 P q * P.a ^ 2 * Z P q + 4
    * (1 * dX_D0 P q * X P q + 1 * dY_D0 P q * Y P q + 1 * dZ_D0 P q * Z P q) * ((dX_D0 P q) ^ 2 + (dY_D0 P q) ^ 2 + (dZ_D0 P q) ^ 2 + ddX_D0D0 P q * X P q + ddY_D0D0 P q
    * Y P q + ddZ_D0D0 P q * Z P q) + 8 * (dX_D0 P q * X P q + dY_D0 P q * Y P q + dZ_D0 P q * Z P q) * (1 * (dX_D0 P q) ^ 2 + 1 * (dY_D0 P q) ^ 2 + 1 * (dZ_D0 P q) ^ 2 +
    1 * ddX_D0D0 P q * X P q + 1 * ddY_D0D0 P q * Y P q + 1 * ddZ_D0D0 P q * Z P q) + (6 * dX_D0 P q * ddX_D0D0 P q + 6 * dY_D0 P q * ddY_D0D0 P q + 6 * dZ_D0 P q *
    ddZ_D0D0 P q + 2 * dddX_D0D0D0 P q * X P q + 2 * dddY_D0D0D0 P q * Y P q + 2 * dddZ_D0D0D0 P q * Z P q) * (-P.a ^ 2 + (X P q) ^ 2 + (Y P q) ^ 2 + (Z P q) ^ 2)) / Tq P
    q + 1 * (4 * (dZ_D0 P q) ^ 2 * P.a ^ 2 + 4 * ddZ_D0D0 P q * P.a ^ 2 * Z P q + 4 * (1 * dX_D0 P q * X P q + 1 * dY_D0 P q * Y P q + 1 * dZ_D0 P q * Z P q) ^ 2 + (2 *
    (dX_D0 P q) ^ 2 + 2 * (dY_D0 P q) ^ 2 + 2 * (dZ_D0 P q) ^ 2 + 2 * ddX_D0D0 P q * X P q + 2 * ddY_D0D0 P q * Y P q + 2 * ddZ_D0D0 P q * Z P q) * (-P.a ^ 2 + (X P q) ^
    2 + (Y P q) ^ 2 + (Z P q) ^ 2)) * ((-4) * dZ_D0 P q * P.a ^ 2 * Z P q - 2 * (dX_D0 P q * X P q + dY_D0 P q * Y P q + dZ_D0 P q * Z P q) * ((-1) * P.a ^ 2 + (X P q) ^
    2 + (Y P q) ^ 2 + (Z P q) ^ 2)) / (Tq P q) ^ 3 + (1 / 2) * ((-4) * (dZ_D0 P q) ^ 2 * P.a ^ 2 - 4 * ddZ_D0D0 P q * P.a ^ 2 * Z P q - 4 * (dX_D0 P q * X P q + dY_D0 P q
    * Y P q + dZ_D0 P q * Z P q) ^ 2 + ((-2) * (dX_D0 P q) ^ 2 - 2 * (dY_D0 P q) ^ 2 - 2 * (dZ_D0 P q) ^ 2 - 2 * ddX_D0D0 P q * X P q - 2 * ddY_D0D0 P q * Y P q - 2 *
    ddZ_D0D0 P q * Z P q) * (-P.a ^ 2 + (X P q) ^ 2 + (Y P q) ^ 2 + (Z P q) ^ 2)) * (4 * dZ_D0 P q * P.a ^ 2 * Z P q + 2 * (dX_D0 P q * X P q + dY_D0 P q * Y P q + dZ_D0
    P q * Z P q) * ((-1) * P.a ^ 2 + (X P q) ^ 2 + (Y P q) ^ 2 + (Z P q) ^ 2)) / (Tq P q) ^ 3) / Sq P q + (2 * P.lit) * (1 * (dX_D0 P q) ^ 2 + 1 * (dY_D0 P q) ^ 2 + 1 *
    (dZ_D0 P q) ^ 2 + 1 * ddX_D0D0 P q * X P q + 1 * ddY_D0D0 P q * Y P q + 1 * ddZ_D0D0 P q * Z P q - 2 * (dZ_D0 P q * Z P q * ((-1) * P.a ^ 2 - 1 * (X P q) ^ 2 - 1 * (Y
    P q) ^ 2 - 1 * (Z P q) ^ 2) + dX_D0 P q * X P q * (1 * P.a ^ 2 - 1 * (X P q) ^ 2 - 1 * (Y P q) ^ 2 - 1 * (Z P q) ^ 2) + dY_D0 P q * Y P q * (1 * P.a ^ 2 - 1 * (X P q)
    ^ 2 - 1 * (Y P q) ^ 2 - 1 * (Z P q) ^ 2)) ^ 2 / (Tq P q) ^ 3 + (1 / 2) * (4 * (dZ_D0 P q) ^ 2 * P.a ^ 2 + 4 * ddZ_D0D0 P q * P.a ^ 2 * Z P q + 4 * (1 * dX_D0 P q * X
    P q + 1 * dY_D0 P q * Y P q + 1 * dZ_D0 P q * Z P q) ^ 2 + (2 * (dX_D0 P q) ^ 2 + 2 * (dY_D0 P q) ^ 2 + 2 * (dZ_D0 P q) ^ 2 + 2 * ddX_D0D0 P q * X P q + 2 * ddY_D0D0
    P q * Y P q + 2 * ddZ_D0D0 P q * Z P q) * (-P.a ^ 2 + (X P q) ^ 2 + (Y P q) ^ 2 + (Z P q) ^ 2)) / Tq P q) * ((-1) * dX_D0 P q * X P q - 1 * dY_D0 P q * Y P q - 1 *
    dZ_D0 P q * Z P q - (1 / 2) * (4 * dZ_D0 P q * P.a ^ 2 * Z P q + 2 * (dX_D0 P q * X P q + dY_D0 P q * Y P q + dZ_D0 P q * Z P q) * ((-1) * P.a ^ 2 + (X P q) ^ 2 + (Y
    P q) ^ 2 + (Z P q) ^ 2)) / Tq P q) / (Sq P q) ^ 3 + P.lit * ((-1) * (dX_D0 P q) ^ 2 - 1 * (dY_D0 P q) ^ 2 - 1 * (dZ_D0 P q) ^ 2 - 1 * ddX_D0D0 P q * X P q - 1 *
    ddY_D0D0 P q * Y P q - 1 * ddZ_D0D0 P q * Z P q + 2 * (dZ_D0 P q * Z P q * ((-1) * P.a ^ 2 - 1 * (X P q) ^ 2 - 1 * (Y P q) ^ 2 - 1 * (Z P q) ^ 2) + dX_D0 P q * X P q
    * (1 * P.a ^ 2 - 1 * (X P q) ^ 2 - 1 * (Y P q) ^ 2 - 1 * (Z P q) ^ 2) + dY_D0 P q * Y P q * (1 * P.a ^ 2 - 1 * (X P q) ^ 2 - 1 * (Y P q) ^ 2 - 1 * (Z P q) ^ 2)) ^ 2 /
    (Tq P q) ^ 3 - (1 / 2) * (4 * (dZ_D0 P q) ^ 2 * P.a ^ 2 + 4 * ddZ_D0D0 P q * P.a ^ 2 * Z P q + 4 * (1 * dX_D0 P q * X P q + 1 * dY_D0 P q * Y P q + 1 * dZ_D0 P q * Z
    P q) ^ 2 + (2 * (dX_D0 P q) ^ 2 + 2 * (dY_D0 P q) ^ 2 + 2 * (dZ_D0 P q) ^ 2 + 2 * ddX_D0D0 P q * X P q + 2 * ddY_D0D0 P q * Y P q + 2 * ddZ_D0D0 P q * Z P q) * (-P.a
    ^ 2 + (X P q) ^ 2 + (Y P q) ^ 2 + (Z P q) ^ 2)) / Tq P q) * (1 * dX_D0 P q * X P q + 1 * dY_D0 P q * Y P q + 1 * dZ_D0 P q * Z P q + (1 / 2) * (4 * dZ_D0 P q * P.a ^
    2 * Z P q + 2 * (dX_D0 P q * X P q + dY_D0 P q * Y P q + dZ_D0 P q * Z P q) * ((-1) * P.a ^ 2 + (X P q) ^ 2 + (Y P q) ^ 2 + (Z P q) ^ 2)) / Tq P q) / (Sq P q) ^ 3

/-- Free_Data/fd_KerrSchild_R_X_Y_Z.c:1835-2103 `fd_ks_dddR_D0D0D1` -/
noncomputable def dddR_D0D0D1 (P : Par) (q : Pt) : ℝ :=
  P.lit * (1 * dX_D1 P q * ddX_D0D0 P q + 1 * dY_D1 P q * ddY_D0D0 P q + 1 * dZ_D1 P q * ddZ_D0D0 P q + 2 * dX_D0 P q * ddX_D0D1 P q + 2 * dY_D0 P q * ddY_D0D1 P q + 2 *
    dZ_D0 P q * ddZ_D0D1 P q + 1 * dddX_D0D0D1 P q * X P q + 1 * dddY_D0D0D1 P q * Y P q + 1 * dddZ_D0D0D1 P q * Z P q + (1 / 2) * (4 * dZ_D1 P q * ddZ_D0D0 P q * P.a ^ 2
    + 8 * dZ_D0 P q * ddZ_D0D1 P q * P.a ^ 2 + 4 * dddZ_D0D0D1 P q * P.a ^ 2 * Z P q + 4 * (dX_D1 P q * X P q + dY_D1 P q * Y P q + dZ_D1 P q * Z P q) * (1 * (dX_D0 P q)
    ^ 2 + 1 * (dY_D0 P q) ^ 2 + 1 * (dZ_D0 P q) ^ 2 + 1 * ddX_D0D0 P q * X P q + 1 * ddY_D0D0 P q * Y P q + 1 * ddZ_D0D0 P q * Z P q) + 4 * (1 * dX_D0 P q * X P q + 1 *
    dY_D0 P q * Y P q + 1 * dZ_D0 P q * Z P q) * (dX_D0 P q * dX_D1 P q + dY_D0 P q * dY_D1 P q + dZ_D0 P q * dZ_D1 P q + ddX_D0D1 P q * X P q + ddY_D0D1 P q * Y P q +
    ddZ_D0D1 P q * Z P q) + 4 * (dX_D0 P q * X P q + dY_D0 P q * Y P q + dZ_D0 P q * Z P q) * (1 * dX_D0 P q * dX_D1 P q + 1 * dY_D0 P q * dY_D1 P q + 1 * dZ_D0 P q *
    dZ_D1 P q + 1 * ddX_D0D1 P q * X P q + 1 * ddY_D0D1 P q * Y P q + 1 * ddZ_D0D1 P q * Z P q) + (2 * dX_D1 P q * ddX_D0D0 P q + 2 * dY_D1 P q * ddY_D0D0 P q + 2 * dZ_D1
    P q * ddZ_D0D0 P q + 4 * dX_D0 P q * ddX_D0D1 P q + 4 * dY_D0 P q * ddY_D0D1 P q + 4 * dZ_D0 P q * ddZ_D0D1 P q + 2 * dddX_D0D0D1 P q * X P q + 2 * dddY_D0D0D1 P q *
    Y P q + 2 * dddZ_D0D0D1 P q * Z P q) * (-P.a ^ 2 + (X P q) ^ 2 + (Y P q) ^ 2 + (Z P q) ^ 2)) / Tq P q + (1 / 2) * (4 * dZ_D0 P q * dZ_D1 P q * P.a ^ 2 + 4 * ddZ_D0D1
    P q * P.a ^ 2 * Z P q + 4 * (1 * dX_D0 P q * X P q + 1 * dY_D0 P q * Y P q + 1 * dZ_D0 P q * Z P q) * (dX_D1 P q * X P q + dY_D1 P q * Y P q + dZ_D1 P q * Z P q) + (2
    * dX_D0 P q * dX_D1 P q + 2 * dY_D0 P q * dY_D1 P q + 2 * dZ_D0 P q * dZ_D1 P q + 2 * ddX_D0D1 P q * X P q + 2 * ddY_D0D1 P q * Y P q + 2 * ddZ_D0D1 P q * Z P q) *
    (-P.a ^ 2 + (X P q) ^ 2 + (Y P q) ^ 2 + (Z P q) ^ 2)) * ((-4) * dZ_D0 P q * P.a ^ 2 * Z P q - 2 * (dX_D0 P q * X P q + dY_D0 P q * Y P q + dZ_D0 P q * Z P q) * ((-1)
    * P.a ^ 2 + (X P q) ^ 2 + (Y P q) ^ 2 + (Z P q) ^ 2)) / (Tq P q) ^ 3 + (1 / 2) * ((-4) * dZ_D0 P q * dZ_D1 P q * P.a ^ 2 - 4 * ddZ_D0D1 P q * P.a ^ 2 * Z P q - 4 * (1
    * dX_D0 P q * X P q + 1 * dY_D0 P q * Y P q + 1 * dZ_D0 P q * Z P q) * (dX_D1 P q * X P q + dY_D1 P q * Y P q + dZ_D1 P q * Z P q) + ((-2) * dX_D0 P q * dX_D1 P q - 2
    * dY_D0 P q * dY_D1 P q - 2 * dZ_D0 P q * dZ_D1 P q - 2 * ddX_D0D1 P q * X P q - 2 * ddY_D0D1 P q * Y P q - 2 * ddZ_D0D1 P q * Z P q) * (-P.a ^ 2 + (X P q) ^ 2 + (Y P
    q) ^ 2 + (Z P q) ^ 2)) * (4 * dZ_D0 P q * P.a ^ 2 * Z P q + 2 * (dX_D0 P q * X P q + dY_D0 P q * Y P q + dZ_D0 P q * Z P q) * ((-1) * P.a ^ 2 + (X P q) ^ 2 + (Y P q)
    ^ 2 + (Z P q) ^ 2)) / (Tq P q) ^ 3 + (1 / 2) * ((-4) * dZ_D0 P q * P.a ^ 2 * Z P q - 2 * (dX_D0 P q * X P q + dY_D0 P q * Y P q + dZ_D0 P q * Z P q) * ((-1) * P.a ^ 2
    + (X P q) ^ 2 + (Y P q) ^ 2 + (Z P q) ^ 2)) * (4 * dZ_D0 P q * P.a ^ 2 * Z P q + 2 * (dX_D0 P q * X P q + dY_D0 P q * Y P q + dZ_D0 P q * Z P q) * ((-1) * P.a ^ 2 +
    (X P q) ^ 2 + (Y P q) ^ 2 + (Z P q) ^ 2)) * ((-12) * dZ_D1 P q * P.a ^ 2 * Z P q - 6 * (dX_D1 P q * X P q + dY_D1 P q * Y P q + dZ_D1 P q * Z P q) * ((-1) * P.a ^ 2 +
    (X P q) ^ 2 + (Y P q) ^ 2 + (Z P q) ^ 2)) / (Tq P q) ^ 5 + (1 / 2) * (4 * (dZ_D0 P q) ^ 2 * P.a ^ 2 + 4 * ddZ_D0D0 P q * P.a ^ 2 * Z P q + 4 * (1 * dX_D0 P q * X P q
    + 1 * dY_D0 P q * Y P q + 1 * dZ_D0 P q * Z P q) ^ 2 + (2 * (dX_D0 P q) ^ 2 + 2 * (dY_D0 P q) ^ 2 + 2 * (dZ_D0 P q) ^ 2 + 2 * ddX_D0D0 P q * X P q + 2 * ddY_D0D0 P q
    * Y P q + 2 * ddZ_D0D0 P q * Z P q) * (-P.a ^ 2 + (X P q) ^ 2 + (Y P q) ^ 2 + (Z P q) ^ 2)) * ((-4) * dZ_D1 P q * P.a ^ 2 * Z P q - 2 * (dX_D1 P q * X P q + dY_D1 P q
    * Y P q + dZ_D1 P q * Z P q) * ((-1) * P.a ^ 2 + (X P q) ^ 2 + (Y P q) ^ 2 + (Z P q) ^ 2)) / (Tq P q) ^ 3) / Sq P q + P.lit * (1 * dX_D0 P q * X P q + 1 * dY_D0 P q *
    Y P q + 1 * dZ_D0 P q * Z P q + (1 / 2) * (4 * dZ_D0 P q * P.a ^ 2 * Z P q + 2 * (dX_D0 P q * X P q + dY_D0 P q * Y P q + dZ_D0 P q * Z P q) * ((-1) * P.a ^ 2 + (X P
    q) ^ 2 + (Y P q) ^ 2 + (Z P q) ^ 2)) / Tq P q) * ((-1) * dX_D0 P q * dX_D1 P q - 1 * dY_D0 P q * dY_D1 P q - 1 * dZ_D0 P q * dZ_D1 P q - 1 * ddX_D0D1 P q * X P q - 1
    * ddY_D0D1 P q * Y P q - 1 * ddZ_D0D1 P q * Z P q - (1 / 2) * (4 * dZ_D0 P q * dZ_D1 P q * P.a ^ 2 + 4 * ddZ_D0D1 P q * P.a ^ 2 * Z P q + 4 * (1 * dX_D0 P q * X P q +
    1 * dY_D0 P q * Y P q + 1 * dZ_D0 P q * Z P q) * (dX_D1 P q * X P q + dY_D1 P q * Y P q + dZ_D1 P q * Z P q) + (2 * dX_D0 P q * dX_D1 P q + 2 * dY_D0 P q * dY_D1 P q
    + 2 * dZ_D0 P q * dZ_D1 P q + 2 * ddX_D0D1 P q * X P q + 2 * ddY_D0D1 P q * Y P q + 2 * ddZ_D0D1 P q * Z P q) * (-P.a ^ 2 + (X P q) ^ 2 + (Y P q) ^ 2 + (Z P q) ^ 2))
    / Tq P q - (1 / 2) * (4 * dZ_D0 P q * P.a ^ 2 * Z P q + 2 * (dX_D0 P q * X P q + dY_D0 P q * Y P q + dZ_D0 P q * Z P q) * ((-1) * P.a ^ 2 + (X P q) ^ 2 + (Y P q) ^ 2
    + (Z P q) ^ 2)) * ((-4) * dZ_D1 P q * P.a ^ 2 * Z P q - 2 * (dX_D1 P q * X P q + dY_D1 P q * Y P q + dZ_D1 P q * Z P q) * ((-1) * P.a ^ 2 + (X P q) ^ 2 + (Y P q) ^ 2
    + (Z P q) ^ 2)) / (Tq P q) ^ 3) / (Sq P q) ^ 3 + P.lit * ((-1) * dX_D0 P q * X P q - 1 * dY_D0 P q * Y P q - 1 * dZ_D0 P q * Z P q - (1 / 2) * (4 * dZ_D0 P q * P.a ^
    2 * Z P q + 2 * (dX_D0 P q * X P q + dY_D0 P q * Y P q + dZ_D0 P q * Z P q) * ((-1) * P.a ^ 2 + (X P q) ^ 2 + (Y P q) ^ 2 + (Z P q) ^ 2)) / Tq P q) * (1 * dX_D0 P q *
    dX_D1 P q + 1 * dY_D0 P q * dY_D1 P q + 1 * dZ_D0 P q * dZ_D1 P q + 1 * ddX_D0D1 P q * X P q + 1 * ddY_D0D1 P q * Y P q + 1 * ddZ_D0D1 P q * Z P q + (1 / 2) * (4 *
    dZ_D0 P q * dZ_D1 P q * P.a ^ 2 + 4 * ddZ_D0D1 P q * P.a ^ 2 * Z P q + 4 * (1 * dX_D0 P q * X P q + 1 * dY_D0 P q * Y P q + 1 * dZ_D0 P q * Z P q) * (dX_D1 P q * X P
    q + dY_D1 P q * Y P q + dZ_D1 P q * Z P q) + (2 * dX_D0 P q * dX_D1 P q + 2 * dY_D0 P q * dY_D1 P q + 2 * dZ_D0 P q * dZ_D1 P q + 2 * ddX_D0D1 P q * X P q + 2 *
    ddY_D0D1 P q * Y P q + 2 * ddZ_D0D1 P q * Z P q) * (-P.a ^ 2 + (X P q) ^ 2 + (Y P q) ^ 2 + (Z P q) ^ 2)) / Tq P q + (1 / 2) * (4 * dZ_D0 P q * P.a ^ 2 * Z P q + 2 *
    (dX_D0 P q * X P q + dY_D0 P q * Y P q + dZ_D0 P q * Z P q) * ((-1) * P.a ^ 2 + (X P q) ^ 2 + (Y P q) ^ 2 + (Z P q) ^ 2)) * ((-4) * dZ_D1 P q * P.a ^ 2 * Z P q - 2 *
    (dX_D1 P q * X P q + dY_D1 P q * Y P q + dZ_D1 P q * Z P q) * ((-1) * P.a ^ 2 + (X P q) ^ 2 + (Y P q) ^ 2 + (Z P q) ^ 2)) / (Tq P q) ^ 3) / (Sq P q) ^ 3 + P.lit *
    ((-1) * dX_D0 P q * X P q - 1 * dY_D0 P q * Y P q - 1 * dZ_D0 P q * Z P q - (1 / 2) * (4 * dZ_D0 P q * P.a ^ 2 * Z P q + 2 * (dX_D0 P q * X P q + dY_D0 P q * Y P q +
    dZ_D0 P q * Z P q) * ((-1) * P.a ^ 2 + (X P q) ^ 2 + (Y P q) ^ 2 + (Z P q) ^ 2)) / Tq P q) * (1 * dX_D0 P q * X P q + 1 * dY_D0 P q * Y P q + 1 * dZ_D0 P q * Z P q +
    (1 / 2) * (4 * dZ_D0 P q * P.a ^ 2 * Z P q + 2 * (dX_D0 P q * X P q + dY_D0 P q * Y P q + dZ_D0 P q * Z P q) * ((-1) * P.a ^ 2 + (X P q) ^ 2 + (Y P q) ^ 2 + (Z P q) ^
    2)) / Tq P q) * ((-3) * dX_D1 P q * X P q - 3 * dY_D1 P q * Y P q - 3 * dZ_D1 P q * Z P q - (3 / 2) * (4 * dZ_D1 P q * P.a ^ 2 * Z P q + 2 * (dX_D1 P q * X P q +
    dY_D1 P q * Y P q + dZ_D1 P q * Z P q) * ((-1) * P.a ^ 2 + (X P q) ^ 2 + (Y P q) ^ 2 + (Z P q) ^ 2)) / Tq P q) / (Sq P q) ^ 5 + P.lit * (1 * (dX_D0 P q) ^ 2 + 1 *
    (dY_D0 P q) ^ 2 + 1 * (dZ_D0 P q) ^ 2 + 1 * ddX_D0D0 P q * X P q + 1 * ddY_D0D0 P q * Y P q + 1 * ddZ_D0D0 P q * Z P q - 2 * (dZ_D0 P q * Z P q * ((-1) * P.a ^ 2 - 1
    * (X P q) ^ 2 - 1 * (Y P q) ^ 2 - 1 * (Z P q) ^ 2) + dX_D0 P q * X P q * (1 * P.a ^ 2 - 1 * (X P q) ^ 2 - 1 * (Y P q) ^ 2 - 1 * (Z P q) ^ 2) + dY_D0 P q * Y P q * (1
    * P.a ^ 2 - 1 * (X P q) ^ 2 - 1 * (Y P q) ^ 2 - 1 * (Z P q) ^ 2)) ^ 2 / (Tq P q) ^ 3 + (1 / 2) * (4 * (dZ_D0 P q) ^ 2 * P.a ^ 2 + 4 * ddZ_D0D0 P q * P.a ^ 2 * Z P q +
    4 * (1 * dX_D0 P q * X P q + 1 * dY_D0 P q * Y P q + 1 * dZ_D0 P q * Z P q) ^ 2 + (2 * (dX_D0 P q) ^ 2 + 2 * (dY_D0 P q) ^ 2 + 2 * (dZ_D0 P q) ^ 2 + 2 * ddX_D0D0 P q
    * X P q + 2 * ddY_D0D0 P q * Y P q + 2 * ddZ_D0D0 P q * Z P q) * (-P.a ^ 2 + (X P q) ^ 2 + (Y P q) ^ 2 + (Z P q) ^ 2)) / Tq P q) * ((-1) * dX_D1 P q * X P q - 1 *
    dY_D1 P q * Y P q - 1 * dZ_D1 P q * Z P q - (1 / 2) * (4 * dZ_D1 P q * P.a ^ 2 * Z P q + 2 * (dX_D1 P q * X P q + dY_D1 P q * Y P q + dZ_D1 P q * Z P q) * ((-1) * P.a
    ^ 2 + (X P q) ^ 2 + (Y P q) ^ 2 + (Z P q) ^ 2)) / Tq P q) / (Sq P q) ^ 3

/-- Free_Data/fd_KerrSchild_R_X_Y_Z.c:1198-1466 `fd_ks_dddR_D0D0D2` -/
noncomputable def dddR_D0D0D2 (P : Par) (q : Pt) : ℝ :=
  P.lit * (1 * dX_D2 P q * ddX_D0D0 P q + 1 * dY_D2 P q * ddY_D0D0 P q + 1 * dZ_D2 P q * ddZ_D0D0 P q + 2 * dX_D0 P q * ddX_D0D2 P q + 2 * dY_D0 P q * ddY_D0D2 P q + 2 *
    dZ_D0 P q * ddZ_D0D2 P q + 1 * dddX_D0D0D2 P q * X P q + 1 * dddY_D0D0D2 P q * Y P q + 1 * dddZ_D0D0D2 P q * Z P q + (1 / 2) * (4 * dZ_D2 P q * ddZ_D0D0 P q * P.a ^ 2
    + 8 * dZ_D0 P q * ddZ_D0D2 P q * P.a ^ 2 + 4 * dddZ_D0D0D2 P q * P.a ^ 2 * Z P q + 4 * (dX_D2 P q * X P q + dY_D2 P q * Y P q + dZ_D2 P q * Z P q) * (1 * (dX_D0 P q)
    ^ 2 + 1 * (dY_D0 P q) ^ 2 + 1 * (dZ_D0 P q) ^ 2 + 1 * ddX_D0D0 P q * X P q + 1 * ddY_D0D0 P q * Y P q + 1 * ddZ_D0D0 P q * Z P q) + 4 * (1 * dX_D0 P q * X P q + 1 *
    dY_D0 P q * Y P q + 1 * dZ_D0 P q * Z P q) * (dX_D0 P q * dX_D2 P q + dY_D0 P q * dY_D2 P q + dZ_D0 P q * dZ_D2 P q + ddX_D0D2 P q * X P q + ddY_D0D2 P q * Y P q +
    ddZ_D0D2 P q * Z P q) + 4 * (dX_D0 P q * X P q + dY_D0 P q * Y P q + dZ_D0 P q * Z P q) * (1 * dX_D0 P q * dX_D2 P q + 1 * dY_D0 P q * dY_D2 P q + 1 * dZ_D0 P q *
    dZ_D2 P q + 1 * ddX_D0D2 P q * X P q + 1 * ddY_D0D2 P q * Y P q + 1 * ddZ_D0D2 P q * Z P q) + (2 * dX_D2 P q * ddX_D0D0 P q + 2 * dY_D2 P q * ddY_D0D0 P q + 2 * dZ_D2
    P q * ddZ_D0D0 P q + 4 * dX_D0 P q * ddX_D0D2 P q + 4 * dY_D0 P q * ddY_D0D2 P q + 4 * dZ_D0 P q * ddZ_D0D2 P q + 2 * dddX_D0D0D2 P q * X P q + 2 * dddY_D0D0D2 P q *
    Y P q + 2 * dddZ_D0D0D2 P q * Z P q) * (-P.a ^ 2 + (X P q) ^ 2 + (Y P q) ^ 2 + (Z P q) ^ 2)) / Tq P q + (1 / 2) * (4 * dZ_D0 P q * dZ_D2 P q * P.a ^ 2 + 4 * ddZ_D0D2
    P q * P.a ^ 2 * Z P q + 4 * (1 * dX_D0 P q * X P q + 1 * dY_D0 P q * Y P q + 1 * dZ_D0 P q * Z P q) * (dX_D2 P q * X P q + dY_D2 P q * Y P q + dZ_D2 P q * Z P q) + (2
    * dX_D0 P q * dX_D2 P q + 2 * dY_D0 P q * dY_D2 P q + 2 * dZ_D0 P q * dZ_D2 P q + 2 * ddX_D0D2 P q * X P q + 2 * ddY_D0D2 P q * Y P q + 2 * ddZ_D0D2 P q * Z P q) *
    (-P.a ^ 2 + (X P q) ^ 2 + (Y P q) ^ 2 + (Z P q) ^ 2)) * ((-4) * dZ_D0 P q * P.a ^ 2 * Z P q - 2 * (dX_D0 P q * X P q + dY_D0 P q * Y P q + dZ_D0 P q * Z P q) * ((-1)
    * P.a ^ 2 + (X P q) ^ 2 + (Y P q) ^ 2 + (Z P q) ^ 2)) / (Tq P q) ^ 3 + (1 / 2) * ((-4) * dZ_D0 P q * dZ_D2 P q * P.a ^ 2 - 4 * ddZ_D0D2 P q * P.a ^ 2 * Z P q - 4 * (1
    * dX_D0 P q * X P q + 1 * dY_D0 P q * Y P q + 1 * dZ_D0 P q * Z P q) * (dX_D2 P q * X P q + dY_D2 P q * Y P q + dZ_D2 P q * Z P q) + ((-2) * dX_D0 P q * dX_D2 P q - 2
    * dY_D0 P q * dY_D2 P q - 2 * dZ_D0 P q * dZ_D2 P q - 2 * ddX_D0D2 P q * X P q - 2 * ddY_D0D2 P q * Y P q - 2 * ddZ_D0D2 P q * Z P q) * (-P.a ^ 2 + (X P q) ^ 2 + (Y P
    q) ^ 2 + (Z P q) ^ 2)) * (4 * dZ_D0 P q * P.a ^ 2 * Z P q + 2 * (dX_D0 P q * X P q + dY_D0 P q * Y P q + dZ_D0 P q * Z P q) * ((-1) * P.a ^ 2 + (X P q) ^ 2 + (Y P q)
    ^ 2 + (Z P q) ^ 2)) / (Tq P q) ^ 3 + (1 / 2) * ((-4) * dZ_D0 P q * P.a ^ 2 * Z P q - 2 * (dX_D0 P q * X P q + dY_D0 P q * Y P q + dZ_D0 P q * Z P q) * ((-1) * P.a ^ 2
    + (X P q) ^ 2 + (Y P q) ^ 2 + (Z P q) ^ 2)) * (4 * dZ_D0 P q * P.a ^ 2 * Z P q + 2 * (dX_D0 P q * X P q + dY_D0 P q * Y P q + dZ_D0 P q * Z P q) * ((-1) * P.a ^ 2 +
    (X P q) ^ 2 + (Y P q) ^ 2 + (Z P q) ^ 2)) * ((-12) * dZ_D2 P q * P.a ^ 2 * Z P q - 6 * (dX_D2 P q * X P q + dY_D2 P q * Y P q + dZ_D2 P q * Z P q) * ((-1) * P.a ^ 2 +
    (X P q) ^ 2 + (Y P q) ^ 2 + (Z P q) ^ 2)) / (Tq P q) ^ 5 + (1 / 2) * (4 * (dZ_D0 P q) ^ 2 * P.a ^ 2 + 4 * ddZ_D0D0 P q * P.a ^ 2 * Z P q + 4 * (1 * dX_D0 P q * X P q
    + 1 * dY_D0 P q * Y P q + 1 * dZ_D0 P q * Z P q) ^ 2 + (2 * (dX_D0 P q) ^ 2 + 2 * (dY_D0 P q) ^ 2 + 2 * (dZ_D0 P q) ^ 2 + 2 * ddX_D0D0 P q * X P q + 2 * ddY_D0D0 P q
    * Y P q + 2 * ddZ_D0D0 P q * Z P q) * (-P.a ^ 2 + (X P q) ^ 2 + (Y P q) ^ 2 + (Z P q) ^ 2)) * ((-4) * dZ_D2 P q * P.a ^ 2 * Z P q - 2 * (dX_D2 P q * X P q + dY_D2 P q
    * Y P q + dZ_D2 P q * Z P q) * ((-1) * P.a ^ 2 + (X P q) ^ 2 + (Y P q) ^ 2 + (Z P q) ^ 2)) / (Tq P q) ^ 3) / Sq P q + P.lit * (1 * dX_D0 P q * X P q + 1 * dY_D0 P q *
    Y P q + 1 * dZ_D0 P q * Z P q + (1 / 2) * (4 * dZ_D0 P q * P.a ^ 2 * Z P q + 2 * (dX_D0 P q * X P q + dY_D0 P q * Y P q + dZ_D0 P q * Z P q) * ((-1) * P.a ^ 2 + (X P
    q) ^ 2 + (Y P q) ^ 2 + (Z P q) ^ 2)) / Tq P q) * ((-1) * dX_D0 P q * dX_D2 P q - 1 * dY_D0 P q * dY_D2 P q - 1 * dZ_D0 P q * dZ_D2 P q - 1 * ddX_D0D2 P q * X P q - 1
    * ddY_D0D2 P q * Y P q - 1 * ddZ_D0D2 P q * Z P q - (1 / 2) * (4 * dZ_D0 P q * dZ_D2 P q * P.a ^ 2 + 4 * ddZ_D0D2 P q * P.a ^ 2 * Z P q + 4 * (1 * dX_D0 P q * X P q +
    1 * dY_D0 P q * Y P q + 1 * dZ_D0 P q * Z P q) * (dX_D2 P q * X P q + dY_D2 P q * Y P q + dZ_D2 P q * Z P q) + (2 * dX_D0 P q * dX_D2 P q + 2 * dY_D0 P q * dY_D2 P q
    + 2 * dZ_D0 P q * dZ_D2 P q + 2 * ddX_D0D2 P q * X P q + 2 * ddY_D0D2 P q * Y P q + 2 * ddZ_D0D2 P q * Z P q) * (-P.a ^ 2 + (X P q) ^ 2 + (Y P q) ^ 2 + (Z P q) ^ 2))
    / Tq P q - (1 / 2) * (4 * dZ_D0 P q * P.a ^ 2 * Z P q + 2 * (dX_D0 P q * X P q + dY_D0 P q * Y P q + dZ_D0 P q * Z P q) * ((-1) * P.a ^ 2 + (X P q) ^ 2 + (Y P q) ^ 2
    + (Z P q) ^ 2)) * ((-4) * dZ_D2 P q * P.a ^ 2 * Z P q - 2 * (dX_D2 P q * X P q + dY_D2 P q * Y P q + dZ_D2 P q * Z P q) * ((-1) * P.a ^ 2 + (X P q) ^ 2 + (Y P q) ^ 2
    + (Z P q) ^ 2)) / (Tq P q) ^ 3) / (Sq P q) ^ 3 + P.lit * ((-1) * dX_D0 P q * X P q - 1 * dY_D0 P q * Y P q - 1 * dZ_D0 P q * Z P q - (1 / 2) * (4 * dZ_D0 P q * P.a ^
    2 * Z P q + 2 * (dX_D0 P q * X P q + dY_D0 P q * Y P q + dZ_D0 P q * Z P q) * ((-1) * P.a ^ 2 + (X P q) ^ 2 + (Y P q) ^ 2 + (Z P q) ^ 2)) / Tq P q) * (1 * dX_D0 P q *
    dX_D2 P q + 1 * dY_D0 P q * dY_D2 P q + 1 * dZ_D0 P q * dZ_D2 P q + 1 * ddX_D0D2 P q * X P q + 1 * ddY_D0D2 P q * Y P q + 1 * ddZ_D0D2 P q * Z P q + (1 / 2) * (4 *
    dZ_D0 P q * dZ_D2 P q * P.a ^ 2 + 4 * ddZ_D0D2 P q * P.a ^ 2 * Z P q + 4 * (1 * dX_D0 P q * X P q + 1 * dY_D0 P q * Y P q + 1 * dZ_D0 P q * Z P q) * (dX_D2 P q * X P
    q + dY_D2 P q * Y P q + dZ_D2 P q * Z P q) + (2 * dX_D0 P q * dX_D2 P q + 2 * dY_D0 P q * dY_D2 P q + 2 * dZ_D0 P q * dZ_D2 P q + 2 * ddX_D0D2 P q * X P q + 2 *
    ddY_D0D2 P q * Y P q + 2 * ddZ_D0D2 P q * Z P q) * (-P.a ^ 2 + (X P q) ^ 2 + (Y P q) ^ 2 + (Z P q) ^ 2)) / Tq P q + (1 / 2) * (4 * dZ_D0 P q * P.a ^ 2 * Z P q + 2 *
    (dX_D0 P q * X P q + dY_D0 P q * Y P q + dZ_D0 P q * Z P q) * ((-1) * P.a ^ 2 + (X P q) ^ 2 + (Y P q) ^ 2 + (Z P q) ^ 2)) * ((-4) * dZ_D2 P q * P.a ^ 2 * Z P q - 2 *
    (dX_D2 P q * X P q + dY_D2 P q * Y P q + dZ_D2 P q * Z P q) * ((-1) * P.a ^ 2 + (X P q) ^ 2 + (Y P q) ^ 2 + (Z P q) ^ 2)) / (Tq P q) ^ 3) / (Sq P q) ^ 3 + P.lit *
    ((-1) * dX_D0 P q * X P q - 1 * dY_D0 P q * Y P q - 1 * dZ_D0 P q * Z P q - (1 / 2) * (4 * dZ_D0 P q * P.a ^ 2 * Z P q + 2 * (dX_D0 P q * X P q + dY_D0 P q * Y P q +
    dZ_D0 P q * Z P q) * ((-1) * P.a ^ 2 + (X P q) ^ 2 + (Y P q) ^ 2 + (Z P q) ^ 2)) / Tq P q) * (1 * dX_D0 P q * X P q + 1 * dY_D0 P q * Y P q + 1 * dZ_D0 P q * Z P q +
    (1 / 2) * (4 * dZ_D0 P q * P.a ^ 2 * Z P q + 2 * (dX_D0 P q * X P q + dY_D0 P q * Y P q + dZ_D0 P q * Z P q) * ((-1) * P.a ^ 2 + (X P q) ^ 2 + (Y P q) ^ 2 + (Z P q) ^
    2)) / Tq P q) * ((-3) * dX_D2 P q * X P q - 3 * dY_D2 P q * Y P q - 3 * dZ_D2 P q * Z P q - (3 / 2) * (4 * dZ_D2 P q * P.a ^ 2 * Z P q + 2 * (dX_D2 P q * X P q +
    dY_D2 P q * Y P q + dZ_D2 P q * Z P q) * ((-1) * P.a ^ 2 + (X P q) ^ 2 + (Y P q) ^ 2 + (Z P q) ^ 2)) / Tq P q) / (Sq P q) ^ 5 + P.lit * (1 * (dX_D0 P q) ^ 2 + 1 *
    (dY_D0 P q) ^ 2 + 1 * (dZ_D0 P q) ^ 2 + 1 * ddX_D0D0 P q * X P q + 1 * ddY_D0D0 P q * Y P q + 1 * ddZ_D0D0 P q * Z P q - 2 * (dZ_D0 P q * Z P q * ((-1) * P.a ^ 2 - 1
    * (X P q) ^ 2 - 1 * (Y P q) ^ 2 - 1 * (Z P q) ^ 2) + dX_D0 P q * X P q * (1 * P.a ^ 2 - 1 * (X P q) ^ 2 - 1 * (Y P q) ^ 2 - 1 * (Z P q) ^ 2) + dY_D0 P q * Y P q * (1
    * P.a ^ 2 - 1 * (X P q) ^ 2 - 1 * (Y P q) ^ 2 - 1 * (Z P q) ^ 2)) ^ 2 / (Tq P q) ^ 3 + (1 / 2) * (4 * (dZ_D0 P q) ^ 2 * P.a ^ 2 + 4 * ddZ_D0D0 P q * P.a ^ 2 * Z P q +
    4 * (1 * dX_D0 P q * X P q + 1 * dY_D0 P q * Y P q + 1 * dZ_D0 P q * Z P q) ^ 2 + (2 * (dX_D0 P q) ^ 2 + 2 * (dY_D0 P q) ^ 2 + 2 * (dZ_D0 P q) ^ 2 + 2 * ddX_D0D0 P q
    * X P q + 2 * ddY_D0D0 P q * Y P q + 2 * ddZ_D0D0 P q * Z P q) * (-P.a ^ 2 + (X P q) ^ 2 + (Y P q) ^ 2 + (Z P q) ^ 2)) / Tq P q) * ((-1) * dX_D2 P q * X P q - 1 *
    dY_D2 P q * Y P q - 1 * dZ_D2 P q * Z P q - (1 / 2) * (4 * dZ_D2 P q * P.a ^ 2 * Z P q + 2 * (dX_D2 P q * X P q + dY_D2 P q * Y P q + dZ_D2 P q * Z P q) * ((-1) * P.a
    ^ 2 + (X P q) ^ 2 + (Y P q) ^ 2 + (Z P q) ^ 2)) / Tq P q) / (Sq P q) ^ 3

/-- Free_Data/fd_KerrSchild_R_X_Y_Z.c:3063-3331 `fd_ks_dddR_D0D1D0` -/
noncomputable def dddR_D0D1D0 (P : Par) (q : Pt) : ℝ :=
  P.lit * ((-1) * dX_D0 P q * X P q - 1 * dY_D0 P q * Y P q - 1 * dZ_D0 P q * Z P q - (1 / 2) * (4 * dZ_D0 P q * P.a ^ 2 * Z P q + 2 * (dX_D0 P q * X P q + dY_D0 P q * Y
    P q + dZ_D0 P q * Z P q) * ((-1) * P.a ^ 2 + (X P q) ^ 2 + (Y P q) ^ 2 + (Z P q) ^ 2)) / Tq P q) * (1 * dX_D0 P q * dX_D1 P q + 1 * dY_D0 P q * dY_D1 P q + 1 * dZ_D0
    P q * dZ_D1 P q + 1 * ddX_D0D1 P q * X P q + 1 * ddY_D0D1 P q * Y P q + 1 * ddZ_D0D1 P q * Z P q + (1 / 2) * (4 * dZ_D0 P q * dZ_D1 P q * P.a ^ 2 + 4 * ddZ_D0D1 P q *
    P.a ^ 2 * Z P q + 4 * (1 * dX_D0 P q * X P q + 1 * dY_D0 P q * Y P q + 1 * dZ_D0 P q * Z P q) * (dX_D1 P q * X P q + dY_D1 P q * Y P q + dZ_D1 P q * Z P q) + (2 *
    dX_D0 P q * dX_D1 P q + 2 * dY_D0 P q * dY_D1 P q + 2 * dZ_D0 P q * dZ_D1 P q + 2 * ddX_D0D1 P q * X P q + 2 * ddY_D0D1 P q * Y P q + 2 * ddZ_D0D1 P q * Z P q) *
    (-P.a ^ 2 + (X P q) ^ 2 + (Y P q) ^ 2 + (Z P q) ^ 2)) / Tq P q + (1 / 2) * (4 * dZ_D0 P q * P.a ^ 2 * Z P q + 2 * (dX_D0 P q * X P q + dY_D0 P q * Y P q + dZ_D0 P q *
    Z P q) * ((-1) * P.a ^ 2 + (X P q) ^ 2 + (Y P q) ^ 2 + (Z P q) ^ 2)) * ((-4) * dZ_D1 P q * P.a ^ 2 * Z P q - 2 * (dX_D1 P q * X P q + dY_D1 P q * Y P q + dZ_D1 P q *
    Z P q) * ((-1) * P.a ^ 2 + (X P q) ^ 2 + (Y P q) ^ 2 + (Z P q) ^ 2)) / (Tq P q) ^ 3) / (Sq P q) ^ 3 + P.lit * (1 * dX_D1 P q * ddX_D0D0 P q + 1 * dY_D1 P q * ddY_D0D0
    P q + 1 * dZ_D1 P q * ddZ_D0D0 P q + 2 * dX_D0 P q * ddX_D0D1 P q + 2 * dY_D0 P q * ddY_D0D1 P q + 2 * dZ_D0 P q * ddZ_D0D1 P q + 1 * dddX_D0D0D1 P q * X P q + 1 *
    dddY_D0D0D1 P q * Y P q + 1 * dddZ_D0D0D1 P q * Z P q + (1 / 2) * (4 * dZ_D1 P q * ddZ_D0D0 P q * P.a ^ 2 + 8 * dZ_D0 P q * ddZ_D0D1 P q * P.a ^ 2 + 4 * dddZ_D0D0D1 P
    q * P.a ^ 2 * Z P q + 4 * (dX_D1 P q * X P q + dY_D1 P q * Y P q + dZ_D1 P q * Z P q) * (1 * (dX_D0 P q) ^ 2 + 1 * (dY_D0 P q) ^ 2 + 1 * (dZ_D0 P q) ^ 2 + 1 *
    ddX_D0D0 P q * X P q + 1 * ddY_D0D0 P q * Y P q + 1 * ddZ_D0D0 P q * Z P q) + 4 * (1 * dX_D0 P q * X P q + 1 * dY_D0 P q * Y P q + 1 * dZ_D0 P q * Z P q) * (dX_D0 P q
    * dX_D1 P q + dY_D0 P q * dY_D1 P q + dZ_D0 P q * dZ_D1 P q + ddX_D0D1 P q * X P q + ddY_D0D1 P q * Y P q + ddZ_D0D1 P q * Z P q) + 4 * (dX_D0 P q * X P q + dY_D0 P q
    * Y P q + dZ_D0 P q * Z P q) * (1 * dX_D0 P q * dX_D1 P q + 1 * dY_D0 P q * dY_D1 P q + 1 * dZ_D0 P q * dZ_D1 P q + 1 * ddX_D0D1 P q * X P q + 1 * ddY_D0D1 P q * Y P
    q + 1 * ddZ_D0D1 P q * Z P q) + (2 * dX_D1 P q * ddX_D0D0 P q + 2 * dY_D1 P q * ddY_D0D0 P q + 2 * dZ_D1 P q * ddZ_D0D0 P q + 4 * dX_D0 P q * ddX_D0D1 P q + 4 * dY_D0
    P q * ddY_D0D1 P q + 4 * dZ_D0 P q * ddZ_D0D1 P q + 2 * dddX_D0D0D1 P q * X P q + 2 * dddY_D0D0D1 P q * Y P q + 2 * dddZ_D0D0D1 P q * Z P q) * (-P.a ^ 2 + (X P q) ^ 2
    + (Y P q) ^ 2 + (Z P q) ^ 2)) / Tq P q + (1 / 2) * (4 * dZ_D0 P q * dZ_D1 P q * P.a ^ 2 + 4 * ddZ_D0D1 P q * P.a ^ 2 * Z P q + 4 * (1 * dX_D0 P q * X P q + 1 * dY_D0
    P q * Y P q + 1 * dZ_D0 P q * Z P q) * (dX_D1 P q * X P q + dY_D1 P q * Y P q + dZ_D1 P q * Z P q) + (2 * dX_D0 P q * dX_D1 P q + 2 * dY_D0 P q * dY_D1 P q + 2 *
    dZ_D0 P q * dZ_D1 P q + 2 * ddX_D0D1 P q * X P q + 2 * ddY_D0D1 P q * Y P q + 2 * ddZ_D0D1 P q * Z P q) * (-P.a ^ 2 + (X P q) ^ 2 + (Y P q) ^ 2 + (Z P q) ^ 2)) *
    ((-4) * dZ_D0 P q * P.a ^ 2 * Z P q - 2 * (dX_D0 P q * X P q + dY_D0 P q * Y P q + dZ_D0 P q * Z P q) * ((-1) * P.a ^ 2 + (X P q) ^ 2 + (Y P q) ^ 2 + (Z P q) ^ 2)) /
    (Tq P q) ^ 3 + (1 / 2) * ((-4) * dZ_D0 P q * dZ_D1 P q * P.a ^ 2 - 4 * ddZ_D0D1 P q * P.a ^ 2 * Z P q - 4 * (dX_D0 P q * X P q + dY_D0 P q * Y P q + dZ_D0 P q * Z P
    q) * (1 * dX_D1 P q * X P q + 1 * dY_D1 P q * Y P q + 1 * dZ_D1 P q * Z P q) + ((-2) * dX_D0 P q * dX_D1 P q - 2 * dY_D0 P q * dY_D1 P q - 2 * dZ_D0 P q * dZ_D1 P q -
    2 * ddX_D0D1 P q * X P q - 2 * ddY_D0D1 P q * Y P q - 2 * ddZ_D0D1 P q * Z P q) * (-P.a ^ 2 + (X P q) ^ 2 + (Y P q) ^ 2 + (Z P q) ^ 2)) * (4 * dZ_D0 P q * P.a ^ 2 * Z
    P q + 2 * (dX_D0 P q * X P q + dY_D0 P q * Y P q + dZ_D0 P q * Z P q) * ((-1) * P.a ^ 2 + (X P q) ^ 2 + (Y P q) ^ 2 + (Z P q) ^ 2)) / (Tq P q) ^ 3 + (1 / 2) * (4 *
    (dZ_D0 P q) ^ 2 * P.a ^ 2 + 4 * ddZ_D0D0 P q * P.a ^ 2 * Z P q + 4 * (1 * dX_D0 P q * X P q + 1 * dY_D0 P q * Y P q + 1 * dZ_D0 P q * Z P q) ^ 2 + (2 * (dX_D0 P q) ^
    2 + 2 * (dY_D0 P q) ^ 2 + 2 * (dZ_D0 P q) ^ 2 + 2 * ddX_D0D0 P q * X P q + 2 * ddY_D0D0 P q * Y P q + 2 * ddZ_D0D0 P q * Z P q) * (-P.a ^ 2 + (X P q) ^ 2 + (Y P q) ^
    2 + (Z P q) ^ 2)) * ((-4) * dZ_D1 P q * P.a ^ 2 * Z P q - 2 * (dX_D1 P q * X P q + dY_D1 P q * Y P q + dZ_D1 P q * Z P q) * ((-1) * P.a ^ 2 + (X P q) ^ 2 + (Y P q) ^
    2 + (Z P q) ^ 2)) / (Tq P q) ^ 3 + (1 / 2) * ((-12) * dZ_D0 P q * P.a ^ 2 * Z P q - 6 * (dX_D0 P q * X P q + dY_D0 P q * Y P q + dZ_D0 P q * Z P q) * ((-1) * P.a ^ 2
    + (X P q) ^ 2 + (Y P q) ^ 2 + (Z P q) ^ 2)) * (4 * dZ_D0 P q * P.a ^ 2 * Z P q + 2 * (dX_D0 P q * X P q + dY_D0 P q * Y P q + dZ_D0 P q * Z P q) * ((-1) * P.a ^ 2 +
    (X P q) ^ 2 + (Y P q) ^ 2 + (Z P q) ^ 2)) * ((-4) * dZ_D1 P q * P.a ^ 2 * Z P q - 2 * (dX_D1 P q * X P q + dY_D1 P q * Y P q + dZ_D1 P q * Z P q) * ((-1) * P.a ^ 2 +
    (X P q) ^ 2 + (Y P q) ^ 2 + (Z P q) ^ 2)) / (Tq P q) ^ 5) / Sq P q + P.lit * (1 * (dX_D0 P q) ^ 2 + 1 * (dY_D0 P q) ^ 2 + 1 * (dZ_D0 P q) ^ 2 + 1 * ddX_D0D0 P q * X P
    q + 1 * ddY_D0D0 P q * Y P q + 1 * ddZ_D0D0 P q * Z P q - 2 * (dZ_D0 P q * Z P q * ((-1) * P.a ^ 2 - 1 * (X P q) ^ 2 - 1 * (Y P q) ^ 2 - 1 * (Z P q) ^ 2) + dX_D0 P q
    * X P q * (1 * P.a ^ 2 - 1 * (X P q) ^ 2 - 1 * (Y P q) ^ 2 - 1 * (Z P q) ^ 2) + dY_D0 P q * Y P q * (1 * P.a ^ 2 - 1 * (X P q) ^ 2 - 1 * (Y P q) ^ 2 - 1 * (Z P q) ^
    2)) ^ 2 / (Tq P q) ^ 3 + (1 / 2) * (4 * (dZ_D0 P q) ^ 2 * P.a ^ 2 + 4 * ddZ_D0D0 P q * P.a ^ 2 * Z P q + 4 * (1 * dX_D0 P q * X P q + 1 * dY_D0 P q * Y P q + 1 *
    dZ_D0 P q * Z P q) ^ 2 + (2 * (dX_D0 P q) ^ 2 + 2 * (dY_D0 P q) ^ 2 + 2 * (dZ_D0 P q) ^ 2 + 2 * ddX_D0D0 P q * X P q + 2 * ddY_D0D0 P q * Y P q + 2 * ddZ_D0D0 P q * Z
    P q) * (-P.a ^ 2 + (X P q) ^ 2 + (Y P q) ^ 2 + (Z P q) ^ 2)) / Tq P q) * ((-1) * dX_D1 P q * X P q - 1 * dY_D1 P q * Y P q - 1 * dZ_D1 P q * Z P q - (1 / 2) * (4 *
    dZ_D1 P q * P.a ^ 2 * Z P q + 2 * (dX_D1 P q * X P q + dY_D1 P q * Y P q + dZ_D1 P q * Z P q) * ((-1) * P.a ^ 2 + (X P q) ^ 2 + (Y P q) ^ 2 + (Z P q) ^ 2)) / Tq P q)
    / (Sq P q) ^ 3 + P.lit * ((-3) * dX_D0 P q * X P q - 3 * dY_D0 P q * Y P q - 3 * dZ_D0 P q * Z P q - (3 / 2) * (4 * dZ_D0 P q * P.a ^ 2 * Z P q + 2 * (dX_D0 P q * X P
    q + dY_D0 P q * Y P q + dZ_D0 P q * Z P q) * ((-1) * P.a ^ 2 + (X P q) ^ 2 + (Y P q) ^ 2 + (Z P q) ^ 2)) / Tq P q) * (1 * dX_D0 P q * X P q + 1 * dY_D0 P q * Y P q +
    1 * dZ_D0 P q * Z P q + (1 / 2) * (4 * dZ_D0 P q * P.a ^ 2 * Z P q + 2 * (dX_D0 P q * X P q + dY_D0 P q * Y P q + dZ_D0 P q * Z P q) * ((-1) * P.a ^ 2 + (X P q) ^ 2 +
    (Y P q) ^ 2 + (Z P q) ^ 2)) / Tq P q) * ((-1) * dX_D1 P q * X P q - 1 * dY_D1 P q * Y P q - 1 * dZ_D1 P q * Z P q - (1 / 2) * (4 * dZ_D1 P q * P.a ^ 2 * Z P q + 2 *
    (dX_D1 P q * X P q + dY_D1 P q * Y P q + dZ_D1 P q * Z P q) * ((-1) * P.a ^ 2 + (X P q) ^ 2 + (Y P q) ^ 2 + (Z P q) ^ 2)) / Tq P q) / (Sq P q) ^ 5 + P.lit * (1 *
    dX_D0 P q * X P q + 1 * dY_D0 P q * Y P q + 1 * dZ_D0 P q * Z P q + (1 / 2) * (4 * dZ_D0 P q * P.a ^ 2 * Z P q + 2 * (dX_D0 P q * X P q + dY_D0 P q * Y P q + dZ_D0 P
    q * Z P q) * ((-1) * P.a ^ 2 + (X P q) ^ 2 + (Y P q) ^ 2 + (Z P q) ^ 2)) / Tq P q) * ((-1) * dX_D0 P q * dX_D1 P q - 1 * dY_D0 P q * dY_D1 P q - 1 * dZ_D0 P q * dZ_D1
    P q - 1 * ddX_D0D1 P q * X P q - 1 * ddY_D0D1 P q * Y P q - 1 * ddZ_D0D1 P q * Z P q - (1 / 2) * (4 * dZ_D0 P q * dZ_D1 P q * P.a ^ 2 + 4 * ddZ_D0D1 P q * P.a ^ 2 * Z
    P q + 4 * (dX_D0 P q * X P q + dY_D0 P q * Y P q + dZ_D0 P q * Z P q) * (1 * dX_D1 P q * X P q + 1 * dY_D1 P q * Y P q + 1 * dZ_D1 P q * Z P q) + (2 * dX_D0 P q *
    dX_D1 P q + 2 * dY_D0 P q * dY_D1 P q + 2 * dZ_D0 P q * dZ_D1 P q + 2 * ddX_D0D1 P q * X P q + 2 * ddY_D0D1 P q * Y P q + 2 * ddZ_D0D1 P q * Z P q) * (-P.a ^ 2 + (X P
    q) ^ 2 + (Y P q) ^ 2 + (Z P q) ^ 2)) / Tq P q - (1 / 2) * ((-4) * dZ_D0 P q * P.a ^ 2 * Z P q - 2 * (dX_D0 P q * X P q + dY_D0 P q * Y P q + dZ_D0 P q * Z P q) *
    ((-1) * P.a ^ 2 + (X P q) ^ 2 + (Y P q) ^ 2 + (Z P q) ^ 2)) * (4 * dZ_D1 P q * P.a ^ 2 * Z P q + 2 * (dX_D1 P q * X P q + dY_D1 P q * Y P q + dZ_D1 P q * Z P q) *
    ((-1) * P.a ^ 2 + (X P q) ^ 2 + (Y P q) ^ 2 + (Z P q) ^ 2)) / (Tq P q) ^ 3) / (Sq P q) ^ 3

/-- Free_Data/fd_KerrSchild_R_X_Y_Z.c:2858-3062 `fd_ks_dddR_D0D1D1` -/
noncomputable def dddR_D0D1D1 (P : Par) (q : Pt) : ℝ :=
  P.lit * ((-1) * (dX_D1 P q) ^ 2 - 1 * (dY_D1 P q) ^ 2 - 1 * (dZ_D1 P q) ^ 2 - 1 * ddX_D1D1 P q * X P q - 1 * ddY_D1D1 P q * Y P q - 1 * ddZ_D1D1 P q * Z P q + 2 *
    (dZ_D1 P q * Z P q * ((-1) * P.a ^ 2 - 1 * (X P q) ^ 2 - 1 * (Y P q) ^ 2 - 1 * (Z P q) ^ 2) + dX_D1 P q * X P q * (1 * P.a ^ 2 - 1 * (X P q) ^ 2 - 1 * (Y P q) ^ 2 - 1
    * (Z P q) ^ 2) + dY_D1 P q * Y P q * (1 * P.a ^ 2 - 1 * (X P q) ^ 2 - 1 * (Y P q) ^ 2 - 1 * (Z P q) ^ 2)) ^ 2 / (Tq P q) ^ 3 - (1 / 2) * (4 * (dZ_D1 P q) ^ 2 * P.a ^
    2 + 4 * ddZ_D1D1 P q * P.a ^ 2 * Z P q + 4 * (1 * dX_D1 P q * X P q + 1 * dY_D1 P q * Y P q + 1 * dZ_D1 P q * Z P q) ^ 2 + (2 * (dX_D1 P q) ^ 2 + 2 * (dY_D1 P q) ^ 2
    + 2 * (dZ_D1 P q) ^ 2 + 2 * ddX_D1D1 P q * X P q + 2 * ddY_D1D1 P q * Y P q + 2 * ddZ_D1D1 P q * Z P q) * (-P.a ^ 2 + (X P q) ^ 2 + (Y P q) ^ 2 + (Z P q) ^ 2)) / Tq P
    q) * (1 * dX_D0 P q * X P q + 1 * dY_D0 P q * Y P q + 1 * dZ_D0 P q * Z P q + (1 / 2) * (4 * dZ_D0 P q * P.a ^ 2 * Z P q + 2 * (dX_D0 P q * X P q + dY_D0 P q * Y P q
    + dZ_D0 P q * Z P q) * ((-1) * P.a ^ 2 + (X P q) ^ 2 + (Y P q) ^ 2 + (Z P q) ^ 2)) / Tq P q) / (Sq P q) ^ 3 + P.lit * (1 * dX_D0 P q * ddX_D1D1 P q + 1 * dY_D0 P q *
    ddY_D1D1 P q + 1 * dZ_D0 P q * ddZ_D1D1 P q + 2 * dX_D1 P q * ddX_D0D1 P q + 2 * dY_D1 P q * ddY_D0D1 P q + 2 * dZ_D1 P q * ddZ_D0D1 P q + 1 * dddX_D0D1D1 P q * X P q
    + 1 * dddY_D0D1D1 P q * Y P q + 1 * dddZ_D0D1D1 P q * Z P q + (1 / 2) * (4 * dZ_D0 P q * ddZ_D1D1 P q * P.a ^ 2 + 8 * dZ_D1 P q * ddZ_D0D1 P q * P.a ^ 2 + 4 *
    dddZ_D0D1D1 P q * P.a ^ 2 * Z P q + 4 * (1 * dX_D0 P q * X P q + 1 * dY_D0 P q * Y P q + 1 * dZ_D0 P q * Z P q) * ((dX_D1 P q) ^ 2 + (dY_D1 P q) ^ 2 + (dZ_D1 P q) ^ 2
    + ddX_D1D1 P q * X P q + ddY_D1D1 P q * Y P q + ddZ_D1D1 P q * Z P q) + 8 * (dX_D1 P q * X P q + dY_D1 P q * Y P q + dZ_D1 P q * Z P q) * (1 * dX_D0 P q * dX_D1 P q +
    1 * dY_D0 P q * dY_D1 P q + 1 * dZ_D0 P q * dZ_D1 P q + 1 * ddX_D0D1 P q * X P q + 1 * ddY_D0D1 P q * Y P q + 1 * ddZ_D0D1 P q * Z P q) + (2 * dX_D0 P q * ddX_D1D1 P
    q + 2 * dY_D0 P q * ddY_D1D1 P q + 2 * dZ_D0 P q * ddZ_D1D1 P q + 4 * dX_D1 P q * ddX_D0D1 P q + 4 * dY_D1 P q * ddY_D0D1 P q + 4 * dZ_D1 P q * ddZ_D0D1 P q + 2 *
    dddX_D0D1D1 P q * X P q + 2 * dddY_D0D1D1 P q * Y P q + 2 * dddZ_D0D1D1 P q * Z P q) * (-P.a ^ 2 + (X P q) ^ 2 + (Y P q) ^ 2 + (Z P q) ^ 2)) / Tq P q + (1 / 2) *
    ((-4) * (dZ_D1 P q) ^ 2 * P.a ^ 2 - 4 * ddZ_D1D1 P q * P.a ^ 2 * Z P q - 4 * (dX_D1 P q * X P q + dY_D1 P q * Y P q + dZ_D1 P q * Z P q) ^ 2 + ((-2) * (dX_D1 P q) ^ 2
    - 2 * (dY_D1 P q) ^ 2 - 2 * (dZ_D1 P q) ^ 2 - 2 * ddX_D1D1 P q * X P q - 2 * ddY_D1D1 P q * Y P q - 2 * ddZ_D1D1 P q * Z P q) * (-P.a ^ 2 + (X P q) ^ 2 + (Y P q) ^ 2
    + (Z P q) ^ 2)) * (4 * dZ_D0 P q * P.a ^ 2 * Z P q + 2 * (dX_D0 P q * X P q + dY_D0 P q * Y P q + dZ_D0 P q * Z P q) * ((-1) * P.a ^ 2 + (X P q) ^ 2 + (Y P q) ^ 2 +
    (Z P q) ^ 2)) / (Tq P q) ^ 3 + 1 * (4 * dZ_D0 P q * dZ_D1 P q * P.a ^ 2 + 4 * ddZ_D0D1 P q * P.a ^ 2 * Z P q + 4 * (1 * dX_D0 P q * X P q + 1 * dY_D0 P q * Y P q + 1
    * dZ_D0 P q * Z P q) * (dX_D1 P q * X P q + dY_D1 P q * Y P q + dZ_D1 P q * Z P q) + (2 * dX_D0 P q * dX_D1 P q + 2 * dY_D0 P q * dY_D1 P q + 2 * dZ_D0 P q * dZ_D1 P
    q + 2 * ddX_D0D1 P q * X P q + 2 * ddY_D0D1 P q * Y P q + 2 * ddZ_D0D1 P q * Z P q) * (-P.a ^ 2 + (X P q) ^ 2 + (Y P q) ^ 2 + (Z P q) ^ 2)) * ((-4) * dZ_D1 P q * P.a
    ^ 2 * Z P q - 2 * (dX_D1 P q * X P q + dY_D1 P q * Y P q + dZ_D1 P q * Z P q) * ((-1) * P.a ^ 2 + (X P q) ^ 2 + (Y P q) ^ 2 + (Z P q) ^ 2)) / (Tq P q) ^ 3 + (1 / 2) *
    (4 * dZ_D0 P q * P.a ^ 2 * Z P q + 2 * (dX_D0 P q * X P q + dY_D0 P q * Y P q + dZ_D0 P q * Z P q) * ((-1) * P.a ^ 2 + (X P q) ^ 2 + (Y P q) ^ 2 + (Z P q) ^ 2)) *
    ((-12) * dZ_D1 P q * P.a ^ 2 * Z P q - 6 * (dX_D1 P q * X P q + dY_D1 P q * Y P q + dZ_D1 P q * Z P q) * ((-1) * P.a ^ 2 + (X P q) ^ 2 + (Y P q) ^ 2 + (Z P q) ^ 2)) *
    ((-4) * dZ_D1 P q * P.a ^ 2 * Z P q - 2 * (dX_D1 P q * X P q + dY_D1 P q * Y P q + dZ_D1 P q * Z P q) * ((-1) * P.a ^ 2 + (X P q) ^ 2 + (Y P q) ^ 2 + (Z P q) ^ 2)) /
    (Tq P q) ^ 5) / Sq P q + (2 * P.lit) * (1 * dX_D0 P q * dX_D1 P q + 1 * dY_D0 P q * dY_D1 P q + 1 * dZ_D0 P q * dZ_D1 P q + 1 * ddX_D0D1 P q * X P q + 1 * ddY_D0D1 P
    q * Y P q + 1 * ddZ_D0D1 P q * Z P q + (1 / 2) * (4 * dZ_D0 P q * dZ_D1 P q * P.a ^ 2 + 4 * ddZ_D0D1 P q * P.a ^ 2 * Z P q + 4 * (1 * dX_D0 P q * X P q + 1 * dY_D0 P
    q * Y P q + 1 * dZ_D0 P q * Z P q) * (dX_D1 P q * X P q + dY_D1 P q * Y P q + dZ_D1 P q * Z P q) + (2 * dX_D0 P q * dX_D1 P q + 2 * dY_D0 P q * dY_D1 P q + 2 * dZ_D0
    P q * dZ_D1 P q + 2 * ddX_D0D1 P q * X P q + 2 * ddY_D0D1 P q * Y P q + 2 * ddZ_D0D1 P q * Z P q) * (-P.a ^ 2 + (X P q) ^ 2 + (Y P q) ^ 2 + (Z P q) ^ 2)) / Tq P q +
    (1 / 2) * (4 * dZ_D0 P q * P.a ^ 2 * Z P q + 2 * (dX_D0 P q * X P q + dY_D0 P q * Y P q + dZ_D0 P q * Z P q) * ((-1) * P.a ^ 2 + (X P q) ^ 2 + (Y P q) ^ 2 + (Z P q) ^
    2)) * ((-4) * dZ_D1 P q * P.a ^ 2 * Z P q - 2 * (dX_D1 P q * X P q + dY_D1 P q * Y P q + dZ_D1 P q * Z P q) * ((-1) * P.a ^ 2 + (X P q) ^ 2 + (Y P q) ^ 2 + (Z P q) ^
    2)) / (Tq P q) ^ 3) * ((-1) * dX_D1 P q * X P q - 1 * dY_D1 P q * Y P q - 1 * dZ_D1 P q * Z P q - (1 / 2) * (4 * dZ_D1 P q * P.a ^ 2 * Z P q + 2 * (dX_D1 P q * X P q
    + dY_D1 P q * Y P q + dZ_D1 P q * Z P q) * ((-1) * P.a ^ 2 + (X P q) ^ 2 + (Y P q) ^ 2 + (Z P q) ^ 2)) / Tq P q) / (Sq P q) ^ 3 + P.lit * (1 * dX_D0 P q * X P q + 1 *
    dY_D0 P q * Y P q + 1 * dZ_D0 P q * Z P q + (1 / 2) * (4 * dZ_D0 P q * P.a ^ 2 * Z P q + 2 * (dX_D0 P q * X P q + dY_D0 P q * Y P q + dZ_D0 P q * Z P q) * ((-1) * P.a
    ^ 2 + (X P q) ^ 2 + (Y P q) ^ 2 + (Z P q) ^ 2)) / Tq P q) * ((-3) * dX_D1 P q * X P q - 3 * dY_D1 P q * Y P q - 3 * dZ_D1 P q * Z P q - (3 / 2) * (4 * dZ_D1 P q * P.a
    ^ 2 * Z P q + 2 * (dX_D1 P q * X P q + dY_D1 P q * Y P q + dZ_D1 P q * Z P q) * ((-1) * P.a ^ 2 + (X P q) ^ 2 + (Y P q) ^ 2 + (Z P q) ^ 2)) / Tq P q) * ((-1) * dX_D1
    P q * X P q - 1 * dY_D1 P q * Y P q - 1 * dZ_D1 P q * Z P q - (1 / 2) * (4 * dZ_D1 P q * P.a ^ 2 * Z P q + 2 * (dX_D1 P q * X P q + dY_D1 P q * Y P q + dZ_D1 P q * Z
    P q) * ((-1) * P.a ^ 2 + (X P q) ^ 2 + (Y P q) ^ 2 + (Z P q) ^ 2)) / Tq P q) / (Sq P q) ^ 5

/-- Free_Data/fd_KerrSchild_R_X_Y_Z.c:2578-2857 `fd_ks_dddR_D0D1D2` -/
noncomputable def dddR_D0D1D2 (P : Par) (q : Pt) : ℝ :=
  P.lit * (1 * dX_D2 P q * ddX_D0D1 P q + 1 * dX_D1 P q * ddX_D0D2 P q + 1 * dX_D0 P q * ddX_D1D2 P q + 1 * dY_D2 P q * ddY_D0D1 P q + 1 * dY_D1 P q * ddY_D0D2 P q + 1 *
    dY_D0 P q * ddY_D1D2 P q + 1 * dZ_D2 P q * ddZ_D0D1 P q + 1 * dZ_D1 P q * ddZ_D0D2 P q + 1 * dZ_D0 P q * ddZ_D1D2 P q + 1 * dddX_D0D1D2 P q * X P q + 1 * dddY_D0D1D2
    P q * Y P q + 1 * dddZ_D0D1D2 P q * Z P q + (1 / 2) * (4 * dZ_D2 P q * ddZ_D0D1 P q * P.a ^ 2 + 4 * dZ_D1 P q * ddZ_D0D2 P q * P.a ^ 2 + 4 * dZ_D0 P q * ddZ_D1D2 P q
    * P.a ^ 2 + 4 * dddZ_D0D1D2 P q * P.a ^ 2 * Z P q + 4 * (dX_D2 P q * X P q + dY_D2 P q * Y P q + dZ_D2 P q * Z P q) * (1 * dX_D0 P q * dX_D1 P q + 1 * dY_D0 P q *
    dY_D1 P q + 1 * dZ_D0 P q * dZ_D1 P q + 1 * ddX_D0D1 P q * X P q + 1 * ddY_D0D1 P q * Y P q + 1 * ddZ_D0D1 P q * Z P q) + 4 * (dX_D1 P q * X P q + dY_D1 P q * Y P q +
    dZ_D1 P q * Z P q) * (1 * dX_D0 P q * dX_D2 P q + 1 * dY_D0 P q * dY_D2 P q + 1 * dZ_D0 P q * dZ_D2 P q + 1 * ddX_D0D2 P q * X P q + 1 * ddY_D0D2 P q * Y P q + 1 *
    ddZ_D0D2 P q * Z P q) + 4 * (1 * dX_D0 P q * X P q + 1 * dY_D0 P q * Y P q + 1 * dZ_D0 P q * Z P q) * (dX_D1 P q * dX_D2 P q + dY_D1 P q * dY_D2 P q + dZ_D1 P q *
    dZ_D2 P q + ddX_D1D2 P q * X P q + ddY_D1D2 P q * Y P q + ddZ_D1D2 P q * Z P q) + (2 * dX_D2 P q * ddX_D0D1 P q + 2 * dX_D1 P q * ddX_D0D2 P q + 2 * dX_D0 P q *
    ddX_D1D2 P q + 2 * dY_D2 P q * ddY_D0D1 P q + 2 * dY_D1 P q * ddY_D0D2 P q + 2 * dY_D0 P q * ddY_D1D2 P q + 2 * dZ_D2 P q * ddZ_D0D1 P q + 2 * dZ_D1 P q * ddZ_D0D2 P
    q + 2 * dZ_D0 P q * ddZ_D1D2 P q + 2 * dddX_D0D1D2 P q * X P q + 2 * dddY_D0D1D2 P q * Y P q + 2 * dddZ_D0D1D2 P q * Z P q) * (-P.a ^ 2 + (X P q) ^ 2 + (Y P q) ^ 2 +
    (Z P q) ^ 2)) / Tq P q + (1 / 2) * ((-4) * dZ_D1 P q * dZ_D2 P q * P.a ^ 2 - 4 * ddZ_D1D2 P q * P.a ^ 2 * Z P q - 4 * (1 * dX_D1 P q * X P q + 1 * dY_D1 P q * Y P q +
    1 * dZ_D1 P q * Z P q) * (dX_D2 P q * X P q + dY_D2 P q * Y P q + dZ_D2 P q * Z P q) + ((-2) * dX_D1 P q * dX_D2 P q - 2 * dY_D1 P q * dY_D2 P q - 2 * dZ_D1 P q *
    dZ_D2 P q - 2 * ddX_D1D2 P q * X P q - 2 * ddY_D1D2 P q * Y P q - 2 * ddZ_D1D2 P q * Z P q) * (-P.a ^ 2 + (X P q) ^ 2 + (Y P q) ^ 2 + (Z P q) ^ 2)) * (4 * dZ_D0 P q *
    P.a ^ 2 * Z P q + 2 * (dX_D0 P q * X P q + dY_D0 P q * Y P q + dZ_D0 P q * Z P q) * ((-1) * P.a ^ 2 + (X P q) ^ 2 + (Y P q) ^ 2 + (Z P q) ^ 2)) / (Tq P q) ^ 3 + (1 /
    2) * (4 * dZ_D0 P q * dZ_D2 P q * P.a ^ 2 + 4 * ddZ_D0D2 P q * P.a ^ 2 * Z P q + 4 * (1 * dX_D0 P q * X P q + 1 * dY_D0 P q * Y P q + 1 * dZ_D0 P q * Z P q) * (dX_D2
    P q * X P q + dY_D2 P q * Y P q + dZ_D2 P q * Z P q) + (2 * dX_D0 P q * dX_D2 P q + 2 * dY_D0 P q * dY_D2 P q + 2 * dZ_D0 P q * dZ_D2 P q + 2 * ddX_D0D2 P q * X P q +
    2 * ddY_D0D2 P q * Y P q + 2 * ddZ_D0D2 P q * Z P q) * (-P.a ^ 2 + (X P q) ^ 2 + (Y P q) ^ 2 + (Z P q) ^ 2)) * ((-4) * dZ_D1 P q * P.a ^ 2 * Z P q - 2 * (dX_D1 P q *
    X P q + dY_D1 P q * Y P q + dZ_D1 P q * Z P q) * ((-1) * P.a ^ 2 + (X P q) ^ 2 + (Y P q) ^ 2 + (Z P q) ^ 2)) / (Tq P q) ^ 3 + (1 / 2) * (4 * dZ_D0 P q * P.a ^ 2 * Z P
    q + 2 * (dX_D0 P q * X P q + dY_D0 P q * Y P q + dZ_D0 P q * Z P q) * ((-1) * P.a ^ 2 + (X P q) ^ 2 + (Y P q) ^ 2 + (Z P q) ^ 2)) * ((-4) * dZ_D1 P q * P.a ^ 2 * Z P
    q - 2 * (dX_D1 P q * X P q + dY_D1 P q * Y P q + dZ_D1 P q * Z P q) * ((-1) * P.a ^ 2 + (X P q) ^ 2 + (Y P q) ^ 2 + (Z P q) ^ 2)) * ((-12) * dZ_D2 P q * P.a ^ 2 * Z P
    q - 6 * (dX_D2 P q * X P q + dY_D2 P q * Y P q + dZ_D2 P q * Z P q) * ((-1) * P.a ^ 2 + (X P q) ^ 2 + (Y P q) ^ 2 + (Z P q) ^ 2)) / (Tq P q) ^ 5 + (1 / 2) * (4 *
    dZ_D0 P q * dZ_D1 P q * P.a ^ 2 + 4 * ddZ_D0D1 P q * P.a ^ 2 * Z P q + 4 * (1 * dX_D0 P q * X P q + 1 * dY_D0 P q * Y P q + 1 * dZ_D0 P q * Z P q) * (dX_D1 P q * X P
    q + dY_D1 P q * Y P q + dZ_D1 P q * Z P q) + (2 * dX_D0 P q * dX_D1 P q + 2 * dY_D0 P q * dY_D1 P q + 2 * dZ_D0 P q * dZ_D1 P q + 2 * ddX_D0D1 P q * X P q + 2 *
    ddY_D0D1 P q * Y P q + 2 * ddZ_D0D1 P q * Z P q) * (-P.a ^ 2 + (X P q) ^ 2 + (Y P q) ^ 2 + (Z P q) ^ 2)) * ((-4) * dZ_D2 P q * P.a ^ 2 * Z P q - 2 * (dX_D2 P q * X P
    q + dY_D2 P q * Y P q + dZ_D2 P q * Z P q) * ((-1) * P.a ^ 2 + (X P q) ^ 2 + (Y P q) ^ 2 + (Z P q) ^ 2)) / (Tq P q) ^ 3) / Sq P q + P.lit * ((-1) * dX_D1 P q * X P q
    - 1 * dY_D1 P q * Y P q - 1 * dZ_D1 P q * Z P q - (1 / 2) * (4 * dZ_D1 P q * P.a ^ 2 * Z P q + 2 * (dX_D1 P q * X P q + dY_D1 P q * Y P q + dZ_D1 P q * Z P q) * ((-1)
    * P.a ^ 2 + (X P q) ^ 2 + (Y P q) ^ 2 + (Z P q) ^ 2)) / Tq P q) * (1 * dX_D0 P q * dX_D2 P q + 1 * dY_D0 P q * dY_D2 P q + 1 * dZ_D0 P q * dZ_D2 P q + 1 * ddX_D0D2 P
    q * X P q + 1 * ddY_D0D2 P q * Y P q + 1 * ddZ_D0D2 P q * Z P q + (1 / 2) * (4 * dZ_D0 P q * dZ_D2 P q * P.a ^ 2 + 4 * ddZ_D0D2 P q * P.a ^ 2 * Z P q + 4 * (1 * dX_D0
    P q * X P q + 1 * dY_D0 P q * Y P q + 1 * dZ_D0 P q * Z P q) * (dX_D2 P q * X P q + dY_D2 P q * Y P q + dZ_D2 P q * Z P q) + (2 * dX_D0 P q * dX_D2 P q + 2 * dY_D0 P
    q * dY_D2 P q + 2 * dZ_D0 P q * dZ_D2 P q + 2 * ddX_D0D2 P q * X P q + 2 * ddY_D0D2 P q * Y P q + 2 * ddZ_D0D2 P q * Z P q) * (-P.a ^ 2 + (X P q) ^ 2 + (Y P q) ^ 2 +
    (Z P q) ^ 2)) / Tq P q + (1 / 2) * (4 * dZ_D0 P q * P.a ^ 2 * Z P q + 2 * (dX_D0 P q * X P q + dY_D0 P q * Y P q + dZ_D0 P q * Z P q) * ((-1) * P.a ^ 2 + (X P q) ^ 2
    + (Y P q) ^ 2 + (Z P q) ^ 2)) * ((-4) * dZ_D2 P q * P.a ^ 2 * Z P q - 2 * (dX_D2 P q * X P q + dY_D2 P q * Y P q + dZ_D2 P q * Z P q) * ((-1) * P.a ^ 2 + (X P q) ^ 2
    + (Y P q) ^ 2 + (Z P q) ^ 2)) / (Tq P q) ^ 3) / (Sq P q) ^ 3 + P.lit * (1 * dX_D0 P q * X P q + 1 * dY_D0 P q * Y P q + 1 * dZ_D0 P q * Z P q + (1 / 2) * (4 * dZ_D0 P
    q * P.a ^ 2 * Z P q + 2 * (dX_D0 P q * X P q + dY_D0 P q * Y P q + dZ_D0 P q * Z P q) * ((-1) * P.a ^ 2 + (X P q) ^ 2 + (Y P q) ^ 2 + (Z P q) ^ 2)) / Tq P q) * ((-1)
    * dX_D1 P q * dX_D2 P q - 1 * dY_D1 P q * dY_D2 P q - 1 * dZ_D1 P q * dZ_D2 P q - 1 * ddX_D1D2 P q * X P q - 1 * ddY_D1D2 P q * Y P q - 1 * ddZ_D1D2 P q * Z P q - (1
    / 2) * (4 * dZ_D1 P q * dZ_D2 P q * P.a ^ 2 + 4 * ddZ_D1D2 P q * P.a ^ 2 * Z P q + 4 * (1 * dX_D1 P q * X P q + 1 * dY_D1 P q * Y P q + 1 * dZ_D1 P q * Z P q) *
    (dX_D2 P q * X P q + dY_D2 P q * Y P q + dZ_D2 P q * Z P q) + (2 * dX_D1 P q * dX_D2 P q + 2 * dY_D1 P q * dY_D2 P q + 2 * dZ_D1 P q * dZ_D2 P q + 2 * ddX_D1D2 P q *
    X P q + 2 * ddY_D1D2 P q * Y P q + 2 * ddZ_D1D2 P q * Z P q) * (-P.a ^ 2 + (X P q) ^ 2 + (Y P q) ^ 2 + (Z P q) ^ 2)) / Tq P q - (1 / 2) * (4 * dZ_D1 P q * P.a ^ 2 * Z
    P q + 2 * (dX_D1 P q * X P q + dY_D1 P q * Y P q + dZ_D1 P q * Z P q) * ((-1) * P.a ^ 2 + (X P q) ^ 2 + (Y P q) ^ 2 + (Z P q) ^ 2)) * ((-4) * dZ_D2 P q * P.a ^ 2 * Z
    P q - 2 * (dX_D2 P q * X P q + dY_D2 P q * Y P q + dZ_D2 P q * Z P q) * ((-1) * P.a ^ 2 + (X P q) ^ 2 + (Y P q) ^ 2 + (Z P q) ^ 2)) / (Tq P q) ^ 3) / (Sq P q) ^ 3 +
    P.lit * (1 * dX_D0 P q * X P q + 1 * dY_D0 P q * Y P q + 1 * dZ_D0 P q * Z P q + (1 / 2) * (4 * dZ_D0 P q * P.a ^ 2 * Z P q + 2 * (dX_D0 P q * X P q + dY_D0 P q * Y P
    q + dZ_D0 P q * Z P q) * ((-1) * P.a ^ 2 + (X P q) ^ 2 + (Y P q) ^ 2 + (Z P q) ^ 2)) / Tq P q) * ((-1) * dX_D1 P q * X P q - 1 * dY_D1 P q * Y P q - 1 * dZ_D1 P q * Z
    P q - (1 / 2) * (4 * dZ_D1 P q * P.a ^ 2 * Z P q + 2 * (dX_D1 P q * X P q + dY_D1 P q * Y P q + dZ_D1 P q * Z P q) * ((-1) * P.a ^ 2 + (X P q) ^ 2 + (Y P q) ^ 2 + (Z
    P q) ^ 2)) / Tq P q) * ((-3) * dX_D2 P q * X P q - 3 * dY_D2 P q * Y P q - 3 * dZ_D2 P q * Z P q - (3 / 2) * (4 * dZ_D2 P q * P.a ^ 2 * Z P q + 2 * (dX_D2 P q * X P q
    + dY_D2 P q * Y P q + dZ_D2 P q * Z P q) * ((-1) * P.a ^ 2 + (X P q) ^ 2 + (Y P q) ^ 2 + (Z P q) ^ 2)) / Tq P q) / (Sq P q) ^ 5 + P.lit * (1 * dX_D0 P q * dX_D1 P q +
    1 * dY_D0 P q * dY_D1 P q + 1 * dZ_D0 P q * dZ_D1 P q + 1 * ddX_D0D1 P q * X P q + 1 * ddY_D0D1 P q * Y P q + 1 * ddZ_D0D1 P q * Z P q + (1 / 2) * (4 * dZ_D0 P q *
    dZ_D1 P q * P.a ^ 2 + 4 * ddZ_D0D1 P q * P.a ^ 2 * Z P q + 4 * (1 * dX_D0 P q * X P q + 1 * dY_D0 P q * Y P q + 1 * dZ_D0 P q * Z P q) * (dX_D1 P q * X P q + dY_D1 P
    q * Y P q + dZ_D1 P q * Z P q) + (2 * dX_D0 P q * dX_D1 P q + 2 * dY_D0 P q * dY_D1 P q + 2 * dZ_D0 P q * dZ_D1 P q + 2 * ddX_D0D1 P q * X P q + 2 * ddY_D0D1 P q * Y
    P q + 2 * ddZ_D0D1 P q * Z P q) * (-P.a ^ 2 + (X P q) ^ 2 + (Y P q) ^ 2 + (Z P q) ^ 2)) / Tq P q + (1 / 2) * (4 * dZ_D0 P q * P.a ^ 2 * Z P q + 2 * (dX_D0 P q * X P q
    + dY_D0 P q * Y P q + dZ_D0 P q * Z P q) * ((-1) * P.a ^ 2 + (X P q) ^ 2 + (Y P q) ^ 2 + (Z P q) ^ 2)) * ((-4) * dZ_D1 P q * P.a ^ 2 * Z P q - 2 * (dX_D1 P q * X P q
    + dY_D1 P q * Y P q + dZ_D1 P q * Z P q) * ((-1) * P.a ^ 2 + (X P q) ^ 2 + (Y P q) ^ 2 + (Z P q) ^ 2)) / (Tq P q) ^ 3) * ((-1) * dX_D2 P q * X P q - 1 * dY_D2 P q * Y
    P q - 1 * dZ_D2 P q * Z P q - (1 / 2) * (4 * dZ_D2 P q * P.a ^ 2 * Z P q + 2 * (dX_D2 P q * X P q + dY_D2 P q * Y P q + dZ_D2 P q * Z P q) * ((-1) * P.a ^ 2 + (X P q)
    ^ 2 + (Y P q) ^ 2 + (Z P q) ^ 2)) / Tq P q) / (Sq P q) ^ 3

/-- Free_Data/fd_KerrSchild_R_X_Y_Z.c:3601-3869 `fd_ks_dddR_D0D2D0` -/
noncomputable def dddR_D0D2D0 (P : Par) (q : Pt) : ℝ :=
  P.lit * ((-1) * dX_D0 P q * X P q - 1 * dY_D0 P q * Y P q - 1 * dZ_D0 P q * Z P q - (1 / 2) * (4 * dZ_D0 P q * P.a ^ 2 * Z P q + 2 * (dX_D0 P q * X P q + dY_D0 P q * Y
    P q + dZ_D0 P q * Z P q) * ((-1) * P.a ^ 2 + (X P q) ^ 2 + (Y P q) ^ 2 + (Z P q) ^ 2)) / Tq P q) * (1 * dX_D0 P q * dX_D2 P q + 1 * dY_D0 P q * dY_D2 P q + 1 * dZ_D0
    P q * dZ_D2 P q + 1 * ddX_D0D2 P q * X P q + 1 * ddY_D0D2 P q * Y P q + 1 * ddZ_D0D2 P q * Z P q + (1 / 2) * (4 * dZ_D0 P q * dZ_D2 P q * P.a ^ 2 + 4 * ddZ_D0D2 P q *
    P.a ^ 2 * Z P q + 4 * (1 * dX_D0 P q * X P q + 1 * dY_D0 P q * Y P q + 1 * dZ_D0 P q * Z P q) * (dX_D2 P q * X P q + dY_D2 P q * Y P q + dZ_D2 P q * Z P q) + (2 *
    dX_D0 P q * dX_D2 P q + 2 * dY_D0 P q * dY_D2 P q + 2 * dZ_D0 P q * dZ_D2 P q + 2 * ddX_D0D2 P q * X P q + 2 * ddY_D0D2 P q * Y P q + 2 * ddZ_D0D2 P q * Z P q) *
    (-P.a ^ 2 + (X P q) ^ 2 + (Y P q) ^ 2 + (Z P q) ^ 2)) / Tq P q + (1 / 2) * (4 * dZ_D0 P q * P.a ^ 2 * Z P q + 2 * (dX_D0 P q * X P q + dY_D0 P q * Y P q + dZ_D0 P q *
    Z P q) * ((-1) * P.a ^ 2 + (X P q) ^ 2 + (Y P q) ^ 2 + (Z P q) ^ 2)) * ((-4) * dZ_D2 P q * P.a ^ 2 * Z P q - 2 * (dX_D2 P q * X P q + dY_D2 P q * Y P q + dZ_D2 P q *
    Z P q) * ((-1) * P.a ^ 2 + (X P q) ^ 2 + (Y P q) ^ 2 + (Z P q) ^ 2)) / (Tq P q) ^ 3) / (Sq P q) ^ 3 + P.lit * (1 * dX_D2 P q * ddX_D0D0 P q + 1 * dY_D2 P q * ddY_D0D0
    P q + 1 * dZ_D2 P q * ddZ_D0D0 P q + 2 * dX_D0 P q * ddX_D0D2 P q + 2 * dY_D0 P q * ddY_D0D2 P q + 2 * dZ_D0 P q * ddZ_D0D2 P q + 1 * dddX_D0D0D2 P q * X P q + 1 *
    dddY_D0D0D2 P q * Y P q + 1 * dddZ_D0D0D2 P q * Z P q + (1 / 2) * (4 * dZ_D2 P q * ddZ_D0D0 P q * P.a ^ 2 + 8 * dZ_D0 P q * ddZ_D0D2 P q * P.a ^ 2 + 4 * dddZ_D0D0D2 P
    q * P.a ^ 2 * Z P q + 4 * (dX_D2 P q * X P q + dY_D2 P q * Y P q + dZ_D2 P q * Z P q) * (1 * (dX_D0 P q) ^ 2 + 1 * (dY_D0 P q) ^ 2 + 1 * (dZ_D0 P q) ^ 2 + 1 *
    ddX_D0D0 P q * X P q + 1 * ddY_D0D0 P q * Y P q + 1 * ddZ_D0D0 P q * Z P q) + 4 * (1 * dX_D0 P q * X P q + 1 * dY_D0 P q * Y P q + 1 * dZ_D0 P q * Z P q) * (dX_D0 P q
    * dX_D2 P q + dY_D0 P q * dY_D2 P q + dZ_D0 P q * dZ_D2 P q + ddX_D0D2 P q * X P q + ddY_D0D2 P q * Y P q + ddZ_D0D2 P q * Z P q) + 4 * (dX_D0 P q * X P q + dY_D0 P q
    * Y P q + dZ_D0 P q * Z P q) * (1 * dX_D0 P q * dX_D2 P q + 1 * dY_D0 P q * dY_D2 P q + 1 * dZ_D0 P q * dZ_D2 P q + 1 * ddX_D0D2 P q * X P q + 1 * ddY_D0D2 P q * Y P
    q + 1 * ddZ_D0D2 P q * Z P q) + (2 * dX_D2 P q * ddX_D0D0 P q + 2 * dY_D2 P q * ddY_D0D0 P q + 2 * dZ_D2 P q * ddZ_D0D0 P q + 4 * dX_D0 P q * ddX_D0D2 P q + 4 * dY_D0
    P q * ddY_D0D2 P q + 4 * dZ_D0 P q * ddZ_D0D2 P q + 2 * dddX_D0D0D2 P q * X P q + 2 * dddY_D0D0D2 P q * Y P q + 2 * dddZ_D0D0D2 P q * Z P q) * (-P.a ^ 2 + (X P q) ^ 2
    + (Y P q) ^ 2 + (Z P q) ^ 2)) / Tq P q + (1 / 2) * (4 * dZ_D0 P q * dZ_D2 P q * P.a ^ 2 + 4 * ddZ_D0D2 P q * P.a ^ 2 * Z P q + 4 * (1 * dX_D0 P q * X P q + 1 * dY_D0
    P q * Y P q + 1 * dZ_D0 P q * Z P q) * (dX_D2 P q * X P q + dY_D2 P q * Y P q + dZ_D2 P q * Z P q) + (2 * dX_D0 P q * dX_D2 P q + 2 * dY_D0 P q * dY_D2 P q + 2 *
    dZ_D0 P q * dZ_D2 P q + 2 * ddX_D0D2 P q * X P q + 2 * ddY_D0D2 P q * Y P q + 2 * ddZ_D0D2 P q * Z P q) * (-P.a ^ 2 + (X P q) ^ 2 + (Y P q) ^ 2 + (Z P q) ^ 2)) *
    ((-4) * dZ_D0 P q * P.a ^ 2 * Z P q - 2 * (dX_D0 P q * X P q + dY_D0 P q * Y P q + dZ_D0 P q * Z P q) * ((-1) * P.a ^ 2 + (X P q) ^ 2 + (Y P q) ^ 2 + (Z P q) ^ 2)) /
    (Tq P q) ^ 3 + (1 / 2) * ((-4) * dZ_D0 P q * dZ_D2 P q * P.a ^ 2 - 4 * ddZ_D0D2 P q * P.a ^ 2 * Z P q - 4 * (dX_D0 P q * X P q + dY_D0 P q * Y P q + dZ_D0 P q * Z P
    q) * (1 * dX_D2 P q * X P q + 1 * dY_D2 P q * Y P q + 1 * dZ_D2 P q * Z P q) + ((-2) * dX_D0 P q * dX_D2 P q - 2 * dY_D0 P q * dY_D2 P q - 2 * dZ_D0 P q * dZ_D2 P q -
    2 * ddX_D0D2 P q * X P q - 2 * ddY_D0D2 P q * Y P q - 2 * ddZ_D0D2 P q * Z P q) * (-P.a ^ 2 + (X P q) ^ 2 + (Y P q) ^ 2 + (Z P q) ^ 2)) * (4 * dZ_D0 P q * P.a ^ 2 * Z
    P q + 2 * (dX_D0 P q * X P q + dY_D0 P q * Y P q + dZ_D0 P q * Z P q) * ((-1) * P.a ^ 2 + (X P q) ^ 2 + (Y P q) ^ 2 + (Z P q) ^ 2)) / (Tq P q) ^ 3 + (1 / 2) * (4 *
    (dZ_D0 P q) ^ 2 * P.a ^ 2 + 4 * ddZ_D0D0 P q * P.a ^ 2 * Z P q + 4 * (1 * dX_D0 P q * X P q + 1 * dY_D0 P q * Y P q + 1 * dZ_D0 P q * Z P q) ^ 2 + (2 * (dX_D0 P q) ^
    2 + 2 * (dY_D0 P q) ^ 2 + 2 * (dZ_D0 P q) ^ 2 + 2 * ddX_D0D0 P q * X P q + 2 * ddY_D0D0 P q * Y P q + 2 * ddZ_D0D0 P q * Z P q) * (-P.a ^ 2 + (X P q) ^ 2 + (Y P q) ^
    2 + (Z P q) ^ 2)) * ((-4) * dZ_D2 P q * P.a ^ 2 * Z P q - 2 * (dX_D2 P q * X P q + dY_D2 P q * Y P q + dZ_D2 P q * Z P q) * ((-1) * P.a ^ 2 + (X P q) ^ 2 + (Y P q) ^
    2 + (Z P q) ^ 2)) / (Tq P q) ^ 3 + (1 / 2) * ((-12) * dZ_D0 P q * P.a ^ 2 * Z P q - 6 * (dX_D0 P q * X P q + dY_D0 P q * Y P q + dZ_D0 P q * Z P q) * ((-1) * P.a ^ 2
    + (X P q) ^ 2 + (Y P q) ^ 2 + (Z P q) ^ 2)) * (4 * dZ_D0 P q * P.a ^ 2 * Z P q + 2 * (dX_D0 P q * X P q + dY_D0 P q * Y P q + dZ_D0 P q * Z P q) * ((-1) * P.a ^ 2 +
    (X P q) ^ 2 + (Y P q) ^ 2 + (Z P q) ^ 2)) * ((-4) * dZ_D2 P q * P.a ^ 2 * Z P q - 2 * (dX_D2 P q * X P q + dY_D2 P q * Y P q + dZ_D2 P q * Z P q) * ((-1) * P.a ^ 2 +
    (X P q) ^ 2 + (Y P q) ^ 2 + (Z P q) ^ 2)) / (Tq P q) ^ 5) / Sq P q + P.lit * (1 * (dX_D0 P q) ^ 2 + 1 * (dY_D0 P q) ^ 2 + 1 * (dZ_D0 P q) ^ 2 + 1 * ddX_D0D0 P q * X P
    q + 1 * ddY_D0D0 P q * Y P q + 1 * ddZ_D0D0 P q * Z P q - 2 * (dZ_D0 P q * Z P q * ((-1) * P.a ^ 2 - 1 * (X P q) ^ 2 - 1 * (Y P q) ^ 2 - 1 * (Z P q) ^ 2) + dX_D0 P q
    * X P q * (1 * P.a ^ 2 - 1 * (X P q) ^ 2 - 1 * (Y P q) ^ 2 - 1 * (Z P q) ^ 2) + dY_D0 P q * Y P q * (1 * P.a ^ 2 - 1 * (X P q) ^ 2 - 1 * (Y P q) ^ 2 - 1 * (Z P q) ^
    2)) ^ 2 / (Tq P q) ^ 3 + (1 / 2) * (4 * (dZ_D0 P q) ^ 2 * P.a ^ 2 + 4 * ddZ_D0D0 P q * P.a ^ 2 * Z P q + 4 * (1 * dX_D0 P q * X P q + 1 * dY_D0 P q * Y P q + 1 *
    dZ_D0 P q * Z P q) ^ 2 + (2 * (dX_D0 P q) ^ 2 + 2 * (dY_D0 P q) ^ 2 + 2 * (dZ_D0 P q) ^ 2 + 2 * ddX_D0D0 P q * X P q + 2 * ddY_D0D0 P q * Y P q + 2 * ddZ_D0D0 P q * Z
    P q) * (-P.a ^ 2 + (X P q) ^ 2 + (Y P q) ^ 2 + (Z P q) ^ 2)) / Tq P q) * ((-1) * dX_D2 P q * X P q - 1 * dY_D2 P q * Y P q - 1 * dZ_D2 P q * Z P q - (1 / 2) * (4 *
    dZ_D2 P q * P.a ^ 2 * Z P q + 2 * (dX_D2 P q * X P q + dY_D2 P q * Y P q + dZ_D2 P q * Z P q) * ((-1) * P.a ^ 2 + (X P q) ^ 2 + (Y P q) ^ 2 + (Z P q) ^ 2)) / Tq P q)
    / (Sq P q) ^ 3 + P.lit * ((-3) * dX_D0 P q * X P q - 3 * dY_D0 P q * Y P q - 3 * dZ_D0 P q * Z P q - (3 / 2) * (4 * dZ_D0 P q * P.a ^ 2 * Z P q + 2 * (dX_D0 P q * X P
    q + dY_D0 P q * Y P q + dZ_D0 P q * Z P q) * ((-1) * P.a ^ 2 + (X P q) ^ 2 + (Y P q) ^ 2 + (Z P q) ^ 2)) / Tq P q) * (1 * dX_D0 P q * X P q + 1 * dY_D0 P q * Y P q +
    1 * dZ_D0 P q * Z P q + (1 / 2) * (4 * dZ_D0 P q * P.a ^ 2 * Z P q + 2 * (dX_D0 P q * X P q + dY_D0 P q * Y P q + dZ_D0 P q * Z P q) * ((-1) * P.a ^ 2 + (X P q) ^ 2 +
    (Y P q) ^ 2 + (Z P q) ^ 2)) / Tq P q) * ((-1) * dX_D2 P q * X P q - 1 * dY_D2 P q * Y P q - 1 * dZ_D2 P q * Z P q - (1 / 2) * (4 * dZ_D2 P q * P.a ^ 2 * Z P q + 2 *
    (dX_D2 P q * X P q + dY_D2 P q * Y P q + dZ_D2 P q * Z P q) * ((-1) * P.a ^ 2 + (X P q) ^ 2 + (Y P q) ^ 2 + (Z P q) ^ 2)) / Tq P q) / (Sq P q) ^ 5 + P.lit * (1 *
    dX_D0 P q * X P q + 1 * dY_D0 P q * Y P q + 1 * dZ_D0 P q * Z P q + (1 / 2) * (4 * dZ_D0 P q * P.a ^ 2 * Z P q + 2 * (dX_D0 P q * X P q + dY_D0 P q * Y P q + dZ_D0 P
    q * Z P q) * ((-1) * P.a ^ 2 + (X P q) ^ 2 + (Y P q) ^ 2 + (Z P q) ^ 2)) / Tq P q) * ((-1) * dX_D0 P q * dX_D2 P q - 1 * dY_D0 P q * dY_D2 P q - 1 * dZ_D0 P q * dZ_D2
    P q - 1 * ddX_D0D2 P q * X P q - 1 * ddY_D0D2 P q * Y P q - 1 * ddZ_D0D2 P q * Z P q - (1 / 2) * (4 * dZ_D0 P q * dZ_D2 P q * P.a ^ 2 + 4 * ddZ_D0D2 P q * P.a ^ 2 * Z
    P q + 4 * (dX_D0 P q * X P q + dY_D0 P q * Y P q + dZ_D0 P q * Z P q) * (1 * dX_D2 P q * X P q + 1 * dY_D2 P q * Y P q + 1 * dZ_D2 P q * Z P q) + (2 * dX_D0 P q *
    dX_D2 P q + 2 * dY_D0 P q * dY_D2 P q + 2 * dZ_D0 P q * dZ_D2 P q + 2 * ddX_D0D2 P q * X P q + 2 * ddY_D0D2 P q * Y P q + 2 * ddZ_D0D2 P q * Z P q) * (-P.a ^ 2 + (X P
    q) ^ 2 + (Y P q) ^ 2 + (Z P q) ^ 2)) / Tq P q - (1 / 2) * ((-4) * dZ_D0 P q * P.a ^ 2 * Z P q - 2 * (dX_D0 P q * X P q + dY_D0 P q * Y P q + dZ_D0 P q * Z P q) *
    ((-1) * P.a ^ 2 + (X P q) ^ 2 + (Y P q) ^ 2 + (Z P q) ^ 2)) * (4 * dZ_D2 P q * P.a ^ 2 * Z P q + 2 * (dX_D2 P q * X P q + dY_D2 P q * Y P q + dZ_D2 P q * Z P q) *
    ((-1) * P.a ^ 2 + (X P q) ^ 2 + (Y P q) ^ 2 + (Z P q) ^ 2)) / (Tq P q) ^ 3) / (Sq P q) ^ 3

/-- Free_Data/fd_KerrSchild_R_X_Y_Z.c:3870-4149 `fd_ks_dddR_D0D2D1` -/
noncomputable def dddR_D0D2D1 (P : Par) (q : Pt) : ℝ :=
  P.lit * ((-1) * dX_D1 P q * X P q - 1 * dY_D1 P q * Y P q - 1 * dZ_D1 P q * Z P q - (1 / 2) * (4 * dZ_D1 P q * P.a ^ 2 * Z P q + 2 * (dX_D1 P q * X P q + dY_D1 P q * Y
    P q + dZ_D1 P q * Z P q) * ((-1) * P.a ^ 2 + (X P q) ^ 2 + (Y P q) ^ 2 + (Z P q) ^ 2)) / Tq P q) * (1 * dX_D0 P q * dX_D2 P q + 1 * dY_D0 P q * dY_D2 P q + 1 * dZ_D0
    P q * dZ_D2 P q + 1 * ddX_D0D2 P q * X P q + 1 * ddY_D0D2 P q * Y P q + 1 * ddZ_D0D2 P q * Z P q + (1 / 2) * (4 * dZ_D0 P q * dZ_D2 P q * P.a ^ 2 + 4 * ddZ_D0D2 P q *
    P.a ^ 2 * Z P q + 4 * (1 * dX_D0 P q * X P q + 1 * dY_D0 P q * Y P q + 1 * dZ_D0 P q * Z P q) * (dX_D2 P q * X P q + dY_D2 P q * Y P q + dZ_D2 P q * Z P q) + (2 *
    dX_D0 P q * dX_D2 P q + 2 * dY_D0 P q * dY_D2 P q + 2 * dZ_D0 P q * dZ_D2 P q + 2 * ddX_D0D2 P q * X P q + 2 * ddY_D0D2 P q * Y P q + 2 * ddZ_D0D2 P q * Z P q) *
    (-P.a ^ 2 + (X P q) ^ 2 + (Y P q) ^ 2 + (Z P q) ^ 2)) / Tq P q + (1 / 2) * (4 * dZ_D0 P q * P.a ^ 2 * Z P q + 2 * (dX_D0 P q * X P q + dY_D0 P q * Y P q + dZ_D0 P q *
    Z P q) * ((-1) * P.a ^ 2 + (X P q) ^ 2 + (Y P q) ^ 2 + (Z P q) ^ 2)) * ((-4) * dZ_D2 P q * P.a ^ 2 * Z P q - 2 * (dX_D2 P q * X P q + dY_D2 P q * Y P q + dZ_D2 P q *
    Z P q) * ((-1) * P.a ^ 2 + (X P q) ^ 2 + (Y P q) ^ 2 + (Z P q) ^ 2)) / (Tq P q) ^ 3) / (Sq P q) ^ 3 + P.lit * (1 * dX_D2 P q * ddX_D0D1 P q + 1 * dX_D1 P q * ddX_D0D2
    P q + 1 * dX_D0 P q * ddX_D1D2 P q + 1 * dY_D2 P q * ddY_D0D1 P q + 1 * dY_D1 P q * ddY_D0D2 P q + 1 * dY_D0 P q * ddY_D1D2 P q + 1 * dZ_D2 P q * ddZ_D0D1 P q + 1 *
    dZ_D1 P q * ddZ_D0D2 P q + 1 * dZ_D0 P q * ddZ_D1D2 P q + 1 * dddX_D0D1D2 P q * X P q + 1 * dddY_D0D1D2 P q * Y P q + 1 * dddZ_D0D1D2 P q * Z P q + (1 / 2) * (4 *
    dZ_D2 P q * ddZ_D0D1 P q * P.a ^ 2 + 4 * dZ_D1 P q * ddZ_D0D2 P q * P.a ^ 2 + 4 * dZ_D0 P q * ddZ_D1D2 P q * P.a ^ 2 + 4 * dddZ_D0D1D2 P q * P.a ^ 2 * Z P q + 4 *
    (dX_D2 P q * X P q + dY_D2 P q * Y P q + dZ_D2 P q * Z P q) * (1 * dX_D0 P q * dX_D1 P q + 1 * dY_D0 P q * dY_D1 P q + 1 * dZ_D0 P q * dZ_D1 P q + 1 * ddX_D0D1 P q *
    X P q + 1 * ddY_D0D1 P q * Y P q + 1 * ddZ_D0D1 P q * Z P q) + 4 * (dX_D1 P q * X P q + dY_D1 P q * Y P q + dZ_D1 P q * Z P q) * (1 * dX_D0 P q * dX_D2 P q + 1 *
    dY_D0 P q * dY_D2 P q + 1 * dZ_D0 P q * dZ_D2 P q + 1 * ddX_D0D2 P q * X P q + 1 * ddY_D0D2 P q * Y P q + 1 * ddZ_D0D2 P q * Z P q) + 4 * (1 * dX_D0 P q * X P q + 1 *
    dY_D0 P q * Y P q + 1 * dZ_D0 P q * Z P q) * (dX_D1 P q * dX_D2 P q + dY_D1 P q * dY_D2 P q + dZ_D1 P q * dZ_D2 P q + ddX_D1D2 P q * X P q + ddY_D1D2 P q * Y P q +
    ddZ_D1D2 P q * Z P q) + (2 * dX_D2 P q * ddX_D0D1 P q + 2 * dX_D1 P q * ddX_D0D2 P q + 2 * dX_D0 P q * ddX_D1D2 P q + 2 * dY_D2 P q * ddY_D0D1 P q + 2 * dY_D1 P q *
    ddY_D0D2 P q + 2 * dY_D0 P q * ddY_D1D2 P q + 2 * dZ_D2 P q * ddZ_D0D1 P q + 2 * dZ_D1 P q * ddZ_D0D2 P q + 2 * dZ_D0 P q * ddZ_D1D2 P q + 2 * dddX_D0D1D2 P q * X P q
    + 2 * dddY_D0D1D2 P q * Y P q + 2 * dddZ_D0D1D2 P q * Z P q) * (-P.a ^ 2 + (X P q) ^ 2 + (Y P q) ^ 2 + (Z P q) ^ 2)) / Tq P q + (1 / 2) * ((-4) * dZ_D1 P q * dZ_D2 P
    q * P.a ^ 2 - 4 * ddZ_D1D2 P q * P.a ^ 2 * Z P q - 4 * (dX_D1 P q * X P q + dY_D1 P q * Y P q + dZ_D1 P q * Z P q) * (1 * dX_D2 P q * X P q + 1 * dY_D2 P q * Y P q +
    1 * dZ_D2 P q * Z P q) + ((-2) * dX_D1 P q * dX_D2 P q - 2 * dY_D1 P q * dY_D2 P q - 2 * dZ_D1 P q * dZ_D2 P q - 2 * ddX_D1D2 P q * X P q - 2 * ddY_D1D2 P q * Y P q -
    2 * ddZ_D1D2 P q * Z P q) * (-P.a ^ 2 + (X P q) ^ 2 + (Y P q) ^ 2 + (Z P q) ^ 2)) * (4 * dZ_D0 P q * P.a ^ 2 * Z P q + 2 * (dX_D0 P q * X P q + dY_D0 P q * Y P q +
    dZ_D0 P q * Z P q) * ((-1) * P.a ^ 2 + (X P q) ^ 2 + (Y P q) ^ 2 + (Z P q) ^ 2)) / (Tq P q) ^ 3 + (1 / 2) * (4 * dZ_D0 P q * dZ_D2 P q * P.a ^ 2 + 4 * ddZ_D0D2 P q *
    P.a ^ 2 * Z P q + 4 * (1 * dX_D0 P q * X P q + 1 * dY_D0 P q * Y P q + 1 * dZ_D0 P q * Z P q) * (dX_D2 P q * X P q + dY_D2 P q * Y P q + dZ_D2 P q * Z P q) + (2 *
    dX_D0 P q * dX_D2 P q + 2 * dY_D0 P q * dY_D2 P q + 2 * dZ_D0 P q * dZ_D2 P q + 2 * ddX_D0D2 P q * X P q + 2 * ddY_D0D2 P q * Y P q + 2 * ddZ_D0D2 P q * Z P q) *
    (-P.a ^ 2 + (X P q) ^ 2 + (Y P q) ^ 2 + (Z P q) ^ 2)) * ((-4) * dZ_D1 P q * P.a ^ 2 * Z P q - 2 * (dX_D1 P q * X P q + dY_D1 P q * Y P q + dZ_D1 P q * Z P q) * ((-1)
    * P.a ^ 2 + (X P q) ^ 2 + (Y P q) ^ 2 + (Z P q) ^ 2)) / (Tq P q) ^ 3 + (1 / 2) * (4 * dZ_D0 P q * dZ_D1 P q * P.a ^ 2 + 4 * ddZ_D0D1 P q * P.a ^ 2 * Z P q + 4 * (1 *
    dX_D0 P q * X P q + 1 * dY_D0 P q * Y P q + 1 * dZ_D0 P q * Z P q) * (dX_D1 P q * X P q + dY_D1 P q * Y P q + dZ_D1 P q * Z P q) + (2 * dX_D0 P q * dX_D1 P q + 2 *
    dY_D0 P q * dY_D1 P q + 2 * dZ_D0 P q * dZ_D1 P q + 2 * ddX_D0D1 P q * X P q + 2 * ddY_D0D1 P q * Y P q + 2 * ddZ_D0D1 P q * Z P q) * (-P.a ^ 2 + (X P q) ^ 2 + (Y P
    q) ^ 2 + (Z P q) ^ 2)) * ((-4) * dZ_D2 P q * P.a ^ 2 * Z P q - 2 * (dX_D2 P q * X P q + dY_D2 P q * Y P q + dZ_D2 P q * Z P q) * ((-1) * P.a ^ 2 + (X P q) ^ 2 + (Y P
    q) ^ 2 + (Z P q) ^ 2)) / (Tq P q) ^ 3 + (1 / 2) * (4 * dZ_D0 P q * P.a ^ 2 * Z P q + 2 * (dX_D0 P q * X P q + dY_D0 P q * Y P q + dZ_D0 P q * Z P q) * ((-1) * P.a ^ 2
    + (X P q) ^ 2 + (Y P q) ^ 2 + (Z P q) ^ 2)) * ((-12) * dZ_D1 P q * P.a ^ 2 * Z P q - 6 * (dX_D1 P q * X P q + dY_D1 P q * Y P q + dZ_D1 P q * Z P q) * ((-1) * P.a ^ 2
    + (X P q) ^ 2 + (Y P q) ^ 2 + (Z P q) ^ 2)) * ((-4) * dZ_D2 P q * P.a ^ 2 * Z P q - 2 * (dX_D2 P q * X P q + dY_D2 P q * Y P q + dZ_D2 P q * Z P q) * ((-1) * P.a ^ 2
    + (X P q) ^ 2 + (Y P q) ^ 2 + (Z P q) ^ 2)) / (Tq P q) ^ 5) / Sq P q + P.lit * (1 * dX_D0 P q * dX_D1 P q + 1 * dY_D0 P q * dY_D1 P q + 1 * dZ_D0 P q * dZ_D1 P q + 1
    * ddX_D0D1 P q * X P q + 1 * ddY_D0D1 P q * Y P q + 1 * ddZ_D0D1 P q * Z P q + (1 / 2) * (4 * dZ_D0 P q * dZ_D1 P q * P.a ^ 2 + 4 * ddZ_D0D1 P q * P.a ^ 2 * Z P q + 4
    * (1 * dX_D0 P q * X P q + 1 * dY_D0 P q * Y P q + 1 * dZ_D0 P q * Z P q) * (dX_D1 P q * X P q + dY_D1 P q * Y P q + dZ_D1 P q * Z P q) + (2 * dX_D0 P q * dX_D1 P q +
    2 * dY_D0 P q * dY_D1 P q + 2 * dZ_D0 P q * dZ_D1 P q + 2 * ddX_D0D1 P q * X P q + 2 * ddY_D0D1 P q * Y P q + 2 * ddZ_D0D1 P q * Z P q) * (-P.a ^ 2 + (X P q) ^ 2 + (Y
    P q) ^ 2 + (Z P q) ^ 2)) / Tq P q + (1 / 2) * (4 * dZ_D0 P q * P.a ^ 2 * Z P q + 2 * (dX_D0 P q * X P q + dY_D0 P q * Y P q + dZ_D0 P q * Z P q) * ((-1) * P.a ^ 2 +
    (X P q) ^ 2 + (Y P q) ^ 2 + (Z P q) ^ 2)) * ((-4) * dZ_D1 P q * P.a ^ 2 * Z P q - 2 * (dX_D1 P q * X P q + dY_D1 P q * Y P q + dZ_D1 P q * Z P q) * ((-1) * P.a ^ 2 +
    (X P q) ^ 2 + (Y P q) ^ 2 + (Z P q) ^ 2)) / (Tq P q) ^ 3) * ((-1) * dX_D2 P q * X P q - 1 * dY_D2 P q * Y P q - 1 * dZ_D2 P q * Z P q - (1 / 2) * (4 * dZ_D2 P q * P.a
    ^ 2 * Z P q + 2 * (dX_D2 P q * X P q + dY_D2 P q * Y P q + dZ_D2 P q * Z P q) * ((-1) * P.a ^ 2 + (X P q) ^ 2 + (Y P q) ^ 2 + (Z P q) ^ 2)) / Tq P q) / (Sq P q) ^ 3 +
    P.lit * (1 * dX_D0 P q * X P q + 1 * dY_D0 P q * Y P q + 1 * dZ_D0 P q * Z P q + (1 / 2) * (4 * dZ_D0 P q * P.a ^ 2 * Z P q + 2 * (dX_D0 P q * X P q + dY_D0 P q * Y P
    q + dZ_D0 P q * Z P q) * ((-1) * P.a ^ 2 + (X P q) ^ 2 + (Y P q) ^ 2 + (Z P q) ^ 2)) / Tq P q) * ((-3) * dX_D1 P q * X P q - 3 * dY_D1 P q * Y P q - 3 * dZ_D1 P q * Z
    P q - (3 / 2) * (4 * dZ_D1 P q * P.a ^ 2 * Z P q + 2 * (dX_D1 P q * X P q + dY_D1 P q * Y P q + dZ_D1 P q * Z P q) * ((-1) * P.a ^ 2 + (X P q) ^ 2 + (Y P q) ^ 2 + (Z
    P q) ^ 2)) / Tq P q) * ((-1) * dX_D2 P q * X P q - 1 * dY_D2 P q * Y P q - 1 * dZ_D2 P q * Z P q - (1 / 2) * (4 * dZ_D2 P q * P.a ^ 2 * Z P q + 2 * (dX_D2 P q * X P q
    + dY_D2 P q * Y P q + dZ_D2 P q * Z P q) * ((-1) * P.a ^ 2 + (X P q) ^ 2 + (Y P q) ^ 2 + (Z P q) ^ 2)) / Tq P q) / (Sq P q) ^ 5 + P.lit * (1 * dX_D0 P q * X P q + 1 *
    dY_D0 P q * Y P q + 1 * dZ_D0 P q * Z P q + (1 / 2) * (4 * dZ_D0 P q * P.a ^ 2 * Z P q + 2 * (dX_D0 P q * X P q + dY_D0 P q * Y P q + dZ_D0 P q * Z P q) * ((-1) * P.a
    ^ 2 + (X P q) ^ 2 + (Y P q) ^ 2 + (Z P q) ^ 2)) / Tq P q) * ((-1) * dX_D1 P q * dX_D2 P q - 1 * dY_D1 P q * dY_D2 P q - 1 * dZ_D1 P q * dZ_D2 P q - 1 * ddX_D1D2 P q *
    X P q - 1 * ddY_D1D2 P q * Y P q - 1 * ddZ_D1D2 P q * Z P q - (1 / 2) * (4 * dZ_D1 P q * dZ_D2 P q * P.a ^ 2 + 4 * ddZ_D1D2 P q * P.a ^ 2 * Z P q + 4 * (dX_D1 P q * X
    P q + dY_D1 P q * Y P q + dZ_D1 P q * Z P q) * (1 * dX_D2 P q * X P q + 1 * dY_D2 P q * Y P q + 1 * dZ_D2 P q * Z P q) + (2 * dX_D1 P q * dX_D2 P q + 2 * dY_D1 P q *
    dY_D2 P q + 2 * dZ_D1 P q * dZ_D2 P q + 2 * ddX_D1D2 P q * X P q + 2 * ddY_D1D2 P q * Y P q + 2 * ddZ_D1D2 P q * Z P q) * (-P.a ^ 2 + (X P q) ^ 2 + (Y P q) ^ 2 + (Z P
    q) ^ 2)) / Tq P q - (1 / 2) * ((-4) * dZ_D1 P q * P.a ^ 2 * Z P q - 2 * (dX_D1 P q * X P q + dY_D1 P q * Y P q + dZ_D1 P q * Z P q) * ((-1) * P.a ^ 2 + (X P q) ^ 2 +
    (Y P q) ^ 2 + (Z P q) ^ 2)) * (4 * dZ_D2 P q * P.a ^ 2 * Z P q + 2 * (dX_D2 P q * X P q + dY_D2 P q * Y P q + dZ_D2 P q * Z P q) * ((-1) * P.a ^ 2 + (X P q) ^ 2 + (Y
    P q) ^ 2 + (Z P q) ^ 2)) / (Tq P q) ^ 3) / (Sq P q) ^ 3

/-- Free_Data/fd_KerrSchild_R_X_Y_Z.c:4150-4354 `fd_ks_dddR_D0D2D2` -/
noncomputable def dddR_D0D2D2 (P : Par) (q : Pt) : ℝ :=
  P.lit * ((-1) * (dX_D2 P q) ^ 2 - 1 * (dY_D2 P q) ^ 2 - 1 * (dZ_D2 P q) ^ 2 - 1 * ddX_D2D2 P q * X P q - 1 * ddY_D2D2 P q * Y P q - 1 * ddZ_D2D2 P q * Z P q + 2 *
    (dZ_D2 P q * Z P q * ((-1) * P.a ^ 2 - 1 * (X P q) ^ 2 - 1 * (Y P q) ^ 2 - 1 * (Z P q) ^ 2) + dX_D2 P q * X P q * (1 * P.a ^ 2 - 1 * (X P q) ^ 2 - 1 * (Y P q) ^ 2 - 1
    * (Z P q) ^ 2) + dY_D2 P q * Y P q * (1 * P.a ^ 2 - 1 * (X P q) ^ 2 - 1 * (Y P q) ^ 2 - 1 * (Z P q) ^ 2)) ^ 2 / (Tq P q) ^ 3 - (1 / 2) * (4 * (dZ_D2 P q) ^ 2 * P.a ^
    2 + 4 * ddZ_D2D2 P q * P.a ^ 2 * Z P q + 4 * (1 * dX_D2 P q * X P q + 1 * dY_D2 P q * Y P q + 1 * dZ_D2 P q * Z P q) ^ 2 + (2 * (dX_D2 P q) ^ 2 + 2 * (dY_D2 P q) ^ 2
    + 2 * (dZ_D2 P q) ^ 2 + 2 * ddX_D2D2 P q * X P q + 2 * ddY_D2D2 P q * Y P q + 2 * ddZ_D2D2 P q * Z P q) * (-P.a ^ 2 + (X P q) ^ 2 + (Y P q) ^ 2 + (Z P q) ^ 2)) / Tq P
    q) * (1 * dX_D0 P q * X P q + 1 * dY_D0 P q * Y P q + 1 * dZ_D0 P q * Z P q + (1 / 2) * (4 * dZ_D0 P q * P.a ^ 2 * Z P q + 2 * (dX_D0 P q * X P q + dY_D0 P q * Y P q
    + dZ_D0 P q * Z P q) * ((-1) * P.a ^ 2 + (X P q) ^ 2 + (Y P q) ^ 2 + (Z P q) ^ 2)) / Tq P q) / (Sq P q) ^ 3 + P.lit * (1 * dX_D0 P q * ddX_D2D2 P q + 1 * dY_D0 P q *
    ddY_D2D2 P q + 1 * dZ_D0 P q * ddZ_D2D2 P q + 2 * dX_D2 P q * ddX_D0D2 P q + 2 * dY_D2 P q * ddY_D0D2 P q + 2 * dZ_D2 P q * ddZ_D0D2 P q + 1 * dddX_D0D2D2 P q * X P q
    + 1 * dddY_D0D2D2 P q * Y P q + 1 * dddZ_D0D2D2 P q * Z P q + (1 / 2) * (4 * dZ_D0 P q * ddZ_D2D2 P q * P.a ^ 2 + 8 * dZ_D2 P q * ddZ_D0D2 P q * P.a ^ 2 + 4 *
    dddZ_D0D2D2 P q * P.a ^ 2 * Z P q + 4 * (1 * dX_D0 P q * X P q + 1 * dY_D0 P q * Y P q + 1 * dZ_D0 P q * Z P q) * ((dX_D2 P q) ^ 2 + (dY_D2 P q) ^ 2 + (dZ_D2 P q) ^ 2
    + ddX_D2D2 P q * X P q + ddY_D2D2 P q * Y P q + ddZ_D2D2 P q * Z P q) + 8 * (dX_D2 P q * X P q + dY_D2 P q * Y P q + dZ_D2 P q * Z P q) * (1 * dX_D0 P q * dX_D2 P q +
    1 * dY_D0 P q * dY_D2 P q + 1 * dZ_D0 P q * dZ_D2 P q + 1 * ddX_D0D2 P q * X P q + 1 * ddY_D0D2 P q * Y P q + 1 * ddZ_D0D2 P q * Z P q) + (2 * dX_D0 P q * ddX_D2D2 P
    q + 2 * dY_D0 P q * ddY_D2D2 P q + 2 * dZ_D0 P q * ddZ_D2D2 P q + 4 * dX_D2 P q * ddX_D0D2 P q + 4 * dY_D2 P q * ddY_D0D2 P q + 4 * dZ_D2 P q * ddZ_D0D2 P q + 2 *
    dddX_D0D2D2 P q * X P q + 2 * dddY_D0D2D2 P q * Y P q + 2 * dddZ_D0D2D2 P q * Z P q) * (-P.a ^ 2 + (X P q) ^ 2 + (Y P q) ^ 2 + (Z P q) ^ 2)) / Tq P q + (1 / 2) *
    ((-4) * (dZ_D2 P q) ^ 2 * P.a ^ 2 - 4 * ddZ_D2D2 P q * P.a ^ 2 * Z P q - 4 * (dX_D2 P q * X P q + dY_D2 P q * Y P q + dZ_D2 P q * Z P q) ^ 2 + ((-2) * (dX_D2 P q) ^ 2
    - 2 * (dY_D2 P q) ^ 2 - 2 * (dZ_D2 P q) ^ 2 - 2 * ddX_D2D2 P q * X P q - 2 * ddY_D2D2 P q * Y P q - 2 * ddZ_D2D2 P q * Z P q) * (-P.a ^ 2 + (X P q) ^ 2 + (Y P q) ^ 2
    + (Z P q) ^ 2)) * (4 * dZ_D0 P q * P.a ^ 2 * Z P q + 2 * (dX_D0 P q * X P q + dY_D0 P q * Y P q + dZ_D0 P q * Z P q) * ((-1) * P.a ^ 2 + (X P q) ^ 2 + (Y P q) ^ 2 +
    (Z P q) ^ 2)) / (Tq P q) ^ 3 + 1 * (4 * dZ_D0 P q * dZ_D2 P q * P.a ^ 2 + 4 * ddZ_D0D2 P q * P.a ^ 2 * Z P q + 4 * (1 * dX_D0 P q * X P q + 1 * dY_D0 P q * Y P q + 1
    * dZ_D0 P q * Z P q) * (dX_D2 P q * X P q + dY_D2 P q * Y P q + dZ_D2 P q * Z P q) + (2 * dX_D0 P q * dX_D2 P q + 2 * dY_D0 P q * dY_D2 P q + 2 * dZ_D0 P q * dZ_D2 P
    q + 2 * ddX_D0D2 P q * X P q + 2 * ddY_D0D2 P q * Y P q + 2 * ddZ_D0D2 P q * Z P q) * (-P.a ^ 2 + (X P q) ^ 2 + (Y P q) ^ 2 + (Z P q) ^ 2)) * ((-4) * dZ_D2 P q * P.a
    ^ 2 * Z P q - 2 * (dX_D2 P q * X P q + dY_D2 P q * Y P q + dZ_D2 P q * Z P q) * ((-1) * P.a ^ 2 + (X P q) ^ 2 + (Y P q) ^ 2 + (Z P q) ^ 2)) / (Tq P q) ^ 3 + (1 / 2) *
    (4 * dZ_D0 P q * P.a ^ 2 * Z P q + 2 * (dX_D0 P q * X P q + dY_D0 P q * Y P q + dZ_D0 P q * Z P q) * ((-1) * P.a ^ 2 + (X P q) ^ 2 + (Y P q) ^ 2 + (Z P q) ^ 2)) *
    ((-12) * dZ_D2 P q * P.a ^ 2 * Z P q - 6 * (dX_D2 P q * X P q + dY_D2 P q * Y P q + dZ_D2 P q * Z P q) * ((-1) * P.a ^ 2 + (X P q) ^ 2 + (Y P q) ^ 2 + (Z P q) ^ 2)) *
    ((-4) * dZ_D2 P q * P.a ^ 2 * Z P q - 2 * (dX_D2 P q * X P q + dY_D2 P q * Y P q + dZ_D2 P q * Z P q) * ((-1) * P.a ^ 2 + (X P q) ^ 2 + (Y P q) ^ 2 + (Z P q) ^ 2)) /
    (Tq P q) ^ 5) / Sq P q + (2 * P.lit) * (1 * dX_D0 P q * dX_D2 P q + 1 * dY_D0 P q * dY_D2 P q + 1 * dZ_D0 P q * dZ_D2 P q + 1 * ddX_D0D2 P q * X P q + 1 * ddY_D0D2 P
    q * Y P q + 1 * ddZ_D0D2 P q * Z P q + (1 / 2) * (4 * dZ_D0 P q * dZ_D2 P q * P.a ^ 2 + 4 * ddZ_D0D2 P q * P.a ^ 2 * Z P q + 4 * (1 * dX_D0 P q * X P q + 1 * dY_D0 P
    q * Y P q + 1 * dZ_D0 P q * Z P q) * (dX_D2 P q * X P q + dY_D2 P q * Y P q + dZ_D2 P q * Z P q) + (2 * dX_D0 P q * dX_D2 P q + 2 * dY_D0 P q * dY_D2 P q + 2 * dZ_D0
    P q * dZ_D2 P q + 2 * ddX_D0D2 P q * X P q + 2 * ddY_D0D2 P q * Y P q + 2 * ddZ_D0D2 P q * Z P q) * (-P.a ^ 2 + (X P q) ^ 2 + (Y P q) ^ 2 + (Z P q) ^ 2)) / Tq P q +
    (1 / 2) * (4 * dZ_D0 P q * P.a ^ 2 * Z P q + 2 * (dX_D0 P q * X P q + dY_D0 P q * Y P q + dZ_D0 P q * Z P q) * ((-1) * P.a ^ 2 + (X P q) ^ 2 + (Y P q) ^ 2 + (Z P q) ^
    2)) * ((-4) * dZ_D2 P q * P.a ^ 2 * Z P q - 2 * (dX_D2 P q * X P q + dY_D2 P q * Y P q + dZ_D2 P q * Z P q) * ((-1) * P.a ^ 2 + (X P q) ^ 2 + (Y P q) ^ 2 + (Z P q) ^
    2)) / (Tq P q) ^ 3) * ((-1) * dX_D2 P q * X P q - 1 * dY_D2 P q * Y P q - 1 * dZ_D2 P q * Z P q - (1 / 2) * (4 * dZ_D2 P q * P.a ^ 2 * Z P q + 2 * (dX_D2 P q * X P q
    + dY_D2 P q * Y P q + dZ_D2 P q * Z P q) * ((-1) * P.a ^ 2 + (X P q) ^ 2 + (Y P q) ^ 2 + (Z P q) ^ 2)) / Tq P q) / (Sq P q) ^ 3 + P.lit * (1 * dX_D0 P q * X P q + 1 *
    dY_D0 P q * Y P q + 1 * dZ_D0 P q * Z P q + (1 / 2) * (4 * dZ_D0 P q * P.a ^ 2 * Z P q + 2 * (dX_D0 P q * X P q + dY_D0 P q * Y P q + dZ_D0 P q * Z P q) * ((-1) * P.a
    ^ 2 + (X P q) ^ 2 + (Y P q) ^ 2 + (Z P q) ^ 2)) / Tq P q) * ((-3) * dX_D2 P q * X P q - 3 * dY_D2 P q * Y P q - 3 * dZ_D2 P q * Z P q - (3 / 2) * (4 * dZ_D2 P q * P.a
    ^ 2 * Z P q + 2 * (dX_D2 P q * X P q + dY_D2 P q * Y P q + dZ_D2 P q * Z P q) * ((-1) * P.a ^ 2 + (X P q) ^ 2 + (Y P q) ^ 2 + (Z P q) ^ 2)) / Tq P q) * ((-1) * dX_D2
    P q * X P q - 1 * dY_D2 P q * Y P q - 1 * dZ_D2 P q * Z P q - (1 / 2) * (4 * dZ_D2 P q * P.a ^ 2 * Z P q + 2 * (dX_D2 P q * X P q + dY_D2 P q * Y P q + dZ_D2 P q * Z
    P q) * ((-1) * P.a ^ 2 + (X P q) ^ 2 + (Y P q) ^ 2 + (Z P q) ^ 2)) / Tq P q) / (Sq P q) ^ 5

/-- Free_Data/fd_KerrSchild_R_X_Y_Z.c:5357-5625 `fd_ks_dddR_D1D1D0` -/
noncomputable def dddR_D1D1D0 (P : Par) (q : Pt) : ℝ :=
  P.lit * (1 * (dX_D1 P q) ^ 2 + 1 * (dY_D1 P q) ^ 2 + 1 * (dZ_D1 P q) ^ 2 + 1 * ddX_D1D1 P q * X P q + 1 * ddY_D1D1 P q * Y P q + 1 * ddZ_D1D1 P q * Z P q - 2 * (dZ_D1 P
    q * Z P q * ((-1) * P.a ^ 2 - 1 * (X P q) ^ 2 - 1 * (Y P q) ^ 2 - 1 * (Z P q) ^ 2) + dX_D1 P q * X P q * (1 * P.a ^ 2 - 1 * (X P q) ^ 2 - 1 * (Y P q) ^ 2 - 1 * (Z P
    q) ^ 2) + dY_D1 P q * Y P q * (1 * P.a ^ 2 - 1 * (X P q) ^ 2 - 1 * (Y P q) ^ 2 - 1 * (Z P q) ^ 2)) ^ 2 / (Tq P q) ^ 3 + (1 / 2) * (4 * (dZ_D1 P q) ^ 2 * P.a ^ 2 + 4 *
    ddZ_D1D1 P q * P.a ^ 2 * Z P q + 4 * (1 * dX_D1 P q * X P q + 1 * dY_D1 P q * Y P q + 1 * dZ_D1 P q * Z P q) ^ 2 + (2 * (dX_D1 P q) ^ 2 + 2 * (dY_D1 P q) ^ 2 + 2 *
    (dZ_D1 P q) ^ 2 + 2 * ddX_D1D1 P q * X P q + 2 * ddY_D1D1 P q * Y P q + 2 * ddZ_D1D1 P q * Z P q) * (-P.a ^ 2 + (X P q) ^ 2 + (Y P q) ^ 2 + (Z P q) ^ 2)) / Tq P q) *
    ((-1) * dX_D0 P q * X P q - 1 * dY_D0 P q * Y P q - 1 * dZ_D0 P q * Z P q - (1 / 2) * (4 * dZ_D0 P q * P.a ^ 2 * Z P q + 2 * (dX_D0 P q * X P q + dY_D0 P q * Y P q +
    dZ_D0 P q * Z P q) * ((-1) * P.a ^ 2 + (X P q) ^ 2 + (Y P q) ^ 2 + (Z P q) ^ 2)) / Tq P q) / (Sq P q) ^ 3 + P.lit * ((-3) * dX_D0 P q * X P q - 3 * dY_D0 P q * Y P q
    - 3 * dZ_D0 P q * Z P q - (3 / 2) * (4 * dZ_D0 P q * P.a ^ 2 * Z P q + 2 * (dX_D0 P q * X P q + dY_D0 P q * Y P q + dZ_D0 P q * Z P q) * ((-1) * P.a ^ 2 + (X P q) ^ 2
    + (Y P q) ^ 2 + (Z P q) ^ 2)) / Tq P q) * ((-1) * dX_D1 P q * X P q - 1 * dY_D1 P q * Y P q - 1 * dZ_D1 P q * Z P q - (1 / 2) * (4 * dZ_D1 P q * P.a ^ 2 * Z P q + 2 *
    (dX_D1 P q * X P q + dY_D1 P q * Y P q + dZ_D1 P q * Z P q) * ((-1) * P.a ^ 2 + (X P q) ^ 2 + (Y P q) ^ 2 + (Z P q) ^ 2)) / Tq P q) * (1 * dX_D1 P q * X P q + 1 *
    dY_D1 P q * Y P q + 1 * dZ_D1 P q * Z P q + (1 / 2) * (4 * dZ_D1 P q * P.a ^ 2 * Z P q + 2 * (dX_D1 P q * X P q + dY_D1 P q * Y P q + dZ_D1 P q * Z P q) * ((-1) * P.a
    ^ 2 + (X P q) ^ 2 + (Y P q) ^ 2 + (Z P q) ^ 2)) / Tq P q) / (Sq P q) ^ 5 + P.lit * (1 * dX_D1 P q * X P q + 1 * dY_D1 P q * Y P q + 1 * dZ_D1 P q * Z P q + (1 / 2) *
    (4 * dZ_D1 P q * P.a ^ 2 * Z P q + 2 * (dX_D1 P q * X P q + dY_D1 P q * Y P q + dZ_D1 P q * Z P q) * ((-1) * P.a ^ 2 + (X P q) ^ 2 + (Y P q) ^ 2 + (Z P q) ^ 2)) / Tq
    P q) * ((-1) * dX_D0 P q * dX_D1 P q - 1 * dY_D0 P q * dY_D1 P q - 1 * dZ_D0 P q * dZ_D1 P q - 1 * ddX_D0D1 P q * X P q - 1 * ddY_D0D1 P q * Y P q - 1 * ddZ_D0D1 P q
    * Z P q - (1 / 2) * (4 * dZ_D0 P q * dZ_D1 P q * P.a ^ 2 + 4 * ddZ_D0D1 P q * P.a ^ 2 * Z P q + 4 * (dX_D0 P q * X P q + dY_D0 P q * Y P q + dZ_D0 P q * Z P q) * (1 *
    dX_D1 P q * X P q + 1 * dY_D1 P q * Y P q + 1 * dZ_D1 P q * Z P q) + (2 * dX_D0 P q * dX_D1 P q + 2 * dY_D0 P q * dY_D1 P q + 2 * dZ_D0 P q * dZ_D1 P q + 2 * ddX_D0D1
    P q * X P q + 2 * ddY_D0D1 P q * Y P q + 2 * ddZ_D0D1 P q * Z P q) * (-P.a ^ 2 + (X P q) ^ 2 + (Y P q) ^ 2 + (Z P q) ^ 2)) / Tq P q - (1 / 2) * ((-4) * dZ_D0 P q *
    P.a ^ 2 * Z P q - 2 * (dX_D0 P q * X P q + dY_D0 P q * Y P q + dZ_D0 P q * Z P q) * ((-1) * P.a ^ 2 + (X P q) ^ 2 + (Y P q) ^ 2 + (Z P q) ^ 2)) * (4 * dZ_D1 P q * P.a
    ^ 2 * Z P q + 2 * (dX_D1 P q * X P q + dY_D1 P q * Y P q + dZ_D1 P q * Z P q) * ((-1) * P.a ^ 2 + (X P q) ^ 2 + (Y P q) ^ 2 + (Z P q) ^ 2)) / (Tq P q) ^ 3) / (Sq P q)
    ^ 3 + P.lit * ((-1) * dX_D1 P q * X P q - 1 * dY_D1 P q * Y P q - 1 * dZ_D1 P q * Z P q - (1 / 2) * (4 * dZ_D1 P q * P.a ^ 2 * Z P q + 2 * (dX_D1 P q * X P q + dY_D1
    P q * Y P q + dZ_D1 P q * Z P q) * ((-1) * P.a ^ 2 + (X P q) ^ 2 + (Y P q) ^ 2 + (Z P q) ^ 2)) / Tq P q) * (1 * dX_D0 P q * dX_D1 P q + 1 * dY_D0 P q * dY_D1 P q + 1
    * dZ_D0 P q * dZ_D1 P q + 1 * ddX_D0D1 P q * X P q + 1 * ddY_D0D1 P q * Y P q + 1 * ddZ_D0D1 P q * Z P q + (1 / 2) * (4 * dZ_D0 P q * dZ_D1 P q * P.a ^ 2 + 4 *
    ddZ_D0D1 P q * P.a ^ 2 * Z P q + 4 * (dX_D0 P q * X P q + dY_D0 P q * Y P q + dZ_D0 P q * Z P q) * (1 * dX_D1 P q * X P q + 1 * dY_D1 P q * Y P q + 1 * dZ_D1 P q * Z
    P q) + (2 * dX_D0 P q * dX_D1 P q + 2 * dY_D0 P q * dY_D1 P q + 2 * dZ_D0 P q * dZ_D1 P q + 2 * ddX_D0D1 P q * X P q + 2 * ddY_D0D1 P q * Y P q + 2 * ddZ_D0D1 P q * Z
    P q) * (-P.a ^ 2 + (X P q) ^ 2 + (Y P q) ^ 2 + (Z P q) ^ 2)) / Tq P q + (1 / 2) * ((-4) * dZ_D0 P q * P.a ^ 2 * Z P q - 2 * (dX_D0 P q * X P q + dY_D0 P q * Y P q +
    dZ_D0 P q * Z P q) * ((-1) * P.a ^ 2 + (X P q) ^ 2 + (Y P q) ^ 2 + (Z P q) ^ 2)) * (4 * dZ_D1 P q * P.a ^ 2 * Z P q + 2 * (dX_D1 P q * X P q + dY_D1 P q * Y P q +
    dZ_D1 P q * Z P q) * ((-1) * P.a ^ 2 + (X P q) ^ 2 + (Y P q) ^ 2 + (Z P q) ^ 2)) / (Tq P q) ^ 3) / (Sq P q) ^ 3 + P.lit * (1 * dX_D0 P q * ddX_D1D1 P q + 1 * dY_D0 P
    q * ddY_D1D1 P q + 1 * dZ_D0 P q * ddZ_D1D1 P q + 2 * dX_D1 P q * ddX_D0D1 P q + 2 * dY_D1 P q * ddY_D0D1 P q + 2 * dZ_D1 P q * ddZ_D0D1 P q + 1 * dddX_D0D1D1 P q * X
    P q + 1 * dddY_D0D1D1 P q * Y P q + 1 * dddZ_D0D1D1 P q * Z P q + (1 / 2) * (4 * dZ_D0 P q * ddZ_D1D1 P q * P.a ^ 2 + 8 * dZ_D1 P q * ddZ_D0D1 P q * P.a ^ 2 + 4 *
    dddZ_D0D1D1 P q * P.a ^ 2 * Z P q + 4 * (dX_D0 P q * X P q + dY_D0 P q * Y P q + dZ_D0 P q * Z P q) * (1 * (dX_D1 P q) ^ 2 + 1 * (dY_D1 P q) ^ 2 + 1 * (dZ_D1 P q) ^ 2
    + 1 * ddX_D1D1 P q * X P q + 1 * ddY_D1D1 P q * Y P q + 1 * ddZ_D1D1 P q * Z P q) + 4 * (1 * dX_D1 P q * X P q + 1 * dY_D1 P q * Y P q + 1 * dZ_D1 P q * Z P q) *
    (dX_D0 P q * dX_D1 P q + dY_D0 P q * dY_D1 P q + dZ_D0 P q * dZ_D1 P q + ddX_D0D1 P q * X P q + ddY_D0D1 P q * Y P q + ddZ_D0D1 P q * Z P q) + 4 * (dX_D1 P q * X P q
    + dY_D1 P q * Y P q + dZ_D1 P q * Z P q) * (1 * dX_D0 P q * dX_D1 P q + 1 * dY_D0 P q * dY_D1 P q + 1 * dZ_D0 P q * dZ_D1 P q + 1 * ddX_D0D1 P q * X P q + 1 *
    ddY_D0D1 P q * Y P q + 1 * ddZ_D0D1 P q * Z P q) + (2 * dX_D0 P q * ddX_D1D1 P q + 2 * dY_D0 P q * ddY_D1D1 P q + 2 * dZ_D0 P q * ddZ_D1D1 P q + 4 * dX_D1 P q *
    ddX_D0D1 P q + 4 * dY_D1 P q * ddY_D0D1 P q + 4 * dZ_D1 P q * ddZ_D0D1 P q + 2 * dddX_D0D1D1 P q * X P q + 2 * dddY_D0D1D1 P q * Y P q + 2 * dddZ_D0D1D1 P q * Z P q)
    * (-P.a ^ 2 + (X P q) ^ 2 + (Y P q) ^ 2 + (Z P q) ^ 2)) / Tq P q + (1 / 2) * (4 * (dZ_D1 P q) ^ 2 * P.a ^ 2 + 4 * ddZ_D1D1 P q * P.a ^ 2 * Z P q + 4 * (1 * dX_D1 P q
    * X P q + 1 * dY_D1 P q * Y P q + 1 * dZ_D1 P q * Z P q) ^ 2 + (2 * (dX_D1 P q) ^ 2 + 2 * (dY_D1 P q) ^ 2 + 2 * (dZ_D1 P q) ^ 2 + 2 * ddX_D1D1 P q * X P q + 2 *
    ddY_D1D1 P q * Y P q + 2 * ddZ_D1D1 P q * Z P q) * (-P.a ^ 2 + (X P q) ^ 2 + (Y P q) ^ 2 + (Z P q) ^ 2)) * ((-4) * dZ_D0 P q * P.a ^ 2 * Z P q - 2 * (dX_D0 P q * X P
    q + dY_D0 P q * Y P q + dZ_D0 P q * Z P q) * ((-1) * P.a ^ 2 + (X P q) ^ 2 + (Y P q) ^ 2 + (Z P q) ^ 2)) / (Tq P q) ^ 3 + (1 / 2) * (4 * dZ_D0 P q * dZ_D1 P q * P.a ^
    2 + 4 * ddZ_D0D1 P q * P.a ^ 2 * Z P q + 4 * (dX_D0 P q * X P q + dY_D0 P q * Y P q + dZ_D0 P q * Z P q) * (1 * dX_D1 P q * X P q + 1 * dY_D1 P q * Y P q + 1 * dZ_D1
    P q * Z P q) + (2 * dX_D0 P q * dX_D1 P q + 2 * dY_D0 P q * dY_D1 P q + 2 * dZ_D0 P q * dZ_D1 P q + 2 * ddX_D0D1 P q * X P q + 2 * ddY_D0D1 P q * Y P q + 2 * ddZ_D0D1
    P q * Z P q) * (-P.a ^ 2 + (X P q) ^ 2 + (Y P q) ^ 2 + (Z P q) ^ 2)) * ((-4) * dZ_D1 P q * P.a ^ 2 * Z P q - 2 * (dX_D1 P q * X P q + dY_D1 P q * Y P q + dZ_D1 P q *
    Z P q) * ((-1) * P.a ^ 2 + (X P q) ^ 2 + (Y P q) ^ 2 + (Z P q) ^ 2)) / (Tq P q) ^ 3 + (1 / 2) * ((-4) * dZ_D0 P q * dZ_D1 P q * P.a ^ 2 - 4 * ddZ_D0D1 P q * P.a ^ 2 *
    Z P q - 4 * (dX_D0 P q * X P q + dY_D0 P q * Y P q + dZ_D0 P q * Z P q) * (1 * dX_D1 P q * X P q + 1 * dY_D1 P q * Y P q + 1 * dZ_D1 P q * Z P q) + ((-2) * dX_D0 P q
    * dX_D1 P q - 2 * dY_D0 P q * dY_D1 P q - 2 * dZ_D0 P q * dZ_D1 P q - 2 * ddX_D0D1 P q * X P q - 2 * ddY_D0D1 P q * Y P q - 2 * ddZ_D0D1 P q * Z P q) * (-P.a ^ 2 + (X
    P q) ^ 2 + (Y P q) ^ 2 + (Z P q) ^ 2)) * (4 * dZ_D1 P q * P.a ^ 2 * Z P q + 2 * (dX_D1 P q * X P q + dY_D1 P q * Y P q + dZ_D1 P q * Z P q) * ((-1) * P.a ^ 2 + (X P
    q) ^ 2 + (Y P q) ^ 2 + (Z P q) ^ 2)) / (Tq P q) ^ 3 + (1 / 2) * ((-12) * dZ_D0 P q * P.a ^ 2 * Z P q - 6 * (dX_D0 P q * X P q + dY_D0 P q * Y P q + dZ_D0 P q * Z P q)
    * ((-1) * P.a ^ 2 + (X P q) ^ 2 + (Y P q) ^ 2 + (Z P q) ^ 2)) * ((-4) * dZ_D1 P q * P.a ^ 2 * Z P q - 2 * (dX_D1 P q * X P q + dY_D1 P q * Y P q + dZ_D1 P q * Z P q)
    * ((-1) * P.a ^ 2 + (X P q) ^ 2 + (Y P q) ^ 2 + (Z P q) ^ 2)) * (4 * dZ_D1 P q * P.a ^ 2 * Z P q + 2 * (dX_D1 P q * X P q + dY_D1 P q * Y P q + dZ_D1 P q * Z P q) *
    ((-1) * P.a ^ 2 + (X P q) ^ 2 + (Y P q) ^ 2 + (Z P q) ^ 2)) / (Tq P q) ^ 5) / Sq P q

/-- Free_Data/fd_KerrSchild_R_X_Y_Z.c:5173-5356 `fd_ks_dddR_D1D1D1` -/
noncomputable def dddR_D1D1D1 (P : Par) (q : Pt) : ℝ :=
  (3 * P.lit) * ((-1) * dX_D1 P q * P.a ^ 2 * X P q + 1 * dX_D1 P q * (X P q) ^ 3 - 1 * dY_D1 P q * P.a ^ 2 * Y P q + 1 * dY_D1 P q * (X P q) ^ 2 * Y P q + 1 * dX_D1 P q
    * X P q * (Y P q) ^ 2 + 1 * dY_D1 P q * (Y P q) ^ 3 + 1 * dZ_D1 P q * P.a ^ 2 * Z P q + 1 * dZ_D1 P q * (X P q) ^ 2 * Z P q + 1 * dZ_D1 P q * (Y P q) ^ 2 * Z P q + 1
    * dX_D1 P q * X P q * (Z P q) ^ 2 + 1 * dY_D1 P q * Y P q * (Z P q) ^ 2 + 1 * dZ_D1 P q * (Z P q) ^ 3 + 1 * dX_D1 P q * X P q * Tq P q + 1 * dY_D1 P q * Y P q * Tq P
    q + 1 * dZ_D1 P q * Z P q * Tq P q) ^ 3 / ((Tq P q) ^ 3 * (Sq P q) ^ 5) + P.lit * (3 * dX_D1 P q * ddX_D1D1 P q + 3 * dY_D1 P q * ddY_D1D1 P q + 3 * dZ_D1 P q *
    ddZ_D1D1 P q + 1 * dddX_D1D1D1 P q * X P q + 1 * dddY_D1D1D1 P q * Y P q + 1 * dddZ_D1D1D1 P q * Z P q - 12 * (dZ_D1 P q * Z P q * ((-1) * P.a ^ 2 - 1 * (X P q) ^ 2 -
    1 * (Y P q) ^ 2 - 1 * (Z P q) ^ 2) + dX_D1 P q * X P q * (1 * P.a ^ 2 - 1 * (X P q) ^ 2 - 1 * (Y P q) ^ 2 - 1 * (Z P q) ^ 2) + dY_D1 P q * Y P q * (1 * P.a ^ 2 - 1 *
    (X P q) ^ 2 - 1 * (Y P q) ^ 2 - 1 * (Z P q) ^ 2)) ^ 3 / (Tq P q) ^ 5 + (1 / 2) * (12 * dZ_D1 P q * ddZ_D1D1 P q * P.a ^ 2 + 4 * dddZ_D1D1D1 P q * P.a ^ 2 * Z P q + 4
    * (1 * dX_D1 P q * X P q + 1 * dY_D1 P q * Y P q + 1 * dZ_D1 P q * Z P q) * ((dX_D1 P q) ^ 2 + (dY_D1 P q) ^ 2 + (dZ_D1 P q) ^ 2 + ddX_D1D1 P q * X P q + ddY_D1D1 P q
    * Y P q + ddZ_D1D1 P q * Z P q) + 8 * (dX_D1 P q * X P q + dY_D1 P q * Y P q + dZ_D1 P q * Z P q) * (1 * (dX_D1 P q) ^ 2 + 1 * (dY_D1 P q) ^ 2 + 1 * (dZ_D1 P q) ^ 2 +
    1 * ddX_D1D1 P q * X P q + 1 * ddY_D1D1 P q * Y P q + 1 * ddZ_D1D1 P q * Z P q) + (6 * dX_D1 P q * ddX_D1D1 P q + 6 * dY_D1 P q * ddY_D1D1 P q + 6 * dZ_D1 P q *
    ddZ_D1D1 P q + 2 * dddX_D1D1D1 P q * X P q + 2 * dddY_D1D1D1 P q * Y P q + 2 * dddZ_D1D1D1 P q * Z P q) * (-P.a ^ 2 + (X P q) ^ 2 + (Y P q) ^ 2 + (Z P q) ^ 2)) / Tq P
    q + 1 * (4 * (dZ_D1 P q) ^ 2 * P.a ^ 2 + 4 * ddZ_D1D1 P q * P.a ^ 2 * Z P q + 4 * (1 * dX_D1 P q * X P q + 1 * dY_D1 P q * Y P q + 1 * dZ_D1 P q * Z P q) ^ 2 + (2 *
    (dX_D1 P q) ^ 2 + 2 * (dY_D1 P q) ^ 2 + 2 * (dZ_D1 P q) ^ 2 + 2 * ddX_D1D1 P q * X P q + 2 * ddY_D1D1 P q * Y P q + 2 * ddZ_D1D1 P q * Z P q) * (-P.a ^ 2 + (X P q) ^
    2 + (Y P q) ^ 2 + (Z P q) ^ 2)) * ((-4) * dZ_D1 P q * P.a ^ 2 * Z P q - 2 * (dX_D1 P q * X P q + dY_D1 P q * Y P q + dZ_D1 P q * Z P q) * ((-1) * P.a ^ 2 + (X P q) ^
    2 + (Y P q) ^ 2 + (Z P q) ^ 2)) / (Tq P q) ^ 3 + (1 / 2) * ((-4) * (dZ_D1 P q) ^ 2 * P.a ^ 2 - 4 * ddZ_D1D1 P q * P.a ^ 2 * Z P q - 4 * (dX_D1 P q * X P q + dY_D1 P q
    * Y P q + dZ_D1 P q * Z P q) ^ 2 + ((-2) * (dX_D1 P q) ^ 2 - 2 * (dY_D1 P q) ^ 2 - 2 * (dZ_D1 P q) ^ 2 - 2 * ddX_D1D1 P q * X P q - 2 * ddY_D1D1 P q * Y P q - 2 *
    ddZ_D1D1 P q * Z P q) * (-P.a ^ 2 + (X P q) ^ 2 + (Y P q) ^ 2 + (Z P q) ^ 2)) * (4 * dZ_D1 P q * P.a ^ 2 * Z P q + 2 * (dX_D1 P q * X P q + dY_D1 P q * Y P q + dZ_D1
    P q * Z P q) * ((-1) * P.a ^ 2 + (X P q) ^ 2 + (Y P q) ^ 2 + (Z P q) ^ 2)) / (Tq P q) ^ 3) / Sq P q + (2 * P.lit) * (1 * (dX_D1 P q) ^ 2 + 1 * (dY_D1 P q) ^ 2 + 1 *
    (dZ_D1 P q) ^ 2 + 1 * ddX_D1D1 P q * X P q + 1 * ddY_D1D1 P q * Y P q + 1 * ddZ_D1D1 P q * Z P q - 2 * (dZ_D1 P q * Z P q * ((-1) * P.a ^ 2 - 1 * (X P q) ^ 2 - 1 * (Y
    P q) ^ 2 - 1 * (Z P q) ^ 2) + dX_D1 P q * X P q * (1 * P.a ^ 2 - 1 * (X P q) ^ 2 - 1 * (Y P q) ^ 2 - 1 * (Z P q) ^ 2) + dY_D1 P q * Y P q * (1 * P.a ^ 2 - 1 * (X P q)
    ^ 2 - 1 * (Y P q) ^ 2 - 1 * (Z P q) ^ 2)) ^ 2 / (Tq P q) ^ 3 + (1 / 2) * (4 * (dZ_D1 P q) ^ 2 * P.a ^ 2 + 4 * ddZ_D1D1 P q * P.a ^ 2 * Z P q + 4 * (1 * dX_D1 P q * X
    P q + 1 * dY_D1 P q * Y P q + 1 * dZ_D1 P q * Z P q) ^ 2 + (2 * (dX_D1 P q) ^ 2 + 2 * (dY_D1 P q) ^ 2 + 2 * (dZ_D1 P q) ^ 2 + 2 * ddX_D1D1 P q * X P q + 2 * ddY_D1D1
    P q * Y P q + 2 * ddZ_D1D1 P q * Z P q) * (-P.a ^ 2 + (X P q) ^ 2 + (Y P q) ^ 2 + (Z P q) ^ 2)) / Tq P q) * ((-1) * dX_D1 P q * X P q - 1 * dY_D1 P q * Y P q - 1 *
    dZ_D1 P q * Z P q - (1 / 2) * (4 * dZ_D1 P q * P.a ^ 2 * Z P q + 2 * (dX_D1 P q * X P q + dY_D1 P q * Y P q + dZ_D1 P q * Z P q) * ((-1) * P.a ^ 2 + (X P q) ^ 2 + (Y
    P q) ^ 2 + (Z P q) ^ 2)) / Tq P q) / (Sq P q) ^ 3 + P.lit * ((-1) * (dX_D1 P q) ^ 2 - 1 * (dY_D1 P q) ^ 2 - 1 * (dZ_D1 P q) ^ 2 - 1 * ddX_D1D1 P q * X P q - 1 *
    ddY_D1D1 P q * Y P q - 1 * ddZ_D1D1 P q * Z P q + 2 * (dZ_D1 P q * Z P q * ((-1) * P.a ^ 2 - 1 * (X P q) ^ 2 - 1 * (Y P q) ^ 2 - 1 * (Z P q) ^ 2) + dX_D1 P q * X P q
    * (1 * P.a ^ 2 - 1 * (X P q) ^ 2 - 1 * (Y P q) ^ 2 - 1 * (Z P q) ^ 2) + dY_D1 P q * Y P q * (1 * P.a ^ 2 - 1 * (X P q) ^ 2 - 1 * (Y P q) ^ 2 - 1 * (Z P q) ^ 2)) ^ 2 /
    (Tq P q) ^ 3 - (1 / 2) * (4 * (dZ_D1 P q) ^ 2 * P.a ^ 2 + 4 * ddZ_D1D1 P q * P.a ^ 2 * Z P q + 4 * (1 * dX_D1 P q * X P q + 1 * dY_D1 P q * Y P q + 1 * dZ_D1 P q * Z
    P q) ^ 2 + (2 * (dX_D1 P q) ^ 2 + 2 * (dY_D1 P q) ^ 2 + 2 * (dZ_D1 P q) ^ 2 + 2 * ddX_D1D1 P q * X P q + 2 * ddY_D1D1 P q * Y P q + 2 * ddZ_D1D1 P q * Z P q) * (-P.a
    ^ 2 + (X P q) ^ 2 + (Y P q) ^ 2 + (Z P q) ^ 2)) / Tq P q) * (1 * dX_D1 P q * X P q + 1 * dY_D1 P q * Y P q + 1 * dZ_D1 P q * Z P q + (1 / 2) * (4 * dZ_D1 P q * P.a ^
    2 * Z P q + 2 * (dX_D1 P q * X P q + dY_D1 P q * Y P q + dZ_D1 P q * Z P q) * ((-1) * P.a ^ 2 + (X P q) ^ 2 + (Y P q) ^ 2 + (Z P q) ^ 2)) / Tq P q) / (Sq P q) ^ 3

/-- Free_Data/fd_KerrSchild_R_X_Y_Z.c:2309-2577 `fd_ks_dddR_D1D1D2` -/
noncomputable def dddR_D1D1D2 (P : Par) (q : Pt) : ℝ :=
  P.lit * (1 * dX_D2 P q * ddX_D1D1 P q + 1 * dY_D2 P q * ddY_D1D1 P q + 1 * dZ_D2 P q * ddZ_D1D1 P q + 2 * dX_D1 P q * ddX_D1D2 P q + 2 * dY_D1 P q * ddY_D1D2 P q + 2 *
    dZ_D1 P q * ddZ_D1D2 P q + 1 * dddX_D1D1D2 P q * X P q + 1 * dddY_D1D1D2 P q * Y P q + 1 * dddZ_D1D1D2 P q * Z P q + (1 / 2) * (4 * dZ_D2 P q * ddZ_D1D1 P q * P.a ^ 2
    + 8 * dZ_D1 P q * ddZ_D1D2 P q * P.a ^ 2 + 4 * dddZ_D1D1D2 P q * P.a ^ 2 * Z P q + 4 * (dX_D2 P q * X P q + dY_D2 P q * Y P q + dZ_D2 P q * Z P q) * (1 * (dX_D1 P q)
    ^ 2 + 1 * (dY_D1 P q) ^ 2 + 1 * (dZ_D1 P q) ^ 2 + 1 * ddX_D1D1 P q * X P q + 1 * ddY_D1D1 P q * Y P q + 1 * ddZ_D1D1 P q * Z P q) + 4 * (1 * dX_D1 P q * X P q + 1 *
    dY_D1 P q * Y P q + 1 * dZ_D1 P q * Z P q) * (dX_D1 P q * dX_D2 P q + dY_D1 P q * dY_D2 P q + dZ_D1 P q * dZ_D2 P q + ddX_D1D2 P q * X P q + ddY_D1D2 P q * Y P q +
    ddZ_D1D2 P q * Z P q) + 4 * (dX_D1 P q * X P q + dY_D1 P q * Y P q + dZ_D1 P q * Z P q) * (1 * dX_D1 P q * dX_D2 P q + 1 * dY_D1 P q * dY_D2 P q + 1 * dZ_D1 P q *
    dZ_D2 P q + 1 * ddX_D1D2 P q * X P q + 1 * ddY_D1D2 P q * Y P q + 1 * ddZ_D1D2 P q * Z P q) + (2 * dX_D2 P q * ddX_D1D1 P q + 2 * dY_D2 P q * ddY_D1D1 P q + 2 * dZ_D2
    P q * ddZ_D1D1 P q + 4 * dX_D1 P q * ddX_D1D2 P q + 4 * dY_D1 P q * ddY_D1D2 P q + 4 * dZ_D1 P q * ddZ_D1D2 P q + 2 * dddX_D1D1D2 P q * X P q + 2 * dddY_D1D1D2 P q *
    Y P q + 2 * dddZ_D1D1D2 P q * Z P q) * (-P.a ^ 2 + (X P q) ^ 2 + (Y P q) ^ 2 + (Z P q) ^ 2)) / Tq P q + (1 / 2) * (4 * dZ_D1 P q * dZ_D2 P q * P.a ^ 2 + 4 * ddZ_D1D2
    P q * P.a ^ 2 * Z P q + 4 * (1 * dX_D1 P q * X P q + 1 * dY_D1 P q * Y P q + 1 * dZ_D1 P q * Z P q) * (dX_D2 P q * X P q + dY_D2 P q * Y P q + dZ_D2 P q * Z P q) + (2
    * dX_D1 P q * dX_D2 P q + 2 * dY_D1 P q * dY_D2 P q + 2 * dZ_D1 P q * dZ_D2 P q + 2 * ddX_D1D2 P q * X P q + 2 * ddY_D1D2 P q * Y P q + 2 * ddZ_D1D2 P q * Z P q) *
    (-P.a ^ 2 + (X P q) ^ 2 + (Y P q) ^ 2 + (Z P q) ^ 2)) * ((-4) * dZ_D1 P q * P.a ^ 2 * Z P q - 2 * (dX_D1 P q * X P q + dY_D1 P q * Y P q + dZ_D1 P q * Z P q) * ((-1)
    * P.a ^ 2 + (X P q) ^ 2 + (Y P q) ^ 2 + (Z P q) ^ 2)) / (Tq P q) ^ 3 + (1 / 2) * ((-4) * dZ_D1 P q * dZ_D2 P q * P.a ^ 2 - 4 * ddZ_D1D2 P q * P.a ^ 2 * Z P q - 4 * (1
    * dX_D1 P q * X P q + 1 * dY_D1 P q * Y P q + 1 * dZ_D1 P q * Z P q) * (dX_D2 P q * X P q + dY_D2 P q * Y P q + dZ_D2 P q * Z P q) + ((-2) * dX_D1 P q * dX_D2 P q - 2
    * dY_D1 P q * dY_D2 P q - 2 * dZ_D1 P q * dZ_D2 P q - 2 * ddX_D1D2 P q * X P q - 2 * ddY_D1D2 P q * Y P q - 2 * ddZ_D1D2 P q * Z P q) * (-P.a ^ 2 + (X P q) ^ 2 + (Y P
    q) ^ 2 + (Z P q) ^ 2)) * (4 * dZ_D1 P q * P.a ^ 2 * Z P q + 2 * (dX_D1 P q * X P q + dY_D1 P q * Y P q + dZ_D1 P q * Z P q) * ((-1) * P.a ^ 2 + (X P q) ^ 2 + (Y P q)
    ^ 2 + (Z P q) ^ 2)) / (Tq P q) ^ 3 + (1 / 2) * ((-4) * dZ_D1 P q * P.a ^ 2 * Z P q - 2 * (dX_D1 P q * X P q + dY_D1 P q * Y P q + dZ_D1 P q * Z P q) * ((-1) * P.a ^ 2
    + (X P q) ^ 2 + (Y P q) ^ 2 + (Z P q) ^ 2)) * (4 * dZ_D1 P q * P.a ^ 2 * Z P q + 2 * (dX_D1 P q * X P q + dY_D1 P q * Y P q + dZ_D1 P q * Z P q) * ((-1) * P.a ^ 2 +
    (X P q) ^ 2 + (Y P q) ^ 2 + (Z P q) ^ 2)) * ((-12) * dZ_D2 P q * P.a ^ 2 * Z P q - 6 * (dX_D2 P q * X P q + dY_D2 P q * Y P q + dZ_D2 P q * Z P q) * ((-1) * P.a ^ 2 +
    (X P q) ^ 2 + (Y P q) ^ 2 + (Z P q) ^ 2)) / (Tq P q) ^ 5 + (1 / 2) * (4 * (dZ_D1 P q) ^ 2 * P.a ^ 2 + 4 * ddZ_D1D1 P q * P.a ^ 2 * Z P q + 4 * (1 * dX_D1 P q * X P q
    + 1 * dY_D1 P q * Y P q + 1 * dZ_D1 P q * Z P q) ^ 2 + (2 * (dX_D1 P q) ^ 2 + 2 * (dY_D1 P q) ^ 2 + 2 * (dZ_D1 P q) ^ 2 + 2 * ddX_D1D1 P q * X P q + 2 * ddY_D1D1 P q
    * Y P q + 2 * ddZ_D1D1 P q * Z P q) * (-P.a ^ 2 + (X P q) ^ 2 + (Y P q) ^ 2 + (Z P q) ^ 2)) * ((-4) * dZ_D2 P q * P.a ^ 2 * Z P q - 2 * (dX_D2 P q * X P q + dY_D2 P q
    * Y P q + dZ_D2 P q * Z P q) * ((-1) * P.a ^ 2 + (X P q) ^ 2 + (Y P q) ^ 2 + (Z P q) ^ 2)) / (Tq P q) ^ 3) / Sq P q + P.lit * (1 * dX_D1 P q * X P q + 1 * dY_D1 P q *
    Y P q + 1 * dZ_D1 P q * Z P q + (1 / 2) * (4 * dZ_D1 P q * P.a ^ 2 * Z P q + 2 * (dX_D1 P q * X P q + dY_D1 P q * Y P q + dZ_D1 P q * Z P q) * ((-1) * P.a ^ 2 + (X P
    q) ^ 2 + (Y P q) ^ 2 + (Z P q) ^ 2)) / Tq P q) * ((-1) * dX_D1 P q * dX_D2 P q - 1 * dY_D1 P q * dY_D2 P q - 1 * dZ_D1 P q * dZ_D2 P q - 1 * ddX_D1D2 P q * X P q - 1
    * ddY_D1D2 P q * Y P q - 1 * ddZ_D1D2 P q * Z P q - (1 / 2) * (4 * dZ_D1 P q * dZ_D2 P q * P.a ^ 2 + 4 * ddZ_D1D2 P q * P.a ^ 2 * Z P q + 4 * (1 * dX_D1 P q * X P q +
    1 * dY_D1 P q * Y P q + 1 * dZ_D1 P q * Z P q) * (dX_D2 P q * X P q + dY_D2 P q * Y P q + dZ_D2 P q * Z P q) + (2 * dX_D1 P q * dX_D2 P q + 2 * dY_D1 P q * dY_D2 P q
    + 2 * dZ_D1 P q * dZ_D2 P q + 2 * ddX_D1D2 P q * X P q + 2 * ddY_D1D2 P q * Y P q + 2 * ddZ_D1D2 P q * Z P q) * (-P.a ^ 2 + (X P q) ^ 2 + (Y P q) ^ 2 + (Z P q) ^ 2))
    / Tq P q - (1 / 2) * (4 * dZ_D1 P q * P.a ^ 2 * Z P q + 2 * (dX_D1 P q * X P q + dY_D1 P q * Y P q + dZ_D1 P q * Z P q) * ((-1) * P.a ^ 2 + (X P q) ^ 2 + (Y P q) ^ 2
    + (Z P q) ^ 2)) * ((-4) * dZ_D2 P q * P.a ^ 2 * Z P q - 2 * (dX_D2 P q * X P q + dY_D2 P q * Y P q + dZ_D2 P q * Z P q) * ((-1) * P.a ^ 2 + (X P q) ^ 2 + (Y P q) ^ 2
    + (Z P q) ^ 2)) / (Tq P q) ^ 3) / (Sq P q) ^ 3 + P.lit * ((-1) * dX_D1 P q * X P q - 1 * dY_D1 P q * Y P q - 1 * dZ_D1 P q * Z P q - (1 / 2) * (4 * dZ_D1 P q * P.a ^
    2 * Z P q + 2 * (dX_D1 P q * X P q + dY_D1 P q * Y P q + dZ_D1 P q * Z P q) * ((-1) * P.a ^ 2 + (X P q) ^ 2 + (Y P q) ^ 2 + (Z P q) ^ 2)) / Tq P q) * (1 * dX_D1 P q *
    dX_D2 P q + 1 * dY_D1 P q * dY_D2 P q + 1 * dZ_D1 P q * dZ_D2 P q + 1 * ddX_D1D2 P q * X P q + 1 * ddY_D1D2 P q * Y P q + 1 * ddZ_D1D2 P q * Z P q + (1 / 2) * (4 *
    dZ_D1 P q * dZ_D2 P q * P.a ^ 2 + 4 * ddZ_D1D2 P q * P.a ^ 2 * Z P q + 4 * (1 * dX_D1 P q * X P q + 1 * dY_D1 P q * Y P q + 1 * dZ_D1 P q * Z P q) * (dX_D2 P q * X P
    q + dY_D2 P q * Y P q + dZ_D2 P q * Z P q) + (2 * dX_D1 P q * dX_D2 P q + 2 * dY_D1 P q * dY_D2 P q + 2 * dZ_D1 P q * dZ_D2 P q + 2 * ddX_D1D2 P q * X P q + 2 *
    ddY_D1D2 P q * Y P q + 2 * ddZ_D1D2 P q * Z P q) * (-P.a ^ 2 + (X P q) ^ 2 + (Y P q) ^ 2 + (Z P q) ^ 2)) / Tq P q + (1 / 2) * (4 * dZ_D1 P q * P.a ^ 2 * Z P q + 2 *
    (dX_D1 P q * X P q + dY_D1 P q * Y P q + dZ_D1 P q * Z P q) * ((-1) * P.a ^ 2 + (X P q) ^ 2 + (Y P q) ^ 2 + (Z P q) ^ 2)) * ((-4) * dZ_D2 P q * P.a ^ 2 * Z P q - 2 *
    (dX_D2 P q * X P q + dY_D2 P q * Y P q + dZ_D2 P q * Z P q) * ((-1) * P.a ^ 2 + (X P q) ^ 2 + (Y P q) ^ 2 + (Z P q) ^ 2)) / (Tq P q) ^ 3) / (Sq P q) ^ 3 + P.lit *
    ((-1) * dX_D1 P q * X P q - 1 * dY_D1 P q * Y P q - 1 * dZ_D1 P q * Z P q - (1 / 2) * (4 * dZ_D1 P q * P.a ^ 2 * Z P q + 2 * (dX_D1 P q * X P q + dY_D1 P q * Y P q +
    dZ_D1 P q * Z P q) * ((-1) * P.a ^ 2 + (X P q) ^ 2 + (Y P q) ^ 2 + (Z P q) ^ 2)) / Tq P q) * (1 * dX_D1 P q * X P q + 1 * dY_D1 P q * Y P q + 1 * dZ_D1 P q * Z P q +
    (1 / 2) * (4 * dZ_D1 P q * P.a ^ 2 * Z P q + 2 * (dX_D1 P q * X P q + dY_D1 P q * Y P q + dZ_D1 P q * Z P q) * ((-1) * P.a ^ 2 + (X P q) ^ 2 + (Y P q) ^ 2 + (Z P q) ^
    2)) / Tq P q) * ((-3) * dX_D2 P q * X P q - 3 * dY_D2 P q * Y P q - 3 * dZ_D2 P q * Z P q - (3 / 2) * (4 * dZ_D2 P q * P.a ^ 2 * Z P q + 2 * (dX_D2 P q * X P q +
    dY_D2 P q * Y P q + dZ_D2 P q * Z P q) * ((-1) * P.a ^ 2 + (X P q) ^ 2 + (Y P q) ^ 2 + (Z P q) ^ 2)) / Tq P q) / (Sq P q) ^ 5 + P.lit * (1 * (dX_D1 P q) ^ 2 + 1 *
    (dY_D1 P q) ^ 2 + 1 * (dZ_D1 P q) ^ 2 + 1 * ddX_D1D1 P q * X P q + 1 * ddY_D1D1 P q * Y P q + 1 * ddZ_D1D1 P q * Z P q - 2 * (dZ_D1 P q * Z P q * ((-1) * P.a ^ 2 - 1
    * (X P q) ^ 2 - 1 * (Y P q) ^ 2 - 1 * (Z P q) ^ 2) + dX_D1 P q * X P q * (1 * P.a ^ 2 - 1 * (X P q) ^ 2 - 1 * (Y P q) ^ 2 - 1 * (Z P q) ^ 2) + dY_D1 P q * Y P q * (1
    * P.a ^ 2 - 1 * (X P q) ^ 2 - 1 * (Y P q) ^ 2 - 1 * (Z P q) ^ 2)) ^ 2 / (Tq P q) ^ 3 + (1 / 2) * (4 * (dZ_D1 P q) ^ 2 * P.a ^ 2 + 4 * ddZ_D1D1 P q * P.a ^ 2 * Z P q +
    4 * (1 * dX_D1 P q * X P q + 1 * dY_D1 P q * Y P q + 1 * dZ_D1 P q * Z P q) ^ 2 + (2 * (dX_D1 P q) ^ 2 + 2 * (dY_D1 P q) ^ 2 + 2 * (dZ_D1 P q) ^ 2 + 2 * ddX_D1D1 P q
    * X P q + 2 * ddY_D1D1 P q * Y P q + 2 * ddZ_D1D1 P q * Z P q) * (-P.a ^ 2 + (X P q) ^ 2 + (Y P q) ^ 2 + (Z P q) ^ 2)) / Tq P q) * ((-1) * dX_D2 P q * X P q - 1 *
    dY_D2 P q * Y P q - 1 * dZ_D2 P q * Z P q - (1 / 2) * (4 * dZ_D2 P q * P.a ^ 2 * Z P q + 2 * (dX_D2 P q * X P q + dY_D2 P q * Y P q + dZ_D2 P q * Z P q) * ((-1) * P.a
    ^ 2 + (X P q) ^ 2 + (Y P q) ^ 2 + (Z P q) ^ 2)) / Tq P q) / (Sq P q) ^ 3

/-- Free_Data/fd_KerrSchild_R_X_Y_Z.c:4624-4903 `fd_ks_dddR_D1D2D0` -/
noncomputable def dddR_D1D2D0 (P : Par) (q : Pt) : ℝ :=
  P.lit * ((-1) * dX_D0 P q * X P q - 1 * dY_D0 P q * Y P q - 1 * dZ_D0 P q * Z P q - (1 / 2) * (4 * dZ_D0 P q * P.a ^ 2 * Z P q + 2 * (dX_D0 P q * X P q + dY_D0 P q * Y
    P q + dZ_D0 P q * Z P q) * ((-1) * P.a ^ 2 + (X P q) ^ 2 + (Y P q) ^ 2 + (Z P q) ^ 2)) / Tq P q) * (1 * dX_D1 P q * dX_D2 P q + 1 * dY_D1 P q * dY_D2 P q + 1 * dZ_D1
    P q * dZ_D2 P q + 1 * ddX_D1D2 P q * X P q + 1 * ddY_D1D2 P q * Y P q + 1 * ddZ_D1D2 P q * Z P q + (1 / 2) * (4 * dZ_D1 P q * dZ_D2 P q * P.a ^ 2 + 4 * ddZ_D1D2 P q *
    P.a ^ 2 * Z P q + 4 * (1 * dX_D1 P q * X P q + 1 * dY_D1 P q * Y P q + 1 * dZ_D1 P q * Z P q) * (dX_D2 P q * X P q + dY_D2 P q * Y P q + dZ_D2 P q * Z P q) + (2 *
    dX_D1 P q * dX_D2 P q + 2 * dY_D1 P q * dY_D2 P q + 2 * dZ_D1 P q * dZ_D2 P q + 2 * ddX_D1D2 P q * X P q + 2 * ddY_D1D2 P q * Y P q + 2 * ddZ_D1D2 P q * Z P q) *
    (-P.a ^ 2 + (X P q) ^ 2 + (Y P q) ^ 2 + (Z P q) ^ 2)) / Tq P q + (1 / 2) * (4 * dZ_D1 P q * P.a ^ 2 * Z P q + 2 * (dX_D1 P q * X P q + dY_D1 P q * Y P q + dZ_D1 P q *
    Z P q) * ((-1) * P.a ^ 2 + (X P q) ^ 2 + (Y P q) ^ 2 + (Z P q) ^ 2)) * ((-4) * dZ_D2 P q * P.a ^ 2 * Z P q - 2 * (dX_D2 P q * X P q + dY_D2 P q * Y P q + dZ_D2 P q *
    Z P q) * ((-1) * P.a ^ 2 + (X P q) ^ 2 + (Y P q) ^ 2 + (Z P q) ^ 2)) / (Tq P q) ^ 3) / (Sq P q) ^ 3 + P.lit * (1 * dX_D2 P q * ddX_D0D1 P q + 1 * dX_D1 P q * ddX_D0D2
    P q + 1 * dX_D0 P q * ddX_D1D2 P q + 1 * dY_D2 P q * ddY_D0D1 P q + 1 * dY_D1 P q * ddY_D0D2 P q + 1 * dY_D0 P q * ddY_D1D2 P q + 1 * dZ_D2 P q * ddZ_D0D1 P q + 1 *
    dZ_D1 P q * ddZ_D0D2 P q + 1 * dZ_D0 P q * ddZ_D1D2 P q + 1 * dddX_D0D1D2 P q * X P q + 1 * dddY_D0D1D2 P q * Y P q + 1 * dddZ_D0D1D2 P q * Z P q + (1 / 2) * (4 *
    dZ_D2 P q * ddZ_D0D1 P q * P.a ^ 2 + 4 * dZ_D1 P q * ddZ_D0D2 P q * P.a ^ 2 + 4 * dZ_D0 P q * ddZ_D1D2 P q * P.a ^ 2 + 4 * dddZ_D0D1D2 P q * P.a ^ 2 * Z P q + 4 *
    (dX_D2 P q * X P q + dY_D2 P q * Y P q + dZ_D2 P q * Z P q) * (1 * dX_D0 P q * dX_D1 P q + 1 * dY_D0 P q * dY_D1 P q + 1 * dZ_D0 P q * dZ_D1 P q + 1 * ddX_D0D1 P q *
    X P q + 1 * ddY_D0D1 P q * Y P q + 1 * ddZ_D0D1 P q * Z P q) + 4 * (1 * dX_D1 P q * X P q + 1 * dY_D1 P q * Y P q + 1 * dZ_D1 P q * Z P q) * (dX_D0 P q * dX_D2 P q +
    dY_D0 P q * dY_D2 P q + dZ_D0 P q * dZ_D2 P q + ddX_D0D2 P q * X P q + ddY_D0D2 P q * Y P q + ddZ_D0D2 P q * Z P q) + 4 * (dX_D0 P q * X P q + dY_D0 P q * Y P q +
    dZ_D0 P q * Z P q) * (1 * dX_D1 P q * dX_D2 P q + 1 * dY_D1 P q * dY_D2 P q + 1 * dZ_D1 P q * dZ_D2 P q + 1 * ddX_D1D2 P q * X P q + 1 * ddY_D1D2 P q * Y P q + 1 *
    ddZ_D1D2 P q * Z P q) + (2 * dX_D2 P q * ddX_D0D1 P q + 2 * dX_D1 P q * ddX_D0D2 P q + 2 * dX_D0 P q * ddX_D1D2 P q + 2 * dY_D2 P q * ddY_D0D1 P q + 2 * dY_D1 P q *
    ddY_D0D2 P q + 2 * dY_D0 P q * ddY_D1D2 P q + 2 * dZ_D2 P q * ddZ_D0D1 P q + 2 * dZ_D1 P q * ddZ_D0D2 P q + 2 * dZ_D0 P q * ddZ_D1D2 P q + 2 * dddX_D0D1D2 P q * X P q
    + 2 * dddY_D0D1D2 P q * Y P q + 2 * dddZ_D0D1D2 P q * Z P q) * (-P.a ^ 2 + (X P q) ^ 2 + (Y P q) ^ 2 + (Z P q) ^ 2)) / Tq P q + (1 / 2) * (4 * dZ_D1 P q * dZ_D2 P q *
    P.a ^ 2 + 4 * ddZ_D1D2 P q * P.a ^ 2 * Z P q + 4 * (1 * dX_D1 P q * X P q + 1 * dY_D1 P q * Y P q + 1 * dZ_D1 P q * Z P q) * (dX_D2 P q * X P q + dY_D2 P q * Y P q +
    dZ_D2 P q * Z P q) + (2 * dX_D1 P q * dX_D2 P q + 2 * dY_D1 P q * dY_D2 P q + 2 * dZ_D1 P q * dZ_D2 P q + 2 * ddX_D1D2 P q * X P q + 2 * ddY_D1D2 P q * Y P q + 2 *
    ddZ_D1D2 P q * Z P q) * (-P.a ^ 2 + (X P q) ^ 2 + (Y P q) ^ 2 + (Z P q) ^ 2)) * ((-4) * dZ_D0 P q * P.a ^ 2 * Z P q - 2 * (dX_D0 P q * X P q + dY_D0 P q * Y P q +
    dZ_D0 P q * Z P q) * ((-1) * P.a ^ 2 + (X P q) ^ 2 + (Y P q) ^ 2 + (Z P q) ^ 2)) / (Tq P q) ^ 3 + (1 / 2) * ((-4) * dZ_D0 P q * dZ_D2 P q * P.a ^ 2 - 4 * ddZ_D0D2 P q
    * P.a ^ 2 * Z P q - 4 * (dX_D0 P q * X P q + dY_D0 P q * Y P q + dZ_D0 P q * Z P q) * (1 * dX_D2 P q * X P q + 1 * dY_D2 P q * Y P q + 1 * dZ_D2 P q * Z P q) + ((-2)
    * dX_D0 P q * dX_D2 P q - 2 * dY_D0 P q * dY_D2 P q - 2 * dZ_D0 P q * dZ_D2 P q - 2 * ddX_D0D2 P q * X P q - 2 * ddY_D0D2 P q * Y P q - 2 * ddZ_D0D2 P q * Z P q) *
    (-P.a ^ 2 + (X P q) ^ 2 + (Y P q) ^ 2 + (Z P q) ^ 2)) * (4 * dZ_D1 P q * P.a ^ 2 * Z P q + 2 * (dX_D1 P q * X P q + dY_D1 P q * Y P q + dZ_D1 P q * Z P q) * ((-1) *
    P.a ^ 2 + (X P q) ^ 2 + (Y P q) ^ 2 + (Z P q) ^ 2)) / (Tq P q) ^ 3 + (1 / 2) * (4 * dZ_D0 P q * dZ_D1 P q * P.a ^ 2 + 4 * ddZ_D0D1 P q * P.a ^ 2 * Z P q + 4 * (dX_D0
    P q * X P q + dY_D0 P q * Y P q + dZ_D0 P q * Z P q) * (1 * dX_D1 P q * X P q + 1 * dY_D1 P q * Y P q + 1 * dZ_D1 P q * Z P q) + (2 * dX_D0 P q * dX_D1 P q + 2 *
    dY_D0 P q * dY_D1 P q + 2 * dZ_D0 P q * dZ_D1 P q + 2 * ddX_D0D1 P q * X P q + 2 * ddY_D0D1 P q * Y P q + 2 * ddZ_D0D1 P q * Z P q) * (-P.a ^ 2 + (X P q) ^ 2 + (Y P
    q) ^ 2 + (Z P q) ^ 2)) * ((-4) * dZ_D2 P q * P.a ^ 2 * Z P q - 2 * (dX_D2 P q * X P q + dY_D2 P q * Y P q + dZ_D2 P q * Z P q) * ((-1) * P.a ^ 2 + (X P q) ^ 2 + (Y P
    q) ^ 2 + (Z P q) ^ 2)) / (Tq P q) ^ 3 + (1 / 2) * ((-12) * dZ_D0 P q * P.a ^ 2 * Z P q - 6 * (dX_D0 P q * X P q + dY_D0 P q * Y P q + dZ_D0 P q * Z P q) * ((-1) * P.a
    ^ 2 + (X P q) ^ 2 + (Y P q) ^ 2 + (Z P q) ^ 2)) * (4 * dZ_D1 P q * P.a ^ 2 * Z P q + 2 * (dX_D1 P q * X P q + dY_D1 P q * Y P q + dZ_D1 P q * Z P q) * ((-1) * P.a ^ 2
    + (X P q) ^ 2 + (Y P q) ^ 2 + (Z P q) ^ 2)) * ((-4) * dZ_D2 P q * P.a ^ 2 * Z P q - 2 * (dX_D2 P q * X P q + dY_D2 P q * Y P q + dZ_D2 P q * Z P q) * ((-1) * P.a ^ 2
    + (X P q) ^ 2 + (Y P q) ^ 2 + (Z P q) ^ 2)) / (Tq P q) ^ 5) / Sq P q + P.lit * ((-3) * dX_D0 P q * X P q - 3 * dY_D0 P q * Y P q - 3 * dZ_D0 P q * Z P q - (3 / 2) *
    (4 * dZ_D0 P q * P.a ^ 2 * Z P q + 2 * (dX_D0 P q * X P q + dY_D0 P q * Y P q + dZ_D0 P q * Z P q) * ((-1) * P.a ^ 2 + (X P q) ^ 2 + (Y P q) ^ 2 + (Z P q) ^ 2)) / Tq
    P q) * (1 * dX_D1 P q * X P q + 1 * dY_D1 P q * Y P q + 1 * dZ_D1 P q * Z P q + (1 / 2) * (4 * dZ_D1 P q * P.a ^ 2 * Z P q + 2 * (dX_D1 P q * X P q + dY_D1 P q * Y P
    q + dZ_D1 P q * Z P q) * ((-1) * P.a ^ 2 + (X P q) ^ 2 + (Y P q) ^ 2 + (Z P q) ^ 2)) / Tq P q) * ((-1) * dX_D2 P q * X P q - 1 * dY_D2 P q * Y P q - 1 * dZ_D2 P q * Z
    P q - (1 / 2) * (4 * dZ_D2 P q * P.a ^ 2 * Z P q + 2 * (dX_D2 P q * X P q + dY_D2 P q * Y P q + dZ_D2 P q * Z P q) * ((-1) * P.a ^ 2 + (X P q) ^ 2 + (Y P q) ^ 2 + (Z
    P q) ^ 2)) / Tq P q) / (Sq P q) ^ 5 + P.lit * (1 * dX_D0 P q * dX_D1 P q + 1 * dY_D0 P q * dY_D1 P q + 1 * dZ_D0 P q * dZ_D1 P q + 1 * ddX_D0D1 P q * X P q + 1 *
    ddY_D0D1 P q * Y P q + 1 * ddZ_D0D1 P q * Z P q + (1 / 2) * (4 * dZ_D0 P q * dZ_D1 P q * P.a ^ 2 + 4 * ddZ_D0D1 P q * P.a ^ 2 * Z P q + 4 * (dX_D0 P q * X P q + dY_D0
    P q * Y P q + dZ_D0 P q * Z P q) * (1 * dX_D1 P q * X P q + 1 * dY_D1 P q * Y P q + 1 * dZ_D1 P q * Z P q) + (2 * dX_D0 P q * dX_D1 P q + 2 * dY_D0 P q * dY_D1 P q +
    2 * dZ_D0 P q * dZ_D1 P q + 2 * ddX_D0D1 P q * X P q + 2 * ddY_D0D1 P q * Y P q + 2 * ddZ_D0D1 P q * Z P q) * (-P.a ^ 2 + (X P q) ^ 2 + (Y P q) ^ 2 + (Z P q) ^ 2)) /
    Tq P q + (1 / 2) * ((-4) * dZ_D0 P q * P.a ^ 2 * Z P q - 2 * (dX_D0 P q * X P q + dY_D0 P q * Y P q + dZ_D0 P q * Z P q) * ((-1) * P.a ^ 2 + (X P q) ^ 2 + (Y P q) ^ 2
    + (Z P q) ^ 2)) * (4 * dZ_D1 P q * P.a ^ 2 * Z P q + 2 * (dX_D1 P q * X P q + dY_D1 P q * Y P q + dZ_D1 P q * Z P q) * ((-1) * P.a ^ 2 + (X P q) ^ 2 + (Y P q) ^ 2 +
    (Z P q) ^ 2)) / (Tq P q) ^ 3) * ((-1) * dX_D2 P q * X P q - 1 * dY_D2 P q * Y P q - 1 * dZ_D2 P q * Z P q - (1 / 2) * (4 * dZ_D2 P q * P.a ^ 2 * Z P q + 2 * (dX_D2 P
    q * X P q + dY_D2 P q * Y P q + dZ_D2 P q * Z P q) * ((-1) * P.a ^ 2 + (X P q) ^ 2 + (Y P q) ^ 2 + (Z P q) ^ 2)) / Tq P q) / (Sq P q) ^ 3 + P.lit * (1 * dX_D1 P q * X
    P q + 1 * dY_D1 P q * Y P q + 1 * dZ_D1 P q * Z P q + (1 / 2) * (4 * dZ_D1 P q * P.a ^ 2 * Z P q + 2 * (dX_D1 P q * X P q + dY_D1 P q * Y P q + dZ_D1 P q * Z P q) *
    ((-1) * P.a ^ 2 + (X P q) ^ 2 + (Y P q) ^ 2 + (Z P q) ^ 2)) / Tq P q) * ((-1) * dX_D0 P q * dX_D2 P q - 1 * dY_D0 P q * dY_D2 P q - 1 * dZ_D0 P q * dZ_D2 P q - 1 *
    ddX_D0D2 P q * X P q - 1 * ddY_D0D2 P q * Y P q - 1 * ddZ_D0D2 P q * Z P q - (1 / 2) * (4 * dZ_D0 P q * dZ_D2 P q * P.a ^ 2 + 4 * ddZ_D0D2 P q * P.a ^ 2 * Z P q + 4 *
    (dX_D0 P q * X P q + dY_D0 P q * Y P q + dZ_D0 P q * Z P q) * (1 * dX_D2 P q * X P q + 1 * dY_D2 P q * Y P q + 1 * dZ_D2 P q * Z P q) + (2 * dX_D0 P q * dX_D2 P q + 2
    * dY_D0 P q * dY_D2 P q + 2 * dZ_D0 P q * dZ_D2 P q + 2 * ddX_D0D2 P q * X P q + 2 * ddY_D0D2 P q * Y P q + 2 * ddZ_D0D2 P q * Z P q) * (-P.a ^ 2 + (X P q) ^ 2 + (Y P
    q) ^ 2 + (Z P q) ^ 2)) / Tq P q - (1 / 2) * ((-4) * dZ_D0 P q * P.a ^ 2 * Z P q - 2 * (dX_D0 P q * X P q + dY_D0 P q * Y P q + dZ_D0 P q * Z P q) * ((-1) * P.a ^ 2 +
    (X P q) ^ 2 + (Y P q) ^ 2 + (Z P q) ^ 2)) * (4 * dZ_D2 P q * P.a ^ 2 * Z P q + 2 * (dX_D2 P q * X P q + dY_D2 P q * Y P q + dZ_D2 P q * Z P q) * ((-1) * P.a ^ 2 + (X
    P q) ^ 2 + (Y P q) ^ 2 + (Z P q) ^ 2)) / (Tq P q) ^ 3) / (Sq P q) ^ 3

/-- Free_Data/fd_KerrSchild_R_X_Y_Z.c:4904-5172 `fd_ks_dddR_D1D2D1` -/
noncomputable def dddR_D1D2D1 (P : Par) (q : Pt) : ℝ :=
  P.lit * ((-1) * dX_D1 P q * X P q - 1 * dY_D1 P q * Y P q - 1 * dZ_D1 P q * Z P q - (1 / 2) * (4 * dZ_D1 P q * P.a ^ 2 * Z P q + 2 * (dX_D1 P q * X P q + dY_D1 P q * Y
    P q + dZ_D1 P q * Z P q) * ((-1) * P.a ^ 2 + (X P q) ^ 2 + (Y P q) ^ 2 + (Z P q) ^ 2)) / Tq P q) * (1 * dX_D1 P q * dX_D2 P q + 1 * dY_D1 P q * dY_D2 P q + 1 * dZ_D1
    P q * dZ_D2 P q + 1 * ddX_D1D2 P q * X P q + 1 * ddY_D1D2 P q * Y P q + 1 * ddZ_D1D2 P q * Z P q + (1 / 2) * (4 * dZ_D1 P q * dZ_D2 P q * P.a ^ 2 + 4 * ddZ_D1D2 P q *
    P.a ^ 2 * Z P q + 4 * (1 * dX_D1 P q * X P q + 1 * dY_D1 P q * Y P q + 1 * dZ_D1 P q * Z P q) * (dX_D2 P q * X P q + dY_D2 P q * Y P q + dZ_D2 P q * Z P q) + (2 *
    dX_D1 P q * dX_D2 P q + 2 * dY_D1 P q * dY_D2 P q + 2 * dZ_D1 P q * dZ_D2 P q + 2 * ddX_D1D2 P q * X P q + 2 * ddY_D1D2 P q * Y P q + 2 * ddZ_D1D2 P q * Z P q) *
    (-P.a ^ 2 + (X P q) ^ 2 + (Y P q) ^ 2 + (Z P q) ^ 2)) / Tq P q + (1 / 2) * (4 * dZ_D1 P q * P.a ^ 2 * Z P q + 2 * (dX_D1 P q * X P q + dY_D1 P q * Y P q + dZ_D1 P q *
    Z P q) * ((-1) * P.a ^ 2 + (X P q) ^ 2 + (Y P q) ^ 2 + (Z P q) ^ 2)) * ((-4) * dZ_D2 P q * P.a ^ 2 * Z P q - 2 * (dX_D2 P q * X P q + dY_D2 P q * Y P q + dZ_D2 P q *
    Z P q) * ((-1) * P.a ^ 2 + (X P q) ^ 2 + (Y P q) ^ 2 + (Z P q) ^ 2)) / (Tq P q) ^ 3) / (Sq P q) ^ 3 + P.lit * (1 * dX_D2 P q * ddX_D1D1 P q + 1 * dY_D2 P q * ddY_D1D1
    P q + 1 * dZ_D2 P q * ddZ_D1D1 P q + 2 * dX_D1 P q * ddX_D1D2 P q + 2 * dY_D1 P q * ddY_D1D2 P q + 2 * dZ_D1 P q * ddZ_D1D2 P q + 1 * dddX_D1D1D2 P q * X P q + 1 *
    dddY_D1D1D2 P q * Y P q + 1 * dddZ_D1D1D2 P q * Z P q + (1 / 2) * (4 * dZ_D2 P q * ddZ_D1D1 P q * P.a ^ 2 + 8 * dZ_D1 P q * ddZ_D1D2 P q * P.a ^ 2 + 4 * dddZ_D1D1D2 P
    q * P.a ^ 2 * Z P q + 4 * (dX_D2 P q * X P q + dY_D2 P q * Y P q + dZ_D2 P q * Z P q) * (1 * (dX_D1 P q) ^ 2 + 1 * (dY_D1 P q) ^ 2 + 1 * (dZ_D1 P q) ^ 2 + 1 *
    ddX_D1D1 P q * X P q + 1 * ddY_D1D1 P q * Y P q + 1 * ddZ_D1D1 P q * Z P q) + 4 * (1 * dX_D1 P q * X P q + 1 * dY_D1 P q * Y P q + 1 * dZ_D1 P q * Z P q) * (dX_D1 P q
    * dX_D2 P q + dY_D1 P q * dY_D2 P q + dZ_D1 P q * dZ_D2 P q + ddX_D1D2 P q * X P q + ddY_D1D2 P q * Y P q + ddZ_D1D2 P q * Z P q) + 4 * (dX_D1 P q * X P q + dY_D1 P q
    * Y P q + dZ_D1 P q * Z P q) * (1 * dX_D1 P q * dX_D2 P q + 1 * dY_D1 P q * dY_D2 P q + 1 * dZ_D1 P q * dZ_D2 P q + 1 * ddX_D1D2 P q * X P q + 1 * ddY_D1D2 P q * Y P
    q + 1 * ddZ_D1D2 P q * Z P q) + (2 * dX_D2 P q * ddX_D1D1 P q + 2 * dY_D2 P q * ddY_D1D1 P q + 2 * dZ_D2 P q * ddZ_D1D1 P q + 4 * dX_D1 P q * ddX_D1D2 P q + 4 * dY_D1
    P q * ddY_D1D2 P q + 4 * dZ_D1 P q * ddZ_D1D2 P q + 2 * dddX_D1D1D2 P q * X P q + 2 * dddY_D1D1D2 P q * Y P q + 2 * dddZ_D1D1D2 P q * Z P q) * (-P.a ^ 2 + (X P q) ^ 2
    + (Y P q) ^ 2 + (Z P q) ^ 2)) / Tq P q + (1 / 2) * (4 * dZ_D1 P q * dZ_D2 P q * P.a ^ 2 + 4 * ddZ_D1D2 P q * P.a ^ 2 * Z P q + 4 * (1 * dX_D1 P q * X P q + 1 * dY_D1
    P q * Y P q + 1 * dZ_D1 P q * Z P q) * (dX_D2 P q * X P q + dY_D2 P q * Y P q + dZ_D2 P q * Z P q) + (2 * dX_D1 P q * dX_D2 P q + 2 * dY_D1 P q * dY_D2 P q + 2 *
    dZ_D1 P q * dZ_D2 P q + 2 * ddX_D1D2 P q * X P q + 2 * ddY_D1D2 P q * Y P q + 2 * ddZ_D1D2 P q * Z P q) * (-P.a ^ 2 + (X P q) ^ 2 + (Y P q) ^ 2 + (Z P q) ^ 2)) *
    ((-4) * dZ_D1 P q * P.a ^ 2 * Z P q - 2 * (dX_D1 P q * X P q + dY_D1 P q * Y P q + dZ_D1 P q * Z P q) * ((-1) * P.a ^ 2 + (X P q) ^ 2 + (Y P q) ^ 2 + (Z P q) ^ 2)) /
    (Tq P q) ^ 3 + (1 / 2) * ((-4) * dZ_D1 P q * dZ_D2 P q * P.a ^ 2 - 4 * ddZ_D1D2 P q * P.a ^ 2 * Z P q - 4 * (dX_D1 P q * X P q + dY_D1 P q * Y P q + dZ_D1 P q * Z P
    q) * (1 * dX_D2 P q * X P q + 1 * dY_D2 P q * Y P q + 1 * dZ_D2 P q * Z P q) + ((-2) * dX_D1 P q * dX_D2 P q - 2 * dY_D1 P q * dY_D2 P q - 2 * dZ_D1 P q * dZ_D2 P q -
    2 * ddX_D1D2 P q * X P q - 2 * ddY_D1D2 P q * Y P q - 2 * ddZ_D1D2 P q * Z P q) * (-P.a ^ 2 + (X P q) ^ 2 + (Y P q) ^ 2 + (Z P q) ^ 2)) * (4 * dZ_D1 P q * P.a ^ 2 * Z
    P q + 2 * (dX_D1 P q * X P q + dY_D1 P q * Y P q + dZ_D1 P q * Z P q) * ((-1) * P.a ^ 2 + (X P q) ^ 2 + (Y P q) ^ 2 + (Z P q) ^ 2)) / (Tq P q) ^ 3 + (1 / 2) * (4 *
    (dZ_D1 P q) ^ 2 * P.a ^ 2 + 4 * ddZ_D1D1 P q * P.a ^ 2 * Z P q + 4 * (1 * dX_D1 P q * X P q + 1 * dY_D1 P q * Y P q + 1 * dZ_D1 P q * Z P q) ^ 2 + (2 * (dX_D1 P q) ^
    2 + 2 * (dY_D1 P q) ^ 2 + 2 * (dZ_D1 P q) ^ 2 + 2 * ddX_D1D1 P q * X P q + 2 * ddY_D1D1 P q * Y P q + 2 * ddZ_D1D1 P q * Z P q) * (-P.a ^ 2 + (X P q) ^ 2 + (Y P q) ^
    2 + (Z P q) ^ 2)) * ((-4) * dZ_D2 P q * P.a ^ 2 * Z P q - 2 * (dX_D2 P q * X P q + dY_D2 P q * Y P q + dZ_D2 P q * Z P q) * ((-1) * P.a ^ 2 + (X P q) ^ 2 + (Y P q) ^
    2 + (Z P q) ^ 2)) / (Tq P q) ^ 3 + (1 / 2) * ((-12) * dZ_D1 P q * P.a ^ 2 * Z P q - 6 * (dX_D1 P q * X P q + dY_D1 P q * Y P q + dZ_D1 P q * Z P q) * ((-1) * P.a ^ 2
    + (X P q) ^ 2 + (Y P q) ^ 2 + (Z P q) ^ 2)) * (4 * dZ_D1 P q * P.a ^ 2 * Z P q + 2 * (dX_D1 P q * X P q + dY_D1 P q * Y P q + dZ_D1 P q * Z P q) * ((-1) * P.a ^ 2 +
    (X P q) ^ 2 + (Y P q) ^ 2 + (Z P q) ^ 2)) * ((-4) * dZ_D2 P q * P.a ^ 2 * Z P q - 2 * (dX_D2 P q * X P q + dY_D2 P q * Y P q + dZ_D2 P q * Z P q) * ((-1) * P.a ^ 2 +
    (X P q) ^ 2 + (Y P q) ^ 2 + (Z P q) ^ 2)) / (Tq P q) ^ 5) / Sq P q + P.lit * (1 * (dX_D1 P q) ^ 2 + 1 * (dY_D1 P q) ^ 2 + 1 * (dZ_D1 P q) ^ 2 + 1 * ddX_D1D1 P q * X P
    q + 1 * ddY_D1D1 P q * Y P q + 1 * ddZ_D1D1 P q * Z P q - 2 * (dZ_D1 P q * Z P q * ((-1) * P.a ^ 2 - 1 * (X P q) ^ 2 - 1 * (Y P q) ^ 2 - 1 * (Z P q) ^ 2) + dX_D1 P q
    * X P q * (1 * P.a ^ 2 - 1 * (X P q) ^ 2 - 1 * (Y P q) ^ 2 - 1 * (Z P q) ^ 2) + dY_D1 P q * Y P q * (1 * P.a ^ 2 - 1 * (X P q) ^ 2 - 1 * (Y P q) ^ 2 - 1 * (Z P q) ^
    2)) ^ 2 / (Tq P q) ^ 3 + (1 / 2) * (4 * (dZ_D1 P q) ^ 2 * P.a ^ 2 + 4 * ddZ_D1D1 P q * P.a ^ 2 * Z P q + 4 * (1 * dX_D1 P q * X P q + 1 * dY_D1 P q * Y P q + 1 *
    dZ_D1 P q * Z P q) ^ 2 + (2 * (dX_D1 P q) ^ 2 + 2 * (dY_D1 P q) ^ 2 + 2 * (dZ_D1 P q) ^ 2 + 2 * ddX_D1D1 P q * X P q + 2 * ddY_D1D1 P q * Y P q + 2 * ddZ_D1D1 P q * Z
    P q) * (-P.a ^ 2 + (X P q) ^ 2 + (Y P q) ^ 2 + (Z P q) ^ 2)) / Tq P q) * ((-1) * dX_D2 P q * X P q - 1 * dY_D2 P q * Y P q - 1 * dZ_D2 P q * Z P q - (1 / 2) * (4 *
    dZ_D2 P q * P.a ^ 2 * Z P q + 2 * (dX_D2 P q * X P q + dY_D2 P q * Y P q + dZ_D2 P q * Z P q) * ((-1) * P.a ^ 2 + (X P q) ^ 2 + (Y P q) ^ 2 + (Z P q) ^ 2)) / Tq P q)
    / (Sq P q) ^ 3 + P.lit * ((-3) * dX_D1 P q * X P q - 3 * dY_D1 P q * Y P q - 3 * dZ_D1 P q * Z P q - (3 / 2) * (4 * dZ_D1 P q * P.a ^ 2 * Z P q + 2 * (dX_D1 P q * X P
    q + dY_D1 P q * Y P q + dZ_D1 P q * Z P q) * ((-1) * P.a ^ 2 + (X P q) ^ 2 + (Y P q) ^ 2 + (Z P q) ^ 2)) / Tq P q) * (1 * dX_D1 P q * X P q + 1 * dY_D1 P q * Y P q +
    1 * dZ_D1 P q * Z P q + (1 / 2) * (4 * dZ_D1 P q * P.a ^ 2 * Z P q + 2 * (dX_D1 P q * X P q + dY_D1 P q * Y P q + dZ_D1 P q * Z P q) * ((-1) * P.a ^ 2 + (X P q) ^ 2 +
    (Y P q) ^ 2 + (Z P q) ^ 2)) / Tq P q) * ((-1) * dX_D2 P q * X P q - 1 * dY_D2 P q * Y P q - 1 * dZ_D2 P q * Z P q - (1 / 2) * (4 * dZ_D2 P q * P.a ^ 2 * Z P q + 2 *
    (dX_D2 P q * X P q + dY_D2 P q * Y P q + dZ_D2 P q * Z P q) * ((-1) * P.a ^ 2 + (X P q) ^ 2 + (Y P q) ^ 2 + (Z P q) ^ 2)) / Tq P q) / (Sq P q) ^ 5 + P.lit * (1 *
    dX_D1 P q * X P q + 1 * dY_D1 P q * Y P q + 1 * dZ_D1 P q * Z P q + (1 / 2) * (4 * dZ_D1 P q * P.a ^ 2 * Z P q + 2 * (dX_D1 P q * X P q + dY_D1 P q * Y P q + dZ_D1 P
    q * Z P q) * ((-1) * P.a ^ 2 + (X P q) ^ 2 + (Y P q) ^ 2 + (Z P q) ^ 2)) / Tq P q) * ((-1) * dX_D1 P q * dX_D2 P q - 1 * dY_D1 P q * dY_D2 P q - 1 * dZ_D1 P q * dZ_D2
    P q - 1 * ddX_D1D2 P q * X P q - 1 * ddY_D1D2 P q * Y P q - 1 * ddZ_D1D2 P q * Z P q - (1 / 2) * (4 * dZ_D1 P q * dZ_D2 P q * P.a ^ 2 + 4 * ddZ_D1D2 P q * P.a ^ 2 * Z
    P q + 4 * (dX_D1 P q * X P q + dY_D1 P q * Y P q + dZ_D1 P q * Z P q) * (1 * dX_D2 P q * X P q + 1 * dY_D2 P q * Y P q + 1 * dZ_D2 P q * Z P q) + (2 * dX_D1 P q *
    dX_D2 P q + 2 * dY_D1 P q * dY_D2 P q + 2 * dZ_D1 P q * dZ_D2 P q + 2 * ddX_D1D2 P q * X P q + 2 * ddY_D1D2 P q * Y P q + 2 * ddZ_D1D2 P q * Z P q) * (-P.a ^ 2 + (X P
    q) ^ 2 + (Y P q) ^ 2 + (Z P q) ^ 2)) / Tq P q - (1 / 2) * ((-4) * dZ_D1 P q * P.a ^ 2 * Z P q - 2 * (dX_D1 P q * X P q + dY_D1 P q * Y P q + dZ_D1 P q * Z P q) *
    ((-1) * P.a ^ 2 + (X P q) ^ 2 + (Y P q) ^ 2 + (Z P q) ^ 2)) * (4 * dZ_D2 P q * P.a ^ 2 * Z P q + 2 * (dX_D2 P q * X P q + dY_D2 P q * Y P q + dZ_D2 P q * Z P q) *
    ((-1) * P.a ^ 2 + (X P q) ^ 2 + (Y P q) ^ 2 + (Z P q) ^ 2)) / (Tq P q) ^ 3) / (Sq P q) ^ 3

/-- Free_Data/fd_KerrSchild_R_X_Y_Z.c:2104-2308 `fd_ks_dddR_D1D2D2` -/
noncomputable def dddR_D1D2D2 (P : Par) (q : Pt) : ℝ :=
  P.lit * ((-1) * (dX_D2 P q) ^ 2 - 1 * (dY_D2 P q) ^ 2 - 1 * (dZ_D2 P q) ^ 2 - 1 * ddX_D2D2 P q * X P q - 1 * ddY_D2D2 P q * Y P q - 1 * ddZ_D2D2 P q * Z P q + 2 *
    (dZ_D2 P q * Z P q * ((-1) * P.a ^ 2 - 1 * (X P q) ^ 2 - 1 * (Y P q) ^ 2 - 1 * (Z P q) ^ 2) + dX_D2 P q * X P q * (1 * P.a ^ 2 - 1 * (X P q) ^ 2 - 1 * (Y P q) ^ 2 - 1
    * (Z P q) ^ 2) + dY_D2 P q * Y P q * (1 * P.a ^ 2 - 1 * (X P q) ^ 2 - 1 * (Y P q) ^ 2 - 1 * (Z P q) ^ 2)) ^ 2 / (Tq P q) ^ 3 - (1 / 2) * (4 * (dZ_D2 P q) ^ 2 * P.a ^
    2 + 4 * ddZ_D2D2 P q * P.a ^ 2 * Z P q + 4 * (1 * dX_D2 P q * X P q + 1 * dY_D2 P q * Y P q + 1 * dZ_D2 P q * Z P q) ^ 2 + (2 * (dX_D2 P q) ^ 2 + 2 * (dY_D2 P q) ^ 2
    + 2 * (dZ_D2 P q) ^ 2 + 2 * ddX_D2D2 P q * X P q + 2 * ddY_D2D2 P q * Y P q + 2 * ddZ_D2D2 P q * Z P q) * (-P.a ^ 2 + (X P q) ^ 2 + (Y P q) ^ 2 + (Z P q) ^ 2)) / Tq P
    q) * (1 * dX_D1 P q * X P q + 1 * dY_D1 P q * Y P q + 1 * dZ_D1 P q * Z P q + (1 / 2) * (4 * dZ_D1 P q * P.a ^ 2 * Z P q + 2 * (dX_D1 P q * X P q + dY_D1 P q * Y P q
    + dZ_D1 P q * Z P q) * ((-1) * P.a ^ 2 + (X P q) ^ 2 + (Y P q) ^ 2 + (Z P q) ^ 2)) / Tq P q) / (Sq P q) ^ 3 + P.lit * (1 * dX_D1 P q * ddX_D2D2 P q + 1 * dY_D1 P q *
    ddY_D2D2 P q + 1 * dZ_D1 P q * ddZ_D2D2 P q + 2 * dX_D2 P q * ddX_D1D2 P q + 2 * dY_D2 P q * ddY_D1D2 P q + 2 * dZ_D2 P q * ddZ_D1D2 P q + 1 * dddX_D1D2D2 P q * X P q
    + 1 * dddY_D1D2D2 P q * Y P q + 1 * dddZ_D1D2D2 P q * Z P q + (1 / 2) * (4 * dZ_D1 P q * ddZ_D2D2 P q * P.a ^ 2 + 8 * dZ_D2 P q * ddZ_D1D2 P q * P.a ^ 2 + 4 *
    dddZ_D1D2D2 P q * P.a ^ 2 * Z P q + 4 * (1 * dX_D1 P q * X P q + 1 * dY_D1 P q * Y P q + 1 * dZ_D1 P q * Z P q) * ((dX_D2 P q) ^ 2 + (dY_D2 P q) ^ 2 + (dZ_D2 P q) ^ 2
    + ddX_D2D2 P q * X P q + ddY_D2D2 P q * Y P q + ddZ_D2D2 P q * Z P q) + 8 * (dX_D2 P q * X P q + dY_D2 P q * Y P q + dZ_D2 P q * Z P q) * (1 * dX_D1 P q * dX_D2 P q +
    1 * dY_D1 P q * dY_D2 P q + 1 * dZ_D1 P q * dZ_D2 P q + 1 * ddX_D1D2 P q * X P q + 1 * ddY_D1D2 P q * Y P q + 1 * ddZ_D1D2 P q * Z P q) + (2 * dX_D1 P q * ddX_D2D2 P
    q + 2 * dY_D1 P q * ddY_D2D2 P q + 2 * dZ_D1 P q * ddZ_D2D2 P q + 4 * dX_D2 P q * ddX_D1D2 P q + 4 * dY_D2 P q * ddY_D1D2 P q + 4 * dZ_D2 P q * ddZ_D1D2 P q + 2 *
    dddX_D1D2D2 P q * X P q + 2 * dddY_D1D2D2 P q * Y P q + 2 * dddZ_D1D2D2 P q * Z P q) * (-P.a ^ 2 + (X P q) ^ 2 + (Y P q) ^ 2 + (Z P q) ^ 2)) / Tq P q + (1 / 2) *
    ((-4) * (dZ_D2 P q) ^ 2 * P.a ^ 2 - 4 * ddZ_D2D2 P q * P.a ^ 2 * Z P q - 4 * (dX_D2 P q * X P q + dY_D2 P q * Y P q + dZ_D2 P q * Z P q) ^ 2 + ((-2) * (dX_D2 P q) ^ 2
    - 2 * (dY_D2 P q) ^ 2 - 2 * (dZ_D2 P q) ^ 2 - 2 * ddX_D2D2 P q * X P q - 2 * ddY_D2D2 P q * Y P q - 2 * ddZ_D2D2 P q * Z P q) * (-P.a ^ 2 + (X P q) ^ 2 + (Y P q) ^ 2
    + (Z P q) ^ 2)) * (4 * dZ_D1 P q * P.a ^ 2 * Z P q + 2 * (dX_D1 P q * X P q + dY_D1 P q * Y P q + dZ_D1 P q * Z P q) * ((-1) * P.a ^ 2 + (X P q) ^ 2 + (Y P q) ^ 2 +
    (Z P q) ^ 2)) / (Tq P q) ^ 3 + 1 * (4 * dZ_D1 P q * dZ_D2 P q * P.a ^ 2 + 4 * ddZ_D1D2 P q * P.a ^ 2 * Z P q + 4 * (1 * dX_D1 P q * X P q + 1 * dY_D1 P q * Y P q + 1
    * dZ_D1 P q * Z P q) * (dX_D2 P q * X P q + dY_D2 P q * Y P q + dZ_D2 P q * Z P q) + (2 * dX_D1 P q * dX_D2 P q + 2 * dY_D1 P q * dY_D2 P q + 2 * dZ_D1 P q * dZ_D2 P
    q + 2 * ddX_D1D2 P q * X P q + 2 * ddY_D1D2 P q * Y P q + 2 * ddZ_D1D2 P q * Z P q) * (-P.a ^ 2 + (X P q) ^ 2 + (Y P q) ^ 2 + (Z P q) ^ 2)) * ((-4) * dZ_D2 P q * P.a
    ^ 2 * Z P q - 2 * (dX_D2 P q * X P q + dY_D2 P q * Y P q + dZ_D2 P q * Z P q) * ((-1) * P.a ^ 2 + (X P q) ^ 2 + (Y P q) ^ 2 + (Z P q) ^ 2)) / (Tq P q) ^ 3 + (1 / 2) *
    (4 * dZ_D1 P q * P.a ^ 2 * Z P q + 2 * (dX_D1 P q * X P q + dY_D1 P q * Y P q + dZ_D1 P q * Z P q) * ((-1) * P.a ^ 2 + (X P q) ^ 2 + (Y P q) ^ 2 + (Z P q) ^ 2)) *
    ((-12) * dZ_D2 P q * P.a ^ 2 * Z P q - 6 * (dX_D2 P q * X P q + dY_D2 P q * Y P q + dZ_D2 P q * Z P q) * ((-1) * P.a ^ 2 + (X P q) ^ 2 + (Y P q) ^ 2 + (Z P q) ^ 2)) *
    ((-4) * dZ_D2 P q * P.a ^ 2 * Z P q - 2 * (dX_D2 P q * X P q + dY_D2 P q * Y P q + dZ_D2 P q * Z P q) * ((-1) * P.a ^ 2 + (X P q) ^ 2 + (Y P q) ^ 2 + (Z P q) ^ 2)) /
    (Tq P q) ^ 5) / Sq P q + (2 * P.lit) * (1 * dX_D1 P q * dX_D2 P q + 1 * dY_D1 P q * dY_D2 P q + 1 * dZ_D1 P q * dZ_D2 P q + 1 * ddX_D1D2 P q * X P q + 1 * ddY_D1D2 P
    q * Y P q + 1 * ddZ_D1D2 P q * Z P q + (1 / 2) * (4 * dZ_D1 P q * dZ_D2 P q * P.a ^ 2 + 4 * ddZ_D1D2 P q * P.a ^ 2 * Z P q + 4 * (1 * dX_D1 P q * X P q + 1 * dY_D1 P
    q * Y P q + 1 * dZ_D1 P q * Z P q) * (dX_D2 P q * X P q + dY_D2 P q * Y P q + dZ_D2 P q * Z P q) + (2 * dX_D1 P q * dX_D2 P q + 2 * dY_D1 P q * dY_D2 P q + 2 * dZ_D1
    P q * dZ_D2 P q + 2 * ddX_D1D2 P q * X P q + 2 * ddY_D1D2 P q * Y P q + 2 * ddZ_D1D2 P q * Z P q) * (-P.a ^ 2 + (X P q) ^ 2 + (Y P q) ^ 2 + (Z P q) ^ 2)) / Tq P q +
    (1 / 2) * (4 * dZ_D1 P q * P.a ^ 2 * Z P q + 2 * (dX_D1 P q * X P q + dY_D1 P q * Y P q + dZ_D1 P q * Z P q) * ((-1) * P.a ^ 2 + (X P q) ^ 2 + (Y P q) ^ 2 + (Z P q) ^
    2)) * ((-4) * dZ_D2 P q * P.a ^ 2 * Z P q - 2 * (dX_D2 P q * X P q + dY_D2 P q * Y P q + dZ_D2 P q * Z P q) * ((-1) * P.a ^ 2 + (X P q) ^ 2 + (Y P q) ^ 2 + (Z P q) ^
    2)) / (Tq P q) ^ 3) * ((-1) * dX_D2 P q * X P q - 1 * dY_D2 P q * Y P q - 1 * dZ_D2 P q * Z P q - (1 / 2) * (4 * dZ_D2 P q * P.a ^ 2 * Z P q + 2 * (dX_D2 P q * X P q
    + dY_D2 P q * Y P q + dZ_D2 P q * Z P q) * ((-1) * P.a ^ 2 + (X P q) ^ 2 + (Y P q) ^ 2 + (Z P q) ^ 2)) / Tq P q) / (Sq P q) ^ 3 + P.lit * (1 * dX_D1 P q * X P q + 1 *
    dY_D1 P q * Y P q + 1 * dZ_D1 P q * Z P q + (1 / 2) * (4 * dZ_D1 P q * P.a ^ 2 * Z P q + 2 * (dX_D1 P q * X P q + dY_D1 P q * Y P q + dZ_D1 P q * Z P q) * ((-1) * P.a
    ^ 2 + (X P q) ^ 2 + (Y P q) ^ 2 + (Z P q) ^ 2)) / Tq P q) * ((-3) * dX_D2 P q * X P q - 3 * dY_D2 P q * Y P q - 3 * dZ_D2 P q * Z P q - (3 / 2) * (4 * dZ_D2 P q * P.a
    ^ 2 * Z P q + 2 * (dX_D2 P q * X P q + dY_D2 P q * Y P q + dZ_D2 P q * Z P q) * ((-1) * P.a ^ 2 + (X P q) ^ 2 + (Y P q) ^ 2 + (Z P q) ^ 2)) / Tq P q) * ((-1) * dX_D2
    P q * X P q - 1 * dY_D2 P q * Y P q - 1 * dZ_D2 P q * Z P q - (1 / 2) * (4 * dZ_D2 P q * P.a ^ 2 * Z P q + 2 * (dX_D2 P q * X P q + dY_D2 P q * Y P q + dZ_D2 P q * Z
    P q) * ((-1) * P.a ^ 2 + (X P q) ^ 2 + (Y P q) ^ 2 + (Z P q) ^ 2)) / Tq P q) / (Sq P q) ^ 5

/-- Free_Data/fd_KerrSchild_R_X_Y_Z.c:3332-3600 `fd_ks_dddR_D2D2D0` -/
noncomputable def dddR_D2D2D0 (P : Par) (q : Pt) : ℝ :=
  P.lit * (1 * (dX_D2 P q) ^ 2 + 1 * (dY_D2 P q) ^ 2 + 1 * (dZ_D2 P q) ^ 2 + 1 * ddX_D2D2 P q * X P q + 1 * ddY_D2D2 P q * Y P q + 1 * ddZ_D2D2 P q * Z P q - 2 * (dZ_D2 P
    q * Z P q * ((-1) * P.a ^ 2 - 1 * (X P q) ^ 2 - 1 * (Y P q) ^ 2 - 1 * (Z P q) ^ 2) + dX_D2 P q * X P q * (1 * P.a ^ 2 - 1 * (X P q) ^ 2 - 1 * (Y P q) ^ 2 - 1 * (Z P
    q) ^ 2) + dY_D2 P q * Y P q * (1 * P.a ^ 2 - 1 * (X P q) ^ 2 - 1 * (Y P q) ^ 2 - 1 * (Z P q) ^ 2)) ^ 2 / (Tq P q) ^ 3 + (1 / 2) * (4 * (dZ_D2 P q) ^ 2 * P.a ^ 2 + 4 *
    ddZ_D2D2 P q * P.a ^ 2 * Z P q + 4 * (1 * dX_D2 P q * X P q + 1 * dY_D2 P q * Y P q + 1 * dZ_D2 P q * Z P q) ^ 2 + (2 * (dX_D2 P q) ^ 2 + 2 * (dY_D2 P q) ^ 2 + 2 *
    (dZ_D2 P q) ^ 2 + 2 * ddX_D2D2 P q * X P q + 2 * ddY_D2D2 P q * Y P q + 2 * ddZ_D2D2 P q * Z P q) * (-P.a ^ 2 + (X P q) ^ 2 + (Y P q) ^ 2 + (Z P q) ^ 2)) / Tq P q) *
    ((-1) * dX_D0 P q * X P q - 1 * dY_D0 P q * Y P q - 1 * dZ_D0 P q * Z P q - (1 / 2) * (4 * dZ_D0 P q * P.a ^ 2 * Z P q + 2 * (dX_D0 P q * X P q + dY_D0 P q * Y P q +
    dZ_D0 P q * Z P q) * ((-1) * P.a ^ 2 + (X P q) ^ 2 + (Y P q) ^ 2 + (Z P q) ^ 2)) / Tq P q) / (Sq P q) ^ 3 + P.lit * ((-3) * dX_D0 P q * X P q - 3 * dY_D0 P q * Y P q
    - 3 * dZ_D0 P q * Z P q - (3 / 2) * (4 * dZ_D0 P q * P.a ^ 2 * Z P q + 2 * (dX_D0 P q * X P q + dY_D0 P q * Y P q + dZ_D0 P q * Z P q) * ((-1) * P.a ^ 2 + (X P q) ^ 2
    + (Y P q) ^ 2 + (Z P q) ^ 2)) / Tq P q) * ((-1) * dX_D2 P q * X P q - 1 * dY_D2 P q * Y P q - 1 * dZ_D2 P q * Z P q - (1 / 2) * (4 * dZ_D2 P q * P.a ^ 2 * Z P q + 2 *
    (dX_D2 P q * X P q + dY_D2 P q * Y P q + dZ_D2 P q * Z P q) * ((-1) * P.a ^ 2 + (X P q) ^ 2 + (Y P q) ^ 2 + (Z P q) ^ 2)) / Tq P q) * (1 * dX_D2 P q * X P q + 1 *
    dY_D2 P q * Y P q + 1 * dZ_D2 P q * Z P q + (1 / 2) * (4 * dZ_D2 P q * P.a ^ 2 * Z P q + 2 * (dX_D2 P q * X P q + dY_D2 P q * Y P q + dZ_D2 P q * Z P q) * ((-1) * P.a
    ^ 2 + (X P q) ^ 2 + (Y P q) ^ 2 + (Z P q) ^ 2)) / Tq P q) / (Sq P q) ^ 5 + P.lit * (1 * dX_D2 P q * X P q + 1 * dY_D2 P q * Y P q + 1 * dZ_D2 P q * Z P q + (1 / 2) *
    (4 * dZ_D2 P q * P.a ^ 2 * Z P q + 2 * (dX_D2 P q * X P q + dY_D2 P q * Y P q + dZ_D2 P q * Z P q) * ((-1) * P.a ^ 2 + (X P q) ^ 2 + (Y P q) ^ 2 + (Z P q) ^ 2)) / Tq
    P q) * ((-1) * dX_D0 P q * dX_D2 P q - 1 * dY_D0 P q * dY_D2 P q - 1 * dZ_D0 P q * dZ_D2 P q - 1 * ddX_D0D2 P q * X P q - 1 * ddY_D0D2 P q * Y P q - 1 * ddZ_D0D2 P q
    * Z P q - (1 / 2) * (4 * dZ_D0 P q * dZ_D2 P q * P.a ^ 2 + 4 * ddZ_D0D2 P q * P.a ^ 2 * Z P q + 4 * (dX_D0 P q * X P q + dY_D0 P q * Y P q + dZ_D0 P q * Z P q) * (1 *
    dX_D2 P q * X P q + 1 * dY_D2 P q * Y P q + 1 * dZ_D2 P q * Z P q) + (2 * dX_D0 P q * dX_D2 P q + 2 * dY_D0 P q * dY_D2 P q + 2 * dZ_D0 P q * dZ_D2 P q + 2 * ddX_D0D2
    P q * X P q + 2 * ddY_D0D2 P q * Y P q + 2 * ddZ_D0D2 P q * Z P q) * (-P.a ^ 2 + (X P q) ^ 2 + (Y P q) ^ 2 + (Z P q) ^ 2)) / Tq P q - (1 / 2) * ((-4) * dZ_D0 P q *
    P.a ^ 2 * Z P q - 2 * (dX_D0 P q * X P q + dY_D0 P q * Y P q + dZ_D0 P q * Z P q) * ((-1) * P.a ^ 2 + (X P q) ^ 2 + (Y P q) ^ 2 + (Z P q) ^ 2)) * (4 * dZ_D2 P q * P.a
    ^ 2 * Z P q + 2 * (dX_D2 P q * X P q + dY_D2 P q * Y P q + dZ_D2 P q * Z P q) * ((-1) * P.a ^ 2 + (X P q) ^ 2 + (Y P q) ^ 2 + (Z P q) ^ 2)) / (Tq P q) ^ 3) / (Sq P q)
    ^ 3 + P.lit * ((-1) * dX_D2 P q * X P q - 1 * dY_D2 P q * Y P q - 1 * dZ_D2 P q * Z P q - (1 / 2) * (4 * dZ_D2 P q * P.a ^ 2 * Z P q + 2 * (dX_D2 P q * X P q + dY_D2
    P q * Y P q + dZ_D2 P q * Z P q) * ((-1) * P.a ^ 2 + (X P q) ^ 2 + (Y P q) ^ 2 + (Z P q) ^ 2)) / Tq P q) * (1 * dX_D0 P q * dX_D2 P q + 1 * dY_D0 P q * dY_D2 P q + 1
    * dZ_D0 P q * dZ_D2 P q + 1 * ddX_D0D2 P q * X P q + 1 * ddY_D0D2 P q * Y P q + 1 * ddZ_D0D2 P q * Z P q + (1 / 2) * (4 * dZ_D0 P q * dZ_D2 P q * P.a ^ 2 + 4 *
    ddZ_D0D2 P q * P.a ^ 2 * Z P q + 4 * (dX_D0 P q * X P q + dY_D0 P q * Y P q + dZ_D0 P q * Z P q) * (1 * dX_D2 P q * X P q + 1 * dY_D2 P q * Y P q + 1 * dZ_D2 P q * Z
    P q) + (2 * dX_D0 P q * dX_D2 P q + 2 * dY_D0 P q * dY_D2 P q + 2 * dZ_D0 P q * dZ_D2 P q + 2 * ddX_D0D2 P q * X P q + 2 * ddY_D0D2 P q * Y P q + 2 * ddZ_D0D2 P q * Z
    P q) * (-P.a ^ 2 + (X P q) ^ 2 + (Y P q) ^ 2 + (Z P q) ^ 2)) / Tq P q + (1 / 2) * ((-4) * dZ_D0 P q * P.a ^ 2 * Z P q - 2 * (dX_D0 P q * X P q + dY_D0 P q * Y P q +
    dZ_D0 P q * Z P q) * ((-1) * P.a ^ 2 + (X P q) ^ 2 + (Y P q) ^ 2 + (Z P q) ^ 2)) * (4 * dZ_D2 P q * P.a ^ 2 * Z P q + 2 * (dX_D2 P q * X P q + dY_D2 P q * Y P q +
    dZ_D2 P q * Z P q) * ((-1) * P.a ^ 2 + (X P q) ^ 2 + (Y P q) ^ 2 + (Z P q) ^ 2)) / (Tq P q) ^ 3) / (Sq P q) ^ 3 + P.lit * (1 * dX_D0 P q * ddX_D2D2 P q + 1 * dY_D0 P
    q * ddY_D2D2 P q + 1 * dZ_D0 P q * ddZ_D2D2 P q + 2 * dX_D2 P q * ddX_D0D2 P q + 2 * dY_D2 P q * ddY_D0D2 P q + 2 * dZ_D2 P q * ddZ_D0D2 P q + 1 * dddX_D0D2D2 P q * X
    P q + 1 * dddY_D0D2D2 P q * Y P q + 1 * dddZ_D0D2D2 P q * Z P q + (1 / 2) * (4 * dZ_D0 P q * ddZ_D2D2 P q * P.a ^ 2 + 8 * dZ_D2 P q * ddZ_D0D2 P q * P.a ^ 2 + 4 *
    dddZ_D0D2D2 P q * P.a ^ 2 * Z P q + 4 * (dX_D0 P q * X P q + dY_D0 P q * Y P q + dZ_D0 P q * Z P q) * (1 * (dX_D2 P q) ^ 2 + 1 * (dY_D2 P q) ^ 2 + 1 * (dZ_D2 P q) ^ 2
    + 1 * ddX_D2D2 P q * X P q + 1 * ddY_D2D2 P q * Y P q + 1 * ddZ_D2D2 P q * Z P q) + 4 * (1 * dX_D2 P q * X P q + 1 * dY_D2 P q * Y P q + 1 * dZ_D2 P q * Z P q) *
    (dX_D0 P q * dX_D2 P q + dY_D0 P q * dY_D2 P q + dZ_D0 P q * dZ_D2 P q + ddX_D0D2 P q * X P q + ddY_D0D2 P q * Y P q + ddZ_D0D2 P q * Z P q) + 4 * (dX_D2 P q * X P q
    + dY_D2 P q * Y P q + dZ_D2 P q * Z P q) * (1 * dX_D0 P q * dX_D2 P q + 1 * dY_D0 P q * dY_D2 P q + 1 * dZ_D0 P q * dZ_D2 P q + 1 * ddX_D0D2 P q * X P q + 1 *
    ddY_D0D2 P q * Y P q + 1 * ddZ_D0D2 P q * Z P q) + (2 * dX_D0 P q * ddX_D2D2 P q + 2 * dY_D0 P q * ddY_D2D2 P q + 2 * dZ_D0 P q * ddZ_D2D2 P q + 4 * dX_D2 P q *
    ddX_D0D2 P q + 4 * dY_D2 P q * ddY_D0D2 P q + 4 * dZ_D2 P q * ddZ_D0D2 P q + 2 * dddX_D0D2D2 P q * X P q + 2 * dddY_D0D2D2 P q * Y P q + 2 * dddZ_D0D2D2 P q * Z P q)
    * (-P.a ^ 2 + (X P q) ^ 2 + (Y P q) ^ 2 + (Z P q) ^ 2)) / Tq P q + (1 / 2) * (4 * (dZ_D2 P q) ^ 2 * P.a ^ 2 + 4 * ddZ_D2D2 P q * P.a ^ 2 * Z P q + 4 * (1 * dX_D2 P q
    * X P q + 1 * dY_D2 P q * Y P q + 1 * dZ_D2 P q * Z P q) ^ 2 + (2 * (dX_D2 P q) ^ 2 + 2 * (dY_D2 P q) ^ 2 + 2 * (dZ_D2 P q) ^ 2 + 2 * ddX_D2D2 P q * X P q + 2 *
    ddY_D2D2 P q * Y P q + 2 * ddZ_D2D2 P q * Z P q) * (-P.a ^ 2 + (X P q) ^ 2 + (Y P q) ^ 2 + (Z P q) ^ 2)) * ((-4) * dZ_D0 P q * P.a ^ 2 * Z P q - 2 * (dX_D0 P q * X P
    q + dY_D0 P q * Y P q + dZ_D0 P q * Z P q) * ((-1) * P.a ^ 2 + (X P q) ^ 2 + (Y P q) ^ 2 + (Z P q) ^ 2)) / (Tq P q) ^ 3 + (1 / 2) * (4 * dZ_D0 P q * dZ_D2 P q * P.a ^
    2 + 4 * ddZ_D0D2 P q * P.a ^ 2 * Z P q + 4 * (dX_D0 P q * X P q + dY_D0 P q * Y P q + dZ_D0 P q * Z P q) * (1 * dX_D2 P q * X P q + 1 * dY_D2 P q * Y P q + 1 * dZ_D2
    P q * Z P q) + (2 * dX_D0 P q * dX_D2 P q + 2 * dY_D0 P q * dY_D2 P q + 2 * dZ_D0 P q * dZ_D2 P q + 2 * ddX_D0D2 P q * X P q + 2 * ddY_D0D2 P q * Y P q + 2 * ddZ_D0D2
    P q * Z P q) * (-P.a ^ 2 + (X P q) ^ 2 + (Y P q) ^ 2 + (Z P q) ^ 2)) * ((-4) * dZ_D2 P q * P.a ^ 2 * Z P q - 2 * (dX_D2 P q * X P q + dY_D2 P q * Y P q + dZ_D2 P q *
    Z P q) * ((-1) * P.a ^ 2 + (X P q) ^ 2 + (Y P q) ^ 2 + (Z P q) ^ 2)) / (Tq P q) ^ 3 + (1 / 2) * ((-4) * dZ_D0 P q * dZ_D2 P q * P.a ^ 2 - 4 * ddZ_D0D2 P q * P.a ^ 2 *
    Z P q - 4 * (dX_D0 P q * X P q + dY_D0 P q * Y P q + dZ_D0 P q * Z P q) * (1 * dX_D2 P q * X P q + 1 * dY_D2 P q * Y P q + 1 * dZ_D2 P q * Z P q) + ((-2) * dX_D0 P q
    * dX_D2 P q - 2 * dY_D0 P q * dY_D2 P q - 2 * dZ_D0 P q * dZ_D2 P q - 2 * ddX_D0D2 P q * X P q - 2 * ddY_D0D2 P q * Y P q - 2 * ddZ_D0D2 P q * Z P q) * (-P.a ^ 2 + (X
    P q) ^ 2 + (Y P q) ^ 2 + (Z P q) ^ 2)) * (4 * dZ_D2 P q * P.a ^ 2 * Z P q + 2 * (dX_D2 P q * X P q + dY_D2 P q * Y P q + dZ_D2 P q * Z P q) * ((-1) * P.a ^ 2 + (X P
    q) ^ 2 + (Y P q) ^ 2 + (Z P q) ^ 2)) / (Tq P q) ^ 3 + (1 / 2) * ((-12) * dZ_D0 P q * P.a ^ 2 * Z P q - 6 * (dX_D0 P q * X P q + dY_D0 P q * Y P q + dZ_D0 P q * Z P q)
    * ((-1) * P.a ^ 2 + (X P q) ^ 2 + (Y P q) ^ 2 + (Z P q) ^ 2)) * ((-4) * dZ_D2 P q * P.a ^ 2 * Z P q - 2 * (dX_D2 P q * X P q + dY_D2 P q * Y P q + dZ_D2 P q * Z P q)
    * ((-1) * P.a ^ 2 + (X P q) ^ 2 + (Y P q) ^ 2 + (Z P q) ^ 2)) * (4 * dZ_D2 P q * P.a ^ 2 * Z P q + 2 * (dX_D2 P q * X P q + dY_D2 P q * Y P q + dZ_D2 P q * Z P q) *
    ((-1) * P.a ^ 2 + (X P q) ^ 2 + (Y P q) ^ 2 + (Z P q) ^ 2)) / (Tq P q) ^ 5) / Sq P q

/-- Free_Data/fd_KerrSchild_R_X_Y_Z.c:4355-4623 `fd_ks_dddR_D2D2D1` -/
noncomputable def dddR_D2D2D1 (P : Par) (q : Pt) : ℝ :=
  P.lit * (1 * (dX_D2 P q) ^ 2 + 1 * (dY_D2 P q) ^ 2 + 1 * (dZ_D2 P q) ^ 2 + 1 * ddX_D2D2 P q * X P q + 1 * ddY_D2D2 P q * Y P q + 1 * ddZ_D2D2 P q * Z P q - 2 * (dZ_D2 P
    q * Z P q * ((-1) * P.a ^ 2 - 1 * (X P q) ^ 2 - 1 * (Y P q) ^ 2 - 1 * (Z P q) ^ 2) + dX_D2 P q * X P q * (1 * P.a ^ 2 - 1 * (X P q) ^ 2 - 1 * (Y P q) ^ 2 - 1 * (Z P
    q) ^ 2) + dY_D2 P q * Y P q * (1 * P.a ^ 2 - 1 * (X P q) ^ 2 - 1 * (Y P q) ^ 2 - 1 * (Z P q) ^ 2)) ^ 2 / (Tq P q) ^ 3 + (1 / 2) * (4 * (dZ_D2 P q) ^ 2 * P.a ^ 2 + 4 *
    ddZ_D2D2 P q * P.a ^ 2 * Z P q + 4 * (1 * dX_D2 P q * X P q + 1 * dY_D2 P q * Y P q + 1 * dZ_D2 P q * Z P q) ^ 2 + (2 * (dX_D2 P q) ^ 2 + 2 * (dY_D2 P q) ^ 2 + 2 *
    (dZ_D2 P q) ^ 2 + 2 * ddX_D2D2 P q * X P q + 2 * ddY_D2D2 P q * Y P q + 2 * ddZ_D2D2 P q * Z P q) * (-P.a ^ 2 + (X P q) ^ 2 + (Y P q) ^ 2 + (Z P q) ^ 2)) / Tq P q) *
    ((-1) * dX_D1 P q * X P q - 1 * dY_D1 P q * Y P q - 1 * dZ_D1 P q * Z P q - (1 / 2) * (4 * dZ_D1 P q * P.a ^ 2 * Z P q + 2 * (dX_D1 P q * X P q + dY_D1 P q * Y P q +
    dZ_D1 P q * Z P q) * ((-1) * P.a ^ 2 + (X P q) ^ 2 + (Y P q) ^ 2 + (Z P q) ^ 2)) / Tq P q) / (Sq P q) ^ 3 + P.lit * ((-3) * dX_D1 P q * X P q - 3 * dY_D1 P q * Y P q
    - 3 * dZ_D1 P q * Z P q - (3 / 2) * (4 * dZ_D1 P q * P.a ^ 2 * Z P q + 2 * (dX_D1 P q * X P q + dY_D1 P q * Y P q + dZ_D1 P q * Z P q) * ((-1) * P.a ^ 2 + (X P q) ^ 2
    + (Y P q) ^ 2 + (Z P q) ^ 2)) / Tq P q) * ((-1) * dX_D2 P q * X P q - 1 * dY_D2 P q * Y P q - 1 * dZ_D2 P q * Z P q - (1 / 2) * (4 * dZ_D2 P q * P.a ^ 2 * Z P q + 2 *
    (dX_D2 P q * X P q + dY_D2 P q * Y P q + dZ_D2 P q * Z P q) * ((-1) * P.a ^ 2 + (X P q) ^ 2 + (Y P q) ^ 2 + (Z P q) ^ 2)) / Tq P q) * (1 * dX_D2 P q * X P q + 1 *
    dY_D2 P q * Y P q + 1 * dZ_D2 P q * Z P q + (1 / 2) * (4 * dZ_D2 P q * P.a ^ 2 * Z P q + 2 * (dX_D2 P q * X P q + dY_D2 P q * Y P q + dZ_D2 P q * Z P q) * ((-1) * P.a
    ^ 2 + (X P q) ^ 2 + (Y P q) ^ 2 + (Z P q) ^ 2)) / Tq P q) / (Sq P q) ^ 5 + P.lit * (1 * dX_D2 P q * X P q + 1 * dY_D2 P q * Y P q + 1 * dZ_D2 P q * Z P q + (1 / 2) *
    (4 * dZ_D2 P q * P.a ^ 2 * Z P q + 2 * (dX_D2 P q * X P q + dY_D2 P q * Y P q + dZ_D2 P q * Z P q) * ((-1) * P.a ^ 2 + (X P q) ^ 2 + (Y P q) ^ 2 + (Z P q) ^ 2)) / Tq
    P q) * ((-1) * dX_D1 P q * dX_D2 P q - 1 * dY_D1 P q * dY_D2 P q - 1 * dZ_D1 P q * dZ_D2 P q - 1 * ddX_D1D2 P q * X P q - 1 * ddY_D1D2 P q * Y P q - 1 * ddZ_D1D2 P q
    * Z P q - (1 / 2) * (4 * dZ_D1 P q * dZ_D2 P q * P.a ^ 2 + 4 * ddZ_D1D2 P q * P.a ^ 2 * Z P q + 4 * (dX_D1 P q * X P q + dY_D1 P q * Y P q + dZ_D1 P q * Z P q) * (1 *
    dX_D2 P q * X P q + 1 * dY_D2 P q * Y P q + 1 * dZ_D2 P q * Z P q) + (2 * dX_D1 P q * dX_D2 P q + 2 * dY_D1 P q * dY_D2 P q + 2 * dZ_D1 P q * dZ_D2 P q + 2 * ddX_D1D2
    P q * X P q + 2 * ddY_D1D2 P q * Y P q + 2 * ddZ_D1D2 P q * Z P q) * (-P.a ^ 2 + (X P q) ^ 2 + (Y P q) ^ 2 + (Z P q) ^ 2)) / Tq P q - (1 / 2) * ((-4) * dZ_D1 P q *
    P.a ^ 2 * Z P q - 2 * (dX_D1 P q * X P q + dY_D1 P q * Y P q + dZ_D1 P q * Z P q) * ((-1) * P.a ^ 2 + (X P q) ^ 2 + (Y P q) ^ 2 + (Z P q) ^ 2)) * (4 * dZ_D2 P q * P.a
    ^ 2 * Z P q + 2 * (dX_D2 P q * X P q + dY_D2 P q * Y P q + dZ_D2 P q * Z P q) * ((-1) * P.a ^ 2 + (X P q) ^ 2 + (Y P q) ^ 2 + (Z P q) ^ 2)) / (Tq P q) ^ 3) / (Sq P q)
    ^ 3 + P.lit * ((-1) * dX_D2 P q * X P q - 1 * dY_D2 P q * Y P q - 1 * dZ_D2 P q * Z P q - (1 / 2) * (4 * dZ_D2 P q * P.a ^ 2 * Z P q + 2 * (dX_D2 P q * X P q + dY_D2
    P q * Y P q + dZ_D2 P q * Z P q) * ((-1) * P.a ^ 2 + (X P q) ^ 2 + (Y P q) ^ 2 + (Z P q) ^ 2)) / Tq P q) * (1 * dX_D1 P q * dX_D2 P q + 1 * dY_D1 P q * dY_D2 P q + 1
    * dZ_D1 P q * dZ_D2 P q + 1 * ddX_D1D2 P q * X P q + 1 * ddY_D1D2 P q * Y P q + 1 * ddZ_D1D2 P q * Z P q + (1 / 2) * (4 * dZ_D1 P q * dZ_D2 P q * P.a ^ 2 + 4 *
    ddZ_D1D2 P q * P.a ^ 2 * Z P q + 4 * (dX_D1 P q * X P q + dY_D1 P q * Y P q + dZ_D1 P q * Z P q) * (1 * dX_D2 P q * X P q + 1 * dY_D2 P q * Y P q + 1 * dZ_D2 P q * Z
    P q) + (2 * dX_D1 P q * dX_D2 P q + 2 * dY_D1 P q * dY_D2 P q + 2 * dZ_D1 P q * dZ_D2 P q + 2 * ddX_D1D2 P q * X P q + 2 * ddY_D1D2 P q * Y P q + 2 * ddZ_D1D2 P q * Z
    P q) * (-P.a ^ 2 + (X P q) ^ 2 + (Y P q) ^ 2 + (Z P q) ^ 2)) / Tq P q + (1 / 2) * ((-4) * dZ_D1 P q * P.a ^ 2 * Z P q - 2 * (dX_D1 P q * X P q + dY_D1 P q * Y P q +
    dZ_D1 P q * Z P q) * ((-1) * P.a ^ 2 + (X P q) ^ 2 + (Y P q) ^ 2 + (Z P q) ^ 2)) * (4 * dZ_D2 P q * P.a ^ 2 * Z P q + 2 * (dX_D2 P q * X P q + dY_D2 P q * Y P q +
    dZ_D2 P q * Z P q) * ((-1) * P.a ^ 2 + (X P q) ^ 2 + (Y P q) ^ 2 + (Z P q) ^ 2)) / (Tq P q) ^ 3) / (Sq P q) ^ 3 + P.lit * (1 * dX_D1 P q * ddX_D2D2 P q + 1 * dY_D1 P
    q * ddY_D2D2 P q + 1 * dZ_D1 P q * ddZ_D2D2 P q + 2 * dX_D2 P q * ddX_D1D2 P q + 2 * dY_D2 P q * ddY_D1D2 P q + 2 * dZ_D2 P q * ddZ_D1D2 P q + 1 * dddX_D1D2D2 P q * X
    P q + 1 * dddY_D1D2D2 P q * Y P q + 1 * dddZ_D1D2D2 P q * Z P q + (1 / 2) * (4 * dZ_D1 P q * ddZ_D2D2 P q * P.a ^ 2 + 8 * dZ_D2 P q * ddZ_D1D2 P q * P.a ^ 2 + 4 *
    dddZ_D1D2D2 P q * P.a ^ 2 * Z P q + 4 * (dX_D1 P q * X P q + dY_D1 P q * Y P q + dZ_D1 P q * Z P q) * (1 * (dX_D2 P q) ^ 2 + 1 * (dY_D2 P q) ^ 2 + 1 * (dZ_D2 P q) ^ 2
    + 1 * ddX_D2D2 P q * X P q + 1 * ddY_D2D2 P q * Y P q + 1 * ddZ_D2D2 P q * Z P q) + 4 * (1 * dX_D2 P q * X P q + 1 * dY_D2 P q * Y P q + 1 * dZ_D2 P q * Z P q) *
    (dX_D1 P q * dX_D2 P q + dY_D1 P q * dY_D2 P q + dZ_D1 P q * dZ_D2 P q + ddX_D1D2 P q * X P q + ddY_D1D2 P q * Y P q + ddZ_D1D2 P q * Z P q) + 4 * (dX_D2 P q * X P q
    + dY_D2 P q * Y P q + dZ_D2 P q * Z P q) * (1 * dX_D1 P q * dX_D2 P q + 1 * dY_D1 P q * dY_D2 P q + 1 * dZ_D1 P q * dZ_D2 P q + 1 * ddX_D1D2 P q * X P q + 1 *
    ddY_D1D2 P q * Y P q + 1 * ddZ_D1D2 P q * Z P q) + (2 * dX_D1 P q * ddX_D2D2 P q + 2 * dY_D1 P q * ddY_D2D2 P q + 2 * dZ_D1 P q * ddZ_D2D2 P q + 4 * dX_D2 P q *
    ddX_D1D2 P q + 4 * dY_D2 P q * ddY_D1D2 P q + 4 * dZ_D2 P q * ddZ_D1D2 P q + 2 * dddX_D1D2D2 P q * X P q + 2 * dddY_D1D2D2 P q * Y P q + 2 * dddZ_D1D2D2 P q * Z P q)
    * (-P.a ^ 2 + (X P q) ^ 2 + (Y P q) ^ 2 + (Z P q) ^ 2)) / Tq P q + (1 / 2) * (4 * (dZ_D2 P q) ^ 2 * P.a ^ 2 + 4 * ddZ_D2D2 P q * P.a ^ 2 * Z P q + 4 * (1 * dX_D2 P q
    * X P q + 1 * dY_D2 P q * Y P q + 1 * dZ_D2 P q * Z P q) ^ 2 + (2 * (dX_D2 P q) ^ 2 + 2 * (dY_D2 P q) ^ 2 + 2 * (dZ_D2 P q) ^ 2 + 2 * ddX_D2D2 P q * X P q + 2 *
    ddY_D2D2 P q * Y P q + 2 * ddZ_D2D2 P q * Z P q) * (-P.a ^ 2 + (X P q) ^ 2 + (Y P q) ^ 2 + (Z P q) ^ 2)) * ((-4) * dZ_D1 P q * P.a ^ 2 * Z P q - 2 * (dX_D1 P q * X P
    q + dY_D1 P q * Y P q + dZ_D1 P q * Z P q) * ((-1) * P.a ^ 2 + (X P q) ^ 2 + (Y P q) ^ 2 + (Z P q) ^ 2)) / (Tq P q) ^ 3 + (1 / 2) * (4 * dZ_D1 P q * dZ_D2 P q * P.a ^
    2 + 4 * ddZ_D1D2 P q * P.a ^ 2 * Z P q + 4 * (dX_D1 P q * X P q + dY_D1 P q * Y P q + dZ_D1 P q * Z P q) * (1 * dX_D2 P q * X P q + 1 * dY_D2 P q * Y P q + 1 * dZ_D2
    P q * Z P q) + (2 * dX_D1 P q * dX_D2 P q + 2 * dY_D1 P q * dY_D2 P q + 2 * dZ_D1 P q * dZ_D2 P q + 2 * ddX_D1D2 P q * X P q + 2 * ddY_D1D2 P q * Y P q + 2 * ddZ_D1D2
    P q * Z P q) * (-P.a ^ 2 + (X P q) ^ 2 + (Y P q) ^ 2 + (Z P q) ^ 2)) * ((-4) * dZ_D2 P q * P.a ^ 2 * Z P q - 2 * (dX_D2 P q * X P q + dY_D2 P q * Y P q + dZ_D2 P q *
    Z P q) * ((-1) * P.a ^ 2 + (X P q) ^ 2 + (Y P q) ^ 2 + (Z P q) ^ 2)) / (Tq P q) ^ 3 + (1 / 2) * ((-4) * dZ_D1 P q * dZ_D2 P q * P.a ^ 2 - 4 * ddZ_D1D2 P q * P.a ^ 2 *
    Z P q - 4 * (dX_D1 P q * X P q + dY_D1 P q * Y P q + dZ_D1 P q * Z P q) * (1 * dX_D2 P q * X P q + 1 * dY_D2 P q * Y P q + 1 * dZ_D2 P q * Z P q) + ((-2) * dX_D1 P q
    * dX_D2 P q - 2 * dY_D1 P q * dY_D2 P q - 2 * dZ_D1 P q * dZ_D2 P q - 2 * ddX_D1D2 P q * X P q - 2 * ddY_D1D2 P q * Y P q - 2 * ddZ_D1D2 P q * Z P q) * (-P.a ^ 2 + (X
    P q) ^ 2 + (Y P q) ^ 2 + (Z P q) ^ 2)) * (4 * dZ_D2 P q * P.a ^ 2 * Z P q + 2 * (dX_D2 P q * X P q + dY_D2 P q * Y P q + dZ_D2 P q * Z P q) * ((-1) * P.a ^ 2 + (X P
    q) ^ 2 + (Y P q) ^ 2 + (Z P q) ^ 2)) / (Tq P q) ^ 3 + (1 / 2) * ((-12) * dZ_D1 P q * P.a ^ 2 * Z P q - 6 * (dX_D1 P q * X P q + dY_D1 P q * Y P q + dZ_D1 P q * Z P q)
    * ((-1) * P.a ^ 2 + (X P q) ^ 2 + (Y P q) ^ 2 + (Z P q) ^ 2)) * ((-4) * dZ_D2 P q * P.a ^ 2 * Z P q - 2 * (dX_D2 P q * X P q + dY_D2 P q * Y P q + dZ_D2 P q * Z P q)
    * ((-1) * P.a ^ 2 + (X P q) ^ 2 + (Y P q) ^ 2 + (Z P q) ^ 2)) * (4 * dZ_D2 P q * P.a ^ 2 * Z P q + 2 * (dX_D2 P q * X P q + dY_D2 P q * Y P q + dZ_D2 P q * Z P q) *
    ((-1) * P.a ^ 2 + (X P q) ^ 2 + (Y P q) ^ 2 + (Z P q) ^ 2)) / (Tq P q) ^ 5) / Sq P q

/-- Free_Data/fd_KerrSchild_R_X_Y_Z.c:1467-1650 `fd_ks_dddR_D2D2D2` -/
noncomputable def dddR_D2D2D2 (P : Par) (q : Pt) : ℝ :=
  (3 * P.lit) * ((-1) * dX_D2 P q * P.a ^ 2 * X P q + 1 * dX_D2 P q * (X P q) ^ 3 - 1 * dY_D2 P q * P.a ^ 2 * Y P q + 1 * dY_D2 P q * (X P q) ^ 2 * Y P q + 1 * dX_D2 P q
    * X P q * (Y P q) ^ 2 + 1 * dY_D2 P q * (Y P q) ^ 3 + 1 * dZ_D2 P q * P.a ^ 2 * Z P q + 1 * dZ_D2 P q * (X P q) ^ 2 * Z P q + 1 * dZ_D2 P q * (Y P q) ^ 2 * Z P q + 1
    * dX_D2 P q * X P q * (Z P q) ^ 2 + 1 * dY_D2 P q * Y P q * (Z P q) ^ 2 + 1 * dZ_D2 P q * (Z P q) ^ 3 + 1 * dX_D2 P q * X P q * Tq P q + 1 * dY_D2 P q * Y P q * Tq P
    q + 1 * dZ_D2 P q * Z P q * Tq P q) ^ 3 / ((Tq P q) ^ 3 * (Sq P q) ^ 5) + P.lit * (3 * dX_D2 P q * ddX_D2D2 P q + 3 * dY_D2 P q * ddY_D2D2 P q + 3 * dZ_D2 P q *
    ddZ_D2D2 P q + 1 * dddX_D2D2D2 P q * X P q + 1 * dddY_D2D2D2 P q * Y P q + 1 * dddZ_D2D2D2 P q * Z P q - 12 * (dZ_D2 P q * Z P q * ((-1) * P.a ^ 2 - 1 * (X P q) ^ 2 -
    1 * (Y P q) ^ 2 - 1 * (Z P q) ^ 2) + dX_D2 P q * X P q * (1 * P.a ^ 2 - 1 * (X P q) ^ 2 - 1 * (Y P q) ^ 2 - 1 * (Z P q) ^ 2) + dY_D2 P q * Y P q * (1 * P.a ^ 2 - 1 *
    (X P q) ^ 2 - 1 * (Y P q) ^ 2 - 1 * (Z P q) ^ 2)) ^ 3 / (Tq P q) ^ 5 + (1 / 2) * (12 * dZ_D2 P q * ddZ_D2D2 P q * P.a ^ 2 + 4 * dddZ_D2D2D2 P q * P.a ^ 2 * Z P q + 4
    * (1 * dX_D2 P q * X P q + 1 * dY_D2 P q * Y P q + 1 * dZ_D2 P q * Z P q) * ((dX_D2 P q) ^ 2 + (dY_D2 P q) ^ 2 + (dZ_D2 P q) ^ 2 + ddX_D2D2 P q * X P q + ddY_D2D2 P q
    * Y P q + ddZ_D2D2 P q * Z P q) + 8 * (dX_D2 P q * X P q + dY_D2 P q * Y P q + dZ_D2 P q * Z P q) * (1 * (dX_D2 P q) ^ 2 + 1 * (dY_D2 P q) ^ 2 + 1 * (dZ_D2 P q) ^ 2 +
    1 * ddX_D2D2 P q * X P q + 1 * ddY_D2D2 P q * Y P q + 1 * ddZ_D2D2 P q * Z P q) + (6 * dX_D2 P q * ddX_D2D2 P q + 6 * dY_D2 P q * ddY_D2D2 P q + 6 * dZ_D2 P q *
    ddZ_D2D2 P q + 2 * dddX_D2D2D2 P q * X P q + 2 * dddY_D2D2D2 P q * Y P q + 2 * dddZ_D2D2D2 P q * Z P q) * (-P.a ^ 2 + (X P q) ^ 2 + (Y P q) ^ 2 + (Z P q) ^ 2)) / Tq P
    q + 1 * (4 * (dZ_D2 P q) ^ 2 * P.a ^ 2 + 4 * ddZ_D2D2 P q * P.a ^ 2 * Z P q + 4 * (1 * dX_D2 P q * X P q + 1 * dY_D2 P q * Y P q + 1 * dZ_D2 P q * Z P q) ^ 2 + (2 *
    (dX_D2 P q) ^ 2 + 2 * (dY_D2 P q) ^ 2 + 2 * (dZ_D2 P q) ^ 2 + 2 * ddX_D2D2 P q * X P q + 2 * ddY_D2D2 P q * Y P q + 2 * ddZ_D2D2 P q * Z P q) * (-P.a ^ 2 + (X P q) ^
    2 + (Y P q) ^ 2 + (Z P q) ^ 2)) * ((-4) * dZ_D2 P q * P.a ^ 2 * Z P q - 2 * (dX_D2 P q * X P q + dY_D2 P q * Y P q + dZ_D2 P q * Z P q) * ((-1) * P.a ^ 2 + (X P q) ^
    2 + (Y P q) ^ 2 + (Z P q) ^ 2)) / (Tq P q) ^ 3 + (1 / 2) * ((-4) * (dZ_D2 P q) ^ 2 * P.a ^ 2 - 4 * ddZ_D2D2 P q * P.a ^ 2 * Z P q - 4 * (dX_D2 P q * X P q + dY_D2 P q
    * Y P q + dZ_D2 P q * Z P q) ^ 2 + ((-2) * (dX_D2 P q) ^ 2 - 2 * (dY_D2 P q) ^ 2 - 2 * (dZ_D2 P q) ^ 2 - 2 * ddX_D2D2 P q * X P q - 2 * ddY_D2D2 P q * Y P q - 2 *
    ddZ_D2D2 P q * Z P q) * (-P.a ^ 2 + (X P q) ^ 2 + (Y P q) ^ 2 + (Z P q) ^ 2)) * (4 * dZ_D2 P q * P.a ^ 2 * Z P q + 2 * (dX_D2 P q * X P q + dY_D2 P q * Y P q + dZ_D2
    P q * Z P q) * ((-1) * P.a ^ 2 + (X P q) ^ 2 + (Y P q) ^ 2 + (Z P q) ^ 2)) / (Tq P q) ^ 3) / Sq P q + (2 * P.lit) * (1 * (dX_D2 P q) ^ 2 + 1 * (dY_D2 P q) ^ 2 + 1 *
    (dZ_D2 P q) ^ 2 + 1 * ddX_D2D2 P q * X P q + 1 * ddY_D2D2 P q * Y P q + 1 * ddZ_D2D2 P q * Z P q - 2 * (dZ_D2 P q * Z P q * ((-1) * P.a ^ 2 - 1 * (X P q) ^ 2 - 1 * (Y
    P q) ^ 2 - 1 * (Z P q) ^ 2) + dX_D2 P q * X P q * (1 * P.a ^ 2 - 1 * (X P q) ^ 2 - 1 * (Y P q) ^ 2 - 1 * (Z P q) ^ 2) + dY_D2 P q * Y P q * (1 * P.a ^ 2 - 1 * (X P q)
    ^ 2 - 1 * (Y P q) ^ 2 - 1 * (Z P q) ^ 2)) ^ 2 / (Tq P q) ^ 3 + (1 / 2) * (4 * (dZ_D2 P q) ^ 2 * P.a ^ 2 + 4 * ddZ_D2D2 P q * P.a ^ 2 * Z P q + 4 * (1 * dX_D2 P q * X
    P q + 1 * dY_D2 P q * Y P q + 1 * dZ_D2 P q * Z P q) ^ 2 + (2 * (dX_D2 P q) ^ 2 + 2 * (dY_D2 P q) ^ 2 + 2 * (dZ_D2 P q) ^ 2 + 2 * ddX_D2D2 P q * X P q + 2 * ddY_D2D2
    P q * Y P q + 2 * ddZ_D2D2 P q * Z P q) * (-P.a ^ 2 + (X P q) ^ 2 + (Y P q) ^ 2 + (Z P q) ^ 2)) / Tq P q) * ((-1) * dX_D2 P q * X P q - 1 * dY_D2 P q * Y P q - 1 *
    dZ_D2 P q * Z P q - (1 / 2) * (4 * dZ_D2 P q * P.a ^ 2 * Z P q + 2 * (dX_D2 P q * X P q + dY_D2 P q * Y P q + dZ_D2 P q * Z P q) * ((-1) * P.a ^ 2 + (X P q) ^ 2 + (Y
    P q) ^ 2 + (Z P q) ^ 2)) / Tq P q) / (Sq P q) ^ 3 + P.lit * ((-1) * (dX_D2 P q) ^ 2 - 1 * (dY_D2 P q) ^ 2 - 1 * (dZ_D2 P q) ^ 2 - 1 * ddX_D2D2 P q * X P q - 1 *
    ddY_D2D2 P q * Y P q - 1 * ddZ_D2D2 P q * Z P q + 2 * (dZ_D2 P q * Z P q * ((-1) * P.a ^ 2 - 1 * (X P q) ^ 2 - 1 * (Y P q) ^ 2 - 1 * (Z P q) ^ 2) + dX_D2 P q * X P q
    * (1 * P.a ^ 2 - 1 * (X P q) ^ 2 - 1 * (Y P q) ^ 2 - 1 * (Z P q) ^ 2) + dY_D2 P q * Y P q * (1 * P.a ^ 2 - 1 * (X P q) ^ 2 - 1 * (Y P q) ^ 2 - 1 * (Z P q) ^ 2)) ^ 2 /
    (Tq P q) ^ 3 - (1 / 2) * (4 * (dZ_D2 P q) ^ 2 * P.a ^ 2 + 4 * ddZ_D2D2 P q * P.a ^ 2 * Z P q + 4 * (1 * dX_D2 P q * X P q + 1 * dY_D2 P q * Y P q + 1 * dZ_D2 P q * Z
    P q) ^ 2 + (2 * (dX_D2 P q) ^ 2 + 2 * (dY_D2 P q) ^ 2 + 2 * (dZ_D2 P q) ^ 2 + 2 * ddX_D2D2 P q * X P q + 2 * ddY_D2D2 P q * Y P q + 2 * ddZ_D2D2 P q * Z P q) * (-P.a
    ^ 2 + (X P q) ^ 2 + (Y P q) ^ 2 + (Z P q) ^ 2)) / Tq P q) * (1 * dX_D2 P q * X P q + 1 * dY_D2 P q * Y P q + 1 * dZ_D2 P q * Z P q + (1 / 2) * (4 * dZ_D2 P q * P.a ^
    2 * Z P q + 2 * (dX_D2 P q * X P q + dY_D2 P q * Y P q + dZ_D2 P q * Z P q) * ((-1) * P.a ^ 2 + (X P q) ^ 2 + (Y P q) ^ 2 + (Z P q) ^ 2)) / Tq P q) / (Sq P q) ^ 3

/-- the first derivatives of `R` -/
noncomputable def dR (P : Par) : Fin 3 → Pt → ℝ
  | 0, q => dR_D0 P q
  | 1, q => dR_D1 P q
  | 2, q => dR_D2 P q

/-- the second derivatives of `R`: D1D0 is kept as D0D1 -/
noncomputable def ddR (P : Par) : Fin 3 → Fin 3 → Pt → ℝ
  | 0, 0, q => ddR_D0D0 P q
  | 0, 1, q => ddR_D0D1 P q
  | 0, 2, q => ddR_D0D2 P q
  | 1, 0, q => ddR_D0D1 P q
  | 1, 1, q => ddR_D1D1 P q
  | 1, 2, q => ddR_D1D2 P q
  | 2, 0, q => ddR_D0D2 P q
  | 2, 1, q => ddR_D1D2 P q
  | 2, 2, q => ddR_D2D2 P q

/-- the third derivatives of `R` -/
noncomputable def dddR (P : Par) : Fin 3 → Fin 3 → Fin 3 → Pt → ℝ
  | 0, 0, 0, q => dddR_D0D0D0 P q
  | 0, 0, 1, q => dddR_D0D0D1 P q
  | 0, 0, 2, q => dddR_D0D0D2 P q
  | 0, 1, 0, q => dddR_D0D1D0 P q
  | 0, 1, 1, q => dddR_D0D1D1 P q
  | 0, 1, 2, q => dddR_D0D1D2 P q
  | 0, 2, 0, q => dddR_D0D2D0 P q
  | 0, 2, 1, q => dddR_D0D2D1 P q
  | 0, 2, 2, q => dddR_D0D2D2 P q
  | 1, 0, 0, q => dddR_D0D1D0 P q
  | 1, 0, 1, q => dddR_D0D1D1 P q
  | 1, 0, 2, q => dddR_D0D1D2 P q
  | 1, 1, 0, q => dddR_D1D1D0 P q
  | 1, 1, 1, q => dddR_D1D1D1 P q
  | 1, 1, 2, q => dddR_D1D1D2 P q
  | 1, 2, 0, q => dddR_D1D2D0 P q
  | 1, 2, 1, q => dddR_D1D2D1 P q
  | 1, 2, 2, q => dddR_D1D2D2 P q
  | 2, 0, 0, q => dddR_D0D2D0 P q
  | 2, 0, 1, q => dddR_D0D2D1 P q
  | 2, 0, 2, q => dddR_D0D2D2 P q
  | 2, 1, 0, q => dddR_D1D2D0 P q
  | 2, 1, 1, q => dddR_D1D2D1 P q
  | 2, 1, 2, q => dddR_D1D2D2 P q
  | 2, 2, 0, q => dddR_D2D2D0 P q
  | 2, 2, 1, q => dddR_D2D2D1 P q
  | 2, 2, 2, q => dddR_D2D2D2 P q

end Elliptica.Ks
