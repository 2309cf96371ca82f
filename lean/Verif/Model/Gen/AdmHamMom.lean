import Mathlib.Analysis.Real.Sqrt
import Mathlib.Analysis.SpecialFunctions.Trigonometric.Basic
/-!
Generated by /verif/tools/gen_tensor.py from Src/Main/Modules/Physics/ADM/adm_ham_mom_from_scratch.c, Src/Main/Modules/Physics/ADM/adm_ham_mom_from_identities.c: the arithmetic done at one node, over `ℝ`;
rounding is not modelled, neither that of the operations nor that of decimal literals such as 0.66666666666666663 (= 2/3).
-/
set_option linter.style.longLine false
set_option linter.unusedVariables false

namespace Elliptica.Gen.HamScratch

/-- values at one node read by Src/Main/Modules/Physics/ADM/adm_ham_mom_from_scratch.c -/
structure In where
  psi : ℝ
  JConfP_U : Fin 3 → ℝ
  EConfP : ℝ
  dGamma_UDDD : Fin 3 → Fin 3 → Fin 3 → Fin 3 → ℝ
  Gamma_UDD : Fin 3 → Fin 3 → Fin 3 → ℝ
  adm_ig_UU : Fin 3 → Fin 3 → ℝ
  adm_KIJ_UU : Fin 3 → Fin 3 → ℝ
  adm_g_DD : Fin 3 → Fin 3 → ℝ
  dadm_KIJ_UUD : Fin 3 → Fin 3 → Fin 3 → ℝ
  EConfC : ℝ
  trK : ℝ
  JConfC : ℝ
  dtrK_D : Fin 3 → ℝ

/-- adm_ham_mom_from_scratch.c:236-237 -/
noncomputable def psim6 (x : In) : ℝ :=
  (x.psi ^ 6)⁻¹

/-- adm_ham_mom_from_scratch.c:239-240 -/
noncomputable def Jp_U0 (x : In) : ℝ :=
  x.JConfP_U 0 * psim6 x

/-- adm_ham_mom_from_scratch.c:242-243 -/
noncomputable def Jp_U1 (x : In) : ℝ :=
  x.JConfP_U 1 * psim6 x

/-- adm_ham_mom_from_scratch.c:245-246 -/
noncomputable def Jp_U2 (x : In) : ℝ :=
  x.JConfP_U 2 * psim6 x

/-- adm_ham_mom_from_scratch.c:248-249 -/
noncomputable def Ep (x : In) : ℝ :=
  x.EConfP * psim6 x

/-- adm_ham_mom_from_scratch.c:251-252 -/
noncomputable def Ric1_D0D0 (x : In) : ℝ :=
  x.dGamma_UDDD 0 0 0 0 + x.dGamma_UDDD 1 0 0 1 + x.dGamma_UDDD 2 0 0 2

/-- adm_ham_mom_from_scratch.c:254-255 -/
noncomputable def Ric1_D0D1 (x : In) : ℝ :=
  x.dGamma_UDDD 0 0 1 0 + x.dGamma_UDDD 1 0 1 1 + x.dGamma_UDDD 2 0 1 2

/-- adm_ham_mom_from_scratch.c:257-258 -/
noncomputable def Ric1_D0D2 (x : In) : ℝ :=
  x.dGamma_UDDD 0 0 2 0 + x.dGamma_UDDD 1 0 2 1 + x.dGamma_UDDD 2 0 2 2

/-- adm_ham_mom_from_scratch.c:260-261 -/
noncomputable def Ric1_D1D1 (x : In) : ℝ :=
  x.dGamma_UDDD 0 1 1 0 + x.dGamma_UDDD 1 1 1 1 + x.dGamma_UDDD 2 1 1 2

/-- adm_ham_mom_from_scratch.c:263-264 -/
noncomputable def Ric1_D1D2 (x : In) : ℝ :=
  x.dGamma_UDDD 0 1 2 0 + x.dGamma_UDDD 1 1 2 1 + x.dGamma_UDDD 2 1 2 2

/-- adm_ham_mom_from_scratch.c:266-267 -/
noncomputable def Ric1_D2D2 (x : In) : ℝ :=
  x.dGamma_UDDD 0 2 2 0 + x.dGamma_UDDD 1 2 2 1 + x.dGamma_UDDD 2 2 2 2

/-- adm_ham_mom_from_scratch.c:269-270 -/
noncomputable def Ric2_D0D0 (x : In) : ℝ :=
  -x.dGamma_UDDD 0 0 0 0 - x.dGamma_UDDD 1 0 1 0 - x.dGamma_UDDD 2 0 2 0

/-- adm_ham_mom_from_scratch.c:272-273 -/
noncomputable def Ric2_D0D1 (x : In) : ℝ :=
  -x.dGamma_UDDD 0 0 0 1 - x.dGamma_UDDD 1 0 1 1 - x.dGamma_UDDD 2 0 2 1

/-- adm_ham_mom_from_scratch.c:275-276 -/
noncomputable def Ric2_D0D2 (x : In) : ℝ :=
  -x.dGamma_UDDD 0 0 0 2 - x.dGamma_UDDD 1 0 1 2 - x.dGamma_UDDD 2 0 2 2

/-- adm_ham_mom_from_scratch.c:278-279 -/
noncomputable def Ric2_D1D1 (x : In) : ℝ :=
  -x.dGamma_UDDD 0 0 1 1 - x.dGamma_UDDD 1 1 1 1 - x.dGamma_UDDD 2 1 2 1

/-- adm_ham_mom_from_scratch.c:281-282 -/
noncomputable def Ric2_D1D2 (x : In) : ℝ :=
  -x.dGamma_UDDD 0 0 1 2 - x.dGamma_UDDD 1 1 1 2 - x.dGamma_UDDD 2 1 2 2

/-- adm_ham_mom_from_scratch.c:284-285 -/
noncomputable def Ric2_D2D2 (x : In) : ℝ :=
  -x.dGamma_UDDD 0 0 2 2 - x.dGamma_UDDD 1 1 2 2 - x.dGamma_UDDD 2 2 2 2

/-- adm_ham_mom_from_scratch.c:287-293 -/
noncomputable def Ric3_D0D0 (x : In) : ℝ :=
  (x.Gamma_UDD 0 0 0) ^ 2 + x.Gamma_UDD 0 0 0 * x.Gamma_UDD 1 0 1 + x.Gamma_UDD 0 0 0 * x.Gamma_UDD 2 0 2 + x.Gamma_UDD 0 0 1 *
      x.Gamma_UDD 1 0 0 + x.Gamma_UDD 0 0 2 * x.Gamma_UDD 2 0 0 + x.Gamma_UDD 1 0 0 * x.Gamma_UDD 1 1 1 + x.Gamma_UDD 1 0 0 *
      x.Gamma_UDD 2 1 2 + x.Gamma_UDD 1 1 2 * x.Gamma_UDD 2 0 0 + x.Gamma_UDD 2 0 0 * x.Gamma_UDD 2 2 2

/-- adm_ham_mom_from_scratch.c:295-301 -/
noncomputable def Ric3_D0D1 (x : In) : ℝ :=
  x.Gamma_UDD 0 0 0 * x.Gamma_UDD 0 0 1 + 2 * x.Gamma_UDD 0 0 1 * x.Gamma_UDD 1 0 1 + x.Gamma_UDD 0 0 1 * x.Gamma_UDD 2 0 2 +
      x.Gamma_UDD 0 0 2 * x.Gamma_UDD 2 0 1 + x.Gamma_UDD 1 0 1 * x.Gamma_UDD 1 1 1 + x.Gamma_UDD 1 0 1 * x.Gamma_UDD 2 1 2 +
      x.Gamma_UDD 1 1 2 * x.Gamma_UDD 2 0 1 + x.Gamma_UDD 2 0 1 * x.Gamma_UDD 2 2 2

/-- adm_ham_mom_from_scratch.c:303-309 -/
noncomputable def Ric3_D0D2 (x : In) : ℝ :=
  x.Gamma_UDD 0 0 0 * x.Gamma_UDD 0 0 2 + x.Gamma_UDD 0 0 1 * x.Gamma_UDD 1 0 2 + x.Gamma_UDD 0 0 2 * x.Gamma_UDD 1 0 1 + 2 *
      x.Gamma_UDD 0 0 2 * x.Gamma_UDD 2 0 2 + x.Gamma_UDD 1 0 2 * x.Gamma_UDD 1 1 1 + x.Gamma_UDD 1 0 2 * x.Gamma_UDD 2 1 2 +
      x.Gamma_UDD 1 1 2 * x.Gamma_UDD 2 0 2 + x.Gamma_UDD 2 0 2 * x.Gamma_UDD 2 2 2

/-- adm_ham_mom_from_scratch.c:311-317 -/
noncomputable def Ric3_D1D1 (x : In) : ℝ :=
  x.Gamma_UDD 0 0 0 * x.Gamma_UDD 0 1 1 + x.Gamma_UDD 0 0 1 * x.Gamma_UDD 1 1 1 + x.Gamma_UDD 0 0 2 * x.Gamma_UDD 2 1 1 +
      x.Gamma_UDD 0 1 1 * x.Gamma_UDD 1 0 1 + x.Gamma_UDD 0 1 1 * x.Gamma_UDD 2 0 2 + (x.Gamma_UDD 1 1 1) ^ 2 + x.Gamma_UDD 1 1
      1 * x.Gamma_UDD 2 1 2 + x.Gamma_UDD 1 1 2 * x.Gamma_UDD 2 1 1 + x.Gamma_UDD 2 1 1 * x.Gamma_UDD 2 2 2

/-- adm_ham_mom_from_scratch.c:319-325 -/
noncomputable def Ric3_D1D2 (x : In) : ℝ :=
  x.Gamma_UDD 0 0 0 * x.Gamma_UDD 0 1 2 + x.Gamma_UDD 0 0 1 * x.Gamma_UDD 1 1 2 + x.Gamma_UDD 0 0 2 * x.Gamma_UDD 2 1 2 +
      x.Gamma_UDD 0 1 2 * x.Gamma_UDD 1 0 1 + x.Gamma_UDD 0 1 2 * x.Gamma_UDD 2 0 2 + x.Gamma_UDD 1 1 1 * x.Gamma_UDD 1 1 2 + 2
      * x.Gamma_UDD 1 1 2 * x.Gamma_UDD 2 1 2 + x.Gamma_UDD 2 1 2 * x.Gamma_UDD 2 2 2

/-- adm_ham_mom_from_scratch.c:327-333 -/
noncomputable def Ric3_D2D2 (x : In) : ℝ :=
  x.Gamma_UDD 0 0 0 * x.Gamma_UDD 0 2 2 + x.Gamma_UDD 0 0 1 * x.Gamma_UDD 1 2 2 + x.Gamma_UDD 0 0 2 * x.Gamma_UDD 2 2 2 +
      x.Gamma_UDD 0 2 2 * x.Gamma_UDD 1 0 1 + x.Gamma_UDD 0 2 2 * x.Gamma_UDD 2 0 2 + x.Gamma_UDD 1 1 1 * x.Gamma_UDD 1 2 2 +
      x.Gamma_UDD 1 1 2 * x.Gamma_UDD 2 2 2 + x.Gamma_UDD 1 2 2 * x.Gamma_UDD 2 1 2 + (x.Gamma_UDD 2 2 2) ^ 2

/-- adm_ham_mom_from_scratch.c:335-338 -/
noncomputable def Ric4_D0D0 (x : In) : ℝ :=
  -(x.Gamma_UDD 0 0 0) ^ 2 - 2 * x.Gamma_UDD 0 0 1 * x.Gamma_UDD 1 0 0 - 2 * x.Gamma_UDD 0 0 2 * x.Gamma_UDD 2 0 0 -
      (x.Gamma_UDD 1 0 1) ^ 2 - 2 * x.Gamma_UDD 1 0 2 * x.Gamma_UDD 2 0 1 - (x.Gamma_UDD 2 0 2) ^ 2

/-- adm_ham_mom_from_scratch.c:340-346 -/
noncomputable def Ric4_D0D1 (x : In) : ℝ :=
  -x.Gamma_UDD 0 0 0 * x.Gamma_UDD 0 0 1 - x.Gamma_UDD 0 0 1 * x.Gamma_UDD 1 0 1 - x.Gamma_UDD 0 0 2 * x.Gamma_UDD 2 0 1 -
      x.Gamma_UDD 0 1 1 * x.Gamma_UDD 1 0 0 - x.Gamma_UDD 0 1 2 * x.Gamma_UDD 2 0 0 - x.Gamma_UDD 1 0 1 * x.Gamma_UDD 1 1 1 -
      x.Gamma_UDD 1 0 2 * x.Gamma_UDD 2 1 1 - x.Gamma_UDD 1 1 2 * x.Gamma_UDD 2 0 1 - x.Gamma_UDD 2 0 2 * x.Gamma_UDD 2 1 2

/-- adm_ham_mom_from_scratch.c:348-354 -/
noncomputable def Ric4_D0D2 (x : In) : ℝ :=
  -x.Gamma_UDD 0 0 0 * x.Gamma_UDD 0 0 2 - x.Gamma_UDD 0 0 1 * x.Gamma_UDD 1 0 2 - x.Gamma_UDD 0 0 2 * x.Gamma_UDD 2 0 2 -
      x.Gamma_UDD 0 1 2 * x.Gamma_UDD 1 0 0 - x.Gamma_UDD 0 2 2 * x.Gamma_UDD 2 0 0 - x.Gamma_UDD 1 0 1 * x.Gamma_UDD 1 1 2 -
      x.Gamma_UDD 1 0 2 * x.Gamma_UDD 2 1 2 - x.Gamma_UDD 1 2 2 * x.Gamma_UDD 2 0 1 - x.Gamma_UDD 2 0 2 * x.Gamma_UDD 2 2 2

/-- adm_ham_mom_from_scratch.c:356-359 -/
noncomputable def Ric4_D1D1 (x : In) : ℝ :=
  -(x.Gamma_UDD 0 0 1) ^ 2 - 2 * x.Gamma_UDD 0 1 1 * x.Gamma_UDD 1 0 1 - 2 * x.Gamma_UDD 0 1 2 * x.Gamma_UDD 2 0 1 -
      (x.Gamma_UDD 1 1 1) ^ 2 - 2 * x.Gamma_UDD 1 1 2 * x.Gamma_UDD 2 1 1 - (x.Gamma_UDD 2 1 2) ^ 2

/-- adm_ham_mom_from_scratch.c:361-367 -/
noncomputable def Ric4_D1D2 (x : In) : ℝ :=
  -x.Gamma_UDD 0 0 1 * x.Gamma_UDD 0 0 2 - x.Gamma_UDD 0 1 1 * x.Gamma_UDD 1 0 2 - x.Gamma_UDD 0 1 2 * x.Gamma_UDD 1 0 1 -
      x.Gamma_UDD 0 1 2 * x.Gamma_UDD 2 0 2 - x.Gamma_UDD 0 2 2 * x.Gamma_UDD 2 0 1 - x.Gamma_UDD 1 1 1 * x.Gamma_UDD 1 1 2 -
      x.Gamma_UDD 1 1 2 * x.Gamma_UDD 2 1 2 - x.Gamma_UDD 1 2 2 * x.Gamma_UDD 2 1 1 - x.Gamma_UDD 2 1 2 * x.Gamma_UDD 2 2 2

/-- adm_ham_mom_from_scratch.c:369-372 -/
noncomputable def Ric4_D2D2 (x : In) : ℝ :=
  -(x.Gamma_UDD 0 0 2) ^ 2 - 2 * x.Gamma_UDD 0 1 2 * x.Gamma_UDD 1 0 2 - 2 * x.Gamma_UDD 0 2 2 * x.Gamma_UDD 2 0 2 -
      (x.Gamma_UDD 1 1 2) ^ 2 - 2 * x.Gamma_UDD 1 2 2 * x.Gamma_UDD 2 1 2 - (x.Gamma_UDD 2 2 2) ^ 2

/-- adm_ham_mom_from_scratch.c:374-375 -/
noncomputable def Ric_D0D0 (x : In) : ℝ :=
  Ric1_D0D0 x + Ric2_D0D0 x + Ric3_D0D0 x + Ric4_D0D0 x

/-- adm_ham_mom_from_scratch.c:377-378 -/
noncomputable def Ric_D0D1 (x : In) : ℝ :=
  Ric1_D0D1 x + Ric2_D0D1 x + Ric3_D0D1 x + Ric4_D0D1 x

/-- adm_ham_mom_from_scratch.c:380-381 -/
noncomputable def Ric_D0D2 (x : In) : ℝ :=
  Ric1_D0D2 x + Ric2_D0D2 x + Ric3_D0D2 x + Ric4_D0D2 x

/-- adm_ham_mom_from_scratch.c:383-384 -/
noncomputable def Ric_D1D1 (x : In) : ℝ :=
  Ric1_D1D1 x + Ric2_D1D1 x + Ric3_D1D1 x + Ric4_D1D1 x

/-- adm_ham_mom_from_scratch.c:386-387 -/
noncomputable def Ric_D1D2 (x : In) : ℝ :=
  Ric1_D1D2 x + Ric2_D1D2 x + Ric3_D1D2 x + Ric4_D1D2 x

/-- adm_ham_mom_from_scratch.c:389-390 -/
noncomputable def Ric_D2D2 (x : In) : ℝ :=
  Ric1_D2D2 x + Ric2_D2D2 x + Ric3_D2D2 x + Ric4_D2D2 x

/-- adm_ham_mom_from_scratch.c:392-395 -/
noncomputable def R (x : In) : ℝ :=
  Ric_D0D0 x * x.adm_ig_UU 0 0 + 2 * Ric_D0D1 x * x.adm_ig_UU 0 1 + 2 * Ric_D0D2 x * x.adm_ig_UU 0 2 + Ric_D1D1 x * x.adm_ig_UU
      1 1 + 2 * Ric_D1D2 x * x.adm_ig_UU 1 2 + Ric_D2D2 x * x.adm_ig_UU 2 2

/-- adm_ham_mom_from_scratch.c:397-427 -/
noncomputable def KijKij (x : In) : ℝ :=
  (x.adm_KIJ_UU 0 0) ^ 2 * (x.adm_g_DD 0 0) ^ 2 + 4 * x.adm_KIJ_UU 0 0 * x.adm_KIJ_UU 0 1 * x.adm_g_DD 0 0 * x.adm_g_DD 0 1 + 4
      * x.adm_KIJ_UU 0 0 * x.adm_KIJ_UU 0 2 * x.adm_g_DD 0 0 * x.adm_g_DD 0 2 + 2 * x.adm_KIJ_UU 0 0 * x.adm_KIJ_UU 1 1 *
      (x.adm_g_DD 0 1) ^ 2 + 4 * x.adm_KIJ_UU 0 0 * x.adm_KIJ_UU 1 2 * x.adm_g_DD 0 1 * x.adm_g_DD 0 2 + 2 * x.adm_KIJ_UU 0 0 *
      x.adm_KIJ_UU 2 2 * (x.adm_g_DD 0 2) ^ 2 + 2 * (x.adm_KIJ_UU 0 1) ^ 2 * x.adm_g_DD 0 0 * x.adm_g_DD 1 1 + 2 *
      (x.adm_KIJ_UU 0 1) ^ 2 * (x.adm_g_DD 0 1) ^ 2 + 4 * x.adm_KIJ_UU 0 1 * x.adm_KIJ_UU 0 2 * x.adm_g_DD 0 0 * x.adm_g_DD 1 2
      + 4 * x.adm_KIJ_UU 0 1 * x.adm_KIJ_UU 0 2 * x.adm_g_DD 0 1 * x.adm_g_DD 0 2 + 4 * x.adm_KIJ_UU 0 1 * x.adm_KIJ_UU 1 1 *
      x.adm_g_DD 0 1 * x.adm_g_DD 1 1 + 4 * x.adm_KIJ_UU 0 1 * x.adm_KIJ_UU 1 2 * x.adm_g_DD 0 1 * x.adm_g_DD 1 2 + 4 *
      x.adm_KIJ_UU 0 1 * x.adm_KIJ_UU 1 2 * x.adm_g_DD 0 2 * x.adm_g_DD 1 1 + 4 * x.adm_KIJ_UU 0 1 * x.adm_KIJ_UU 2 2 *
      x.adm_g_DD 0 2 * x.adm_g_DD 1 2 + 2 * (x.adm_KIJ_UU 0 2) ^ 2 * x.adm_g_DD 0 0 * x.adm_g_DD 2 2 + 2 * (x.adm_KIJ_UU 0 2) ^
      2 * (x.adm_g_DD 0 2) ^ 2 + 4 * x.adm_KIJ_UU 0 2 * x.adm_KIJ_UU 1 1 * x.adm_g_DD 0 1 * x.adm_g_DD 1 2 + 4 * x.adm_KIJ_UU 0
      2 * x.adm_KIJ_UU 1 2 * x.adm_g_DD 0 1 * x.adm_g_DD 2 2 + 4 * x.adm_KIJ_UU 0 2 * x.adm_KIJ_UU 1 2 * x.adm_g_DD 0 2 *
      x.adm_g_DD 1 2 + 4 * x.adm_KIJ_UU 0 2 * x.adm_KIJ_UU 2 2 * x.adm_g_DD 0 2 * x.adm_g_DD 2 2 + (x.adm_KIJ_UU 1 1) ^ 2 *
      (x.adm_g_DD 1 1) ^ 2 + 4 * x.adm_KIJ_UU 1 1 * x.adm_KIJ_UU 1 2 * x.adm_g_DD 1 1 * x.adm_g_DD 1 2 + 2 * x.adm_KIJ_UU 1 1 *
      x.adm_KIJ_UU 2 2 * (x.adm_g_DD 1 2) ^ 2 + 2 * (x.adm_KIJ_UU 1 2) ^ 2 * x.adm_g_DD 1 1 * x.adm_g_DD 2 2 + 2 *
      (x.adm_KIJ_UU 1 2) ^ 2 * (x.adm_g_DD 1 2) ^ 2 + 4 * x.adm_KIJ_UU 1 2 * x.adm_KIJ_UU 2 2 * x.adm_g_DD 1 2 * x.adm_g_DD 2 2
      + (x.adm_KIJ_UU 2 2) ^ 2 * (x.adm_g_DD 2 2) ^ 2

/-- adm_ham_mom_from_scratch.c:429-438 -/
noncomputable def DjKij_U0 (x : In) : ℝ :=
  2 * x.Gamma_UDD 0 0 0 * x.adm_KIJ_UU 0 0 + 3 * x.Gamma_UDD 0 0 1 * x.adm_KIJ_UU 0 1 + 3 * x.Gamma_UDD 0 0 2 * x.adm_KIJ_UU 0
      2 + x.Gamma_UDD 0 1 1 * x.adm_KIJ_UU 1 1 + 2 * x.Gamma_UDD 0 1 2 * x.adm_KIJ_UU 1 2 + x.Gamma_UDD 0 2 2 * x.adm_KIJ_UU 2
      2 + x.Gamma_UDD 1 0 1 * x.adm_KIJ_UU 0 0 + x.Gamma_UDD 1 1 1 * x.adm_KIJ_UU 0 1 + x.Gamma_UDD 1 1 2 * x.adm_KIJ_UU 0 2 +
      x.Gamma_UDD 2 0 2 * x.adm_KIJ_UU 0 0 + x.Gamma_UDD 2 1 2 * x.adm_KIJ_UU 0 1 + x.Gamma_UDD 2 2 2 * x.adm_KIJ_UU 0 2 +
      x.dadm_KIJ_UUD 0 0 0 + x.dadm_KIJ_UUD 0 1 1 + x.dadm_KIJ_UUD 0 2 2

/-- adm_ham_mom_from_scratch.c:440-449 -/
noncomputable def DjKij_U1 (x : In) : ℝ :=
  x.Gamma_UDD 0 0 0 * x.adm_KIJ_UU 0 1 + x.Gamma_UDD 0 0 1 * x.adm_KIJ_UU 1 1 + x.Gamma_UDD 0 0 2 * x.adm_KIJ_UU 1 2 +
      x.Gamma_UDD 1 0 0 * x.adm_KIJ_UU 0 0 + 3 * x.Gamma_UDD 1 0 1 * x.adm_KIJ_UU 0 1 + 2 * x.Gamma_UDD 1 0 2 * x.adm_KIJ_UU 0
      2 + 2 * x.Gamma_UDD 1 1 1 * x.adm_KIJ_UU 1 1 + 3 * x.Gamma_UDD 1 1 2 * x.adm_KIJ_UU 1 2 + x.Gamma_UDD 1 2 2 *
      x.adm_KIJ_UU 2 2 + x.Gamma_UDD 2 0 2 * x.adm_KIJ_UU 0 1 + x.Gamma_UDD 2 1 2 * x.adm_KIJ_UU 1 1 + x.Gamma_UDD 2 2 2 *
      x.adm_KIJ_UU 1 2 + x.dadm_KIJ_UUD 0 1 0 + x.dadm_KIJ_UUD 1 1 1 + x.dadm_KIJ_UUD 1 2 2

/-- adm_ham_mom_from_scratch.c:451-460 -/
noncomputable def DjKij_U2 (x : In) : ℝ :=
  x.Gamma_UDD 0 0 0 * x.adm_KIJ_UU 0 2 + x.Gamma_UDD 0 0 1 * x.adm_KIJ_UU 1 2 + x.Gamma_UDD 0 0 2 * x.adm_KIJ_UU 2 2 +
      x.Gamma_UDD 1 0 1 * x.adm_KIJ_UU 0 2 + x.Gamma_UDD 1 1 1 * x.adm_KIJ_UU 1 2 + x.Gamma_UDD 1 1 2 * x.adm_KIJ_UU 2 2 +
      x.Gamma_UDD 2 0 0 * x.adm_KIJ_UU 0 0 + 2 * x.Gamma_UDD 2 0 1 * x.adm_KIJ_UU 0 1 + 3 * x.Gamma_UDD 2 0 2 * x.adm_KIJ_UU 0
      2 + x.Gamma_UDD 2 1 1 * x.adm_KIJ_UU 1 1 + 3 * x.Gamma_UDD 2 1 2 * x.adm_KIJ_UU 1 2 + 2 * x.Gamma_UDD 2 2 2 *
      x.adm_KIJ_UU 2 2 + x.dadm_KIJ_UUD 0 2 0 + x.dadm_KIJ_UUD 1 2 1 + x.dadm_KIJ_UUD 2 2 2

/-- adm_ham_mom_from_scratch.c:462-464 -/
noncomputable def Ham_Constraint (x : In) : ℝ :=
  x.EConfC * (-KijKij x + R x + x.trK ^ 2) - 16 * Real.pi * Ep x

/-- adm_ham_mom_from_scratch.c:466-469 -/
noncomputable def Mom_constraint_U0 (x : In) : ℝ :=
  -x.JConfC * (-DjKij_U0 x + x.adm_ig_UU 0 0 * x.dtrK_D 0 + x.adm_ig_UU 0 1 * x.dtrK_D 1 + x.adm_ig_UU 0 2 * x.dtrK_D 2) - 8 *
      Real.pi * Jp_U0 x

/-- adm_ham_mom_from_scratch.c:471-474 -/
noncomputable def Mom_constraint_U1 (x : In) : ℝ :=
  -x.JConfC * (-DjKij_U1 x + x.adm_ig_UU 0 1 * x.dtrK_D 0 + x.adm_ig_UU 1 1 * x.dtrK_D 1 + x.adm_ig_UU 1 2 * x.dtrK_D 2) - 8 *
      Real.pi * Jp_U1 x

/-- adm_ham_mom_from_scratch.c:476-479 -/
noncomputable def Mom_constraint_U2 (x : In) : ℝ :=
  -x.JConfC * (-DjKij_U2 x + x.adm_ig_UU 0 2 * x.dtrK_D 0 + x.adm_ig_UU 1 2 * x.dtrK_D 1 + x.adm_ig_UU 2 2 * x.dtrK_D 2) - 8 *
      Real.pi * Jp_U2 x

/-- adm_ham_mom_from_scratch.c:482-484 the values written to mom_U; `none`: not stored -/
noncomputable def out_mom_U (x : In) : Fin 3 → Option ℝ
  | 0 => some (Mom_constraint_U0 x)
  | 1 => some (Mom_constraint_U1 x)
  | 2 => some (Mom_constraint_U2 x)

/-- adm_ham_mom_from_scratch.c:485 the value written to ham -/
noncomputable def out_ham (x : In) : ℝ :=
  Ham_Constraint x

end Elliptica.Gen.HamScratch

namespace Elliptica.Gen.HamIdent

/-- values at one node read by Src/Main/Modules/Physics/ADM/adm_ham_mom_from_identities.c -/
structure In where
  psi : ℝ
  JConf_U : Fin 3 → ℝ
  EConf : ℝ
  dpsi_D : Fin 3 → ℝ
  ChrisConf_UDD : Fin 3 → Fin 3 → Fin 3 → ℝ
  igConf_UU : Fin 3 → Fin 3 → ℝ
  ddpsi_DD : Fin 3 → Fin 3 → ℝ
  trRicciConf : ℝ
  AConfIJ_UU : Fin 3 → Fin 3 → ℝ
  trK : ℝ
  gConf_DD : Fin 3 → Fin 3 → ℝ
  dtrK_D : Fin 3 → ℝ
  dAConfIJ_UUD : Fin 3 → Fin 3 → Fin 3 → ℝ
  digConf_UUD : Fin 3 → Fin 3 → Fin 3 → ℝ

/-- adm_ham_mom_from_identities.c:130-131 -/
noncomputable def psim4 (x : In) : ℝ :=
  (x.psi ^ 4)⁻¹

/-- adm_ham_mom_from_identities.c:133-134 -/
noncomputable def psim6 (x : In) : ℝ :=
  (x.psi ^ 6)⁻¹

/-- adm_ham_mom_from_identities.c:136-137 -/
noncomputable def J_U2 (x : In) : ℝ :=
  x.JConf_U 2 * psim6 x

/-- adm_ham_mom_from_identities.c:139-140 -/
noncomputable def J_U0 (x : In) : ℝ :=
  x.JConf_U 0 * psim6 x

/-- adm_ham_mom_from_identities.c:142-143 -/
noncomputable def J_U1 (x : In) : ℝ :=
  x.JConf_U 1 * psim6 x

/-- adm_ham_mom_from_identities.c:145-146 -/
noncomputable def E (x : In) : ℝ :=
  x.EConf * psim6 x

/-- adm_ham_mom_from_identities.c:148-149 -/
noncomputable def dLnpsi_D0 (x : In) : ℝ :=
  x.dpsi_D 0 / x.psi

/-- adm_ham_mom_from_identities.c:151-152 -/
noncomputable def dLnpsi_D1 (x : In) : ℝ :=
  x.dpsi_D 1 / x.psi

/-- adm_ham_mom_from_identities.c:154-155 -/
noncomputable def dLnpsi_D2 (x : In) : ℝ :=
  x.dpsi_D 2 / x.psi

/-- adm_ham_mom_from_identities.c:157-179 -/
noncomputable def DDpsi (x : In) : ℝ :=
  -x.ChrisConf_UDD 0 0 0 * x.dpsi_D 0 * x.igConf_UU 0 0 - 2 * x.ChrisConf_UDD 0 0 1 * x.dpsi_D 0 * x.igConf_UU 0 1 - 2 *
      x.ChrisConf_UDD 0 0 2 * x.dpsi_D 0 * x.igConf_UU 0 2 - x.ChrisConf_UDD 0 1 1 * x.dpsi_D 0 * x.igConf_UU 1 1 - 2 *
      x.ChrisConf_UDD 0 1 2 * x.dpsi_D 0 * x.igConf_UU 1 2 - x.ChrisConf_UDD 0 2 2 * x.dpsi_D 0 * x.igConf_UU 2 2 -
      x.ChrisConf_UDD 1 0 0 * x.dpsi_D 1 * x.igConf_UU 0 0 - 2 * x.ChrisConf_UDD 1 0 1 * x.dpsi_D 1 * x.igConf_UU 0 1 - 2 *
      x.ChrisConf_UDD 1 0 2 * x.dpsi_D 1 * x.igConf_UU 0 2 - x.ChrisConf_UDD 1 1 1 * x.dpsi_D 1 * x.igConf_UU 1 1 - 2 *
      x.ChrisConf_UDD 1 1 2 * x.dpsi_D 1 * x.igConf_UU 1 2 - x.ChrisConf_UDD 1 2 2 * x.dpsi_D 1 * x.igConf_UU 2 2 -
      x.ChrisConf_UDD 2 0 0 * x.dpsi_D 2 * x.igConf_UU 0 0 - 2 * x.ChrisConf_UDD 2 0 1 * x.dpsi_D 2 * x.igConf_UU 0 1 - 2 *
      x.ChrisConf_UDD 2 0 2 * x.dpsi_D 2 * x.igConf_UU 0 2 - x.ChrisConf_UDD 2 1 1 * x.dpsi_D 2 * x.igConf_UU 1 1 - 2 *
      x.ChrisConf_UDD 2 1 2 * x.dpsi_D 2 * x.igConf_UU 1 2 - x.ChrisConf_UDD 2 2 2 * x.dpsi_D 2 * x.igConf_UU 2 2 + x.ddpsi_DD
      0 0 * x.igConf_UU 0 0 + 2 * x.ddpsi_DD 0 1 * x.igConf_UU 0 1 + 2 * x.ddpsi_DD 0 2 * x.igConf_UU 0 2 + x.ddpsi_DD 1 1 *
      x.igConf_UU 1 1 + 2 * x.ddpsi_DD 1 2 * x.igConf_UU 1 2 + x.ddpsi_DD 2 2 * x.igConf_UU 2 2

/-- adm_ham_mom_from_identities.c:181-182 -/
noncomputable def R (x : In) : ℝ :=
  -8 * DDpsi x * psim4 x / x.psi + psim4 x * x.trRicciConf

/-- adm_ham_mom_from_identities.c:184-186 -/
noncomputable def Kbar_U0U0 (x : In) : ℝ :=
  x.AConfIJ_UU 0 0 * psim6 x + (1 / 3) * x.igConf_UU 0 0 * x.trK

/-- adm_ham_mom_from_identities.c:188-190 -/
noncomputable def Kbar_U0U1 (x : In) : ℝ :=
  x.AConfIJ_UU 0 1 * psim6 x + (1 / 3) * x.igConf_UU 0 1 * x.trK

/-- adm_ham_mom_from_identities.c:192-194 -/
noncomputable def Kbar_U0U2 (x : In) : ℝ :=
  x.AConfIJ_UU 0 2 * psim6 x + (1 / 3) * x.igConf_UU 0 2 * x.trK

/-- adm_ham_mom_from_identities.c:196-198 -/
noncomputable def Kbar_U2U2 (x : In) : ℝ :=
  x.AConfIJ_UU 2 2 * psim6 x + (1 / 3) * x.igConf_UU 2 2 * x.trK

/-- adm_ham_mom_from_identities.c:200-202 -/
noncomputable def Kbar_U1U1 (x : In) : ℝ :=
  x.AConfIJ_UU 1 1 * psim6 x + (1 / 3) * x.igConf_UU 1 1 * x.trK

/-- adm_ham_mom_from_identities.c:204-206 -/
noncomputable def Kbar_U1U2 (x : In) : ℝ :=
  x.AConfIJ_UU 1 2 * psim6 x + (1 / 3) * x.igConf_UU 1 2 * x.trK

/-- adm_ham_mom_from_identities.c:208-232 -/
noncomputable def KijKij (x : In) : ℝ :=
  (Kbar_U0U0 x) ^ 2 * (x.gConf_DD 0 0) ^ 2 + 4 * Kbar_U0U0 x * Kbar_U0U1 x * x.gConf_DD 0 0 * x.gConf_DD 0 1 + 4 * Kbar_U0U0 x
      * Kbar_U0U2 x * x.gConf_DD 0 0 * x.gConf_DD 0 2 + 2 * Kbar_U0U0 x * Kbar_U1U1 x * (x.gConf_DD 0 1) ^ 2 + 4 * Kbar_U0U0 x
      * Kbar_U1U2 x * x.gConf_DD 0 1 * x.gConf_DD 0 2 + 2 * Kbar_U0U0 x * Kbar_U2U2 x * (x.gConf_DD 0 2) ^ 2 + 2 * (Kbar_U0U1
      x) ^ 2 * x.gConf_DD 0 0 * x.gConf_DD 1 1 + 2 * (Kbar_U0U1 x) ^ 2 * (x.gConf_DD 0 1) ^ 2 + 4 * Kbar_U0U1 x * Kbar_U0U2 x *
      x.gConf_DD 0 0 * x.gConf_DD 1 2 + 4 * Kbar_U0U1 x * Kbar_U0U2 x * x.gConf_DD 0 1 * x.gConf_DD 0 2 + 4 * Kbar_U0U1 x *
      Kbar_U1U1 x * x.gConf_DD 0 1 * x.gConf_DD 1 1 + 4 * Kbar_U0U1 x * Kbar_U1U2 x * x.gConf_DD 0 1 * x.gConf_DD 1 2 + 4 *
      Kbar_U0U1 x * Kbar_U1U2 x * x.gConf_DD 0 2 * x.gConf_DD 1 1 + 4 * Kbar_U0U1 x * Kbar_U2U2 x * x.gConf_DD 0 2 * x.gConf_DD
      1 2 + 2 * (Kbar_U0U2 x) ^ 2 * x.gConf_DD 0 0 * x.gConf_DD 2 2 + 2 * (Kbar_U0U2 x) ^ 2 * (x.gConf_DD 0 2) ^ 2 + 4 *
      Kbar_U0U2 x * Kbar_U1U1 x * x.gConf_DD 0 1 * x.gConf_DD 1 2 + 4 * Kbar_U0U2 x * Kbar_U1U2 x * x.gConf_DD 0 1 * x.gConf_DD
      2 2 + 4 * Kbar_U0U2 x * Kbar_U1U2 x * x.gConf_DD 0 2 * x.gConf_DD 1 2 + 4 * Kbar_U0U2 x * Kbar_U2U2 x * x.gConf_DD 0 2 *
      x.gConf_DD 2 2 + (Kbar_U1U1 x) ^ 2 * (x.gConf_DD 1 1) ^ 2 + 4 * Kbar_U1U1 x * Kbar_U1U2 x * x.gConf_DD 1 1 * x.gConf_DD 1
      2 + 2 * Kbar_U1U1 x * Kbar_U2U2 x * (x.gConf_DD 1 2) ^ 2 + 2 * (Kbar_U1U2 x) ^ 2 * x.gConf_DD 1 1 * x.gConf_DD 2 2 + 2 *
      (Kbar_U1U2 x) ^ 2 * (x.gConf_DD 1 2) ^ 2 + 4 * Kbar_U1U2 x * Kbar_U2U2 x * x.gConf_DD 1 2 * x.gConf_DD 2 2 + (Kbar_U2U2
      x) ^ 2 * (x.gConf_DD 2 2) ^ 2

/-- adm_ham_mom_from_identities.c:234-235 -/
noncomputable def Ham_Constraint (x : In) : ℝ :=
  -16 * Real.pi * E x - KijKij x + R x + x.trK ^ 2

/-- adm_ham_mom_from_identities.c:237-240 -/
noncomputable def c_U2U2U2 (x : In) : ℝ :=
  -2 * dLnpsi_D0 x * x.gConf_DD 2 2 * x.igConf_UU 0 2 - 2 * dLnpsi_D1 x * x.gConf_DD 2 2 * x.igConf_UU 1 2 - 2 * dLnpsi_D2 x *
      x.gConf_DD 2 2 * x.igConf_UU 2 2 + 4 * dLnpsi_D2 x

/-- adm_ham_mom_from_identities.c:242-245 -/
noncomputable def c_U0U0U1 (x : In) : ℝ :=
  -2 * dLnpsi_D0 x * x.gConf_DD 0 1 * x.igConf_UU 0 0 - 2 * dLnpsi_D1 x * x.gConf_DD 0 1 * x.igConf_UU 0 1 + 2 * dLnpsi_D1 x -
      2 * dLnpsi_D2 x * x.gConf_DD 0 1 * x.igConf_UU 0 2

/-- adm_ham_mom_from_identities.c:247-250 -/
noncomputable def c_U0U0U0 (x : In) : ℝ :=
  -2 * dLnpsi_D0 x * x.gConf_DD 0 0 * x.igConf_UU 0 0 + 4 * dLnpsi_D0 x - 2 * dLnpsi_D1 x * x.gConf_DD 0 0 * x.igConf_UU 0 1 -
      2 * dLnpsi_D2 x * x.gConf_DD 0 0 * x.igConf_UU 0 2

/-- adm_ham_mom_from_identities.c:252-254 -/
noncomputable def c_U1U0U2 (x : In) : ℝ :=
  -2 * x.gConf_DD 0 2 * (dLnpsi_D0 x * x.igConf_UU 0 1 + dLnpsi_D1 x * x.igConf_UU 1 1 + dLnpsi_D2 x * x.igConf_UU 1 2)

/-- adm_ham_mom_from_identities.c:256-259 -/
noncomputable def c_U0U0U2 (x : In) : ℝ :=
  -2 * dLnpsi_D0 x * x.gConf_DD 0 2 * x.igConf_UU 0 0 - 2 * dLnpsi_D1 x * x.gConf_DD 0 2 * x.igConf_UU 0 1 - 2 * dLnpsi_D2 x *
      x.gConf_DD 0 2 * x.igConf_UU 0 2 + 2 * dLnpsi_D2 x

/-- adm_ham_mom_from_identities.c:261-263 -/
noncomputable def c_U0U2U2 (x : In) : ℝ :=
  -2 * x.gConf_DD 2 2 * (dLnpsi_D0 x * x.igConf_UU 0 0 + dLnpsi_D1 x * x.igConf_UU 0 1 + dLnpsi_D2 x * x.igConf_UU 0 2)

/-- adm_ham_mom_from_identities.c:265-267 -/
noncomputable def c_U2U0U1 (x : In) : ℝ :=
  -2 * x.gConf_DD 0 1 * (dLnpsi_D0 x * x.igConf_UU 0 2 + dLnpsi_D1 x * x.igConf_UU 1 2 + dLnpsi_D2 x * x.igConf_UU 2 2)

/-- adm_ham_mom_from_identities.c:269-271 -/
noncomputable def c_U2U0U0 (x : In) : ℝ :=
  -2 * x.gConf_DD 0 0 * (dLnpsi_D0 x * x.igConf_UU 0 2 + dLnpsi_D1 x * x.igConf_UU 1 2 + dLnpsi_D2 x * x.igConf_UU 2 2)

/-- adm_ham_mom_from_identities.c:273-276 -/
noncomputable def c_U1U1U1 (x : In) : ℝ :=
  -2 * dLnpsi_D0 x * x.gConf_DD 1 1 * x.igConf_UU 0 1 - 2 * dLnpsi_D1 x * x.gConf_DD 1 1 * x.igConf_UU 1 1 + 4 * dLnpsi_D1 x -
      2 * dLnpsi_D2 x * x.gConf_DD 1 1 * x.igConf_UU 1 2

/-- adm_ham_mom_from_identities.c:278-280 -/
noncomputable def c_U1U2U2 (x : In) : ℝ :=
  -2 * x.gConf_DD 2 2 * (dLnpsi_D0 x * x.igConf_UU 0 1 + dLnpsi_D1 x * x.igConf_UU 1 1 + dLnpsi_D2 x * x.igConf_UU 1 2)

/-- adm_ham_mom_from_identities.c:282-284 -/
noncomputable def c_U0U1U1 (x : In) : ℝ :=
  -2 * x.gConf_DD 1 1 * (dLnpsi_D0 x * x.igConf_UU 0 0 + dLnpsi_D1 x * x.igConf_UU 0 1 + dLnpsi_D2 x * x.igConf_UU 0 2)

/-- adm_ham_mom_from_identities.c:286-288 -/
noncomputable def c_U0U1U2 (x : In) : ℝ :=
  -2 * x.gConf_DD 1 2 * (dLnpsi_D0 x * x.igConf_UU 0 0 + dLnpsi_D1 x * x.igConf_UU 0 1 + dLnpsi_D2 x * x.igConf_UU 0 2)

/-- adm_ham_mom_from_identities.c:290-293 -/
noncomputable def c_U1U0U1 (x : In) : ℝ :=
  -2 * dLnpsi_D0 x * x.gConf_DD 0 1 * x.igConf_UU 0 1 + 2 * dLnpsi_D0 x - 2 * dLnpsi_D1 x * x.gConf_DD 0 1 * x.igConf_UU 1 1 -
      2 * dLnpsi_D2 x * x.gConf_DD 0 1 * x.igConf_UU 1 2

/-- adm_ham_mom_from_identities.c:295-298 -/
noncomputable def c_U2U1U2 (x : In) : ℝ :=
  -2 * dLnpsi_D0 x * x.gConf_DD 1 2 * x.igConf_UU 0 2 - 2 * dLnpsi_D1 x * x.gConf_DD 1 2 * x.igConf_UU 1 2 + 2 * dLnpsi_D1 x -
      2 * dLnpsi_D2 x * x.gConf_DD 1 2 * x.igConf_UU 2 2

/-- adm_ham_mom_from_identities.c:300-302 -/
noncomputable def c_U1U0U0 (x : In) : ℝ :=
  -2 * x.gConf_DD 0 0 * (dLnpsi_D0 x * x.igConf_UU 0 1 + dLnpsi_D1 x * x.igConf_UU 1 1 + dLnpsi_D2 x * x.igConf_UU 1 2)

/-- adm_ham_mom_from_identities.c:304-306 -/
noncomputable def c_U2U1U1 (x : In) : ℝ :=
  -2 * x.gConf_DD 1 1 * (dLnpsi_D0 x * x.igConf_UU 0 2 + dLnpsi_D1 x * x.igConf_UU 1 2 + dLnpsi_D2 x * x.igConf_UU 2 2)

/-- adm_ham_mom_from_identities.c:308-311 -/
noncomputable def c_U1U1U2 (x : In) : ℝ :=
  -2 * dLnpsi_D0 x * x.gConf_DD 1 2 * x.igConf_UU 0 1 - 2 * dLnpsi_D1 x * x.gConf_DD 1 2 * x.igConf_UU 1 1 - 2 * dLnpsi_D2 x *
      x.gConf_DD 1 2 * x.igConf_UU 1 2 + 2 * dLnpsi_D2 x

/-- adm_ham_mom_from_identities.c:313-316 -/
noncomputable def c_U2U0U2 (x : In) : ℝ :=
  -2 * dLnpsi_D0 x * x.gConf_DD 0 2 * x.igConf_UU 0 2 + 2 * dLnpsi_D0 x - 2 * dLnpsi_D1 x * x.gConf_DD 0 2 * x.igConf_UU 1 2 -
      2 * dLnpsi_D2 x * x.gConf_DD 0 2 * x.igConf_UU 2 2

/-- adm_ham_mom_from_identities.c:318-326 -/
noncomputable def djKj_U0 (x : In) : ℝ :=
  (1 / 3) * psim4 x * (x.dtrK_D 0 * x.igConf_UU 0 0 + x.dtrK_D 1 * x.igConf_UU 0 1 + x.dtrK_D 2 * x.igConf_UU 0 2 - 3 * psim6 x
      * (10 * x.AConfIJ_UU 0 0 * dLnpsi_D0 x + 10 * x.AConfIJ_UU 0 1 * dLnpsi_D1 x + 10 * x.AConfIJ_UU 0 2 * dLnpsi_D2 x -
      x.dAConfIJ_UUD 0 0 0 - x.dAConfIJ_UUD 0 1 1 - x.dAConfIJ_UUD 0 2 2) + x.trK * (x.digConf_UUD 0 0 0 + x.digConf_UUD 0 1 1
      + x.digConf_UUD 0 2 2) - 4 * x.trK * (dLnpsi_D0 x * x.igConf_UU 0 0 + dLnpsi_D1 x * x.igConf_UU 0 1 + dLnpsi_D2 x *
      x.igConf_UU 0 2))

/-- adm_ham_mom_from_identities.c:328-336 -/
noncomputable def djKj_U1 (x : In) : ℝ :=
  (1 / 3) * psim4 x * (x.dtrK_D 0 * x.igConf_UU 0 1 + x.dtrK_D 1 * x.igConf_UU 1 1 + x.dtrK_D 2 * x.igConf_UU 1 2 - 3 * psim6 x
      * (10 * x.AConfIJ_UU 0 1 * dLnpsi_D0 x + 10 * x.AConfIJ_UU 1 1 * dLnpsi_D1 x + 10 * x.AConfIJ_UU 1 2 * dLnpsi_D2 x -
      x.dAConfIJ_UUD 0 1 0 - x.dAConfIJ_UUD 1 1 1 - x.dAConfIJ_UUD 1 2 2) + x.trK * (x.digConf_UUD 0 1 0 + x.digConf_UUD 1 1 1
      + x.digConf_UUD 1 2 2) - 4 * x.trK * (dLnpsi_D0 x * x.igConf_UU 0 1 + dLnpsi_D1 x * x.igConf_UU 1 1 + dLnpsi_D2 x *
      x.igConf_UU 1 2))

/-- adm_ham_mom_from_identities.c:338-346 -/
noncomputable def djKj_U2 (x : In) : ℝ :=
  (1 / 3) * psim4 x * (x.dtrK_D 0 * x.igConf_UU 0 2 + x.dtrK_D 1 * x.igConf_UU 1 2 + x.dtrK_D 2 * x.igConf_UU 2 2 - 3 * psim6 x
      * (10 * x.AConfIJ_UU 0 2 * dLnpsi_D0 x + 10 * x.AConfIJ_UU 1 2 * dLnpsi_D1 x + 10 * x.AConfIJ_UU 2 2 * dLnpsi_D2 x -
      x.dAConfIJ_UUD 0 2 0 - x.dAConfIJ_UUD 1 2 1 - x.dAConfIJ_UUD 2 2 2) + x.trK * (x.digConf_UUD 0 2 0 + x.digConf_UUD 1 2 1
      + x.digConf_UUD 2 2 2) - 4 * x.trK * (dLnpsi_D0 x * x.igConf_UU 0 2 + dLnpsi_D1 x * x.igConf_UU 1 2 + dLnpsi_D2 x *
      x.igConf_UU 2 2))

/-- adm_ham_mom_from_identities.c:348-355 -/
noncomputable def GammaKbar_U2 (x : In) : ℝ :=
  x.ChrisConf_UDD 0 0 0 * Kbar_U0U2 x + x.ChrisConf_UDD 0 0 1 * Kbar_U1U2 x + x.ChrisConf_UDD 0 0 2 * Kbar_U2U2 x +
      x.ChrisConf_UDD 1 0 1 * Kbar_U0U2 x + x.ChrisConf_UDD 1 1 1 * Kbar_U1U2 x + x.ChrisConf_UDD 1 1 2 * Kbar_U2U2 x +
      x.ChrisConf_UDD 2 0 0 * Kbar_U0U0 x + 2 * x.ChrisConf_UDD 2 0 1 * Kbar_U0U1 x + 3 * x.ChrisConf_UDD 2 0 2 * Kbar_U0U2 x +
      x.ChrisConf_UDD 2 1 1 * Kbar_U1U1 x + 3 * x.ChrisConf_UDD 2 1 2 * Kbar_U1U2 x + 2 * x.ChrisConf_UDD 2 2 2 * Kbar_U2U2 x

/-- adm_ham_mom_from_identities.c:357-364 -/
noncomputable def GammaKbar_U1 (x : In) : ℝ :=
  x.ChrisConf_UDD 0 0 0 * Kbar_U0U1 x + x.ChrisConf_UDD 0 0 1 * Kbar_U1U1 x + x.ChrisConf_UDD 0 0 2 * Kbar_U1U2 x +
      x.ChrisConf_UDD 1 0 0 * Kbar_U0U0 x + 3 * x.ChrisConf_UDD 1 0 1 * Kbar_U0U1 x + 2 * x.ChrisConf_UDD 1 0 2 * Kbar_U0U2 x +
      2 * x.ChrisConf_UDD 1 1 1 * Kbar_U1U1 x + 3 * x.ChrisConf_UDD 1 1 2 * Kbar_U1U2 x + x.ChrisConf_UDD 1 2 2 * Kbar_U2U2 x +
      x.ChrisConf_UDD 2 0 2 * Kbar_U0U1 x + x.ChrisConf_UDD 2 1 2 * Kbar_U1U1 x + x.ChrisConf_UDD 2 2 2 * Kbar_U1U2 x

/-- adm_ham_mom_from_identities.c:366-373 -/
noncomputable def GammaKbar_U0 (x : In) : ℝ :=
  2 * x.ChrisConf_UDD 0 0 0 * Kbar_U0U0 x + 3 * x.ChrisConf_UDD 0 0 1 * Kbar_U0U1 x + 3 * x.ChrisConf_UDD 0 0 2 * Kbar_U0U2 x +
      x.ChrisConf_UDD 0 1 1 * Kbar_U1U1 x + 2 * x.ChrisConf_UDD 0 1 2 * Kbar_U1U2 x + x.ChrisConf_UDD 0 2 2 * Kbar_U2U2 x +
      x.ChrisConf_UDD 1 0 1 * Kbar_U0U0 x + x.ChrisConf_UDD 1 1 1 * Kbar_U0U1 x + x.ChrisConf_UDD 1 1 2 * Kbar_U0U2 x +
      x.ChrisConf_UDD 2 0 2 * Kbar_U0U0 x + x.ChrisConf_UDD 2 1 2 * Kbar_U0U1 x + x.ChrisConf_UDD 2 2 2 * Kbar_U0U2 x

/-- adm_ham_mom_from_identities.c:375-376 -/
noncomputable def DbarjKj_U2 (x : In) : ℝ :=
  GammaKbar_U2 x * psim4 x + djKj_U2 x

/-- adm_ham_mom_from_identities.c:378-379 -/
noncomputable def DbarjKj_U0 (x : In) : ℝ :=
  GammaKbar_U0 x * psim4 x + djKj_U0 x

/-- adm_ham_mom_from_identities.c:381-382 -/
noncomputable def DbarjKj_U1 (x : In) : ℝ :=
  GammaKbar_U1 x * psim4 x + djKj_U1 x

/-- adm_ham_mom_from_identities.c:384-389 -/
noncomputable def CKbar_U2 (x : In) : ℝ :=
  Kbar_U0U0 x * c_U2U0U0 x + 2 * Kbar_U0U1 x * c_U2U0U1 x + Kbar_U0U2 x * c_U0U0U0 x + Kbar_U0U2 x * c_U1U0U1 x + 3 * Kbar_U0U2
      x * c_U2U0U2 x + Kbar_U1U1 x * c_U2U1U1 x + Kbar_U1U2 x * c_U0U0U1 x + Kbar_U1U2 x * c_U1U1U1 x + 3 * Kbar_U1U2 x *
      c_U2U1U2 x + Kbar_U2U2 x * c_U0U0U2 x + Kbar_U2U2 x * c_U1U1U2 x + 2 * Kbar_U2U2 x * c_U2U2U2 x

/-- adm_ham_mom_from_identities.c:391-396 -/
noncomputable def CKbar_U1 (x : In) : ℝ :=
  Kbar_U0U0 x * c_U1U0U0 x + Kbar_U0U1 x * c_U0U0U0 x + 3 * Kbar_U0U1 x * c_U1U0U1 x + Kbar_U0U1 x * c_U2U0U2 x + 2 * Kbar_U0U2
      x * c_U1U0U2 x + Kbar_U1U1 x * c_U0U0U1 x + 2 * Kbar_U1U1 x * c_U1U1U1 x + Kbar_U1U1 x * c_U2U1U2 x + Kbar_U1U2 x *
      c_U0U0U2 x + 3 * Kbar_U1U2 x * c_U1U1U2 x + Kbar_U1U2 x * c_U2U2U2 x + Kbar_U2U2 x * c_U1U2U2 x

/-- adm_ham_mom_from_identities.c:398-403 -/
noncomputable def CKbar_U0 (x : In) : ℝ :=
  2 * Kbar_U0U0 x * c_U0U0U0 x + Kbar_U0U0 x * c_U1U0U1 x + Kbar_U0U0 x * c_U2U0U2 x + 3 * Kbar_U0U1 x * c_U0U0U1 x + Kbar_U0U1
      x * c_U1U1U1 x + Kbar_U0U1 x * c_U2U1U2 x + 3 * Kbar_U0U2 x * c_U0U0U2 x + Kbar_U0U2 x * c_U1U1U2 x + Kbar_U0U2 x *
      c_U2U2U2 x + Kbar_U1U1 x * c_U0U1U1 x + 2 * Kbar_U1U2 x * c_U0U1U2 x + Kbar_U2U2 x * c_U0U2U2 x

/-- adm_ham_mom_from_identities.c:405-406 -/
noncomputable def Dk_U0 (x : In) : ℝ :=
  CKbar_U0 x * psim4 x + DbarjKj_U0 x

/-- adm_ham_mom_from_identities.c:408-409 -/
noncomputable def Dk_U1 (x : In) : ℝ :=
  CKbar_U1 x * psim4 x + DbarjKj_U1 x

/-- adm_ham_mom_from_identities.c:411-412 -/
noncomputable def Dk_U2 (x : In) : ℝ :=
  CKbar_U2 x * psim4 x + DbarjKj_U2 x

/-- adm_ham_mom_from_identities.c:414-416 -/
noncomputable def Mom_constraint_U2 (x : In) : ℝ :=
  Dk_U2 x - 8 * Real.pi * J_U2 x - psim4 x * (x.dtrK_D 0 * x.igConf_UU 0 2 + x.dtrK_D 1 * x.igConf_UU 1 2 + x.dtrK_D 2 *
      x.igConf_UU 2 2)

/-- adm_ham_mom_from_identities.c:418-420 -/
noncomputable def Mom_constraint_U0 (x : In) : ℝ :=
  Dk_U0 x - 8 * Real.pi * J_U0 x - psim4 x * (x.dtrK_D 0 * x.igConf_UU 0 0 + x.dtrK_D 1 * x.igConf_UU 0 1 + x.dtrK_D 2 *
      x.igConf_UU 0 2)

/-- adm_ham_mom_from_identities.c:422-424 -/
noncomputable def Mom_constraint_U1 (x : In) : ℝ :=
  Dk_U1 x - 8 * Real.pi * J_U1 x - psim4 x * (x.dtrK_D 0 * x.igConf_UU 0 1 + x.dtrK_D 1 * x.igConf_UU 1 1 + x.dtrK_D 2 *
      x.igConf_UU 1 2)

/-- adm_ham_mom_from_identities.c:428-430 the values written to mom_U; `none`: not stored -/
noncomputable def out_mom_U (x : In) : Fin 3 → Option ℝ
  | 1 => some (Mom_constraint_U1 x)
  | 0 => some (Mom_constraint_U0 x)
  | 2 => some (Mom_constraint_U2 x)

/-- adm_ham_mom_from_identities.c:431 the value written to ham -/
noncomputable def out_ham (x : In) : ℝ :=
  Ham_Constraint x

end Elliptica.Gen.HamIdent
